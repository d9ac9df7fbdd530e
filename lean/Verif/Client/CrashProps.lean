import Verif.Client.ReadProps
import Verif.Client.Information
import Verif.Dialog.CrashProps

/-
C127: what can crash a call of the client.
-/

namespace Verif.Client

open GoLib Element Element.Spec Segment Segment.Spec Message Domain Transport Dialog

variable {σ α β γ δ ρ : Type}

/-! ## Specification -/

/-- An acknowledgement 3040 that the client looks at names the next page. -/
def Continued (m : Decrypted σ) : Prop := ∀ a, m.acknowledgements.find? (fun a => a.code == 3040) = some a → a.params ≠ []

/-- The segments with this ID do not crash the view. -/
def Unharmed {ε : Type} (f : σ → Outcome ε) (id : Str) (m : Decrypted σ) : Prop := ∀ y, .other y ∈ m.segments id → f y ≠ .panic

/-- The answers to requests among these messages are as `G` says. -/
def Replies (G : Decrypted σ → Prop) (log : List (Sent σ)) : Prop := ∀ e ∈ log, e.kind = .job → ∀ m, e.reply = .ok m → G m

/-- The texts of an account are Latin-1. -/
def LatinNational (a : AccountConnection) : Prop := Latin1 a.accountID ∧ Latin1 a.sub ∧ Latin1 a.bankID

/-- The same for the international form. -/
def LatinInternational (a : InternationalConnection) : Prop :=
  Latin1 a.iban ∧ Latin1 a.bic ∧ Latin1 a.accountID ∧ Latin1 a.sub ∧ Latin1 a.bankID

/-- A call that leads from `s` to `t` with result `r`.  If no answer crashes the dialog, the dialog's texts stay Latin-1;
if the answers to the requests are as `G` says, the call does not crash either. -/
def Steady (w : World σ α) (G : Decrypted σ → Prop) (Q : ρ → Prop) (s : CSt σ α) (x : Outcome ρ × CSt σ α) : Prop :=
  ∃ log, x.2.st.sent = s.st.sent ++ log ∧ (Printable s.st.d → (∀ e ∈ log, Fine w e) →
    Printable x.2.st.d ∧ (∀ y, x.1 = .ok y → Q y) ∧ (Replies G log → x.1 ≠ .panic))

/-! ## Rules -/

theorem Steady.same {w : World σ α} {G : Decrypted σ → Prop} {Q : ρ → Prop} {s t : CSt σ α} {r : Outcome ρ} (h : t.st = s.st)
    (hq : ∀ y, r = .ok y → Q y) (hr : r ≠ .panic) : Steady w G Q s (r, t) :=
  ⟨[], by simp [h], fun p _ => ⟨by rw [h]; exact p, hq, fun _ => hr⟩⟩

/-- A call made of two, where the second may depend on the result of the first. -/
theorem Steady.after {ε : Type} {w : World σ α} {G : Decrypted σ → Prop} {Q : ρ → Prop} {R : ε → Prop} {s t : CSt σ α}
    {r : Outcome ρ} {x : Outcome ε × CSt σ α} (h1 : Steady w G Q s (r, t)) {y : ρ} (hy : r = .ok y)
    (h2 : ∃ log, x.2.st.sent = t.st.sent ++ log ∧ (Q y → Printable t.st.d → (∀ e ∈ log, Fine w e) →
      Printable x.2.st.d ∧ (∀ z, x.1 = .ok z → R z) ∧ (Replies G log → x.1 ≠ .panic))) : Steady w G R s x := by
  obtain ⟨l1, e1, k1⟩ := h1
  obtain ⟨l2, e2, k2⟩ := h2
  refine ⟨l1 ++ l2, by rw [e2, e1, List.append_assoc], fun p hf => ?_⟩
  obtain ⟨a1, a2, _⟩ := k1 p fun e he => hf e (List.mem_append_left _ he)
  obtain ⟨b1, b2, b3⟩ := k2 (a2 y hy) a1 fun e he => hf e (List.mem_append_right _ he)
  exact ⟨b1, b2, fun hg => b3 fun e he => hg e (List.mem_append_right _ he)⟩

/-- A call that stops after the first part. -/
theorem Steady.stop {ε : Type} {w : World σ α} {G : Decrypted σ → Prop} {Q : ρ → Prop} {R : ε → Prop} {s t : CSt σ α}
    {r : Outcome ρ} (h1 : Steady w G Q s (r, t)) {r' : Outcome ε} (hr : r' = .panic → r = .panic) (hn : ∀ z, r' ≠ .ok z) :
    Steady w G R s (r', t) := by
  obtain ⟨l1, e1, k1⟩ := h1
  refine ⟨l1, e1, fun p hf => ?_⟩
  obtain ⟨a1, _, a3⟩ := k1 p hf
  exact ⟨a1, fun z hz => absurd hz (hn z), fun hg hp => a3 hg (hr hp)⟩

theorem Steady.mono {w : World σ α} {G : Decrypted σ → Prop} {Q R : ρ → Prop} {s : CSt σ α} {x : Outcome ρ × CSt σ α}
    (h : Steady w G Q s x) (hq : ∀ y, Q y → R y) : Steady w G R s x := by
  obtain ⟨l, e, k⟩ := h
  exact ⟨l, e, fun p f => ⟨(k p f).1, fun y hy => hq y ((k p f).2.1 y hy), (k p f).2.2⟩⟩

/-- The result is looked at. -/
theorem Steady.look {ε : Type} {w : World σ α} {G : Decrypted σ → Prop} {Q : ρ → Prop} {R : ε → Prop} {s : CSt σ α}
    {x : Outcome ρ × CSt σ α} (h : Steady w G Q s x) {f : ρ → Outcome ε}
    (hf : ∀ y, Q y → f y ≠ .panic ∧ ∀ z, f y = .ok z → R z) : Steady w G R s (x.1.bind f, x.2) := by
  obtain ⟨l, e, k⟩ := h
  refine ⟨l, e, fun p g => ?_⟩
  obtain ⟨a1, a2, a3⟩ := k p g
  refine ⟨a1, fun z hz => ?_, fun hg hp => ?_⟩
  · obtain ⟨y, h1, h2⟩ := Dialog.bind_ok hz
    exact (hf y (a2 y h1)).2 z h2
  · cases hx : x.1 with
    | panic => exact a3 hg hx
    | err => rw [hx] at hp; simp at hp
    | ok y => rw [hx] at hp; exact (hf y (a2 y hx)).1 hp

/-! ## Sending -/

variable {G : Decrypted σ → Prop}

theorem steady_init (u : Setup σ α β γ δ) (s : CSt σ α) : Steady u.world G (fun _ => True) s (init u s) := by
  unfold init
  split
  · obtain ⟨l, e, k⟩ := calm_sync True u.world s.st
    refine ⟨l, e, fun p f => ?_⟩
    obtain ⟨k1, k2, _⟩ := k trivial p f
    refine ⟨k2, by simp, fun _ => ?_⟩
    cases h : (syncClientSystemId u.world s.st).1 <;> simp_all
  · exact .same rfl (by simp) (by simp)

theorem steady_send (u : Setup σ α β γ δ) (c : Client) {q : Seg} (hq : Writable q) (s : CSt σ α) :
    ∃ log, (send u (jobOf c q) s).2.st.sent = s.st.sent ++ log ∧ (Printable s.st.d → (∀ e ∈ log, Fine u.world e) →
      (send u (jobOf c q) s).1 ≠ .panic ∧ Printable (send u (jobOf c q) s).2.st.d ∧
      ∀ m, (send u (jobOf c q) s).1 = .ok m → Readable m ∧ (Replies G log → G m)) := by
  have hj : ∀ x, some x ∈ (jobOf c q).segments → Writable x := by
    intro x hx
    simp only [jobOf, List.mem_cons, Option.some.injEq, List.not_mem_nil, or_false] at hx
    rcases hx with rfl | rfl
    · exact tanRequest_writable (latin1_of_all (by decide))
    · exact hq
  obtain ⟨l, e, k⟩ := calm_send (P := True) u.world (fun _ => hj) s.st
  obtain ⟨l', e', k'⟩ := ask_cases u (jobOf c q) s
  obtain rfl : l = l' := List.append_cancel_left (e.symm.trans e')
  refine ⟨l, e, fun p f => ?_⟩
  obtain ⟨k1, k2, k3⟩ := k trivial p f
  refine ⟨k1, k2, fun m hm => ⟨k3 m hm, fun hg => ?_⟩⟩
  rcases k' with ⟨_, k'⟩ | ⟨e, v, n, id, h1, h2, h3⟩
  · exact absurd hm (k' m)
  · rcases h3 with ⟨m', h4, h5, _⟩ | ⟨h4, _⟩
    · rw [hm] at h4
      cases h4
      have he : e ∈ jobs l := by rw [h1]; simp
      exact hg e (List.mem_filter.1 he).1 h2.kind m h5
    · exact absurd hm (h4 m)

/-- The answer is looked at. -/
theorem steady_ask {ε : Type} {R : ε → Prop} (u : Setup σ α β γ δ) (c : Client) {q : Seg} (hq : Writable q) (s : CSt σ α)
    {f : Decrypted σ → Outcome ε} (hf : ∀ m, G m → f m ≠ .panic) (hr : ∀ m, Readable m → ∀ z, f m = .ok z → R z) :
    Steady u.world G R s ((send u (jobOf c q) s).1.bind f, (send u (jobOf c q) s).2) := by
  obtain ⟨l, e, k⟩ := steady_send (G := G) u c hq s
  refine ⟨l, e, fun p g => ?_⟩
  obtain ⟨a1, a2, a3⟩ := k p g
  refine ⟨a2, fun z hz => ?_, fun hg hp => ?_⟩
  · obtain ⟨m, h1, h2⟩ := Dialog.bind_ok hz
    exact hr m (a3 m h1).1 z h2
  · dsimp only at hp
    cases hx : (send u (jobOf c q) s).1 with
    | panic => exact a1 hx
    | err => rw [hx] at hp; simp at hp
    | ok m => rw [hx] at hp; exact hf m ((a3 m hx).2 hg) hp

/-! ## Reading -/

theorem collect_calm {ε : Type} {f : Decoded σ → Outcome ε} : ∀ {xs : List (Decoded σ)}, (∀ x ∈ xs, f x ≠ .panic) → collect f xs ≠ .panic
  | [], _ => by simp [collect]
  | x :: xs, h => by
    have ih := collect_calm (f := f) (xs := xs) fun y hy => h y (by simp [hy])
    have hx := h x (by simp)
    unfold collect
    cases h1 : f x with
    | panic => exact absurd h1 hx
    | err => simp
    | ok y =>
      cases h2 : collect f xs with
      | panic => exact absurd h2 ih
      | err => simp
      | ok ys => simp

theorem checked_calm {ε : Type} {f : σ → Outcome ε} {id : Str} {m : Decrypted σ} (h : Unharmed f id m) :
    collect (viewChecked f) (m.segments id) ≠ .panic := by
  refine collect_calm fun x hx => ?_
  cases x with
  | ack a => simp [viewChecked]
  | other y => exact h y hx

theorem continuation_calm {m : Decrypted σ} : continuation m ≠ .panic ↔ Continued m := by
  unfold continuation Continued
  cases h : m.acknowledgements.find? fun a => a.code == 3040 with
  | none => simp
  | some a => cases hp : a.params <;> simp [hp]

theorem continuation_latin1 {m : Decrypted σ} (hm : Readable m) {mark : Str} (h : continuation m = .ok mark) : Latin1 mark := by
  unfold continuation at h
  split at h
  · simp only [Outcome.ok.injEq] at h
    rw [← h]
    exact latin1_nil
  · rename_i a ha
    split at h
    · cases h
    · rename_i p ps hp
      simp only [Outcome.ok.injEq] at h
      rw [← h]
      exact hm.params a (List.mem_of_find?_eq_some ha) p (by rw [hp]; exact List.mem_cons_self)

theorem balances_calm {ε : Type} {f : σ → Outcome ε} {m : Decrypted σ} (h : Unharmed f c!"HISAL" m) : readBalances f m ≠ .panic := by
  unfold readBalances
  have := checked_calm h
  cases hc : collect (viewChecked f) (m.segments c!"HISAL") with
  | panic => exact absurd hc this
  | err => simp
  | ok bs => simp only [Outcome.bind]; split <;> simp

/-! ## Requests -/

theorem latin1_optional {mark : Option Str} (h : ∀ m, mark = some m → Latin1 m) {n : Int} :
    ∀ t ∈ textsAll [mark.map fun m => DE.alnum m n], Latin1 t := by
  cases mark with
  | none => simp [textsAll]
  | some m => simpa [textsAll, texts] using h m rfl

theorem choose_calm {α : Type} {table : Int → Option α} (supported : List (Str × Int)) (id : Str) :
    (newBuilder supported).choose id (firstImplemented table) ≠ .panic := by
  rw [choose_eq]
  unfold firstImplemented
  cases (descending (offeredFor supported id)).findSome? table <;> simp [Outcome.ofOption]

theorem writable_account {id : Str} {v : Int} {acc : DE} {all : Bool} {mark : Option Str} (hid : Latin1 id)
    (hacc : ∀ t ∈ texts acc, Latin1 t) (hmk : ∀ m, mark = some m → Latin1 m) :
    Writable (newSegment 1 id v [some acc, some (.boolean all), none, mark.map fun m => .alnum m 35]) := by
  refine ⟨hid, fun t ht => ?_⟩
  have ht : t ∈ texts acc ++ textsAll [mark.map fun m => DE.alnum m 35] := by simpa [newSegment, textsAll, texts] using ht
  rcases List.mem_append.1 ht with h | h
  · exact hacc t h
  · exact latin1_optional hmk t h

theorem writable_transactions {v : Int} {acc : DE} {all : Bool} {start stop : Time.Civil} {mark : Option Str}
    (hacc : ∀ t ∈ texts acc, Latin1 t) (hmk : ∀ m, mark = some m → Latin1 m) :
    Writable (TransactionRequest.seg ⟨v, acc, all, some start, some stop, mark⟩) := by
  refine ⟨(latin1_of_all (by decide) : Latin1 c!"HKKAZ"), fun t ht => ?_⟩
  cases mark with
  | none => exact hacc t (by simpa [TransactionRequest.seg, newSegment, textsAll, texts] using ht)
  | some m =>
    have ht : t ∈ texts acc ∨ t = m := by simpa [TransactionRequest.seg, newSegment, textsAll, texts] using ht
    rcases ht with h | rfl
    · exact hacc t h
    · exact hmk _ rfl

theorem latin1_national {a : AccountConnection} (h : LatinNational a) : ∀ t ∈ texts (accountConnectionDE a), Latin1 t := by
  obtain ⟨h1, h2, h3⟩ := h
  simp [accountConnectionDE, bankIdentification, texts, textsAll, h1, h2, h3]

theorem latin1_international {a : InternationalConnection} (h : LatinInternational a) : ∀ t ∈ texts (internationalDE a), Latin1 t := by
  obtain ⟨h1, h2, h3, h4, h5⟩ := h
  simp [internationalDE, bankIdentification, texts, textsAll, h1, h2, h3, h4, h5]

theorem writable_status {v : Int} {start stop : Time.Civil} {n : Int} {mark : Str} (h : Latin1 mark) :
    Writable (newStatusRequest v start stop n mark) := by
  refine ⟨(latin1_of_all (by decide) : Latin1 c!"HKPRO"), fun t ht => ?_⟩
  by_cases he : mark = []
  · simp [newStatusRequest, newSegment, textsAll, texts, he] at ht
  · have : t = mark := by simpa [newStatusRequest, newSegment, textsAll, texts, he] using ht
    rw [this]
    exact h

theorem balance_writable {supported : List (Str × Int)} {account : AccountConnection} (ha : LatinNational account) {all : Bool}
    {q : BalanceRequest} (h : (newBuilder supported).balance account all = .ok q) : Writable q.seg := by
  unfold Builder.balance at h
  obtain ⟨f, hf, rfl⟩ := map_ok h
  obtain ⟨v, hv⟩ := choose_table hf
  have key : ∀ n, Writable (newBalanceRequest n account all).seg := fun n =>
    writable_account (mark := none) (latin1_of_all (by decide)) (latin1_national ha) (by simp)
  unfold balanceTable at hv
  split at hv <;> simp only [Option.some.injEq, reduceCtorEq] at hv <;> rw [← hv] <;> exact key _

theorem sepaBalance_writable {supported : List (Str × Int)} {account : InternationalConnection} (ha : LatinInternational account)
    {all : Bool} {mark : Str} (hm : Latin1 mark) {q : BalanceRequest} (h : (newBuilder supported).sepaBalance account all = .ok q) :
    Writable (if mark = [] then q else q.setContinuationMark mark).seg := by
  unfold Builder.sepaBalance at h
  obtain ⟨f, hf, rfl⟩ := map_ok h
  obtain ⟨v, hv⟩ := choose_table hf
  have key : ∀ n, Writable (if mark = [] then newSepaBalanceRequest n account all
      else (newSepaBalanceRequest n account all).setContinuationMark mark).seg := by
    intro n
    split
    · exact writable_account (mark := none) (latin1_of_all (by decide)) (latin1_international ha) (by simp)
    · exact writable_account (mark := some mark) (latin1_of_all (by decide)) (latin1_international ha) (by simpa using hm)
  unfold sepaBalanceTable at hv
  split at hv <;> simp only [Option.some.injEq, reduceCtorEq] at hv <;> rw [← hv] <;> exact key _

theorem status_writable {supported : List (Str × Int)} {start stop : Time.Civil} {n : Int} {mark : Str} (hm : Latin1 mark) {q : Seg}
    (h : (newBuilder supported).status start stop n mark = .ok q) : Writable q := by
  unfold Builder.status at h
  obtain ⟨f, hf, rfl⟩ := map_ok h
  obtain ⟨v, hv⟩ := choose_table hf
  unfold statusTable at hv
  split at hv <;> simp only [Option.some.injEq, reduceCtorEq] at hv <;> rw [← hv] <;> exact writable_status hm

theorem transaction_writable {u : Setup σ α β γ δ} {account : AccountConnection} (ha : LatinNational account) {all : Bool}
    {tf : Timeframe} {mark : Str} (hm : Latin1 mark) {s : CSt σ α} {q : Seg}
    (h : transactionRequest u (plainBuilder account all) tf mark s = .ok q) : Writable q := by
  unfold transactionRequest plainBuilder Builder.transactions at h
  obtain ⟨r, hr, rfl⟩ := map_ok h
  obtain ⟨f, hf, rfl⟩ := map_ok hr
  obtain ⟨v, hv⟩ := choose_table hf
  have key : ∀ n, Writable (if mark = [] then (newTransactionRequest n account all).setTransactionRange (u.today s.ticks) tf
      else ((newTransactionRequest n account all).setTransactionRange (u.today s.ticks) tf).setContinuationReference mark).seg := by
    intro n
    split
    · exact writable_transactions (mark := none) (latin1_national ha) (by simp)
    · exact writable_transactions (mark := some mark) (latin1_national ha) (by simpa using hm)
  unfold transactionTable at hv
  split at hv <;> simp only [Option.some.injEq, reduceCtorEq] at hv <;> rw [← hv] <;> exact key _

theorem map_calm {ε : Type} {o : Outcome ρ} {f : ρ → ε} (h : o ≠ .panic) : o.map' f ≠ .panic := by
  cases o <;> simp_all

theorem send_grows (u : Setup σ α β γ δ) (j : Job) (s : CSt σ α) : ∃ l, (send u j s).2.st.sent = s.st.sent ++ l := by
  obtain ⟨l, h, _⟩ := ask_cases u j s
  exact ⟨l, h⟩

theorem init_grows (u : Setup σ α β γ δ) (s : CSt σ α) : ∃ l, (init u s).2.st.sent = s.st.sent ++ l := by
  obtain ⟨l, h, _⟩ := init_log u s
  exact ⟨l, h⟩

theorem sepa_grows (u : Setup σ α β γ δ) (c : Client) (account : InternationalConnection) (all : Bool) : ∀ (fuel : Nat) (mark : Str)
    (s : CSt σ α) {r : Outcome (List γ)} {t : CSt σ α}, sepaAccountBalances u c account all fuel mark s = some (r, t) →
    ∃ l, t.st.sent = s.st.sent ++ l
  | 0, mark, s, r, t, h => by simp [sepaAccountBalances] at h
  | fuel + 1, mark, s, r, t, h => by
    rw [sepaAccountBalances] at h
    obtain ⟨l, e, _⟩ := balancePage_cases u c account all mark s
    generalize balancePage u c account all mark s = X at h e
    obtain ⟨q, t1⟩ := X
    cases q with
    | err => simp only [Option.some.injEq, Prod.mk.injEq] at h; rw [← h.2]; exact ⟨l, e⟩
    | panic => simp only [Option.some.injEq, Prod.mk.injEq] at h; rw [← h.2]; exact ⟨l, e⟩
    | ok x =>
      obtain ⟨bs, next⟩ := x
      simp only at h
      split at h
      · simp only [Option.some.injEq, Prod.mk.injEq] at h; rw [← h.2]; exact ⟨l, e⟩
      · simp only [Option.map_eq_some_iff] at h
        obtain ⟨⟨r', t'⟩, h1, h2⟩ := h
        simp only [Prod.mk.injEq] at h2
        obtain ⟨l', e'⟩ := sepa_grows u c account all fuel next t1 h1
        exact ⟨l ++ l', by rw [← h2.2, e', e, List.append_assoc]⟩

/-! ## Calls -/

/-- **C127** Accounts crashes only if an answer crashes the dialog. -/
theorem C127_accounts (u : Setup σ α β γ δ) (s : CSt σ α) : Steady u.world (fun _ => True) (fun _ => True) s (accounts u s) := by
  unfold accounts
  have h0 := steady_init (G := fun _ => True) u s
  generalize init u s = X at h0
  obtain ⟨r, t⟩ := X
  cases r with
  | err => exact h0.stop (by simp) (by simp)
  | panic => exact h0.stop (by simp) (by simp)
  | ok x =>
    refine h0.after rfl ?_
    obtain ⟨l, e, k⟩ := calm_syncUser True u.world t.st
    exact ⟨l, e, fun _ p f => ⟨(k trivial p f).2.1, by simp, fun _ => map_calm (k trivial p f).1⟩⟩

/-- **C127** AccountBalances: besides, a segment HISAL may crash it. -/
theorem C127_balances (u : Setup σ α β γ δ) (c : Client) {account : AccountConnection} (ha : LatinNational account) (all : Bool)
    (s : CSt σ α) : Steady u.world (Unharmed u.views.balance c!"HISAL") (fun _ => True) s (accountBalances u c account all s) := by
  unfold accountBalances
  have h0 := steady_init (G := Unharmed u.views.balance c!"HISAL") u s
  generalize init u s = X at h0
  obtain ⟨r, t⟩ := X
  cases r with
  | err => exact h0.stop (by simp) (by simp)
  | panic => exact h0.stop (by simp) (by simp)
  | ok x =>
    simp only
    cases hq : (newBuilder t.st.d.supportedSegments).balance account all with
    | err => exact h0.stop (by simp) (by simp)
    | panic => exact absurd hq (map_calm (choose_calm _ _))
    | ok q =>
      simp only
      refine h0.after rfl ?_
      obtain ⟨l, e, k⟩ := steady_ask (G := Unharmed u.views.balance c!"HISAL") (R := fun _ => True) u c (balance_writable ha hq) t
        (f := fun m => readBalances u.views.balance m) (fun m hm => balances_calm hm) (by simp)
      exact ⟨l, e, fun _ => k⟩

/-- **C127** Status: besides, a segment HIPRO may crash it, also one that is none. -/
theorem C127_status (u : Setup σ α β γ δ) (c : Client) (start stop : Time.Civil) (n : Int) {mark : Str} (hm : Latin1 mark)
    (s : CSt σ α) : Steady u.world (fun m => ∀ x ∈ m.segments c!"HIPRO", viewOf u.views.status x ≠ .panic) (fun _ => True) s
      (status u c start stop n mark s) := by
  unfold status
  have h0 := steady_init (G := fun m => ∀ x ∈ m.segments c!"HIPRO", viewOf u.views.status x ≠ .panic) u s
  generalize init u s = X at h0
  obtain ⟨r, t⟩ := X
  cases r with
  | err => exact h0.stop (by simp) (by simp)
  | panic => exact h0.stop (by simp) (by simp)
  | ok x =>
    simp only
    cases hq : (newBuilder t.st.d.supportedSegments).status start stop n mark with
    | err => exact h0.stop (by simp) (by simp)
    | panic => exact absurd hq (map_calm (choose_calm _ _))
    | ok q =>
      simp only
      refine h0.after rfl ?_
      obtain ⟨l, e, k⟩ := steady_ask (G := fun m => ∀ x ∈ m.segments c!"HIPRO", viewOf u.views.status x ≠ .panic)
        (R := fun _ => True) u c (status_writable hm hq) t (f := fun m => collect (viewOf u.views.status) (m.segments c!"HIPRO"))
        (fun m hm => collect_calm hm) (by simp)
      exact ⟨l, e, fun _ => k⟩

/-- What the client needs in every answer of SepaAccountBalances. -/
def SepaFine (u : Setup σ α β γ δ) (m : Decrypted σ) : Prop := Unharmed u.views.sepaBalance c!"HISAL" m ∧ Continued m

theorem steady_balancePage (u : Setup σ α β γ δ) (c : Client) {account : InternationalConnection} (ha : LatinInternational account)
    (all : Bool) {mark : Str} (hm : Latin1 mark) (s : CSt σ α) :
    Steady u.world (SepaFine u) (fun x => Latin1 x.2) s (balancePage u c account all mark s) := by
  unfold balancePage
  have h0 := steady_init (G := SepaFine u) u s
  generalize init u s = X at h0
  obtain ⟨r, t⟩ := X
  cases r with
  | err => exact h0.stop (by simp) (by simp)
  | panic => exact h0.stop (by simp) (by simp)
  | ok x =>
    simp only
    cases hq : (newBuilder t.st.d.supportedSegments).sepaBalance account all with
    | err => exact h0.stop (by simp) (by simp)
    | panic => exact absurd hq (map_calm (choose_calm _ _))
    | ok q =>
      simp only
      refine h0.after rfl ?_
      obtain ⟨l, e, k⟩ := steady_ask (G := SepaFine u) (R := fun x => Latin1 x.2) u c (sepaBalance_writable ha hm hq) t
        (f := fun m => (readBalances u.views.sepaBalance m).bind fun bs => (continuation m).map' fun next => (bs, next))
        (fun m hm => by
          have h1 := balances_calm hm.1
          have h2 := continuation_calm.2 hm.2
          cases h3 : readBalances u.views.sepaBalance m with
          | panic => exact absurd h3 h1
          | err => simp
          | ok bs => exact map_calm h2)
        (fun m hr z hz => by
          obtain ⟨bs, _, h2⟩ := Dialog.bind_ok hz
          obtain ⟨nx, h3, rfl⟩ := Dialog.map_ok h2
          exact continuation_latin1 hr h3)
      exact ⟨l, e, fun _ => k⟩

/-- **C127** SepaAccountBalances: besides, a segment HISAL may crash it, or a 3040 that names no page. -/
theorem C127_sepa_balances (u : Setup σ α β γ δ) (c : Client) {account : InternationalConnection} (ha : LatinInternational account)
    (all : Bool) : ∀ (fuel : Nat) {mark : Str}, Latin1 mark → ∀ {s t : CSt σ α} {r : Outcome (List γ)},
      sepaAccountBalances u c account all fuel mark s = some (r, t) → Steady u.world (SepaFine u) (fun _ => True) s (r, t) := by
  intro fuel
  induction fuel with
  | zero => intro mark _ s t r h; simp [sepaAccountBalances] at h
  | succ fuel ih =>
    intro mark hm s t r h
    rw [sepaAccountBalances] at h
    have hp := steady_balancePage u c ha all hm s
    generalize balancePage u c account all mark s = X at h hp
    obtain ⟨q, t1⟩ := X
    cases q with
    | err => simp only [Option.some.injEq, Prod.mk.injEq] at h; rw [← h.1, ← h.2]; exact hp.stop (by simp) (by simp)
    | panic => simp only [Option.some.injEq, Prod.mk.injEq] at h; rw [← h.1, ← h.2]; exact hp.stop (by simp) (by simp)
    | ok x =>
      obtain ⟨bs, next⟩ := x
      simp only at h
      split at h
      · simp only [Option.some.injEq, Prod.mk.injEq] at h
        rw [← h.1, ← h.2]
        exact hp.after rfl ⟨[], by simp, fun _ p _ => ⟨p, by simp, by simp⟩⟩
      · simp only [Option.map_eq_some_iff] at h
        obtain ⟨⟨r', t'⟩, h1, h2⟩ := h
        simp only [Prod.mk.injEq] at h2
        rw [← h2.1, ← h2.2]
        by_cases hn : Latin1 next
        · obtain ⟨l, e, k⟩ := ih hn h1
          exact hp.after rfl ⟨l, e, fun _ p f => ⟨(k p f).1, by simp, fun hg => map_calm ((k p f).2.2 hg)⟩⟩
        · obtain ⟨l, e⟩ := sepa_grows u c account all fuel next t1 h1
          exact hp.after rfl ⟨l, e, fun hl => absurd hl hn⟩

/-- What the client needs in every answer of AccountTransactions. -/
def StatementsFine (u : Setup σ α β γ δ) (m : Decrypted σ) : Prop := Unharmed u.views.statement c!"HIKAZ" m ∧ Continued m

theorem readPage_state (u : Setup σ α β γ δ) (m : Decrypted σ) (s : CSt σ α) : (readPage u m s).2.st = s.st := by
  unfold readPage
  split
  · rfl
  · rfl
  · split <;> rfl

theorem readPage_calm {u : Setup σ α β γ δ} {m : Decrypted σ} (h : StatementsFine u m) (s : CSt σ α) : (readPage u m s).1 ≠ .panic := by
  have h1 := checked_calm h.1
  have h2 := continuation_calm.2 h.2
  unfold readPage
  split
  · simp
  · rename_i hc; exact absurd hc h1
  · split
    · simp
    · rename_i hc; exact absurd hc h2
    · simp

theorem readPage_latin1 {u : Setup σ α β γ δ} {m : Decrypted σ} (h : Readable m) {s : CSt σ α} {x : Page × Str}
    (hx : (readPage u m s).1 = .ok x) : Latin1 x.2 := by
  unfold readPage at hx
  split at hx
  · simp at hx
  · simp at hx
  · split at hx
    · simp at hx
    · simp at hx
    · rename_i mark hc
      simp only [Outcome.ok.injEq] at hx
      rw [← hx]
      exact continuation_latin1 h hc

theorem steady_page (u : Setup σ α β γ δ) (c : Client) {account : AccountConnection} (ha : LatinNational account) (all : Bool)
    (tf : Timeframe) {mark : Str} (hm : Latin1 mark) (s : CSt σ α) :
    Steady u.world (StatementsFine u) (fun x => Latin1 x.2) s (page u c (plainBuilder account all) tf mark s) := by
  unfold page
  cases hq : transactionRequest u (plainBuilder account all) tf mark s with
  | err => exact .same rfl (by simp) (by simp)
  | panic => exact absurd hq (map_calm (map_calm (choose_calm _ _)))
  | ok q =>
    simp only
    obtain ⟨l, e, k⟩ := steady_send (G := StatementsFine u) u c (transaction_writable ha hm hq) { s with ticks := s.ticks + 1 }
    generalize send u (jobOf c q) { s with ticks := s.ticks + 1 } = X at e k
    obtain ⟨r, t⟩ := X
    cases r with
    | err => exact ⟨l, e, fun p f => ⟨(k p f).2.1, by simp, by simp⟩⟩
    | panic => exact ⟨l, e, fun p f => absurd rfl (k p f).1⟩
    | ok m =>
      have hs : (readPage u m t).2.st = t.st := readPage_state u m t
      refine ⟨l, by simp only [hs]; exact e, fun p f => ?_⟩
      obtain ⟨_, k2, k3⟩ := k p f
      refine ⟨by simp only [hs]; exact k2, fun y hy => readPage_latin1 (k3 m rfl).1 hy, fun hg => readPage_calm ((k3 m rfl).2 hg) t⟩

theorem page_grows (u : Setup σ α β γ δ) (c : Client) (build : RequestBuilder) (tf : Timeframe) (mark : Str) (s : CSt σ α) :
    ∃ l, (page u c build tf mark s).2.st.sent = s.st.sent ++ l := by
  unfold page
  split
  · exact ⟨[], by simp⟩
  · exact ⟨[], by simp⟩
  · rename_i q hq
    obtain ⟨l, e⟩ := send_grows u (jobOf c q) { s with ticks := s.ticks + 1 }
    generalize send u (jobOf c q) { s with ticks := s.ticks + 1 } = X at e
    obtain ⟨r, t⟩ := X
    cases r with
    | err => exact ⟨l, e⟩
    | panic => exact ⟨l, e⟩
    | ok m => exact ⟨l, by simp only [readPage_state]; exact e⟩

theorem transactions_grow (u : Setup σ α β γ δ) (c : Client) (build : RequestBuilder) (tf : Timeframe) : ∀ (fuel : Nat) (mark : Str)
    (s : CSt σ α) {r : Outcome Page} {t : CSt σ α}, accountTransactions u c build tf fuel mark s = some (r, t) →
    ∃ l, t.st.sent = s.st.sent ++ l
  | 0, mark, s, r, t, h => by simp [accountTransactions] at h
  | fuel + 1, mark, s, r, t, h => by
    rw [accountTransactions] at h
    obtain ⟨l, e⟩ := page_grows u c build tf mark s
    generalize page u c build tf mark s = X at h e
    obtain ⟨q, t1⟩ := X
    cases q with
    | err => simp only [Option.some.injEq, Prod.mk.injEq] at h; rw [← h.2]; exact ⟨l, e⟩
    | panic => simp only [Option.some.injEq, Prod.mk.injEq] at h; rw [← h.2]; exact ⟨l, e⟩
    | ok x =>
      obtain ⟨tx, next⟩ := x
      simp only at h
      split at h
      · simp only [Option.some.injEq, Prod.mk.injEq] at h; rw [← h.2]; exact ⟨l, e⟩
      · cases h1 : accountTransactions u c build tf fuel next t1 with
        | none => rw [h1] at h; simp at h
        | some x =>
          obtain ⟨r', t'⟩ := x
          obtain ⟨l', e'⟩ := transactions_grow u c build tf fuel next t1 h1
          rw [h1] at h
          refine ⟨l ++ l', ?_⟩
          cases r' <;>
          · simp only [Option.some.injEq, Prod.mk.injEq] at h
            rw [← h.2]
            try simp only
            rw [e', e, List.append_assoc]

theorem steady_pages (u : Setup σ α β γ δ) (c : Client) {account : AccountConnection} (ha : LatinNational account) (all : Bool)
    (tf : Timeframe) : ∀ (fuel : Nat) {mark : Str}, Latin1 mark → ∀ {s t : CSt σ α} {r : Outcome Page},
      accountTransactions u c (plainBuilder account all) tf fuel mark s = some (r, t) →
      Steady u.world (StatementsFine u) (fun _ => True) s (r, t) := by
  intro fuel
  induction fuel with
  | zero => intro mark _ s t r h; simp [accountTransactions] at h
  | succ fuel ih =>
    intro mark hm s t r h
    rw [accountTransactions] at h
    have hp := steady_page u c ha all tf hm s
    generalize page u c (plainBuilder account all) tf mark s = X at h hp
    obtain ⟨q, t1⟩ := X
    cases q with
    | err => simp only [Option.some.injEq, Prod.mk.injEq] at h; rw [← h.1, ← h.2]; exact hp.stop (by simp) (by simp)
    | panic => simp only [Option.some.injEq, Prod.mk.injEq] at h; rw [← h.1, ← h.2]; exact hp.stop (by simp) (by simp)
    | ok x =>
      obtain ⟨tx, next⟩ := x
      simp only at h
      split at h
      · simp only [Option.some.injEq, Prod.mk.injEq] at h
        rw [← h.1, ← h.2]
        exact hp.after rfl ⟨[], by simp, fun _ p _ => ⟨p, by simp, by simp⟩⟩
      · cases h1 : accountTransactions u c (plainBuilder account all) tf fuel next t1 with
        | none => rw [h1] at h; simp at h
        | some x =>
          obtain ⟨r', t'⟩ := x
          have hx : r = r'.map' (fun msg => merge u.sorter (u.clock t'.ticks) [msg, tx]) ∧ t.st = t'.st := by
            rw [h1] at h
            cases r' <;>
            · simp only [Option.some.injEq, Prod.mk.injEq] at h
              rw [← h.1, ← h.2]
              exact ⟨rfl, rfl⟩
          rw [hx.1]
          by_cases hn : Latin1 next
          · obtain ⟨l, e, k⟩ := ih hn h1
            refine hp.after rfl ⟨l, by rw [hx.2]; exact e, fun _ p f => ?_⟩
            rw [hx.2]
            exact ⟨(k p f).1, by simp, fun hg => map_calm ((k p f).2.2 hg)⟩
          · obtain ⟨l, e⟩ := transactions_grow u c _ tf fuel next t1 h1
            exact hp.after rfl ⟨l, by rw [hx.2]; exact e, fun hl => absurd hl hn⟩

/-- **C127** AccountTransactions: besides, a segment HIKAZ may crash it, or a 3040 that names no page, or the statement put
together from the pages (C77). -/
theorem C127_transactions (u : Setup σ α β γ δ) (L : Swift.Lib) (c : Client) {account : AccountConnection} (ha : LatinNational account)
    (all : Bool) (tf : Timeframe) {mark : Str} (hm : Latin1 mark) {fuel : Nat} {s t : CSt σ α}
    {r : Outcome (List (Swift.Transaction L.F))} (h : transactions u L c (plainBuilder account all) tf mark fuel s = some (r, t)) :
    ∃ log, t.st.sent = s.st.sent ++ log ∧ (Printable s.st.d → (∀ e ∈ log, Fine u.world e) →
      Printable t.st.d ∧ (Replies (StatementsFine u) log → r = .panic →
        ∃ tx, accountTransactions u c (plainBuilder account all) tf fuel mark (init u s).2 = some (.ok tx, t) ∧
          Swift.unmarshalMT940 L tx.data = .panic)) := by
  unfold transactions at h
  have h0 := steady_init (G := StatementsFine u) u s
  generalize init u s = X at h h0 ⊢
  obtain ⟨q, t0⟩ := X
  cases q with
  | err =>
    simp only [Option.some.injEq, Prod.mk.injEq] at h
    obtain ⟨rfl, rfl⟩ := h
    obtain ⟨l, e, k⟩ := h0
    exact ⟨l, e, fun p f => ⟨(k p f).1, by simp⟩⟩
  | panic =>
    simp only [Option.some.injEq, Prod.mk.injEq] at h
    obtain ⟨rfl, rfl⟩ := h
    obtain ⟨l, e, k⟩ := h0
    exact ⟨l, e, fun p f => ⟨(k p f).1, fun hg => absurd rfl ((k p f).2.2 hg)⟩⟩
  | ok x =>
    simp only [Option.map_eq_some_iff] at h
    obtain ⟨⟨r', t'⟩, h1, h2⟩ := h
    simp only [Prod.mk.injEq] at h2
    obtain ⟨rfl, rfl⟩ := h2
    have h3 := steady_pages u c ha all tf fuel hm h1
    obtain ⟨l, e, k⟩ := h0.after rfl (x := (r', t')) (R := fun _ => True) (by
      obtain ⟨l, e, k⟩ := h3
      exact ⟨l, e, fun _ => k⟩)
    refine ⟨l, e, fun p f => ⟨(k p f).1, fun hg hp => ?_⟩⟩
    cases r' with
    | panic => exact absurd rfl ((k p f).2.2 hg)
    | err => simp at hp
    | ok tx => exact ⟨tx, h1, hp⟩

theorem information_writable {account : AccountConnection} (ha : LatinNational account) (all : Bool) :
    Writable (informationSeg account all) :=
  ⟨(latin1_of_all (by decide) : Latin1 c!"HKKIF"), fun t ht => latin1_national ha t (by
    simpa [informationSeg, newSegment, textsAll, texts] using ht)⟩

/-- **C127** AccountInformation crashes only if an answer crashes the dialog. -/
theorem C127_information (u : Setup σ α β γ δ) (c : Client) {account : AccountConnection} (ha : LatinNational account) (all : Bool)
    (s : CSt σ α) : Steady u.world (fun _ => True) (fun _ => True) s (accountInformation u c account all s) := by
  unfold accountInformation
  have h0 := steady_init (G := fun _ => True) u s
  generalize init u s = X at h0
  obtain ⟨r, t⟩ := X
  cases r with
  | err => exact h0.stop (by simp) (by simp)
  | panic => exact h0.stop (by simp) (by simp)
  | ok x =>
    refine h0.after rfl ?_
    obtain ⟨l, e, k⟩ := steady_ask (G := fun _ => True) (R := fun _ => True) u c (information_writable ha all) t
      (f := fun m => match m.extractor.findSegment b!"HIKIF" with | some b => .ok b | none => .err)
      (fun m _ => by split <;> simp) (by simp)
    exact ⟨l, e, fun _ => k⟩

/-- **C127** So does CommunicationAccess of the anonymous client. -/
theorem C127_access (u : Setup σ α β γ δ) (c : Client) {start stop : BankId} (h1 : Latin1 start.id) (h2 : Latin1 stop.id) (n : Int)
    (s : CSt σ α) : Steady u.world (fun _ => True) (fun _ => True) s (communicationAccess u c start stop n s) := by
  unfold communicationAccess
  have hj : ∀ x, some x ∈ (⟨[some (communicationSeg start stop n [])], c⟩ : Job).segments → Writable x := by
    intro x hx
    simp only [List.mem_singleton, Option.some.injEq] at hx
    subst hx
    refine ⟨(latin1_of_all (by decide) : Latin1 c!"HKKOM"), fun t ht => ?_⟩
    have ht : t = start.id ∨ t = stop.id := by
      simpa [communicationSeg, bankIdentification, newSegment, textsAll, texts] using ht
    rcases ht with rfl | rfl
    · exact h1
    · exact h2
  obtain ⟨l, e, k⟩ := calm_sendAnonymous (P := True) u.world (fun _ => hj) s.st
  exact ⟨l, e, fun p f => ⟨(k trivial p f).2.1, by simp, fun _ => (k trivial p f).1⟩⟩

/-! ## Histories -/

/-- The states of a client whose calls have Latin-1 texts: accounts, marks. -/
inductive LatinAfter (u : Setup σ α β γ δ) (s : CSt σ α) : CSt σ α → Prop where
  | nothing : LatinAfter u s s
  | accounts {t : CSt σ α} : LatinAfter u s t → LatinAfter u s (accounts u t).2
  | transactions {t t' : CSt σ α} (L : Swift.Lib) (c : Client) (account : AccountConnection) (all : Bool) (tf : Timeframe)
      (mark : Str) (fuel : Nat) (r : Outcome (List (Swift.Transaction L.F))) : LatinAfter u s t → LatinNational account →
      Latin1 mark → transactions u L c (plainBuilder account all) tf mark fuel t = some (r, t') → LatinAfter u s t'
  | balances {t : CSt σ α} (c : Client) (account : AccountConnection) (all : Bool) : LatinAfter u s t → LatinNational account →
      LatinAfter u s (accountBalances u c account all t).2
  | sepaBalances {t t' : CSt σ α} (c : Client) (account : InternationalConnection) (all : Bool) (mark : Str) (fuel : Nat)
      (r : Outcome (List γ)) : LatinAfter u s t → LatinInternational account → Latin1 mark →
      sepaAccountBalances u c account all fuel mark t = some (r, t') → LatinAfter u s t'
  | status {t : CSt σ α} (c : Client) (start stop : Time.Civil) (maxEntries : Int) (mark : Str) : LatinAfter u s t →
      Latin1 mark → LatinAfter u s (status u c start stop maxEntries mark t).2
  | information {t : CSt σ α} (c : Client) (account : AccountConnection) (all : Bool) : LatinAfter u s t → LatinNational account →
      LatinAfter u s (accountInformation u c account all t).2

/-- **C127** After any calls of a client made from Latin-1 texts, answered by messages that do not crash the dialog, the
dialog's texts are Latin-1; so the theorems above apply to the next call. -/
theorem C127_history (u : Setup σ α β γ δ) (hc : ∀ k, Latin1 (u.world.controlRef k)) {data : List Bankinfo.BankInfo} {config : Config}
    (ht : ∀ t ∈ [config.bankId, config.accountId, config.pin, config.productName, config.productVersion], Latin1 t) {url : Str}
    {c : Client} {st : St σ α} (h : new u.world data config = .ok (url, c, st)) {n : Nat} {t : CSt σ α}
    (ha : LatinAfter u ⟨st, n⟩ t) (hf : ∀ e ∈ t.st.sent, Fine u.world e) : Printable t.st.d := by
  have h0 : Printable st.d ∧ st.sent = [] := by
    unfold new at h
    obtain ⟨⟨url', v⟩, h1, h2⟩ := Dialog.map_ok h
    simp only [Prod.mk.injEq] at h2
    obtain ⟨rfl, rfl, rfl⟩ := h2
    obtain ⟨l, e, k⟩ := calm_setPin (P := True) u.world hc (pin := config.pin) (fun _ => ht _ (by simp))
      ⟨newPinTanDialog u.world ⟨280, config.bankId⟩ config.accountId v config.productName config.productVersion, 0, []⟩
    have hl : l = [] := by simpa [setPin, M.modify] using e
    exact ⟨(k trivial (printable_new u.world hc _ _ _ _ _ fun t h => ht t (by
      simp only [List.mem_cons, List.not_mem_nil, or_false] at h ⊢
      tauto)) (by simp [hl])).2.1, rfl⟩
  have key : ∃ log, t.st.sent = st.sent ++ log ∧ ((∀ e ∈ log, Fine u.world e) → Printable t.st.d) := by
    have step : ∀ {s t : CSt σ α}, (∃ log, s.st.sent = st.sent ++ log ∧ ((∀ e ∈ log, Fine u.world e) → Printable s.st.d)) →
        (∃ log, t.st.sent = s.st.sent ++ log ∧ (Printable s.st.d → (∀ e ∈ log, Fine u.world e) → Printable t.st.d)) →
        ∃ log, t.st.sent = st.sent ++ log ∧ ((∀ e ∈ log, Fine u.world e) → Printable t.st.d) := by
      rintro s t ⟨l, e, k⟩ ⟨l', e', k'⟩
      exact ⟨l ++ l', by rw [e', e, List.append_assoc], fun f => k' (k fun e he => f e (List.mem_append_left _ he))
        fun e he => f e (List.mem_append_right _ he)⟩
    have cut : ∀ {ρ : Type} {G : Decrypted σ → Prop} {Q : ρ → Prop} {s : CSt σ α} {x : Outcome ρ × CSt σ α},
        Steady u.world G Q s x → ∃ log, x.2.st.sent = s.st.sent ++ log ∧
          (Printable s.st.d → (∀ e ∈ log, Fine u.world e) → Printable x.2.st.d) := by
      rintro ρ G Q s x ⟨l, e, k⟩
      exact ⟨l, e, fun p f => (k p f).1⟩
    clear hf
    induction ha with
    | nothing => exact ⟨[], by simp, fun _ => h0.1⟩
    | accounts _ ih => exact step ih (cut (C127_accounts u _))
    | transactions L c account all tf mark fuel r _ ha hm hr ih =>
      obtain ⟨l, e, k⟩ := C127_transactions u L c ha all tf hm hr
      exact step ih ⟨l, e, fun p f => (k p f).1⟩
    | balances c account all _ ha ih => exact step ih (cut (C127_balances u c ha all _))
    | sepaBalances c account all mark fuel r _ ha hm hr ih => exact step ih (cut (C127_sepa_balances u c ha all fuel hm hr))
    | status c start stop k mark _ hm ih => exact step ih (cut (C127_status u c start stop k hm _))
    | information c account all _ ha ih => exact step ih (cut (C127_information u c ha all _))
  obtain ⟨l, e, k⟩ := key
  rw [h0.2, List.nil_append] at e
  rw [e] at hf
  exact k hf

/-! ## Examples -/

namespace Sample

theorem known_printable (answer : Nat → Outcome Body) : Printable (known answer).st.d := by
  have h : ([(known answer).st.d.bankId.id, (known answer).st.d.userId, (known answer).st.d.clientId, (known answer).st.d.clientSystemId,
      (known answer).st.d.dialogId, (known answer).st.d.productName, (known answer).st.d.productVersion] ++
      providerTexts (known answer).st.d.sig (known answer).st.d.crypto).all (fun t => t.all fun c => decide (c.toNat ≤ 255)) = true := rfl
  intro t ht
  exact latin1_of_all (List.all_eq_true.1 h t ht)

theorem fine_setup {answer : Nat → Outcome Body} {clock : Nat → Int} {e : Sent Bytes} (h : sampleFine e = true) :
    Fine (setup answer clock).world e := by
  obtain ⟨h1, h2⟩ := sampleFine_spec answer e h
  refine ⟨h1, fun hk m hm => ?_⟩
  obtain ⟨a1, a2, a3, a4, a5, a6, a7, a8, a9⟩ := h2 hk m hm
  exact ⟨a1, a2, a3, a4, a5, a6, a7, a8, a9⟩

theorem account_latin : LatinNational account :=
  ⟨latin1_of_all (by decide), latin1_of_all (by decide), latin1_of_all (by decide)⟩

end Sample

set_option maxRecDepth 20000 in
/-- The balances are asked for at a bank that answers each message; the views of the sample do not crash. -/
example : (accountBalances (Sample.setup (answering b!"0010::ok" b!"HISAL:3:6+a'HISAL:4:6+b'") fun n => n) .fints300 Sample.account true
    (Sample.known (answering b!"0010::ok" b!"HISAL:3:6+a'HISAL:4:6+b'"))).1 ≠ .panic := by
  obtain ⟨log, h1, h2⟩ := C127_balances (Sample.setup (answering b!"0010::ok" b!"HISAL:3:6+a'HISAL:4:6+b'") fun n => n) .fints300
    Sample.account_latin true (Sample.known (answering b!"0010::ok" b!"HISAL:3:6+a'HISAL:4:6+b'"))
  have hf : (accountBalances (Sample.setup (answering b!"0010::ok" b!"HISAL:3:6+a'HISAL:4:6+b'") fun n => n) .fints300 Sample.account true
      (Sample.known (answering b!"0010::ok" b!"HISAL:3:6+a'HISAL:4:6+b'"))).2.st.sent.all sampleFine = true := by decide +kernel
  refine (h2 (Sample.known_printable _) fun e he => Sample.fine_setup (List.all_eq_true.1 hf e (by
    rw [h1]; exact List.mem_append_right _ he))).2.2 fun e _ _ m _ y _ => ?_
  simp [Sample.setup, Sample.views]

/-- A 3040 that names no page crashes AccountTransactions. -/
example : Sample.fetched Sample.noReference (fun n => n) 2 = some (.panic, [.init, .job, .end_]) := Sample.no_reference

/-- So does a segment HIKAZ that its reader cannot stand. -/
def Sample.tooShort : Nat → Outcome Body := answering b!"0010::ok" b!"HIKAZ:3:6+'"

example : Sample.fetched Sample.tooShort (fun n => n) 2 = some (.panic, [.init, .job, .end_]) := by decide +kernel

/-- A new client, asked for its accounts by a bank that agrees to everything; four messages were sent. -/
example : ∃ (s0 : Dialog.St Bytes Bytes) (s : CSt Bytes Bytes),
    new (Sample.setup Dialog.Sample.good fun n => n).world sampleTable (sampleConfig c!"1000") =
      .ok (c!"https://bank/", .fints300, s0) ∧
    LatinAfter (Sample.setup Dialog.Sample.good fun n => n) ⟨s0, 0⟩ s ∧ s.st.sent.length = 4 ∧ Printable s.st.d := by
  refine ⟨_, _, rfl, .accounts .nothing, by decide +kernel, ?_⟩
  refine C127_history (Sample.setup Dialog.Sample.good fun n => n) (fun _ => (latin1_of_all (by decide) : Latin1 c!"1234"))
    (data := sampleTable) (config := sampleConfig c!"1000") (fun t ht => ?_) rfl (n := 0) (.accounts .nothing) fun e he =>
      Sample.fine_setup (List.all_eq_true.1 ?_ e he)
  · simp only [sampleConfig, List.mem_cons, List.not_mem_nil, or_false] at ht
    rcases ht with rfl | rfl | rfl | rfl | rfl <;> exact latin1_of_all (by decide)
  · decide +kernel

end Verif.Client
