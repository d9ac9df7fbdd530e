import Verif.Client.BalanceProps
import Verif.Client.HistoryProps
import Verif.Client.NewProps
import Verif.Dialog.ReadProps

/-
C126: from a call of the client to what the bank reads.
-/

namespace Verif.Client

open GoLib Element Element.Spec Segment Segment.Spec Message Domain Transport Dialog Time

variable {σ α β γ δ : Type}

/-! ## Specification -/

/-- The message is read as a secured message with two segments: HKTAN, which announces HKIDN, and the request. -/
def Asked (k : Keys) (id : Str) (version : Int) (fs : List (List Part)) (e : Sent σ) : Prop :=
  e.bytes.length < 10 ^ 12 → ∃ v system fn system' fn' t t' segs,
    ReadSecured e.bytes v ⟨k.signs, system, fn, k.reference⟩ ⟨k.wraps, system', fn'⟩ t t'
      e.plain.header.hbciVersion e.plain.header.dialogId e.plain.header.number segs ∧
    segs.mapIdx (fun i s => shown (i + 3) s) =
      [[headParts c!"HKTAN" 3 6 none, word c!"4", word c!"HKIDN"], headParts id 4 version none :: shortened fs]

/-- From `s` to `t` the messages handed over are read as secured messages of this user, those that carry a request are as
`R` says, and the dialog stays as clean as it was. -/
structure Wired (R : Keys → Sent σ → Prop) (s t : CSt σ α) : Prop where
  clean : CleanDialog t.st.d
  keys : keysOf t.st.d = keysOf s.st.d
  owner : t.st.d.bankId = s.st.d.bankId ∧ t.st.d.userId = s.st.d.userId
  log : ∃ E, t.st.sent = s.st.sent ++ E ∧ ∀ e ∈ E, Understood (keysOf s.st.d) e ∧ (e.kind = .job → R (keysOf s.st.d) e)

variable {R : Keys → Sent σ → Prop}

theorem Wired.trans {s t r : CSt σ α} (h1 : Wired R s t) (h2 : Wired R t r) : Wired R s r := by
  obtain ⟨_, a2, a3, E, a4, a5⟩ := h1
  obtain ⟨b1, b2, b3, F, b4, b5⟩ := h2
  refine ⟨b1, b2.trans a2, ⟨b3.1.trans a3.1, b3.2.trans a3.2⟩, E ++ F, by rw [b4, a4, List.append_assoc], fun e he => ?_⟩
  rcases List.mem_append.1 he with he | he
  · exact a5 e he
  · rw [← a2]; exact b5 e he

theorem Wired.refl {s : CSt σ α} (h : CleanDialog s.st.d) : Wired R s s := ⟨h, rfl, ⟨rfl, rfl⟩, [], by simp, by simp⟩

theorem Wired.ticks {s t : CSt σ α} (h : Wired R s t) (i j : Nat) : Wired R { s with ticks := i } { t with ticks := j } :=
  ⟨h.clean, h.keys, h.owner, h.log⟩

/-! ## Requests -/

/-- A request that can be read: its texts, without a reference. -/
structure Plainly (q : Seg) (id : Str) (version : Int) (fs : List (List Part)) : Prop where
  head : q.header.id = id ∧ q.header.version = version ∧ q.header.ref = none
  parts : partsAll q.elements = some fs
  clean : ∀ f ∈ fs, ∀ t ∈ f, Clean t

theorem Plainly.cleanSeg {q : Seg} {id : Str} {version : Int} {fs : List (List Part)} (h : Plainly q id version fs) : CleanSeg q :=
  ⟨fs, h.parts, h.clean⟩

theorem plainly_account {id : Str} {v : Int} {acc : DE} {ps : List Part} {all : Bool} {mark : Option Str}
    (hacc : partsOf acc = some ps) (hc : ∀ t ∈ ps, Clean t) (hmk : ∀ m, mark = some m → CleanText m) :
    Plainly (newSegment 1 id v [some acc, some (.boolean all), none, mark.map fun m => .alnum m 35]) id v
      [ps, word (yesNo all), word [], word (mark.getD [])] := by
  refine ⟨⟨rfl, rfl, rfl⟩, ?_, fun f hf t ht => ?_⟩
  · show partsAll [some acc, some (.boolean all), none, mark.map fun m => .alnum m 35] = _
    rw [partsAll, partsAll, partsAll, partsAll, partsAll, parts_optional]
    simp [partsOpt, partsOf, hacc, yesNo, word]
  · simp only [List.mem_cons, List.not_mem_nil, or_false] at hf
    rcases hf with rfl | rfl | rfl | rfl
    · exact hc t ht
    · rw [List.mem_singleton.1 ht]; exact clean_yesNo all
    · rw [List.mem_singleton.1 ht]; exact clean_nil
    · rw [List.mem_singleton.1 ht]; exact clean_optional hmk

theorem plainly_transactions {v : Int} {acc : DE} {ps : List Part} {all : Bool} {start stop : Civil} {mark : Option Str}
    (hacc : partsOf acc = some ps) (hc : ∀ t ∈ ps, Clean t) (hmk : ∀ m, mark = some m → CleanText m) :
    Plainly (TransactionRequest.seg ⟨v, acc, all, some start, some stop, mark⟩) c!"HKKAZ" v
      [ps, word (yesNo all), word (dateText start), word (dateText stop), word [], word (mark.getD [])] := by
  refine ⟨⟨rfl, rfl, rfl⟩, ?_, fun f hf t ht => ?_⟩
  · have e : partsOpt (mark.map fun m => .alnum m (strLen m)) = some (word (mark.getD [])) := by
      cases mark <;> simp [partsOpt, partsOf, word]
    show partsAll [some acc, some (.boolean all), some (.date start), some (.date stop), none,
      mark.map fun m => .alnum m (strLen m)] = _
    rw [partsAll, partsAll, partsAll, partsAll, partsAll, partsAll, partsAll, e]
    simp [partsOpt, partsOf, hacc, yesNo, word, dateText]
  · simp only [List.mem_cons, List.not_mem_nil, or_false] at hf
    rcases hf with rfl | rfl | rfl | rfl | rfl | rfl
    · exact hc t ht
    · rw [List.mem_singleton.1 ht]; exact clean_yesNo all
    · rw [List.mem_singleton.1 ht]; exact clean_date _
    · rw [List.mem_singleton.1 ht]; exact clean_date _
    · rw [List.mem_singleton.1 ht]; exact clean_nil
    · rw [List.mem_singleton.1 ht]; exact clean_optional hmk

theorem plainly_status {v : Int} {start stop : Civil} {k : Int} {mark : Str} (hmk : CleanText mark) :
    Plainly (newStatusRequest v start stop k mark) c!"HKPRO" v
      [word (dateText start), word (dateText stop), word (decimal k), word mark] := by
  refine ⟨⟨rfl, rfl, rfl⟩, ?_, fun f hf t ht => ?_⟩
  · show partsAll [some (.date start), some (.date stop), some (.number k 4),
      if mark = [] then none else some (.alnum mark 35)] = _
    by_cases h : mark = [] <;> simp [partsAll, partsOpt, partsOf, h, dateText, decimal, word]
  · simp only [List.mem_cons, List.not_mem_nil, or_false] at hf
    rcases hf with rfl | rfl | rfl | rfl
    · rw [List.mem_singleton.1 ht]; exact clean_date _
    · rw [List.mem_singleton.1 ht]; exact clean_date _
    · rw [List.mem_singleton.1 ht]; exact clean_decimal _
    · rw [List.mem_singleton.1 ht]; exact hmk

theorem asked_of {c : Client} {q : Seg} {id : Str} {version : Int} {fs : List (List Part)} (hq : Plainly q id version fs) {k : Keys}
    {e : Sent σ} (h : Secured ((jobOf c q).segments.filterMap _root_.id) k e) (hk : e.kind = .job) : Asked k id version fs e := by
  obtain ⟨h1, h2⟩ := h
  obtain ⟨n, h2⟩ := h2 hk
  intro hl
  obtain ⟨v, system, fn, system', fn', t, t', h3⟩ := h1 hl
  refine ⟨v, system, fn, system', fn', t, t', _, h3, ?_⟩
  rw [h2, shown_positions]
  have e1 : (jobOf c q).segments.filterMap _root_.id = [tanRequestV6 c!"HKIDN", q] := rfl
  rw [e1]
  have ht : partsAll (tanRequestV6 c!"HKIDN").elements = some [word c!"4", word c!"HKIDN", word [], word [], word [], word [], word []] := by
    show partsAll [some (.alnum c!"4" 1), some (.alnum c!"HKIDN" 6), none, none, none, none, none] = _
    simp [partsAll, partsOpt, partsOf, word]
  have e2 : shown 3 (tanRequestV6 c!"HKIDN") = [headParts c!"HKTAN" 3 6 none, word c!"4", word c!"HKIDN"] := by
    rw [shown_eq ht]
    simp [shortened, word, tanRequestV6, newSegment, newHeader]
  have e3 : shown 4 q = headParts id 4 version none :: shortened fs := by
    rw [shown_eq hq.parts, hq.head.1, hq.head.2.1, hq.head.2.2]
  show [shown ((0 : Nat) + 3 : Int) _, shown (((0 : Nat) + 1 : Nat) + 3 : Int) _] = _
  rw [← e2, ← e3]
  rfl

/-! ## Sending -/

theorem wired_init (u : Setup σ α β γ δ) (hw : CleanBank u.world) {s : CSt σ α} (hs : CleanDialog s.st.d) : Wired R s (init u s).2 := by
  obtain ⟨S, hS, hk⟩ := init_log u s
  unfold init at hS ⊢
  split at hS
  · rename_i hv
    rw [if_pos hv]
    obtain ⟨a1, a2, a3, a4, ⟨E, a5, a6⟩, _⟩ := telling_sync (job := []) hw s.st hs
    obtain rfl : S = E := List.append_cancel_left (hS.symm.trans a5)
    exact ⟨a1, a2, ⟨a3, a4⟩, S, hS, fun e he => ⟨(a6 e he).1, fun hj => absurd hj (hk e he)⟩⟩
  · rename_i hv
    rw [if_neg hv]
    exact .refl hs

theorem wired_send (u : Setup σ α β γ δ) (hw : CleanBank u.world) (c : Client) {q : Seg} {id : Str} {version : Int} {fs : List (List Part)}
    (hq : Plainly q id version fs) (hR : ∀ k e, Asked k id version fs e → R k e) {s : CSt σ α} (hs : CleanDialog s.st.d) :
    Wired R s (send u (jobOf c q) s).2 ∧ ∀ m, (send u (jobOf c q) s).1 = .ok m → CleanAnswer u.world m := by
  have hj : ∀ x ∈ (jobOf c q).segments.filterMap _root_.id, CleanSeg x := by
    intro x hx
    have : x ∈ [tanRequestV6 c!"HKIDN", q] := hx
    simp only [List.mem_cons, List.not_mem_nil, or_false] at this
    rcases this with rfl | rfl
    · exact clean_tanRequest clean_hkidn
    · exact hq.cleanSeg
  obtain ⟨a1, a2, a3, a4, ⟨E, a5, a6⟩, a7⟩ := telling_send hw (jobOf c q) hj s.st hs
  exact ⟨⟨a1, a2, ⟨a3, a4⟩, E, a5, fun e he => ⟨(a6 e he).1, fun hk => hR _ _ (asked_of hq (a6 e he) hk)⟩⟩, a7⟩

theorem clean_continuation {w : World σ α} {m : Decrypted σ} (hm : CleanAnswer w m) {mark : Str} (h : continuation m = .ok mark) :
    CleanText mark := by
  unfold continuation at h
  split at h
  · simp only [Outcome.ok.injEq] at h
    rw [← h]
    exact cleanText_nil
  · rename_i a ha
    split at h
    · cases h
    · rename_i p ps hp
      simp only [Outcome.ok.injEq] at h
      rw [← h]
      exact hm.marks a (List.mem_of_find?_eq_some ha) (by simpa using List.find?_some ha) p (by rw [hp]; exact List.mem_cons_self)

/-! ## Calls -/

/-- C126: AccountBalances. The bank reads a request for the balances of this account. -/
theorem C126_balances (u : Setup σ α β γ δ) (hw : CleanBank u.world) (c : Client) {account : AccountConnection}
    (ha : CleanNational account) (all : Bool) {s : CSt σ α} (hs : CleanDialog s.st.d) :
    Wired (fun k e => ∃ version : Int, (version = 5 ∨ version = 6) ∧
      Asked k c!"HKSAL" version [nationalParts account, word (yesNo all), word [], word []] e) s (accountBalances u c account all s).2 := by
  unfold accountBalances
  have h0 := wired_init (R := fun k e => ∃ version : Int, (version = 5 ∨ version = 6) ∧
      Asked k c!"HKSAL" version [nationalParts account, word (yesNo all), word [], word []] e) u hw hs
  generalize init u s = X at h0
  obtain ⟨r, t⟩ := X
  cases r with
  | err => exact h0
  | panic => exact h0
  | ok x =>
    simp only
    cases hq : (newBuilder t.st.d.supportedSegments).balance account all with
    | err => exact h0
    | panic => exact h0
    | ok q =>
      simp only
      refine h0.trans ?_
      unfold Builder.balance at hq
      obtain ⟨f, hf, rfl⟩ := map_ok hq
      obtain ⟨v, hv⟩ := choose_table hf
      have key : ∀ n : Int, (n = 5 ∨ n = 6) → f = newBalanceRequest n → Wired (fun k e => ∃ version : Int, (version = 5 ∨ version = 6) ∧
          Asked k c!"HKSAL" version [nationalParts account, word (yesNo all), word [], word []] e) t
          (send u (jobOf c (f account all).seg) t).2 := by
        rintro n hn rfl
        exact (wired_send u hw c (plainly_account (mark := none) (parts_national account) (clean_nationalParts ha) (by simp))
          (fun k e h => ⟨n, hn, h⟩) h0.clean).1
      unfold balanceTable at hv
      split at hv
      · exact key 5 (.inl rfl) (by simpa using hv.symm)
      · exact key 6 (.inr rfl) (by simpa using hv.symm)
      · simp at hv

/-- C126: Status.  The bank reads a request for the protocol between these days, with this number of entries. -/
theorem C126_status (u : Setup σ α β γ δ) (hw : CleanBank u.world) (c : Client) (start stop : Civil) (n : Int) {mark : Str}
    (hm : CleanText mark) {s : CSt σ α} (hs : CleanDialog s.st.d) :
    Wired (fun k e => ∃ version : Int, (version = 3 ∨ version = 4) ∧
      Asked k c!"HKPRO" version [word (dateText start), word (dateText stop), word (decimal n), word mark] e) s
      (status u c start stop n mark s).2 := by
  unfold status
  have h0 := wired_init (R := fun k e => ∃ version : Int, (version = 3 ∨ version = 4) ∧
      Asked k c!"HKPRO" version [word (dateText start), word (dateText stop), word (decimal n), word mark] e) u hw hs
  generalize init u s = X at h0
  obtain ⟨r, t⟩ := X
  cases r with
  | err => exact h0
  | panic => exact h0
  | ok x =>
    simp only
    cases hq : (newBuilder t.st.d.supportedSegments).status start stop n mark with
    | err => exact h0
    | panic => exact h0
    | ok q =>
      simp only
      refine h0.trans ?_
      unfold Builder.status at hq
      obtain ⟨f, hf, rfl⟩ := map_ok hq
      obtain ⟨v, hv⟩ := choose_table hf
      have key : ∀ i : Int, (i = 3 ∨ i = 4) → f = newStatusRequest i → Wired (fun k e => ∃ version : Int, (version = 3 ∨ version = 4) ∧
          Asked k c!"HKPRO" version [word (dateText start), word (dateText stop), word (decimal n), word mark] e) t
          (send u (jobOf c (f start stop n mark)) t).2 := by
        rintro i hi rfl
        exact (wired_send u hw c (plainly_status hm) (fun k e h => ⟨i, hi, h⟩) h0.clean).1
      unfold statusTable at hv
      split at hv
      · exact key 3 (.inl rfl) (by simpa using hv.symm)
      · exact key 4 (.inr rfl) (by simpa using hv.symm)
      · simp at hv

/-- What the bank reads in every request of SepaAccountBalances. -/
def SepaRead (account : InternationalConnection) (all : Bool) (k : Keys) (e : Sent σ) : Prop :=
  ∃ (version : Int) (mark : Str), (version = 7 ∨ version = 8) ∧
    Asked k c!"HKSAL" version [internationalParts account, word (yesNo all), word [], word mark] e

theorem wired_balancePage (u : Setup σ α β γ δ) (hw : CleanBank u.world) (c : Client) {account : InternationalConnection}
    (ha : CleanInternational account) (all : Bool) {mark : Str} (hm : CleanText mark) {s : CSt σ α} (hs : CleanDialog s.st.d) :
    Wired (SepaRead account all) s (balancePage u c account all mark s).2 ∧
      ∀ bs next, (balancePage u c account all mark s).1 = .ok (bs, next) → CleanText next := by
  unfold balancePage
  have h0 := wired_init (R := SepaRead account all) u hw hs
  generalize init u s = X at h0
  obtain ⟨r, t⟩ := X
  cases r with
  | err => exact ⟨h0, by simp⟩
  | panic => exact ⟨h0, by simp⟩
  | ok x =>
    simp only
    cases hq : (newBuilder t.st.d.supportedSegments).sepaBalance account all with
    | err => exact ⟨h0, by simp⟩
    | panic => exact ⟨h0, by simp⟩
    | ok q =>
      simp only
      unfold Builder.sepaBalance at hq
      obtain ⟨f, hf, rfl⟩ := map_ok hq
      obtain ⟨v, hv⟩ := choose_table hf
      have key : ∀ n : Int, (n = 7 ∨ n = 8) → f = newSepaBalanceRequest n →
          Wired (SepaRead account all) t
            (send u (jobOf c (if mark = [] then f account all else (f account all).setContinuationMark mark).seg) t).2 ∧
          ∀ m, (send u (jobOf c (if mark = [] then f account all else (f account all).setContinuationMark mark).seg) t).1 = .ok m →
            CleanAnswer u.world m := by
        rintro n hn rfl
        have hp : Plainly (if mark = [] then newSepaBalanceRequest n account all
            else (newSepaBalanceRequest n account all).setContinuationMark mark).seg c!"HKSAL" n
            [internationalParts account, word (yesNo all), word [], word mark] := by
          by_cases he : mark = []
          · rw [if_pos he, he]
            exact plainly_account (mark := none) (parts_international account) (clean_internationalParts ha) (by simp)
          · rw [if_neg he]
            exact plainly_account (mark := some mark) (parts_international account) (clean_internationalParts ha) (by simpa using hm)
        exact wired_send u hw c hp (fun k e h => ⟨n, mark, hn, h⟩) h0.clean
      have hn : ∃ n : Int, (n = 7 ∨ n = 8) ∧ f = newSepaBalanceRequest n := by
        unfold sepaBalanceTable at hv
        split at hv
        · exact ⟨7, .inl rfl, by simpa using hv.symm⟩
        · exact ⟨8, .inr rfl, by simpa using hv.symm⟩
        · simp at hv
      obtain ⟨n, hn, hfn⟩ := hn
      have hsend := key n hn hfn
      refine ⟨h0.trans hsend.1, fun bs next h => ?_⟩
      obtain ⟨m, h1, h2⟩ := Dialog.bind_ok h
      obtain ⟨bs', h3, h4⟩ := Dialog.bind_ok h2
      obtain ⟨nx, h5, h6⟩ := Dialog.map_ok h4
      simp only [Prod.mk.injEq] at h6
      rw [← h6.2]
      exact clean_continuation (hsend.2 m h1) h5

/-- C126: SepaAccountBalances.  The bank reads in every request this account. -/
theorem C126_sepa_balances (u : Setup σ α β γ δ) (hw : CleanBank u.world) (c : Client) {account : InternationalConnection}
    (ha : CleanInternational account) (all : Bool) : ∀ (fuel : Nat) {mark : Str}, CleanText mark → ∀ {s t : CSt σ α}
      {r : Outcome (List γ)}, CleanDialog s.st.d → sepaAccountBalances u c account all fuel mark s = some (r, t) →
      Wired (SepaRead account all) s t := by
  intro fuel
  induction fuel with
  | zero => intro mark _ s t r _ h; simp [sepaAccountBalances] at h
  | succ fuel ih =>
    intro mark hm s t r hs h
    rw [sepaAccountBalances] at h
    have hp := wired_balancePage u hw c ha all hm hs
    generalize balancePage u c account all mark s = X at h hp
    obtain ⟨q, t1⟩ := X
    cases q with
    | err => simp only [Option.some.injEq, Prod.mk.injEq] at h; rw [← h.2]; exact hp.1
    | panic => simp only [Option.some.injEq, Prod.mk.injEq] at h; rw [← h.2]; exact hp.1
    | ok x =>
      obtain ⟨bs, next⟩ := x
      simp only at h
      split at h
      · simp only [Option.some.injEq, Prod.mk.injEq] at h; rw [← h.2]; exact hp.1
      · simp only [Option.map_eq_some_iff] at h
        obtain ⟨⟨r', t'⟩, h1, h2⟩ := h
        simp only [Prod.mk.injEq] at h2
        rw [← h2.2]
        exact hp.1.trans (ih (hp.2 bs next rfl) hp.1.clean h1)

/-- What the bank reads in every request of AccountTransactions: this account and these days; where a day is missing, the
day of today or that of a month ago. -/
def TransactionsRead (today : Nat → Civil) (account : AccountConnection) (all : Bool) (tf : Timeframe) (k : Keys) (e : Sent σ) : Prop :=
  ∃ (version : Int) (start stop : Civil) (i : Nat) (mark : Str), (version = 5 ∨ version = 6) ∧
    (¬ isZero tf.startDate → start = tf.startDate) ∧ (¬ isZero tf.endDate → stop = tf.endDate) ∧
    (isZero tf.startDate → start = newShortDate (monthBefore (today i))) ∧
    (isZero tf.endDate → stop = ⟨(today i).year, (today i).month, (today i).day, 0, 0, 0, 0⟩) ∧
    Asked k c!"HKKAZ" version
      [nationalParts account, word (yesNo all), word (dateText start), word (dateText stop), word [], word mark] e

theorem wired_page (u : Setup σ α β γ δ) (hw : CleanBank u.world) (c : Client) {account : AccountConnection}
    (ha : CleanNational account) (all : Bool) (tf : Timeframe) {mark : Str} (hm : CleanText mark) {s : CSt σ α} (hs : CleanDialog s.st.d) :
    Wired (TransactionsRead u.today account all tf) s (page u c (plainBuilder account all) tf mark s).2 ∧
      ∀ tx next, (page u c (plainBuilder account all) tf mark s).1 = .ok (tx, next) → CleanText next := by
  unfold page
  cases hq : transactionRequest u (plainBuilder account all) tf mark s with
  | err => exact ⟨.refl hs, by simp⟩
  | panic => exact ⟨.refl hs, by simp⟩
  | ok q =>
    simp only
    have hp : ∃ version start stop, Plainly q c!"HKKAZ" version
          [nationalParts account, word (yesNo all), word (dateText start), word (dateText stop), word [], word mark] ∧
        (version = 5 ∨ version = 6) ∧
        (¬ isZero tf.startDate → start = tf.startDate) ∧ (¬ isZero tf.endDate → stop = tf.endDate) ∧
        (isZero tf.startDate → start = newShortDate (monthBefore (u.today s.ticks))) ∧
        (isZero tf.endDate → stop = ⟨(u.today s.ticks).year, (u.today s.ticks).month, (u.today s.ticks).day, 0, 0, 0, 0⟩) := by
      unfold transactionRequest plainBuilder Builder.transactions at hq
      obtain ⟨r, hr, rfl⟩ := map_ok hq
      obtain ⟨f, hf, rfl⟩ := map_ok hr
      obtain ⟨v, hv⟩ := choose_table hf
      have hn : ∃ n : Int, (n = 5 ∨ n = 6) ∧ f = newTransactionRequest n := by
        unfold transactionTable at hv
        split at hv
        · exact ⟨6, .inr rfl, by simpa using hv.symm⟩
        · exact ⟨5, .inl rfl, by simpa using hv.symm⟩
        · simp at hv
      obtain ⟨n, hn, rfl⟩ := hn
      · refine ⟨n, if isZero tf.startDate then newShortDate (monthBefore (u.today s.ticks)) else tf.startDate,
          if isZero tf.endDate then newShortDate (u.today s.ticks) else tf.endDate, ?_, hn, fun h => if_neg h, fun h => if_neg h,
          fun h => if_pos h, fun h => if_pos h⟩
        by_cases he : mark = []
        · simp only [if_pos he]
          rw [he]
          exact plainly_transactions (mark := none) (parts_national account) (clean_nationalParts ha) (by simp)
        · simp only [if_neg he]
          exact plainly_transactions (mark := some mark) (parts_national account) (clean_nationalParts ha) (by simpa using hm)
    obtain ⟨version, start, stop, hp, h1, h2, h3, h4, h5⟩ := hp
    have hsend := wired_send (R := TransactionsRead u.today account all tf) u hw c hp
      (fun k e h => ⟨version, start, stop, s.ticks, mark, h1, h2, h3, h4, h5, h⟩) (s := { s with ticks := s.ticks + 1 }) hs
    generalize send u (jobOf c q) { s with ticks := s.ticks + 1 } = X at hsend
    obtain ⟨r, t⟩ := X
    cases r with
    | err => exact ⟨hsend.1.ticks _ _, by simp⟩
    | panic => exact ⟨hsend.1.ticks _ _, by simp⟩
    | ok m =>
      simp only
      have hm' := hsend.2 m rfl
      unfold readPage
      cases collect (viewChecked u.views.statement) (m.segments c!"HIKAZ") with
      | err => exact ⟨hsend.1.ticks _ _, by simp⟩
      | panic => exact ⟨hsend.1.ticks _ _, by simp⟩
      | ok bs =>
        simp only
        cases hc : continuation m with
        | err => exact ⟨hsend.1.ticks _ _, by simp⟩
        | panic => exact ⟨hsend.1.ticks _ _, by simp⟩
        | ok nx =>
          refine ⟨hsend.1.ticks _ _, fun tx next h => ?_⟩
          simp only [Outcome.ok.injEq, Prod.mk.injEq] at h
          rw [← h.2]
          exact clean_continuation hm' hc

theorem wired_pages (u : Setup σ α β γ δ) (hw : CleanBank u.world) (c : Client) {account : AccountConnection}
    (ha : CleanNational account) (all : Bool) (tf : Timeframe) : ∀ (fuel : Nat) {mark : Str}, CleanText mark → ∀ {s t : CSt σ α}
      {r : Outcome Page}, CleanDialog s.st.d → accountTransactions u c (plainBuilder account all) tf fuel mark s = some (r, t) →
      Wired (TransactionsRead u.today account all tf) s t := by
  intro fuel
  induction fuel with
  | zero => intro mark _ s t r _ h; simp [accountTransactions] at h
  | succ fuel ih =>
    intro mark hm s t r hs h
    rw [accountTransactions] at h
    have hp := wired_page u hw c ha all tf hm hs
    generalize page u c (plainBuilder account all) tf mark s = X at h hp
    obtain ⟨q, t1⟩ := X
    cases q with
    | err => simp only [Option.some.injEq, Prod.mk.injEq] at h; rw [← h.2]; exact hp.1
    | panic => simp only [Option.some.injEq, Prod.mk.injEq] at h; rw [← h.2]; exact hp.1
    | ok x =>
      obtain ⟨tx, next⟩ := x
      simp only at h
      split at h
      · simp only [Option.some.injEq, Prod.mk.injEq] at h; rw [← h.2]; exact hp.1
      · have hr := fun {r' t'} (h1 : accountTransactions u c (plainBuilder account all) tf fuel next t1 = some (r', t')) =>
          hp.1.trans (ih (hp.2 tx next rfl) hp.1.clean h1)
        cases h1 : accountTransactions u c (plainBuilder account all) tf fuel next t1 with
        | none => rw [h1] at h; simp at h
        | some x =>
          obtain ⟨r', t'⟩ := x
          rw [h1] at h
          cases r' with
          | err => simp only [Option.some.injEq, Prod.mk.injEq] at h; rw [← h.2]; exact hr h1
          | panic => simp only [Option.some.injEq, Prod.mk.injEq] at h; rw [← h.2]; exact hr h1
          | ok msg =>
            simp only [Option.some.injEq, Prod.mk.injEq] at h
            rw [← h.2]
            exact (hr h1).ticks _ _

/-- C126: AccountTransactions.  The bank reads in every request this account and these days. -/
theorem C126_transactions (u : Setup σ α β γ δ) (hw : CleanBank u.world) (L : Swift.Lib) (c : Client) {account : AccountConnection}
    (ha : CleanNational account) (all : Bool) (tf : Timeframe) {mark : Str} (hm : CleanText mark) {fuel : Nat} {s t : CSt σ α}
    {r : Outcome (List (Swift.Transaction L.F))} (hs : CleanDialog s.st.d)
    (h : transactions u L c (plainBuilder account all) tf mark fuel s = some (r, t)) :
    Wired (TransactionsRead u.today account all tf) s t := by
  unfold transactions at h
  have h0 := wired_init (R := TransactionsRead u.today account all tf) u hw hs
  generalize init u s = X at h h0
  obtain ⟨q, t0⟩ := X
  cases q with
  | err => simp only [Option.some.injEq, Prod.mk.injEq] at h; rw [← h.2]; exact h0
  | panic => simp only [Option.some.injEq, Prod.mk.injEq] at h; rw [← h.2]; exact h0
  | ok x =>
    simp only [Option.map_eq_some_iff] at h
    obtain ⟨⟨r', t'⟩, h1, h2⟩ := h
    simp only [Prod.mk.injEq] at h2
    rw [← h2.2]
    exact h0.trans (wired_pages u hw c ha all tf fuel hm h0.clean h1)

/-- C126: Accounts sends no request; its messages are read, too. -/
theorem C126_accounts (u : Setup σ α β γ δ) (hw : CleanBank u.world) {s : CSt σ α} (hs : CleanDialog s.st.d) :
    Wired (fun _ e => contents e = []) s (accounts u s).2 := by
  unfold accounts
  have h0 := wired_init (R := fun _ e => contents e = []) u hw hs
  generalize init u s = X at h0
  obtain ⟨r, t⟩ := X
  cases r with
  | err => exact h0
  | panic => exact h0
  | ok x =>
    obtain ⟨a1, a2, a3, a4, ⟨E, a5, a6⟩, _⟩ := telling_syncUser (job := []) hw t.st h0.clean
    refine h0.trans ⟨a1, a2, ⟨a3, a4⟩, E, a5, fun e he => ⟨(a6 e he).1, fun hj => ?_⟩⟩
    obtain ⟨n, hn⟩ := (a6 e he).2 hj
    simpa using hn

/-- C126: a client made by New is clean if its configuration is, and its keys are those of the configuration. -/
theorem C126_new {w : World σ α} {data : List Bankinfo.BankInfo} {config : Config}
    (hc : CleanStart w ⟨280, config.bankId⟩ config.accountId config.productName config.productVersion)
    (hp : CleanText config.pin) {url : Str} {c : Client} {st : St σ α} (h : new w data config = .ok (url, c, st)) :
    CleanDialog st.d ∧ keysOf st.d = keysFor w ⟨280, config.bankId⟩ config.accountId config.pin ∧ st.sent = [] := by
  unfold new at h
  obtain ⟨⟨url', v⟩, h1, h2⟩ := Dialog.map_ok h
  simp only [Prod.mk.injEq] at h2
  obtain ⟨rfl, rfl, rfl⟩ := h2
  have := tidy_setPin hc hp (s := ⟨newPinTanDialog w ⟨280, config.bankId⟩ config.accountId v config.productName
      config.productVersion, 0, []⟩) (tidy_new v hc)
  exact ⟨this.clean, this.keys, rfl⟩

/-- The states of a client whose calls have clean texts: accounts, marks. -/
inductive CleanAfter (u : Setup σ α β γ δ) (s : CSt σ α) : CSt σ α → Prop where
  | nothing : CleanAfter u s s
  | accounts {t : CSt σ α} : CleanAfter u s t → CleanAfter u s (accounts u t).2
  | transactions {t t' : CSt σ α} (L : Swift.Lib) (c : Client) (account : AccountConnection) (all : Bool) (tf : Timeframe)
      (mark : Str) (fuel : Nat) (r : Outcome (List (Swift.Transaction L.F))) : CleanAfter u s t → CleanNational account →
      CleanText mark → transactions u L c (plainBuilder account all) tf mark fuel t = some (r, t') → CleanAfter u s t'
  | balances {t : CSt σ α} (c : Client) (account : AccountConnection) (all : Bool) : CleanAfter u s t → CleanNational account →
      CleanAfter u s (accountBalances u c account all t).2
  | sepaBalances {t t' : CSt σ α} (c : Client) (account : InternationalConnection) (all : Bool) (mark : Str) (fuel : Nat)
      (r : Outcome (List γ)) : CleanAfter u s t → CleanInternational account → CleanText mark →
      sepaAccountBalances u c account all fuel mark t = some (r, t') → CleanAfter u s t'
  | status {t : CSt σ α} (c : Client) (start stop : Time.Civil) (maxEntries : Int) (mark : Str) : CleanAfter u s t →
      CleanText mark → CleanAfter u s (status u c start stop maxEntries mark t).2

theorem Wired.weaken {s t : CSt σ α} (h : Wired R s t) : Wired (fun _ _ => True) s t := by
  obtain ⟨h1, h2, h3, E, h4, h5⟩ := h
  exact ⟨h1, h2, h3, E, h4, fun e he => ⟨(h5 e he).1, fun _ => trivial⟩⟩

/-- C126: whatever calls a new client is used for, its dialog stays clean, and every message it ever hands over is read
by the bank as a message of the configured user with the configured PIN. -/
theorem C126_client (u : Setup σ α β γ δ) (hw : CleanBank u.world) {data : List Bankinfo.BankInfo} {config : Config}
    (hc : CleanStart u.world ⟨280, config.bankId⟩ config.accountId config.productName config.productVersion)
    (hp : CleanText config.pin) {url : Str} {c : Client} {st : St σ α} (h : new u.world data config = .ok (url, c, st)) {n : Nat}
    {t : CSt σ α} (ht : CleanAfter u ⟨st, n⟩ t) :
    CleanDialog t.st.d ∧ ∀ e ∈ t.st.sent, Understood (keysFor u.world ⟨280, config.bankId⟩ config.accountId config.pin) e := by
  obtain ⟨h1, h2, h3⟩ := C126_new hc hp h
  have hwired : Wired (fun _ _ => True) ⟨st, n⟩ t := by
    induction ht with
    | nothing => exact .refl h1
    | accounts _ ih => exact ih.trans (C126_accounts u hw ih.clean).weaken
    | transactions L c account all tf mark fuel r _ ha hm hr ih =>
      exact ih.trans (C126_transactions u hw L c ha all tf hm ih.clean hr).weaken
    | balances c account all _ ha ih => exact ih.trans (C126_balances u hw c ha all ih.clean).weaken
    | sepaBalances c account all mark fuel r _ ha hm hr ih =>
      exact ih.trans (C126_sepa_balances u hw c ha all fuel hm ih.clean hr).weaken
    | status c start stop k mark _ hm ih => exact ih.trans (C126_status u hw c start stop k hm ih.clean).weaken
  refine ⟨hwired.clean, fun e he => ?_⟩
  obtain ⟨E, h4, h5⟩ := hwired.log
  have h6 : t.st.sent = E := by rw [h4]; show st.sent ++ E = E; rw [h3]; rfl
  rw [h6] at he
  rw [← h2]
  exact (h5 e he).1

/-! ## A concrete case -/

namespace Sample

/-- What is clean of an answer of the sample bank. -/
theorem answer_clean {w : World Bytes Bytes} {m : Decrypted Bytes} (hv : w.views = Dialog.Sample.views)
    {rows : List (Int × List Str)} {name : Str} (hn : CleanText name) (h : m.header.dialogId = some name)
    (hr : m.acknowledgements.map (fun a => (a.code, a.params)) = rows) (hc : ∀ x ∈ rows, ∀ p ∈ x.2, CleanText p) : CleanAnswer w m := by
  have hnone : ∀ a ∈ m.acknowledgements, ∀ p ∈ a.params, CleanText p := by
    intro a ha p hp
    exact hc (a.code, a.params) (by rw [← hr]; exact List.mem_map_of_mem ha) p hp
  refine ⟨fun i hi => ?_, fun x id _ hx => ?_, fun x p _ hx => ?_, fun a ha _ p hp => hnone a ha p hp, fun a ha _ p hp => hnone a ha p hp⟩
  · rw [h] at hi
    simp only [Option.some.injEq] at hi
    rw [← hi]
    exact hn
  · rw [hv] at hx
    cases x with
    | ack a => cases hx
    | other y =>
      have : id = c!"sys1" := by
        change Outcome.ok c!"sys1" = .ok id at hx
        simpa using hx.symm
      rw [this]
      exact ⟨by simp, by simp [CleanText]⟩
  · rw [hv] at hx
    cases x <;> cases hx

theorem twoPages_clean (clock : Nat → Int) : CleanBank (setup twoPages clock).world := by
  intro n b m h
  have h' : receive decoders (twoPages n) = .ok m := h
  have key : ∀ {rows : List (Int × List Str)}, (receive decoders (twoPages n)).map' (fun m => (m.header.dialogId,
      m.acknowledgements.map fun a => (a.code, a.params))) = .ok (some c!"dia", rows) → (∀ x ∈ rows, ∀ p ∈ x.2, CleanText p) →
      CleanAnswer (setup twoPages clock).world m := by
    intro rows e hc
    rw [h'] at e
    simp only [Outcome.map', Outcome.ok.injEq, Prod.mk.injEq] at e
    exact answer_clean rfl (by simp [CleanText]) e.1 e.2 hc
  by_cases h2 : n = 2
  · subst h2
    exact key (rows := [(3040, [c!"ref1"])]) (by decide +kernel) (by simp [CleanText])
  · by_cases h5 : n = 5
    · subst h5
      exact key (rows := [(20, [])]) (by decide +kernel) (by simp)
    · have e : twoPages n = twoPages 0 := by simp [twoPages, h2, h5]
      rw [e] at key
      exact key (rows := [(10, [])]) (by decide +kernel) (by simp)

theorem known_clean (answer : Nat → Outcome Body) : CleanDialog (known answer).st.d := by
  have hc : CleanStart (Dialog.Sample.world answer) ⟨280, c!"10000000"⟩ c!"user" [] [] :=
    ⟨⟨by simp, by simp [CleanText]⟩, by simp [CleanText], by simp [Dialog.Sample.world, CleanText], by simp [CleanText]⟩
  have ht := tidy_setPin hc (p := c!"secret") (by simp [CleanText]) (s := ⟨newPinTanDialog (Dialog.Sample.world answer)
    ⟨280, c!"10000000"⟩ c!"user" .fints300 [] [], 0, []⟩) (tidy_new .fints300 hc)
  have hs : CleanSystem c!"sys0" := ⟨by simp, by simp [CleanText]⟩
  obtain ⟨b1, b2, b3, b4, b5, b6, b7⟩ := ht.clean
  exact ⟨b1, ⟨b2.pin, b2.signFn, b2.reference, hs, b2.signKey, hs, b2.cryptKey⟩, b3, hs, b5, b6, b7⟩

theorem account_clean : CleanNational account := by simp [CleanNational, account, CleanText]

end Sample

/-- The two requests of this call are read by the bank; the second carries the bank's mark. -/
example {r t} := C126_transactions (Sample.setup Sample.twoPages fun n => n) (Sample.twoPages_clean _) Swift.sampleLib .fints300
  Sample.account_clean false ⟨⟨2020, 1, 1, 0, 0, 0, 0⟩, ⟨2020, 1, 2, 0, 0, 0, 0⟩⟩ (mark := []) cleanText_nil (fuel := 5) (r := r) (t := t)
  (Sample.known_clean Sample.twoPages)

example : Sample.fetched Sample.twoPages (fun n => n) 3 =
    some (.ok b!"firstsecondthird", [.init, .job, .end_, .init, .job, .end_]) := Sample.two_pages

example := C126_balances (Sample.setup Sample.twoPages fun n => n) (Sample.twoPages_clean _) .fints300 Sample.account_clean true
  (Sample.known_clean Sample.twoPages)

example {r t} := C126_sepa_balances (Sample.setup Sample.twoPages fun n => n) (Sample.twoPages_clean _) .fints300
  (account := ⟨c!"DE1", c!"BIC", c!"100", [], 280, c!"10000000"⟩) (by simp [CleanInternational, CleanText]) true 3 (mark := [])
  cleanText_nil (r := r) (t := t) (Sample.known_clean Sample.twoPages)

example := C126_status (Sample.setup Sample.twoPages fun n => n) (Sample.twoPages_clean _) .fints300 ⟨2020, 1, 1, 0, 0, 0, 0⟩
  ⟨2020, 1, 2, 0, 0, 0, 0⟩ 10 (mark := []) cleanText_nil (Sample.known_clean Sample.twoPages)

example := C126_accounts (Sample.setup Sample.twoPages fun n => n) (Sample.twoPages_clean _) (Sample.known_clean Sample.twoPages)

/-- The bank that agrees to everything. -/
theorem Sample.good_clean (clock : Nat → Int) : CleanBank (setup Dialog.Sample.steady clock).world := by
  intro n b m h
  have e : (receive decoders (Dialog.Sample.good 1)).map' (fun m => (m.header.dialogId, m.acknowledgements.map fun a => (a.code, a.params))) =
      .ok (some c!"dia1", [(10, [])]) := by decide +kernel
  have h' : receive decoders (Dialog.Sample.good 1) = .ok m := h
  rw [h'] at e
  simp only [Outcome.map', Outcome.ok.injEq, Prod.mk.injEq] at e
  exact answer_clean rfl (by simp [CleanText]) e.1 e.2 (by simp)

/-- A new client asked for its accounts has sent four messages. -/
example : ∃ (s0 : Dialog.St Bytes Bytes) (s : CSt Bytes Bytes),
    new (Sample.setup Dialog.Sample.steady fun n => n).world sampleTable (sampleConfig c!"1000") =
      .ok (c!"https://bank/", .fints300, s0) ∧
    CleanAfter (Sample.setup Dialog.Sample.steady fun n => n) ⟨s0, 0⟩ s ∧ s.st.sent.length = 4 := by
  refine ⟨_, _, rfl, .accounts .nothing, ?_⟩
  decide +kernel

example : CleanStart (Sample.setup Dialog.Sample.steady fun n => n).world ⟨280, (sampleConfig c!"1000").bankId⟩
    (sampleConfig c!"1000").accountId (sampleConfig c!"1000").productName (sampleConfig c!"1000").productVersion ∧
    CleanText (sampleConfig c!"1000").pin :=
  ⟨⟨⟨by simp [sampleConfig], by simp [sampleConfig, CleanText]⟩, by simp [sampleConfig, CleanText],
    by simp [Sample.setup, Dialog.Sample.world, CleanText], by simp [sampleConfig, CleanText]⟩, by simp [sampleConfig, CleanText]⟩

end Verif.Client
