import Verif.Swift.LineProps
import Verif.Swift.Props
import Mathlib.Data.List.Forall2
import Mathlib.Data.List.Induction

/-
Properties C39 and C77: messages and statements.
-/

namespace Verif.Swift

open GoLib Charset Time
open Element (replaceFirst replaceFirst_skip)

/-! ## Kinds of tags -/

theorem prefix_bool {p t : Bytes} : p.isPrefixOf t = true ↔ p <+: t := List.isPrefixOf_iff_prefix

theorem no_both {p q t : Bytes} (hp : p <+: t) (hq : q <+: t) (h : (p.isPrefixOf q || q.isPrefixOf p) = false) : False := by
  rcases Nat.le_total p.length q.length with hl | hl
  · have := List.prefix_of_prefix_length_le hp hq hl
    rw [prefix_bool.2 this] at h
    simp at h
  · have := List.prefix_of_prefix_length_le hq hp hl
    rw [prefix_bool.2 this] at h
    simp at h

theorem kind_starting {t : Bytes} : kindOf t = .starting ↔ b!":60" <+: t := by
  constructor
  · intro h
    unfold kindOf at h
    repeat (split at h; first | (rename_i hp; exact prefix_bool.1 hp) | simp at h)
    simp at h
  · intro h
    unfold kindOf
    repeat (first | rw [if_pos (prefix_bool.2 h)] | rw [if_neg (fun hh => no_both (prefix_bool.1 hh) h (by decide))])

theorem kind_closing {t : Bytes} : kindOf t = .closing ↔ b!":62" <+: t := by
  constructor
  · intro h
    unfold kindOf at h
    repeat (split at h; first | (rename_i hp; exact prefix_bool.1 hp) | simp at h)
    simp at h
  · intro h
    unfold kindOf
    repeat (first | rw [if_pos (prefix_bool.2 h)] | rw [if_neg (fun hh => no_both (prefix_bool.1 hh) h (by decide))])

theorem kind_transaction {t : Bytes} : kindOf t = .transaction ↔ b!":61:" <+: t := by
  constructor
  · intro h
    unfold kindOf at h
    repeat (split at h; first | (rename_i hp; exact prefix_bool.1 hp) | simp at h)
    simp at h
  · intro h
    unfold kindOf
    repeat (first | rw [if_pos (prefix_bool.2 h)] | rw [if_neg (fun hh => no_both (prefix_bool.1 hh) h (by decide))])

theorem kind_description {t : Bytes} : kindOf t = .description ↔ b!":86:" <+: t := by
  constructor
  · intro h
    unfold kindOf at h
    repeat (split at h; first | (rename_i hp; exact prefix_bool.1 hp) | simp at h)
    simp at h
  · intro h
    unfold kindOf
    repeat (first | rw [if_pos (prefix_bool.2 h)] | rw [if_neg (fun hh => no_both (prefix_bool.1 hh) h (by decide))])

theorem kind_account {t : Bytes} : kindOf t = .account ↔ b!":25:" <+: t := by
  constructor
  · intro h
    unfold kindOf at h
    repeat (split at h; first | (rename_i hp; exact prefix_bool.1 hp) | simp at h)
    simp at h
  · intro h
    unfold kindOf
    repeat (first | rw [if_pos (prefix_bool.2 h)] | rw [if_neg (fun hh => no_both (prefix_bool.1 hh) h (by decide))])

theorem kind_unknown {t : Bytes} : kindOf t = .unknown ↔ ∀ p ∈ [b!":20:", b!":21:", b!":25:", b!":28C:", b!":60", b!":62", b!":64:", b!":65:",
    b!":61:", b!":86:"], ¬ p <+: t := by
  simp only [List.forall_mem_cons, ← prefix_bool]
  unfold kindOf
  split <;> rename_i h1
  · simp [h1]
  split <;> rename_i h2
  · simp [h2]
  split <;> rename_i h3
  · simp [h3]
  split <;> rename_i h4
  · simp [h4]
  split <;> rename_i h5
  · simp [h5]
  split <;> rename_i h6
  · simp [h6]
  split <;> rename_i h7
  · simp [h7]
  split <;> rename_i h8
  · simp [h8]
  split <;> rename_i h9
  · simp [h9]
  split <;> rename_i h10
  · simp [h10]
  simp [h1, h2, h3, h4, h5, h6, h7, h8, h9, h10]

/-! ## Specification -/

/-- A statement line. -/
def IsLine (t : Bytes) : Prop := b!":61:" <+: t

/-- A description. -/
def IsDescription (t : Bytes) : Prop := b!":86:" <+: t

instance (t : Bytes) : Decidable (IsLine t) := inferInstanceAs (Decidable (_ <+: _))

/-- After these tags a starting balance has been given and no closing balance since. -/
def Open (ts : List Bytes) : Prop := ∃ a s b, ts = a ++ s :: b ∧ b!":60" <+: s ∧ ∀ t ∈ b, ¬ b!":62" <+: t

/-- The description `d` belongs to line number `i` of these tags: it follows the line before
the next one and before the closing balance. -/
def Describes (ts : List Bytes) (i : Nat) (d : CustomField) : Prop :=
  ∃ a x b y c, ts = a ++ x :: b ++ y :: c ∧ IsLine x ∧ (∀ t ∈ b, ¬ IsLine t) ∧ IsDescription y ∧ Open (a ++ x :: b) ∧
    (a.filter IsLine).length = i ∧ unmarshalCustom (spareOf y) y = .ok d

/-! ## Runs of the loop -/

/-- The loop has read these tags. -/
inductive Reads (L : Lib) : List Bytes → MT940 L.F → Bool → Prop where
  | nil : Reads L [] {} false
  | snoc {ts : List Bytes} {m m' : MT940 L.F} {o o' : Bool} {t : Bytes} : Reads L ts m o → readTag L m o t = .next m' o' →
      Reads L (ts ++ [t]) m' o'

theorem reads_of {L : Lib} : ∀ {ts pre : List Bytes} {m m' : MT940 L.F} {o : Bool}, Reads L pre m o →
    readTags L ts m o = .done m' true → ∃ o', Reads L (pre ++ ts) m' o'
  | [], pre, m, m', o, hr, h => by
    simp only [readTags, Read.done.injEq, and_true] at h
    subst h
    exact ⟨o, by simpa using hr⟩
  | t :: ts, pre, m, m', o, hr, h => by
    unfold readTags at h
    split at h
    · rename_i m1 o1 ht
      obtain ⟨o', h'⟩ := reads_of (.snoc hr ht) h
      exact ⟨o', by simpa using h'⟩
    · simp at h
    · simp at h

theorem Reads.prefix {L : Lib} {ts : List Bytes} {m : MT940 L.F} {o : Bool} (h : Reads L ts m o) :
    ∀ {a : List Bytes} {t : Bytes} {b : List Bytes}, ts = a ++ t :: b →
      ∃ m1 o1 m2 o2, Reads L a m1 o1 ∧ readTag L m1 o1 t = .next m2 o2 := by
  induction h with
  | nil => intro a t b h; simp at h
  | @snoc ts' m m' o o' t' hr ht ih =>
    intro a t b h
    rcases List.eq_nil_or_concat b with rfl | ⟨b', z, rfl⟩
    · obtain ⟨rfl, h2⟩ := List.append_inj' h rfl
      simp only [List.cons.injEq, and_true] at h2
      subst h2
      exact ⟨m, o, m', o', hr, ht⟩
    · rw [show a ++ t :: (b'.concat z) = (a ++ t :: b') ++ [z] by simp] at h
      obtain ⟨h1, _⟩ := List.append_inj' h rfl
      exact ih h1

theorem open_snoc {ts : List Bytes} {t : Bytes} :
    Open (ts ++ [t]) ↔ b!":60" <+: t ∨ (Open ts ∧ ¬ b!":62" <+: t) := by
  constructor
  · rintro ⟨a, s, b, h, hs, hb⟩
    rcases List.eq_nil_or_concat b with rfl | ⟨b', z, rfl⟩
    · obtain ⟨rfl, h2⟩ := List.append_inj' h rfl
      simp only [List.cons.injEq, and_true] at h2
      subst h2
      exact .inl hs
    · rw [show a ++ s :: (b'.concat z) = (a ++ s :: b') ++ [z] by simp] at h
      obtain ⟨h1, h2⟩ := List.append_inj' h rfl
      simp only [List.cons.injEq, and_true] at h2
      subst h2
      refine .inr ⟨⟨a, s, b', h1, hs, fun x hx => hb x (by simp [hx])⟩, hb t (by simp)⟩
  · rintro (h | ⟨⟨a, s, b, rfl, hs, hb⟩, h⟩)
    · exact ⟨ts, t, [], rfl, h, by simp⟩
    · refine ⟨a, s, b ++ [t], by simp, hs, ?_⟩
      intro x hx
      simp only [List.mem_append, List.mem_singleton] at hx
      rcases hx with hx | rfl
      · exact hb x hx
      · exact h

theorem describes_snoc {ts : List Bytes} {t : Bytes} {i : Nat} {d : CustomField} :
    Describes (ts ++ [t]) i d ↔ Describes ts i d ∨
      (IsDescription t ∧ Open ts ∧ unmarshalCustom (spareOf t) t = .ok d ∧ (ts.filter IsLine).length = i + 1) := by
  constructor
  · rintro ⟨a, x, b, y, c, h, hx, hb, hy, ho, hi, hd⟩
    rcases List.eq_nil_or_concat c with rfl | ⟨c', z, rfl⟩
    · obtain ⟨rfl, h2⟩ := List.append_inj' h rfl
      simp only [List.cons.injEq, and_true] at h2
      subst h2
      refine .inr ⟨hy, ho, hd, ?_⟩
      have hb' : b.filter (fun t => decide (IsLine t)) = [] := by
        rw [List.filter_eq_nil_iff]
        simpa using hb
      rw [List.filter_append, List.filter_cons_of_pos (by simpa using hx), hb', List.length_append, hi]
      rfl
    · rw [show a ++ x :: b ++ y :: (c'.concat z) = (a ++ x :: b ++ y :: c') ++ [z] by simp] at h
      obtain ⟨h1, h2⟩ := List.append_inj' h rfl
      exact .inl ⟨a, x, b, y, c', h1, hx, hb, hy, ho, hi, hd⟩
  · rintro (⟨a, x, b, y, c, rfl, hx, hb, hy, ho, hi, hd⟩ | ⟨hy, ho, hd, hi⟩)
    · exact ⟨a, x, b, y, c ++ [t], by simp, hx, hb, hy, ho, hi, hd⟩
    · -- the last line of `ts`
      have last : ∀ {ts : List Bytes}, (ts.filter (fun t => decide (IsLine t))).length = i + 1 →
          ∃ a x b, ts = a ++ x :: b ∧ IsLine x ∧ (∀ t ∈ b, ¬ IsLine t) ∧ (a.filter (fun t => decide (IsLine t))).length = i := by
        intro ts
        induction ts using List.reverseRecOn with
        | nil => intro h; simp at h
        | append_singleton ts z ih =>
          intro h
          by_cases hz : IsLine z
          · refine ⟨ts, z, [], rfl, hz, by simp, ?_⟩
            rw [List.filter_append, List.length_append] at h
            simp [hz] at h
            exact h
          · rw [List.filter_append, List.length_append] at h
            simp only [List.filter_cons, hz, decide_false, List.filter_nil] at h
            simp at h
            obtain ⟨a, x, b, rfl, hx, hb, hi⟩ := ih (by simpa using h)
            refine ⟨a, x, b ++ [z], by simp, hx, ?_, hi⟩
            intro t ht
            simp only [List.mem_append, List.mem_singleton] at ht
            rcases ht with ht | rfl
            · exact hb t ht
            · exact hz
      obtain ⟨a, x, b, rfl, hx, hb, hi'⟩ := last hi
      exact ⟨a, x, b, t, [], by simp, hx, hb, hy, ho, hi', hd⟩

theorem describeLast_spec {F : Type} {d : CustomField} : ∀ {txs : List (Sequence F)}, lastDescription txs = some none →
    (describeLast txs d).length = txs.length ∧ ∀ i, (describeLast txs d)[i]? =
      (txs[i]?).map fun q => if i + 1 = txs.length then { q with description := some d } else q
  | [], h => by simp [lastDescription] at h
  | [t], h => by
    refine ⟨rfl, ?_⟩
    intro i
    cases i with
    | zero => simp [describeLast]
    | succ i => simp [describeLast]
  | t :: u :: ts, h => by
    have h' : lastDescription (u :: ts) = some none := by simpa [lastDescription] using h
    obtain ⟨g1, g2⟩ := describeLast_spec (d := d) h'
    refine ⟨by simp [describeLast, g1], ?_⟩
    intro i
    cases i with
    | zero => simp [describeLast]
    | succ i =>
      have := g2 i
      simp only [describeLast, List.getElem?_cons_succ, List.length_cons]
      rw [this]
      simp

theorem store_next {F α : Type} {r : Outcome α} {e : MT940 F} {set : α → MT940 F} {o : Bool} {m' : MT940 F} {o' : Bool}
    (h : store r e set o = .next m' o') : ∃ a, r = .ok a ∧ m' = set a ∧ o' = o := by
  unfold store at h
  split at h
  · rename_i a
    simp only [TagRes.next.injEq] at h
    exact ⟨a, rfl, h.1.symm, h.2.symm⟩
  · simp at h
  · simp at h

/-- What reading one tag does to the transactions. -/
theorem readTag_next {L : Lib} {m m' : MT940 L.F} {o o' : Bool} {t : Bytes} (h : readTag L m o t = .next m' o') :
    (IsLine t ∧ (∃ x, unmarshalTransaction L t = .ok x ∧ m'.transactions = m.transactions ++ [⟨x, none⟩]) ∧ o' = o) ∨
    (IsDescription t ∧ o = true ∧ (∃ d, unmarshalCustom (spareOf t) t = .ok d ∧ lastDescription m.transactions = some none ∧
      m'.transactions = describeLast m.transactions d) ∧ o' = true) ∨
    (IsDescription t ∧ o = false ∧ m'.transactions = m.transactions ∧ o' = false) ∨
    (b!":60" <+: t ∧ m'.transactions = m.transactions ∧ o' = true) ∨
    (b!":62" <+: t ∧ m'.transactions = m.transactions ∧ o' = false) ∨
    (kindOf t ≠ .transaction ∧ kindOf t ≠ .description ∧ kindOf t ≠ .starting ∧ kindOf t ≠ .closing ∧
      m'.transactions = m.transactions ∧ o' = o) := by
  unfold readTag at h
  split at h
  case h_8 hk =>
    obtain ⟨a, h1, rfl, rfl⟩ := store_next h
    exact .inl ⟨kind_transaction.1 hk, ⟨a, h1, rfl⟩, rfl⟩
  case h_9 hk =>
    have hd := kind_description.1 hk
    split at h
    · simp at h
    · simp at h
    · rename_i c hc
      split at h
      · rename_i ho
        split at h
        · simp at h
        · simp at h
        · rename_i hl
          simp only [TagRes.next.injEq] at h
          obtain ⟨rfl, rfl⟩ := h
          exact .inr (.inl ⟨hd, ho, ⟨c, hc, hl, rfl⟩, ho⟩)
      · rename_i ho
        simp only [TagRes.next.injEq] at h
        obtain ⟨rfl, rfl⟩ := h
        exact .inr (.inr (.inl ⟨hd, by simpa using ho, rfl, by simpa using ho⟩))
  case h_4 hk =>
    obtain ⟨a, h1, rfl, rfl⟩ := store_next h
    exact .inr (.inr (.inr (.inl ⟨kind_starting.1 hk, rfl, rfl⟩)))
  case h_5 hk =>
    obtain ⟨a, h1, rfl, rfl⟩ := store_next h
    exact .inr (.inr (.inr (.inr (.inl ⟨kind_closing.1 hk, rfl, rfl⟩))))
  case h_11 => simp at h
  all_goals
    rename_i hk
    obtain ⟨a, h1, rfl, rfl⟩ := store_next h
    refine .inr (.inr (.inr (.inr (.inr ⟨?_, ?_, ?_, ?_, rfl, rfl⟩)))) <;> simp [hk]

/-- What holds after reading some tags. -/
structure Inv (L : Lib) (ts : List Bytes) (m : MT940 L.F) (o : Bool) : Prop where
  isOpen : o = true ↔ Open ts
  lines : List.Forall₂ (fun t q => unmarshalTransaction L t = .ok q.transaction) (ts.filter IsLine) m.transactions
  descriptions : ∀ i q, m.transactions[i]? = some q → ∀ d, q.description = some d ↔ Describes ts i d

theorem line_not {t : Bytes} {k : Kinds} (h : kindOf t = k) (hk : k ≠ .transaction) : ¬ IsLine t := by
  intro hl
  exact hk (h.symm.trans (kind_transaction.2 hl))

theorem descr_not {t : Bytes} {k : Kinds} (h : kindOf t = k) (hk : k ≠ .description) : ¬ IsDescription t := by
  intro hl
  exact hk (h.symm.trans (kind_description.2 hl))

/-- A tag that is neither a line nor an open description leaves lines and descriptions. -/
theorem Inv.keep {L : Lib} {ts : List Bytes} {m m' : MT940 L.F} {o o' : Bool} {t : Bytes} (h : Inv L ts m o) (hl : ¬ IsLine t)
    (hd : ¬ (IsDescription t ∧ Open ts)) (ho : o' = true ↔ Open (ts ++ [t])) (hm : m'.transactions = m.transactions) :
    Inv L (ts ++ [t]) m' o' where
  isOpen := ho
  lines := by
    rw [List.filter_append, hm]
    simpa [hl] using h.lines
  descriptions := by
    intro i q hq d
    rw [hm] at hq
    rw [describes_snoc, h.descriptions i q hq d]
    constructor
    · exact .inl
    · rintro (h1 | ⟨h1, h2, _⟩)
      · exact h1
      · exact absurd ⟨h1, h2⟩ hd

theorem describes_lt {ts : List Bytes} {i : Nat} {d : CustomField} (h : Describes ts i d) : i < (ts.filter IsLine).length := by
  obtain ⟨a, x, b, y, c, rfl, hx, hb, hy, ho, hi, hd⟩ := h
  rw [List.append_assoc, List.filter_append, List.length_append, hi, List.cons_append, List.filter_cons_of_pos (by simpa using hx)]
  simp

theorem Reads.inv {L : Lib} {ts : List Bytes} {m : MT940 L.F} {o : Bool} (h : Reads L ts m o) : Inv L ts m o := by
  induction h with
  | nil =>
    refine ⟨⟨by simp, ?_⟩, by simp, by simp⟩
    rintro ⟨a, s, b, h, _⟩
    simp at h
  | @snoc ts m m' o o' t hr ht ih =>
    have hlen : (ts.filter IsLine).length = m.transactions.length := ih.lines.length_eq
    rcases readTag_next ht with ⟨hl, ⟨x, hx, hm⟩, rfl⟩ | ⟨hd, rfl, ⟨d, hc, hlast, hm⟩, rfl⟩ | ⟨hd, rfl, hm, rfl⟩ |
      ⟨hs, hm, rfl⟩ | ⟨hs, hm, rfl⟩ | ⟨h1, h2, h3, h4, hm, rfl⟩
    · have hk := kind_transaction.2 hl
      refine ⟨?_, ?_, ?_⟩
      · rw [ih.isOpen, open_snoc]
        have a1 : ¬ b!":60" <+: t := fun hh => by have := kind_starting.2 hh; rw [hk] at this; simp at this
        have a2 : ¬ b!":62" <+: t := fun hh => by have := kind_closing.2 hh; rw [hk] at this; simp at this
        simp [a1, a2]
      · rw [List.filter_append, hm]
        refine List.rel_append ih.lines ?_
        simpa [hl] using hx
      · intro i q hq d
        rw [hm, List.getElem?_append] at hq
        rw [describes_snoc]
        have hnd : ¬ IsDescription t := descr_not hk (by simp)
        simp only [hnd, false_and, or_false]
        split at hq
        · exact ih.descriptions i q hq d
        · rename_i hge
          have hi : i = m.transactions.length := by
            by_contra hne
            rw [List.getElem?_eq_none (by simp; omega)] at hq
            simp at hq
          subst hi
          simp at hq
          subst hq
          simp only [reduceCtorEq, false_iff]
          intro hh
          have := describes_lt hh
          omega
    · have hk := kind_description.2 hd
      have hopen := ih.isOpen.1 rfl
      obtain ⟨g1, g2⟩ := describeLast_spec (d := d) hlast
      have hnl : ¬ IsLine t := line_not hk (by simp)
      refine ⟨?_, ?_, ?_⟩
      · rw [open_snoc]
        have a2 : ¬ b!":62" <+: t := fun hh => by have := kind_closing.2 hh; rw [hk] at this; simp at this
        simp [hopen, a2]
      · rw [List.filter_append]
        simp only [List.filter_cons, hnl, decide_false, List.filter_nil]
        simp only [Bool.false_eq_true, if_false, List.append_nil]
        rw [hm, List.forall₂_iff_get]
        refine ⟨by rw [g1]; exact ih.lines.length_eq, ?_⟩
        intro i hi hi'
        have hi2 : i < m.transactions.length := by rw [← ih.lines.length_eq]; exact hi
        have e1 := (List.forall₂_iff_get.1 ih.lines).2 i hi hi2
        have e2 := g2 i
        rw [List.getElem?_eq_getElem hi', List.getElem?_eq_getElem hi2] at e2
        simp only [Option.map_some, Option.some.injEq] at e2
        simp only [List.get_eq_getElem] at e1 ⊢
        rw [e2]
        split
        · exact e1
        · exact e1
      · intro i q hq d'
        rw [hm, g2 i] at hq
        simp only [Option.map_eq_some_iff] at hq
        obtain ⟨q0, hq0, hq⟩ := hq
        have hold := ih.descriptions i q0 hq0 d'
        rw [describes_snoc, hlen]
        by_cases hi : i + 1 = m.transactions.length
        · rw [if_pos hi] at hq
          subst hq
          have hnone : q0.description = none := by
            unfold lastDescription at hlast
            rw [List.getLast?_eq_getElem?, show m.transactions.length - 1 = i by omega, hq0] at hlast
            simpa using hlast
          simp only [hnone, reduceCtorEq, false_iff] at hold
          simp only [Option.some.injEq]
          constructor
          · rintro rfl
            exact .inr ⟨hd, hopen, hc, hi.symm⟩
          · rintro (hh | ⟨_, _, hh, _⟩)
            · exact absurd hh hold
            · rw [hc] at hh
              simpa using hh
        · rw [if_neg hi] at hq
          subst hq
          rw [hold]
          constructor
          · exact .inl
          · rintro (hh | ⟨_, _, _, hh⟩)
            · exact hh
            · exact absurd hh.symm hi
    · have hk := kind_description.2 hd
      have hno : ¬ Open ts := fun hh => by have := ih.isOpen.2 hh; simp at this
      refine ih.keep (line_not hk (by simp)) (fun hh => hno hh.2) ?_ hm
      have a1 : ¬ b!":60" <+: t := fun hh => by have := kind_starting.2 hh; rw [hk] at this; simp at this
      rw [open_snoc]
      simp [a1, hno]
    · have hk := kind_starting.2 hs
      refine ih.keep (line_not hk (by simp)) (fun hh => descr_not hk (by simp) hh.1) ?_ hm
      rw [open_snoc]
      simp [hs]
    · have hk := kind_closing.2 hs
      refine ih.keep (line_not hk (by simp)) (fun hh => descr_not hk (by simp) hh.1) ?_ hm
      have a1 : ¬ b!":60" <+: t := fun hh => by have := kind_starting.2 hh; rw [hk] at this; simp at this
      rw [open_snoc]
      simp [hs, a1]
    · refine ih.keep (fun hh => h1 (kind_transaction.2 hh)) (fun hh => h2 (kind_description.2 hh.1)) ?_ hm
      have a1 : ¬ b!":60" <+: t := fun hh => h3 (kind_starting.2 hh)
      have a2 : ¬ b!":62" <+: t := fun hh => h4 (kind_closing.2 hh)
      rw [open_snoc, ih.isOpen]
      simp [a1, a2]

theorem message_reads {L : Lib} {raw : Bytes} {tags : List Bytes} {m : MT940 L.F} (ht : extractTags raw = .ok tags)
    (h : unmarshalMessage L raw = .done m true) : ∃ o, Reads L tags m o := by
  unfold unmarshalMessage at h
  rw [ht] at h
  cases tags with
  | nil => simp at h
  | cons t ts =>
    simp only at h
    obtain ⟨o, hr⟩ := reads_of (.nil) h
    exact ⟨o, by simpa using hr⟩

/-! ## Theorems -/

/-- C39: an accepted message has one transaction for each of its statement lines, in their
order; a transaction has exactly the description that follows its line before the next line
and before the closing balance. -/
theorem C39_lines {L : Lib} {raw : Bytes} {tags : List Bytes} {m : MT940 L.F} (ht : extractTags raw = .ok tags)
    (h : unmarshalMessage L raw = .done m true) :
    List.Forall₂ (fun t q => unmarshalTransaction L t = .ok q.transaction) (tags.filter IsLine) m.transactions ∧
    ∀ i q, m.transactions[i]? = some q → ∀ d, q.description = some d ↔ Describes tags i d := by
  obtain ⟨o, hr⟩ := message_reads ht h
  exact ⟨hr.inv.lines, hr.inv.descriptions⟩

theorem joinLines_eq : ∀ ls : List Str, joinLines ls = c!" ".intercalate ls
  | [] => rfl
  | [l] => by simp [joinLines, List.intercalate]
  | l :: k :: ls => by
    have := joinLines_eq (k :: ls)
    rw [joinLines, this]
    · simp [List.intercalate, List.intersperse]
    · simp

/-- C39: the account transactions of a message are its transactions, in their order, with the
dates of their lines and the texts of their descriptions. -/
theorem C39_transactions {L : Lib} {m : MT940 L.F} {txs : List (Transaction L.F)} (h : accountTransactions L m = .ok txs) :
    txs.length = m.transactions.length ∧ ∀ (i : Nat) (q : Sequence L.F), m.transactions[i]? = some q →
      ∃ x : Transaction L.F, txs[i]? = some x ∧
      x.valutaDate = q.transaction.valutaDate ∧ x.bookingDate = q.transaction.bookingDate ∧
      (q.description = none → x.name = [] ∧ x.purpose = [] ∧ x.purpose2 = [] ∧ x.bookingText = [] ∧ x.otherAccount = [] ∧
        x.otherBank = [] ∧ x.transactionID = 0) ∧
      (∀ d : CustomField, q.description = some d → x.name = d.name ∧ x.bookingText = d.bookingText ∧
        x.otherAccount = d.accountID ∧ x.otherBank = d.bankID ∧ x.transactionID = d.transactionID ∧
        x.purpose = c!" ".intercalate d.purpose ∧ x.purpose2 = c!" ".intercalate d.purpose2) := by
  constructor
  · unfold accountTransactions at h
    split at h
    · simp at h
    · split at h
      · rename_i he
        simp only [Outcome.ok.injEq] at h
        subst h
        simp at he
        simp [he]
      · split at h
        · simp only [Outcome.ok.injEq] at h
          subst h
          simp
        · simp at h
  · intro i q hq
    obtain ⟨a, s, c, _, _, _, hx⟩ := transactions_at h hq
    refine ⟨_, hx, rfl, rfl, ?_, ?_⟩
    · intro hd
      simp [transactionOf, hd, joinLines]
    · intro d hd
      simp [transactionOf, hd, joinLines_eq]

/-- C39: a message with a second description for the same line is not accepted. -/
theorem C39_second {L : Lib} {raw : Bytes} {a b c e : List Bytes} {x y z : Bytes}
    (ht : extractTags raw = .ok (a ++ x :: b ++ y :: c ++ z :: e)) (hx : IsLine x) (hb : ∀ t ∈ b ++ c, ¬ IsLine t)
    (hy : IsDescription y) (hz : IsDescription z) (ho : Open (a ++ x :: b)) (hc : ∀ t ∈ c, ¬ b!":62" <+: t) (m : MT940 L.F) :
    unmarshalMessage L raw ≠ .done m true := by
  intro h
  obtain ⟨o, hr⟩ := message_reads ht h
  obtain ⟨m1, o1, m2, o2, h1, _⟩ := hr.prefix (a := a ++ x :: b) (t := y) (b := c ++ z :: e) (by simp)
  obtain ⟨m3, o3, m4, o4, h3, h4⟩ := hr.prefix (a := a ++ x :: b ++ y :: c) (t := z) (b := e) (by simp)
  obtain ⟨m5, o5, m6, o6, h5, h6⟩ := h3.prefix (a := a ++ x :: b) (t := y) (b := c) rfl
  have ho5 : o5 = true := h5.inv.isOpen.2 ho
  -- the first description was accepted
  have hd : ∃ d, unmarshalCustom (spareOf y) y = .ok d := by
    rcases readTag_next h6 with ⟨hl, _⟩ | ⟨_, _, ⟨d, hd, _⟩, _⟩ | ⟨_, ho', _⟩ | ⟨hs, _⟩ | ⟨hs, _⟩ | ⟨_, hk, _⟩
    · exact absurd hl (line_not (kind_description.2 hy) (by simp))
    · exact ⟨d, hd⟩
    · rw [ho5] at ho'; simp at ho'
    · exact absurd hy (descr_not (kind_starting.2 hs) (by simp))
    · exact absurd hy (descr_not (kind_closing.2 hs) (by simp))
    · exact absurd (kind_description.2 hy) hk
  obtain ⟨d, hd⟩ := hd
  have inv3 := h3.inv
  have hdes : Describes (a ++ x :: b ++ y :: c) ((a.filter IsLine).length) d :=
    ⟨a, x, b, y, c, rfl, hx, fun t ht => hb t (by simp [ht]), hy, ho, rfl, hd⟩
  have hopen : Open (a ++ x :: b ++ y :: c) := by
    obtain ⟨p, s, q, hpq, hs, hq⟩ := ho
    refine ⟨p, s, q ++ y :: c, by rw [hpq]; simp, hs, ?_⟩
    intro t ht
    simp only [List.mem_append, List.mem_cons] at ht
    rcases ht with ht | rfl | ht
    · exact hq t ht
    · intro hh
      exact descr_not (kind_closing.2 hh) (by simp) hy
    · exact hc t ht
  have hcount : ((a ++ x :: b ++ y :: c).filter IsLine).length = (a.filter IsLine).length + 1 := by
    have e1 : b.filter (fun t => decide (IsLine t)) = [] := by
      rw [List.filter_eq_nil_iff]
      intro t ht
      simpa using hb t (by simp [ht])
    have e2 : c.filter (fun t => decide (IsLine t)) = [] := by
      rw [List.filter_eq_nil_iff]
      intro t ht
      simpa using hb t (by simp [ht])
    have e3 : ¬ IsLine y := line_not (kind_description.2 hy) (by simp)
    simp [List.filter_append, e1, e2, e3, hx]
  have hlen := inv3.lines.length_eq
  rw [hcount] at hlen
  -- the last transaction has a description
  have hlt : (a.filter IsLine).length < m3.transactions.length := by omega
  have hq := inv3.descriptions _ _ (List.getElem?_eq_getElem hlt) d
  have hdesc := hq.2 hdes
  rcases readTag_next h4 with ⟨hl, _⟩ | ⟨_, _, ⟨d', _, hlast, _⟩, _⟩ | ⟨_, ho', _⟩ | ⟨hs, _⟩ | ⟨hs, _⟩ | ⟨_, hk, _⟩
  · exact absurd hl (line_not (kind_description.2 hz) (by simp))
  · unfold lastDescription at hlast
    rw [List.getLast?_eq_getElem?, show m3.transactions.length - 1 = (a.filter IsLine).length by omega,
      List.getElem?_eq_getElem hlt] at hlast
    simp only [Option.map_some, Option.some.injEq] at hlast
    rw [hlast] at hdesc
    simp at hdesc
  · rw [inv3.isOpen.2 hopen] at ho'; simp at ho'
  · exact absurd hz (descr_not (kind_starting.2 hs) (by simp))
  · exact absurd hz (descr_not (kind_closing.2 hs) (by simp))
  · exact absurd (kind_description.2 hz) hk

/-- C39: a message with a description after the starting balance and before any line is not
accepted. -/
theorem C39_orphan {L : Lib} {raw : Bytes} {a b : List Bytes} {z : Bytes} (ht : extractTags raw = .ok (a ++ z :: b))
    (ha : ∀ t ∈ a, ¬ IsLine t) (ho : Open a) (hz : IsDescription z) (m : MT940 L.F) : unmarshalMessage L raw ≠ .done m true := by
  intro h
  obtain ⟨o, hr⟩ := message_reads ht h
  obtain ⟨m3, o3, m4, o4, h3, h4⟩ := hr.prefix rfl
  have hlen := h3.inv.lines.length_eq
  have e1 : a.filter (fun t => decide (IsLine t)) = [] := by
    rw [List.filter_eq_nil_iff]
    simpa using ha
  rw [e1] at hlen
  rcases readTag_next h4 with ⟨hl, _⟩ | ⟨_, _, ⟨d', _, hlast, _⟩, _⟩ | ⟨_, ho', _⟩ | ⟨hs, _⟩ | ⟨hs, _⟩ | ⟨_, hk, _⟩
  · exact absurd hl (line_not (kind_description.2 hz) (by simp))
  · have : m3.transactions = [] := List.length_eq_zero_iff.1 hlen.symm
    simp [lastDescription, this] at hlast
  · rw [h3.inv.isOpen.2 ho] at ho'; simp at ho'
  · exact absurd hz (descr_not (kind_starting.2 hs) (by simp))
  · exact absurd hz (descr_not (kind_closing.2 hs) (by simp))
  · exact absurd (kind_description.2 hz) hk

/-- C39: a message with a tag of another kind is not accepted. -/
theorem C39_unknown {L : Lib} {raw : Bytes} {tags : List Bytes} {t : Bytes} (ht : extractTags raw = .ok tags) (hmem : t ∈ tags)
    (hu : ∀ p ∈ [b!":20:", b!":21:", b!":25:", b!":28C:", b!":60", b!":62", b!":64:", b!":65:", b!":61:", b!":86:"],
      ¬ p <+: t) (m : MT940 L.F) : unmarshalMessage L raw ≠ .done m true := by
  intro h
  obtain ⟨o, hr⟩ := message_reads ht h
  obtain ⟨a, b, rfl⟩ := List.append_of_mem hmem
  obtain ⟨m3, o3, m4, o4, h3, h4⟩ := hr.prefix rfl
  have hk := kind_unknown.2 hu
  unfold readTag at h4
  rw [hk] at h4
  simp at h4

/-! ## Accounts and balances -/

/-- The last of the tags that begin with `p`. -/
def LastOf (p : Bytes) (ts : List Bytes) (t : Bytes) : Prop := ∃ a b, ts = a ++ t :: b ∧ p <+: t ∧ ∀ u ∈ b, ¬ p <+: u

theorem lastOf_snoc {p : Bytes} {ts : List Bytes} {t u : Bytes} :
    LastOf p (ts ++ [u]) t ↔ (p <+: u ∧ t = u) ∨ (¬ p <+: u ∧ LastOf p ts t) := by
  constructor
  · rintro ⟨a, b, h, hs, hb⟩
    rcases List.eq_nil_or_concat b with rfl | ⟨b', z, rfl⟩
    · obtain ⟨rfl, h2⟩ := List.append_inj' h rfl
      simp only [List.cons.injEq, and_true] at h2
      subst h2
      exact .inl ⟨hs, rfl⟩
    · rw [show a ++ t :: (b'.concat z) = (a ++ t :: b') ++ [z] by simp] at h
      obtain ⟨h1, h2⟩ := List.append_inj' h rfl
      simp only [List.cons.injEq, and_true] at h2
      subst h2
      exact .inr ⟨hb u (by simp), a, b', h1, hs, fun x hx => hb x (by simp [hx])⟩
  · rintro (⟨h, rfl⟩ | ⟨h, a, b, rfl, hs, hb⟩)
    · exact ⟨ts, [], rfl, h, by simp⟩
    · refine ⟨a, b ++ [u], by simp, hs, ?_⟩
      intro x hx
      simp only [List.mem_append, List.mem_singleton] at hx
      rcases hx with hx | rfl
      · exact hb x hx
      · exact h

/-- Account and balances after reading some tags. -/
structure Inv2 (L : Lib) (ts : List Bytes) (m : MT940 L.F) : Prop where
  account : ∀ a, m.account = some a ↔ ∃ t, LastOf b!":25:" ts t ∧ unmarshalAccount t = .ok a
  starting : ∀ s, m.startingBalance = some s ↔ ∃ t, LastOf b!":60" ts t ∧ unmarshalBalance L t = .ok s
  closing : ∀ s, m.closingBalance = some s ↔ ∃ t, LastOf b!":62" ts t ∧ unmarshalBalance L t = .ok s

theorem readTag_fields {L : Lib} {m m' : MT940 L.F} {o o' : Bool} {t : Bytes} (h : readTag L m o t = .next m' o') :
    (m'.account = m.account ∨ kindOf t = .account) ∧ (m'.startingBalance = m.startingBalance ∨ kindOf t = .starting) ∧
    (m'.closingBalance = m.closingBalance ∨ kindOf t = .closing) ∧
    (kindOf t = .account → ∃ a, unmarshalAccount t = .ok a ∧ m'.account = some a) ∧
    (kindOf t = .starting → ∃ a, unmarshalBalance L t = .ok a ∧ m'.startingBalance = some a) ∧
    (kindOf t = .closing → ∃ a, unmarshalBalance L t = .ok a ∧ m'.closingBalance = some a) := by
  unfold readTag at h
  split at h
  case h_9 hk =>
    rw [hk]
    split at h
    · simp at h
    · simp at h
    · split at h
      · split at h
        · simp at h
        · simp at h
        · simp only [TagRes.next.injEq] at h
          obtain ⟨rfl, rfl⟩ := h
          simp
      · simp only [TagRes.next.injEq] at h
        obtain ⟨rfl, rfl⟩ := h
        simp
  case h_11 => simp at h
  all_goals
    rename_i hk
    rw [hk]
    obtain ⟨a, h1, rfl, rfl⟩ := store_next h
    simp [h1]

theorem last_step {α : Type} {p : Bytes} {ts : List Bytes} {t : Bytes} {old new : Option α} {parse : Bytes → Outcome α}
    {k : Kinds} (hk : kindOf t = k ↔ p <+: t) (hold : ∀ a, old = some a ↔ ∃ t, LastOf p ts t ∧ parse t = .ok a)
    (hkeep : new = old ∨ kindOf t = k) (hnew : kindOf t = k → ∃ a, parse t = .ok a ∧ new = some a) (a : α) :
    new = some a ↔ ∃ u, LastOf p (ts ++ [t]) u ∧ parse u = .ok a := by
  by_cases h : kindOf t = k
  · obtain ⟨b, hb, rfl⟩ := hnew h
    simp only [lastOf_snoc, hk.1 h, true_and, not_true_eq_false, false_and, or_false, exists_eq_left, hb, Option.some.injEq,
      Outcome.ok.injEq]
  · have hn : ¬ p <+: t := fun hh => h (hk.2 hh)
    simp only [lastOf_snoc, hn, false_and, not_false_eq_true, true_and, false_or]
    rw [hkeep.resolve_right h]
    exact hold a

theorem Reads.inv2 {L : Lib} {ts : List Bytes} {m : MT940 L.F} {o : Bool} (h : Reads L ts m o) : Inv2 L ts m := by
  induction h with
  | nil => constructor <;> simp [LastOf]
  | snoc hr ht ih =>
    obtain ⟨k1, k2, k3, n1, n2, n3⟩ := readTag_fields ht
    exact ⟨last_step kind_account ih.account k1 n1, last_step kind_starting ih.starting k2 n2,
      last_step kind_closing ih.closing k3 n3⟩

/-- C78: the transactions of an accepted message carry the bank and account of its last `:25:`
tag, and as balances before and after the amounts of its last starting and closing balances.
The indicators of the balances are not used: an overdrawn account is reported with a positive
balance. -/
theorem C78_balances {L : Lib} {raw : Bytes} {tags : List Bytes} {m : MT940 L.F} (ht : extractTags raw = .ok tags)
    (h : unmarshalMessage L raw = .done m true) {txs : List (Transaction L.F)} (hx : accountTransactions L m = .ok txs)
    {x : Transaction L.F} (hmem : x ∈ txs) :
    ∃ ta tb tc a s c, LastOf b!":25:" tags ta ∧ LastOf b!":60" tags tb ∧ LastOf b!":62" tags tc ∧ unmarshalAccount ta = .ok a ∧
      unmarshalBalance L tb = .ok s ∧ unmarshalBalance L tc = .ok c ∧
      x.bankCode = a.bankID ∧ x.accountNumber = a.accountID ∧ x.currency = s.currency ∧
      x.before = s.amount ∧ x.beforeDate = s.bookingDate ∧
      x.after = c.amount ∧ x.afterCurrency = c.currency ∧ x.afterDate = c.bookingDate := by
  obtain ⟨o, hr⟩ := message_reads ht h
  obtain ⟨i, hi, rfl⟩ := List.getElem_of_mem hmem
  have hlen := (C39_transactions hx).1
  obtain ⟨a, s, c, h1, h2, h3, h4⟩ := transactions_at hx (List.getElem?_eq_getElem (hlen ▸ hi))
  obtain ⟨ta, k1, k2⟩ := (hr.inv2.account a).1 h1
  obtain ⟨tb, k3, k4⟩ := (hr.inv2.starting s).1 h2
  obtain ⟨tc, k5, k6⟩ := (hr.inv2.closing c).1 h3
  have e : txs[i] = transactionOf L a s c (m.transactions[i]'(hlen ▸ hi)) := by
    rw [List.getElem?_eq_getElem hi] at h4
    simpa using h4
  rw [e]
  exact ⟨ta, tb, tc, a, s, c, k1, k3, k5, k2, k4, k6, rfl, rfl, rfl, rfl, rfl, rfl, rfl, rfl⟩

/-- C78: the fields of a balance are cut at the right places. -/
theorem C78_fields {L : Lib} (h1 : 1000 ≤ L.year) (h2 : L.year ≤ 9999) {id date cur whole frac : Bytes} {ind : Byte} {t : Civil}
    {a : L.F} (hid : 58 ∉ id) (hd : date.length = 6) (hdate : IsDate (L.year / 100 * 100) date t) (hc : cur.length = 3)
    (hw : 44 ∉ whole) (ha : L.parseFloat (whole ++ b!"." ++ frac) = some a) :
    unmarshalBalance L (b!":" ++ id ++ b!":" ++ [ind] ++ date ++ cur ++ whole ++ b!"," ++ frac) =
      .ok ⟨b!":" ++ id ++ b!":", [ind], t, cur, a⟩ := by
  have e : b!":" ++ id ++ b!":" ++ [ind] ++ date ++ cur ++ whole ++ b!"," ++ frac =
      58 :: (id ++ 58 :: (ind :: (date ++ (cur ++ (whole ++ b!"," ++ frac))))) := by simp
  have hp : ∀ x ∈ id, (fun b : Byte => b != 58) x = true := by
    intro x hx
    simp only [bne_iff_ne, ne_eq]
    rintro rfl
    exact hid hx
  have ht : tagElements (58 :: (id ++ 58 :: (ind :: (date ++ (cur ++ (whole ++ b!"," ++ frac)))))) =
      .ok (b!":" ++ id ++ b!":", ind :: (date ++ (cur ++ (whole ++ b!"," ++ frac)))) := by
    unfold tagElements
    simp only
    rw [List.dropWhile_append_of_pos hp, List.takeWhile_append_of_pos hp]
    simp
  have hr : replaceFirst 44 46 (whole ++ b!"," ++ frac) = whole ++ b!"." ++ frac := by
    rw [List.append_assoc, replaceFirst_skip hw]
    simp [replaceFirst]
  have pd := (C42_six h1 h2 hd t).1.2 (.inl hdate)
  unfold unmarshalBalance
  rw [e, ht]
  simp only [Outcome.bind, List.drop_succ_cons, List.drop_zero, List.take_succ_cons, List.take_zero]
  rw [List.take_left' hd, List.drop_left' hd, pd]
  simp only [List.drop_left' hc, List.take_left' hc, hr, ha, Outcome.ofOption]

/-! ## Statements -/

theorem statementLoop_ok {L : Lib} : ∀ {ms : List Bytes} {acc : List (Transaction L.F)} {failed : Bool} {txs : List (Transaction L.F)},
    statementLoop L ms acc failed = .ok txs ↔ failed = false ∧ ∃ parts : List (List (Transaction L.F)),
      List.Forall₂ (fun m p => ∃ mt, unmarshalMessage L m = .done mt true ∧ accountTransactions L mt = .ok p) ms parts ∧
      txs = acc ++ parts.flatten
  | [], acc, failed, txs => by
    unfold statementLoop
    cases failed with
    | true => simp
    | false => simp [eq_comm]
  | m :: ms, acc, failed, txs => by
    unfold statementLoop
    split
    · rename_i hp
      simp only [reduceCtorEq, false_iff, not_and, not_exists]
      rintro _ parts hf
      cases hf with
      | cons h _ => obtain ⟨mt, h1, _⟩ := h; rw [hp] at h1; simp at h1
    · rename_i mt ok hm
      split
      · rename_i p hp
        rw [statementLoop_ok]
        constructor
        · rintro ⟨hf, parts, h1, h2⟩
          simp only [Bool.or_eq_false_iff, Bool.not_eq_false'] at hf
          obtain ⟨rfl, rfl⟩ := hf
          exact ⟨rfl, p :: parts, .cons ⟨mt, hm, hp⟩ h1, by simp [h2]⟩
        · rintro ⟨rfl, parts, h1, h2⟩
          cases h1 with
          | cons h h1 =>
            obtain ⟨mt', k1, k2⟩ := h
            rw [hm] at k1
            simp only [Read.done.injEq] at k1
            obtain ⟨rfl, rfl⟩ := k1
            rw [hp] at k2
            simp only [Outcome.ok.injEq] at k2
            subst k2
            exact ⟨rfl, _, h1, by simp [h2]⟩
      · rename_i hp
        simp only [reduceCtorEq, false_iff, not_and, not_exists]
        rintro _ parts hf
        cases hf with
        | cons h _ =>
          obtain ⟨mt', h1, h2⟩ := h
          rw [hm] at h1
          simp only [Read.done.injEq] at h1
          obtain ⟨rfl, _⟩ := h1
          exact absurd h2 (hp _)

theorem accountTransactions_panic {L : Lib} {m : MT940 L.F} : accountTransactions L m = .panic ↔
    m.account = none ∨ (m.transactions ≠ [] ∧ (m.startingBalance = none ∨ m.closingBalance = none)) := by
  unfold accountTransactions
  cases m.account with
  | none => simp
  | some a =>
    simp only [reduceCtorEq, false_or]
    cases m.transactions with
    | nil => simp
    | cons t ts => cases m.startingBalance <;> cases m.closingBalance <;> simp

theorem accountTransactions_err {L : Lib} {m : MT940 L.F} : accountTransactions L m ≠ .err := by
  unfold accountTransactions
  split
  · simp
  · split
    · simp
    · split <;> simp

/-- What makes a message crash the parser. -/
def Crashes (L : Lib) (msg : Bytes) : Prop :=
  unmarshalMessage L msg = .panic ∨ ∃ m ok, unmarshalMessage L msg = .done m ok ∧
    (m.account = none ∨ (m.transactions ≠ [] ∧ (m.startingBalance = none ∨ m.closingBalance = none)))

theorem statementLoop_panic {L : Lib} : ∀ {ms : List Bytes} {acc : List (Transaction L.F)} {failed : Bool},
    statementLoop L ms acc failed = .panic ↔ ∃ m ∈ ms, Crashes L m
  | [], acc, failed => by
    unfold statementLoop
    cases failed <;> simp
  | m :: ms, acc, failed => by
    unfold statementLoop
    split
    · rename_i hp
      simp only [true_iff]
      exact ⟨m, by simp, .inl hp⟩
    · rename_i mt ok hm
      have hc : Crashes L m ↔ accountTransactions L mt = .panic := by
        rw [accountTransactions_panic]
        unfold Crashes
        rw [hm]
        simp
      split
      · rename_i p hp
        rw [statementLoop_panic]
        have : ¬ Crashes L m := by rw [hc, hp]; simp
        simp [this]
      · rename_i hp
        simp only [true_iff]
        refine ⟨m, by simp, hc.2 ?_⟩
        cases hh : accountTransactions L mt with
        | ok p => exact absurd hh (hp p)
        | err => exact absurd hh accountTransactions_err
        | panic => rfl

/-- C77: a statement is accepted exactly if each of its messages is; its transactions are those
of the messages, in their order. -/
theorem C77_accepted {L : Lib} {raw : Bytes} {ms : List Bytes} (h : extractMessages raw = .ok ms) (txs : List (Transaction L.F)) :
    unmarshalMT940 L raw = .ok txs ↔ ∃ parts : List (List (Transaction L.F)),
      List.Forall₂ (fun m p => ∃ mt, unmarshalMessage L m = .done mt true ∧ accountTransactions L mt = .ok p) ms parts ∧
      txs = parts.flatten := by
  unfold unmarshalMT940
  rw [h]
  simp [statementLoop_ok]

/-- C77: reading a statement crashes exactly if reading one of its messages crashes, or leaves
no account, or leaves transactions without starting or closing balance; an error in the
message does not prevent this. -/
theorem C77_crash {L : Lib} {raw : Bytes} {ms : List Bytes} (h : extractMessages raw = .ok ms) :
    unmarshalMT940 L raw = .panic ↔ ∃ m ∈ ms, Crashes L m := by
  unfold unmarshalMT940
  rw [h]
  exact statementLoop_panic

theorem store_account {F α : Type} {r : Outcome α} {e : MT940 F} {set : α → MT940 F} {o : Bool} {x : Option AccountTag}
    (he : e.account = x) (hs : ∀ a, (set a).account = x) :
    (∀ m' o', store r e set o = .next m' o' → m'.account = x) ∧ (∀ m', store r e set o = .fail m' → m'.account = x) := by
  unfold store
  split
  · refine ⟨fun m' o' h => ?_, fun m' h => by simp at h⟩
    simp only [TagRes.next.injEq] at h
    rw [← h.1]
    exact hs _
  · refine ⟨fun m' o' h => by simp at h, fun m' h => ?_⟩
    simp only [TagRes.fail.injEq] at h
    rw [← h]
    exact he
  · exact ⟨fun m' o' h => by simp at h, fun m' h => by simp at h⟩

theorem readTag_account {L : Lib} {m : MT940 L.F} {o : Bool} {t : Bytes} (ht : ¬ b!":25:" <+: t) :
    (∀ m' o', readTag L m o t = .next m' o' → m'.account = m.account) ∧
    (∀ m', readTag L m o t = .fail m' → m'.account = m.account) := by
  have hk : kindOf t ≠ .account := fun hh => ht (kind_account.1 hh)
  unfold readTag
  split
  case h_2 hh => exact absurd hh hk
  case h_9 =>
    split
    · simp
    · simp
    · split
      · split <;> simp
      · simp
  case h_11 => simp
  all_goals exact store_account rfl (fun _ => rfl)

theorem readTags_account {L : Lib} : ∀ {ts : List Bytes} {m m' : MT940 L.F} {o ok : Bool}, (∀ t ∈ ts, ¬ b!":25:" <+: t) →
    readTags L ts m o = .done m' ok → m'.account = m.account
  | [], m, m', o, ok, _, h => by
    simp only [readTags, Read.done.injEq] at h
    rw [h.1]
  | t :: ts, m, m', o, ok, hn, h => by
    have ht := readTag_account (L := L) (m := m) (o := o) (hn t (by simp))
    unfold readTags at h
    split at h
    · rename_i m1 o1 h1
      rw [readTags_account (fun x hx => hn x (by simp [hx])) h]
      exact ht.1 m1 o1 h1
    · rename_i m1 h1
      simp only [Read.done.injEq] at h
      rw [← h.1]
      exact ht.2 m1 h1
    · simp at h

/-- C77: a message without an account, or one whose tags cannot be separated, crashes the
parser, whatever the other messages are. -/
theorem C77_no_account {L : Lib} {raw : Bytes} {ms : List Bytes} (h : extractMessages raw = .ok ms) {msg : Bytes} (hm : msg ∈ ms)
    (hn : ∀ tags, extractTags msg = .ok tags → ∀ t ∈ tags, ¬ b!":25:" <+: t) : unmarshalMT940 L raw = .panic := by
  rw [C77_crash h]
  refine ⟨msg, hm, ?_⟩
  cases hu : unmarshalMessage L msg with
  | panic => exact .inl hu
  | done m ok =>
    refine .inr ⟨m, ok, hu, .inl ?_⟩
    unfold unmarshalMessage at hu
    split at hu
    · simp only [Read.done.injEq] at hu
      rw [← hu.1]
    · rename_i tags _ ht
      exact readTags_account (hn _ ht) hu
    · simp only [Read.done.injEq] at hu
      rw [← hu.1]
    · simp at hu

/-! ## Examples -/

def sampleTags : List Spec.Tag :=
  [⟨b!":20:", b!"X"⟩, ⟨b!":25:", b!"10020030/1234567"⟩, ⟨b!":60F:", b!"D260101EUR5,00"⟩,
   ⟨b!":61:", b!"2601020102D12,50NMSCX"⟩, ⟨b!":61:", b!"2601020102C2,50NMSCX"⟩, ⟨b!":86:", b!"166?00GUT?20A?32N"⟩,
   ⟨b!":62F:", b!"C260102EUR5,00"⟩, ⟨b!":86:", b!"999"⟩]

def sampleMessage : Bytes := Spec.wire sampleTags

set_option maxRecDepth 20000 in
/-- A message with two lines of which the second has a description. -/
example : extractTags sampleMessage = .ok (sampleTags.map fun t => t.id ++ t.value) := by decide +kernel

/-- Indicators, names and balances of the transactions of a message. -/
def summary (r : Read sampleLib.F) : List (Str × Option Str) × Bool :=
  match r with
  | .done m ok => (m.transactions.map fun q => (q.transaction.indicator, q.description.map (·.name)), ok)
  | .panic => ([], false)

set_option maxRecDepth 20000 in
example : summary (unmarshalMessage sampleLib sampleMessage) = ([(c!"D", none), (c!"C", some c!"N")], true) := by decide +kernel

/-- Two descriptions for one line, and a description before any line. -/
example : summary (unmarshalMessage sampleLib b!"\r\n:60F:D260101EUR5,00\r\n:61:2601020102D12,50NMSCX\r\n:86:166\r\n:86:166\r\n-") =
      ([(c!"D", some [])], false) ∧
    summary (unmarshalMessage sampleLib b!"\r\n:60F:D260101EUR5,00\r\n:86:166\r\n-") = ([], false) := by decide +kernel

/-- The balances of the sample, which begins overdrawn by 5.00. -/
def balances (o : Outcome (List (Transaction sampleLib.F))) : List (Bytes × Bytes × Bytes) :=
  match o with
  | .ok txs => txs.map fun x => ((x.amount : Bytes), (x.before : Bytes), (x.after : Bytes))
  | _ => []

set_option maxRecDepth 20000 in
example : balances (unmarshalMT940 sampleLib sampleMessage) =
    [(b!"-12.50", b!"5.00", b!"5.00"), (b!"2.50", b!"5.00", b!"5.00")] := by decide +kernel

/-- Whether the outcome is a panic. -/
def panics {α : Type} : Outcome α → Bool
  | .panic => true
  | _ => false

set_option maxRecDepth 20000 in
/-- A statement of two messages whose second begins with a tag that is not known. -/
example : panics (unmarshalMT940 sampleLib (sampleMessage ++ b!"\r\n:13:X\r\n:25:1/2\r\n-")) = true := by decide +kernel

end Verif.Swift
