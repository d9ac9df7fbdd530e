import Verif.Swift.DateProps
import Verif.Swift.LineSpec
import Verif.Element.Lemmas
import Verif.Element.MoreLemmas
import Mathlib.Tactic.ByContra

/-
Properties C40, C41 and C43: statement lines.
-/

namespace Verif.Swift

open GoLib Charset Time
open Swift.Spec
open Token.Spec (Digit DigitString value)
open Element.Spec (ExistingDate LeapYear)
open Element (replaceFirst replaceFirst_skip existing_iff)

theorem bind_ok_iff {α β : Type} {x : Outcome α} {f : α → Outcome β} {r : β} :
    x.bind f = .ok r ↔ ∃ a, x = .ok a ∧ f a = .ok r := by
  cases x <;> simp [Outcome.bind]

theorem six_lt : ∀ ds : Bytes, (∀ b ∈ ds, Digit b) → value ds < 10 ^ ds.length := by
  intro ds
  induction ds with
  | nil => simp [value]
  | cons a ds ih =>
    intro hd
    have h1 := ih fun b hb => hd b (by simp [hb])
    have ha := Element.digit_lt (hd a (by simp))
    have : value (a :: ds) = value [a] * 10 ^ ds.length + value ds := by
      rw [show a :: ds = [a] ++ ds from rfl, Element.value_append]
    rw [this]
    have h2 : value [a] = a.toNat - 48 := by simp [value]
    rw [h2, List.length_cons, pow_succ]
    have := Nat.mul_le_mul_right (10 ^ ds.length) ha
    omega

/-! ## Searching -/

theorem indexOf_some {p : Bytes} : ∀ {s : Bytes} {i : Nat}, indexOf p s = some i →
    p <+: s.drop i ∧ i ≤ s.length ∧ ∀ j < i, ¬ p <+: s.drop j
  | [], i, h => by
    unfold indexOf at h
    split at h
    · rename_i hp
      simp only [Option.some.injEq] at h
      subst h
      subst hp
      simp
    · simp at h
  | c :: r, i, h => by
    unfold indexOf at h
    split at h
    · rename_i hp
      simp only [Option.some.injEq] at h
      subst h
      exact ⟨List.isPrefixOf_iff_prefix.1 hp, by simp, by simp⟩
    · rename_i hp
      simp only [Option.map_eq_some_iff] at h
      obtain ⟨k, hk, rfl⟩ := h
      obtain ⟨g1, g2, g3⟩ := indexOf_some hk
      refine ⟨by simpa using g1, by simp; omega, ?_⟩
      intro j hj
      cases j with
      | zero => intro hh; exact hp (List.isPrefixOf_iff_prefix.2 (by simpa using hh))
      | succ j => simpa using g3 j (by omega)

theorem indexOf_none {p : Bytes} (hp : p ≠ []) : ∀ {s : Bytes}, indexOf p s = none → ¬ p <:+: s
  | [], h => by simpa using hp
  | c :: r, h => by
    unfold indexOf at h
    split at h
    · simp at h
    · rename_i hq
      simp only [Option.map_eq_none_iff] at h
      have := indexOf_none hp h
      rw [List.infix_cons_iff]
      rintro (g | g)
      · exact hq (List.isPrefixOf_iff_prefix.2 g)
      · exact this g

theorem infix_drop {p l : Bytes} : p <:+: l ↔ ∃ j, j + p.length ≤ l.length ∧ p <+: l.drop j := by
  constructor
  · rintro ⟨a, b, rfl⟩
    exact ⟨a.length, by simp, by simp⟩
  · rintro ⟨j, _, h⟩
    exact h.isInfix.trans (List.drop_suffix j l).isInfix

theorem prefix_drop_mono {p l m : Bytes} (h : l <+: m) {j : Nat} (hj : j + p.length ≤ l.length) :
    p <+: l.drop j ↔ p <+: m.drop j := by
  obtain ⟨z, rfl⟩ := h
  rw [List.drop_append_of_le_length (by omega)]
  constructor
  · intro h; exact h.trans (List.prefix_append _ _)
  · intro h
    exact List.prefix_of_prefix_length_le h (List.prefix_append _ _) (by simp; omega)

theorem indexOf_iff {p : Bytes} (hp : p ≠ []) {s : Bytes} {i : Nat} :
    indexOf p s = some i ↔ ∃ a b, CutAt p a b s ∧ a.length = i := by
  have pos : 0 < p.length := List.length_pos_iff.2 hp
  have first : ∀ {a b : Bytes}, (p <:+: a ++ p.dropLast ↔ ∃ j < a.length, p <+: (a ++ p ++ b).drop j) := by
    intro a b
    have hpre : a ++ p.dropLast <+: a ++ p ++ b := by
      rw [List.append_assoc, List.prefix_append_right_inj]
      exact (List.dropLast_prefix p).trans (List.prefix_append _ _)
    rw [infix_drop]
    simp only [List.length_append, List.length_dropLast]
    constructor
    · rintro ⟨j, h1, h2⟩
      exact ⟨j, by omega, (prefix_drop_mono hpre (by simp; omega)).1 h2⟩
    · rintro ⟨j, h1, h2⟩
      exact ⟨j, by omega, (prefix_drop_mono hpre (by simp; omega)).2 h2⟩
  constructor
  · intro h
    obtain ⟨⟨z, hz⟩, h2, h3⟩ := indexOf_some h
    have hs : s = s.take i ++ p ++ z := by rw [List.append_assoc, hz, List.take_append_drop]
    have hl : (s.take i).length = i := by simp; omega
    refine ⟨s.take i, z, ⟨hs, ?_⟩, hl⟩
    rw [first (b := z), ← hs, hl]
    rintro ⟨j, hj, hh⟩
    exact h3 j hj hh
  · rintro ⟨a, b, ⟨hs, hf⟩, rfl⟩
    cases hi : indexOf p s with
    | none => exact absurd ⟨a, b, hs.symm⟩ (indexOf_none hp hi)
    | some i =>
      obtain ⟨g1, g2, g3⟩ := indexOf_some hi
      rw [first (b := b), ← hs] at hf
      congr 1
      rcases Nat.lt_trichotomy i a.length with h | h | h
      · exact absurd ⟨i, h, g1⟩ hf
      · exact h
      · exact absurd (by rw [hs]; simp) (g3 _ h)

theorem indexOf_none_iff {p : Bytes} (hp : p ≠ []) {s : Bytes} : indexOf p s = none ↔ ¬ p <:+: s := by
  refine ⟨indexOf_none hp, fun h => ?_⟩
  cases hi : indexOf p s with
  | none => rfl
  | some i =>
    obtain ⟨a, b, ⟨hs, _⟩, _⟩ := (indexOf_iff hp).1 hi
    exact absurd ⟨a, b, hs.symm⟩ h

theorem cut_unique {p a b a' b' s : Bytes} (hp : p ≠ []) (h : CutAt p a b s) (h' : CutAt p a' b' s) : a = a' ∧ b = b' := by
  have h1 := (indexOf_iff hp).2 ⟨a, b, h, rfl⟩
  have h2 := (indexOf_iff hp).2 ⟨a', b', h', rfl⟩
  rw [h1, Option.some.injEq] at h2
  have := h.1.symm.trans h'.1
  rw [List.append_assoc, List.append_assoc] at this
  obtain ⟨g1, g2⟩ := List.append_inj this h2
  exact ⟨g1, List.append_cancel_left g2⟩

theorem cut_absent {p a b s : Bytes} (h : CutAt p a b s) : p <:+: s := ⟨a, b, h.1.symm⟩

theorem refs_of {s : Bytes} {r : References} (h : references s = .ok r) : Refs s r.reference r.bankReference r.additional := by
  unfold references at h
  split at h
  · rename_i ds ai h1 h2
    obtain ⟨a, b, hd, rfl⟩ := (indexOf_iff (by simp)).1 h1
    obtain ⟨x, y, ha, rfl⟩ := (indexOf_iff (by simp)).1 h2
    have e : a ++ [47, 47] ++ b = x ++ [13, 10, 47] ++ y := hd.1.symm.trans ha.1
    split at h
    · rename_i hlt
      split at h
      · simp at h
      · rename_i hge
        simp only [Outcome.ok.injEq] at h
        subst h
        -- the bank reference lies between
        obtain ⟨m, rfl⟩ : ∃ m, x = a ++ [47, 47] ++ m := by
          have : a ++ [47, 47] <+: x :=
            List.prefix_of_prefix_length_le (l₃ := s) ⟨b, hd.1.symm⟩ ⟨[13, 10, 47] ++ y, by rw [ha.1]; simp⟩ (by simp; omega)
          obtain ⟨m, hm⟩ := this
          exact ⟨m, hm.symm⟩
        have hb : b = m ++ [13, 10, 47] ++ y := by
          simpa [List.append_assoc] using e
        subst hb
        have : Refs s a m y := .both hd ha
        have e1 : s.take a.length = a := by rw [hd.1]; simp
        have e2 : (s.take (a ++ [47, 47] ++ m).length).drop (a.length + 2) = m := by
          have : s.take (a ++ [47, 47] ++ m).length = a ++ [47, 47] ++ m := by
            rw [ha.1, List.append_assoc (a ++ [47, 47] ++ m), List.take_left']
            rfl
          rw [this, List.drop_left']
          simp
        have e3 : s.drop ((a ++ [47, 47] ++ m).length + 3) = y := by
          rw [ha.1, List.drop_left']
          simp
          omega
        rw [e1, e2, e3]
        exact this
    · rename_i hlt
      split at h
      · simp at h
      · rename_i hge
        simp only [Outcome.ok.injEq] at h
        subst h
        obtain ⟨m, rfl⟩ : ∃ m, a = x ++ [13, 10, 47] ++ m := by
          have : x ++ [13, 10, 47] <+: a :=
            List.prefix_of_prefix_length_le (l₃ := s) ⟨y, ha.1.symm⟩ ⟨[47, 47] ++ b, by rw [hd.1]; simp⟩ (by simp; omega)
          obtain ⟨m, hm⟩ := this
          exact ⟨m, hm.symm⟩
        have hy : y = m ++ [47, 47] ++ b := by
          simpa [List.append_assoc] using e.symm
        subst hy
        have : Refs s (x ++ [13, 10, 47] ++ m) m b := .swapped ha hd
        have e1 : s.take (x ++ [13, 10, 47] ++ m).length = x ++ [13, 10, 47] ++ m := by
          rw [hd.1, List.append_assoc (x ++ [13, 10, 47] ++ m), List.take_left']
          rfl
        have e2 : (x ++ [13, 10, 47] ++ m).drop (x.length + 3) = m := by
          rw [List.drop_left']
          simp
        have e3 : s.drop ((x ++ [13, 10, 47] ++ m).length + 2) = b := by
          rw [hd.1, List.drop_left']
          simp
          omega
        rw [e1, e2, e3]
        exact this
  · rename_i ds h1 h2
    obtain ⟨a, b, hd, rfl⟩ := (indexOf_iff (by simp)).1 h1
    have ha := indexOf_none (by simp) h2
    simp only [Outcome.ok.injEq] at h
    subst h
    have e1 : s.take a.length = a := by rw [hd.1]; simp
    have e3 : s.drop (a.length + 2) = b := by rw [hd.1, List.drop_left']; simp
    rw [e1, e3]
    exact .bank hd ha
  · rename_i ai h1 h2
    obtain ⟨x, y, ha, rfl⟩ := (indexOf_iff (by simp)).1 h2
    have hd := indexOf_none (by simp) h1
    simp only [Outcome.ok.injEq] at h
    subst h
    have e1 : s.take x.length = x := by rw [ha.1]; simp
    have e3 : s.drop (x.length + 3) = y := by rw [ha.1, List.drop_left']; simp
    rw [e1, e3]
    exact .info hd ha
  · rename_i h1 h2
    simp only [Outcome.ok.injEq] at h
    subst h
    exact .plain (indexOf_none (by simp) h1) (indexOf_none (by simp) h2)

theorem crash_of {s : Bytes} (h : references s = .panic) : Crash s := by
  unfold references at h
  split at h
  · rename_i ds ai h1 h2
    obtain ⟨a, b, hd, rfl⟩ := (indexOf_iff (by simp)).1 h1
    obtain ⟨x, y, ha, rfl⟩ := (indexOf_iff (by simp)).1 h2
    have e : a ++ [47, 47] ++ b = x ++ [13, 10, 47] ++ y := hd.1.symm.trans ha.1
    have at0 : ∀ (i : Nat), (a ++ [47, 47] ++ b)[i]? = (x ++ [13, 10, 47] ++ y)[i]? := by intro i; rw [e]
    split at h
    · rename_i hlt
      split at h
      · rename_i hge
        have he : x.length = a.length + 1 := by omega
        have := at0 (a.length + 1)
        rw [← he] at this
        simp [he] at this
      · simp at h
    · rename_i hlt
      split at h
      · rename_i hge
        have h0 := at0 a.length
        have hne1 : a.length ≠ x.length := by
          intro he
          rw [he] at h0
          simp [he] at h0
        have hne2 : a.length ≠ x.length + 1 := by
          intro he
          rw [he] at h0
          simp [he] at h0
        have he : a.length = x.length + 2 := by omega
        have hax : a = x ++ [13, 10] := by
          have : a ++ ([47, 47] ++ b) = (x ++ [13, 10]) ++ ([47] ++ y) := by simpa using e
          exact (List.append_inj this (by simp [he])).1
        subst hax
        have : y = 47 :: b := by
          have := e
          simp at this
          exact this.symm
        subst this
        exact ⟨x, b, ha, hd⟩
      · simp at h
  all_goals simp at h

theorem references_never_err (s : Bytes) : references s ≠ .err := by
  unfold references
  split
  · split <;> split <;> simp
  all_goals simp

theorem refs_unique {s r b a : Bytes} (h : Refs s r b a) : ∀ {r' b' a' : Bytes}, Refs s r' b' a' → r' = r ∧ b' = b ∧ a' = a := by
  have n1 : b!"//" ≠ [] := by simp
  have n2 : b!"\r\n/" ≠ [] := by simp
  intro r' b' a' h'
  cases h with
  | plain h1 h2 =>
    cases h' with
    | plain _ _ => exact ⟨rfl, rfl, rfl⟩
    | bank g1 g2 => exact absurd (cut_absent g1) h1
    | info g1 g2 => exact absurd (cut_absent g2) h2
    | both g1 g2 => exact absurd (cut_absent g1) h1
    | swapped g1 g2 => exact absurd (cut_absent g1) h2
  | bank h1 h2 =>
    cases h' with
    | plain g1 _ => exact absurd (cut_absent h1) g1
    | bank g1 g2 => obtain ⟨rfl, rfl⟩ := cut_unique n1 h1 g1; exact ⟨rfl, rfl, rfl⟩
    | info g1 g2 => exact absurd (cut_absent g2) h2
    | both g1 g2 => exact absurd (cut_absent g2) h2
    | swapped g1 g2 => exact absurd (cut_absent g1) h2
  | info h1 h2 =>
    cases h' with
    | plain _ g2 => exact absurd (cut_absent h2) g2
    | bank g1 g2 => exact absurd (cut_absent g1) h1
    | info g1 g2 => obtain ⟨rfl, rfl⟩ := cut_unique n2 h2 g2; exact ⟨rfl, rfl, rfl⟩
    | both g1 g2 => exact absurd (cut_absent g1) h1
    | swapped g1 g2 => exact absurd (cut_absent g2) h1
  | both h1 h2 =>
    cases h' with
    | plain g1 _ => exact absurd (cut_absent h1) g1
    | bank g1 g2 => exact absurd (cut_absent h2) g2
    | info g1 g2 => exact absurd (cut_absent h1) g1
    | both g1 g2 =>
      obtain ⟨rfl, e⟩ := cut_unique n1 h1 g1
      obtain ⟨e2, rfl⟩ := cut_unique n2 h2 g2
      exact ⟨rfl, (List.append_cancel_left e2).symm, rfl⟩
    | swapped g1 g2 =>
      have e1 := congrArg List.length (cut_unique n1 h1 g2).1
      have e2 := congrArg List.length (cut_unique n2 h2 g1).1
      simp at e1 e2
      omega
  | swapped h1 h2 =>
    cases h' with
    | plain g1 _ => exact absurd (cut_absent h2) g1
    | bank g1 g2 => exact absurd (cut_absent h1) g2
    | info g1 g2 => exact absurd (cut_absent h2) g1
    | both g1 g2 =>
      have e1 := congrArg List.length (cut_unique n1 h2 g1).1
      have e2 := congrArg List.length (cut_unique n2 h1 g2).1
      simp at e1 e2
      omega
    | swapped g1 g2 =>
      obtain ⟨rfl, e⟩ := cut_unique n2 h1 g1
      obtain ⟨e2, rfl⟩ := cut_unique n1 h2 g2
      have := List.append_cancel_left e2
      subst this
      exact ⟨rfl, rfl, rfl⟩

theorem crash_not_refs {s r b a : Bytes} (hc : Crash s) (h : Refs s r b a) : False := by
  obtain ⟨x, y, c1, c2⟩ := hc
  have n1 : b!"//" ≠ [] := by simp
  have n2 : b!"\r\n/" ≠ [] := by simp
  cases h with
  | plain h1 h2 => exact h1 (cut_absent c2)
  | bank h1 h2 => exact h2 (cut_absent c1)
  | info h1 h2 => exact h1 (cut_absent c2)
  | both h1 h2 =>
    have e1 := congrArg List.length (cut_unique n1 h1 c2).1
    have e2 := congrArg List.length (cut_unique n2 h2 c1).1
    simp at e1 e2
    omega
  | swapped h1 h2 =>
    have e1 := congrArg List.length (cut_unique n1 h2 c2).1
    have e2 := congrArg List.length (cut_unique n2 h1 c1).1
    simp at e1 e2
    omega

/-- The references of a statement line are divided at `//` and at a line break with a
slash; the parser crashes exactly if these are one. -/
theorem references_iff (s : Bytes) :
    (∀ r b a, references s = .ok ⟨r, b, a⟩ ↔ Refs s r b a) ∧ (references s = .panic ↔ Crash s) := by
  cases h : references s with
  | ok q =>
    have hq := refs_of h
    refine ⟨fun r b a => ⟨?_, fun hr => ?_⟩, ⟨by simp, fun hc => (crash_not_refs hc hq).elim⟩⟩
    · rintro ⟨⟩; exact hq
    · obtain ⟨h1, h2, h3⟩ := refs_unique hq hr
      rw [h1, h2, h3]
  | err => exact absurd h (references_never_err s)
  | panic =>
    have hc := crash_of h
    exact ⟨fun r b a => ⟨by simp, fun hr => (crash_not_refs hc hr).elim⟩, ⟨fun _ => hc, fun _ => rfl⟩⟩

theorem references_total (s : Bytes) : (∃ r b a, Refs s r b a) ∨ Crash s := by
  cases h : references s with
  | ok q => exact .inl ⟨_, _, _, refs_of h⟩
  | err => exact absurd h (references_never_err s)
  | panic => exact .inr (crash_of h)

/-! ## Lines -/

/-- The fields of a statement line. -/
structure Line where
  valuta : Bytes
  booking : Bytes
  indicator : Bytes
  kind : Bytes
  whole : Bytes
  frac : Bytes
  key : Bytes
  rest : Bytes

/-- The line as it is sent. -/
def Line.text (l : Line) : Bytes :=
  b!":61:" ++ l.valuta ++ l.booking ++ l.indicator ++ l.kind ++ l.whole ++ b!"," ++ l.frac ++ b!"N" ++ l.key ++ l.rest

/-- An ASCII character that is no digit. -/
def Letter (c : Byte) : Prop := c.toNat < 128 ∧ ¬ Digit c

/-- The fields have the right lengths; a kind of currency may follow the indicator, but after
a two-letter indicator it must. -/
structure Line.Ok (l : Line) : Prop where
  valuta : l.valuta.length = 6
  letters : ∀ c ∈ l.indicator ++ l.kind, Letter c
  indicator : (l.indicator.length = 1 ∧ l.kind.length ≤ 1) ∨ (l.indicator.length = 2 ∧ l.kind.length = 1)
  whole : ∃ d w, l.whole = d :: w ∧ Digit d
  noComma : 44 ∉ l.whole
  noN : 78 ∉ l.whole ++ l.frac
  key : l.key.length = 3

theorem decode_ascii {c : Byte} {r : Bytes} (h : c.toNat < 128) : decodeRune (c :: r) = (c.toNat, 1) := by
  unfold decodeRune
  simp [h]

theorem runeDigit_ascii (L : Lib) {c : Byte} (h : c.toNat < 128) : runeDigit L c.toNat = true ↔ Digit c := by
  unfold runeDigit Digit
  rw [if_pos (by omega)]
  simp

theorem digit_ascii {c : Byte} (h : Digit c) : c.toNat < 128 := by unfold Digit at h; omega

theorem readLetters_ascii (L : Lib) {d : Byte} {r : Bytes} (hd : Digit d) : ∀ {ls : Bytes} {n : Nat}, (∀ c ∈ ls, Letter c) →
    ls.length < n → readLetters L n (ls ++ d :: r) = some (ls.map (·.toNat), d :: r)
  | [], n + 1, _, _ => by
    unfold readLetters
    simp [decode_ascii (digit_ascii hd), (runeDigit_ascii L (digit_ascii hd)).2 hd]
  | c :: ls, n + 1, h, hn => by
    have hc := h c (by simp)
    have ih := readLetters_ascii L (r := r) hd (ls := ls) (n := n) (fun x hx => h x (by simp [hx])) (by simpa using hn)
    have hnd : runeDigit L c.toNat = false := by
      rw [Bool.eq_false_iff]
      exact fun hh => hc.2 ((runeDigit_ascii L hc.1).1 hh)
    rw [List.cons_append, readLetters]
    simp [decode_ascii hc.1, hnd, ih]

theorem indicatorOf_bytes {i k : Bytes} (h : (i.length = 1 ∧ k.length ≤ 1) ∨ (i.length = 2 ∧ k.length = 1)) :
    indicatorOf ((i ++ k).map (·.toNat)) = (toUTF8 i, toUTF8 k) := by
  have cases2 : (∃ a, i = [a] ∧ k = []) ∨ (∃ a b, i = [a] ∧ k = [b]) ∨ (∃ a b c, i = [a, b] ∧ k = [c]) := by
    rcases h with ⟨h1, h2⟩ | ⟨h1, h2⟩
    · obtain ⟨a, rfl⟩ := List.length_eq_one_iff.1 h1
      match k, h2 with
      | [], _ => exact .inl ⟨a, rfl, rfl⟩
      | [b], _ => exact .inr (.inl ⟨a, b, rfl, rfl⟩)
    · obtain ⟨a, b, rfl⟩ : ∃ a b, i = [a, b] := by
        match i, h1 with
        | [a, b], _ => exact ⟨a, b, rfl⟩
      obtain ⟨c, rfl⟩ := List.length_eq_one_iff.1 h2
      exact .inr (.inr ⟨a, b, c, rfl, rfl⟩)
  rcases cases2 with ⟨a, rfl, rfl⟩ | ⟨a, b, rfl, rfl⟩ | ⟨a, b, c, rfl, rfl⟩ <;> simp [indicatorOf, runes, toUTF8]

theorem amountOf_text (L : Lib) {w f r : Bytes} {a : L.F} (h44 : 44 ∉ w) (h78 : 78 ∉ w ++ f)
    (ha : L.parseFloat (w ++ b!"." ++ f) = some a) : amountOf L (w ++ b!"," ++ f ++ b!"N" ++ r) = .ok (a, r) := by
  have hp : ∀ x ∈ w ++ b!"," ++ f, (fun b : Byte => b != 78) x = true := by
    intro x hx
    simp only [List.mem_append, List.mem_singleton] at hx
    simp only [List.mem_append, not_or] at h78
    simp only [bne_iff_ne, ne_eq]
    rintro rfl
    rcases hx with (hx | hx) | hx
    · exact h78.1 hx
    · simp at hx
    · exact h78.2 hx
  unfold amountOf
  have e : w ++ b!"," ++ f ++ b!"N" ++ r = (w ++ b!"," ++ f) ++ 78 :: r := by simp
  rw [e, List.dropWhile_append_of_pos hp, List.takeWhile_append_of_pos hp]
  have : replaceFirst 44 46 (w ++ b!"," ++ f) = w ++ b!"." ++ f := by
    rw [List.append_assoc, replaceFirst_skip h44]
    simp [replaceFirst]
  have e1 : (78 :: r).takeWhile (fun b : Byte => b != 78) = [] := by simp
  have e2 : (78 :: r).dropWhile (fun b : Byte => b != 78) = 78 :: r := by simp
  rw [e1, e2, List.append_nil, this, ha]
  simp

theorem tagElements_61 (x : Bytes) : tagElements (b!":61:" ++ x) = .ok (b!":61:", x) := by
  simp [tagElements]

/-- The part of a line after the dates. -/
def Line.tail (l : Line) : Bytes :=
  l.indicator ++ l.kind ++ l.whole ++ b!"," ++ l.frac ++ b!"N" ++ l.key ++ l.rest

theorem read_tail (L : Lib) {l : Line} (hok : l.Ok) {ls : Bytes} (hls : ∀ c ∈ ls, Letter c) {a : L.F}
    (ha : L.parseFloat (l.whole ++ b!"." ++ l.frac) = some a) (v : Civil) (bd : Civil) (tag : Bytes) {b : Bytes}
    (hb : b = ls ++ l.whole ++ b!"," ++ l.frac ++ b!"N" ++ l.key ++ l.rest) :
    ((Outcome.ofOption (readLetters L b.length b)).bind fun p =>
          (amountOf L p.2).bind fun a =>
            (references (a.2.drop 3)).bind fun refs =>
              Outcome.ok (⟨tag, v, bd, (indicatorOf p.1).1, (indicatorOf p.1).2, a.1, a.2.take 3, refs.reference,
                refs.bankReference, refs.additional⟩ : TransactionTag L.F)) =
    (references l.rest).bind fun refs =>
      .ok ⟨tag, v, bd, (indicatorOf (ls.map (·.toNat))).1, (indicatorOf (ls.map (·.toNat))).2, a, l.key, refs.reference,
                refs.bankReference, refs.additional⟩ := by
  obtain ⟨d, w, hw, hd⟩ := hok.whole
  have e : b = ls ++ d :: (w ++ b!"," ++ l.frac ++ b!"N" ++ l.key ++ l.rest) := by rw [hb, hw]; simp
  have hl : ls.length < b.length := by rw [e]; simp
  have hr : readLetters L b.length b = some (ls.map (·.toNat), d :: (w ++ b!"," ++ l.frac ++ b!"N" ++ l.key ++ l.rest)) := by
    have := readLetters_ascii L hd (r := w ++ b!"," ++ l.frac ++ b!"N" ++ l.key ++ l.rest) hls hl
    rw [← e] at this
    exact this
  have ham : amountOf L (d :: (w ++ b!"," ++ l.frac ++ b!"N" ++ l.key ++ l.rest)) = .ok (a, l.key ++ l.rest) := by
    have := amountOf_text L (r := l.key ++ l.rest) hok.noComma hok.noN ha
    rw [hw] at this
    simpa using this
  rw [hr]
  simp only [Outcome.ofOption, Outcome.bind, ham]
  have t1 : (l.key ++ l.rest).drop 3 = l.rest := by rw [List.drop_left']; exact hok.key
  have t2 : (l.key ++ l.rest).take 3 = l.key := by rw [List.take_left']; exact hok.key
  rw [t1, t2]

theorem read_booked (L : Lib) {l : Line} (hok : l.Ok) (hbl : l.booking.length = 4) {c : Byte} (hc : l.booking.head? = some c)
    (hcd : Digit c) {v bd : Civil} (hv : parseDate l.valuta L.year = .ok v) (hb : parseDate l.booking v.year = .ok bd) {a : L.F}
    (ha : L.parseFloat (l.whole ++ b!"." ++ l.frac) = some a) :
    unmarshalTransaction L l.text = (references l.rest).bind fun refs =>
      .ok ⟨b!":61:", v, if 1 < ((v.month : Int) - bd.month).natAbs then nextYear bd else bd, toUTF8 l.indicator,
        toUTF8 l.kind, a, l.key, refs.reference, refs.bankReference, refs.additional⟩ := by
  obtain ⟨bk, hbk⟩ : ∃ r, l.booking = c :: r := by
    cases h : l.booking with
    | nil => simp [h] at hc
    | cons x r => simp [h] at hc; subst hc; exact ⟨r, rfl⟩
  have e : l.text = b!":61:" ++ (l.valuta ++ (l.booking ++ l.tail)) := by
    unfold Line.text Line.tail
    simp
  unfold unmarshalTransaction
  rw [e, tagElements_61]
  simp only [Outcome.bind]
  have t1 : (l.valuta ++ (l.booking ++ l.tail)).take 6 = l.valuta := by rw [List.take_left']; exact hok.valuta
  have t2 : (l.valuta ++ (l.booking ++ l.tail)).drop 6 = l.booking ++ l.tail := by rw [List.drop_left']; exact hok.valuta
  rw [t1, t2, hv]
  simp only
  have hbd : bookingDate L v (l.booking ++ l.tail) =
      .ok (if 1 < ((v.month : Int) - bd.month).natAbs then nextYear bd else bd, l.tail) := by
    have t3 : (l.booking ++ l.tail).take 4 = l.booking := by rw [List.take_left']; exact hbl
    have t4 : (l.booking ++ l.tail).drop 4 = l.tail := by rw [List.drop_left']; exact hbl
    have hdec : decodeRune (l.booking ++ l.tail) = (c.toNat, 1) := by
      rw [hbk]; exact decode_ascii (digit_ascii hcd)
    unfold bookingDate
    rw [if_neg (by rw [hbk]; simp), hdec, if_pos ((runeDigit_ascii L (digit_ascii hcd)).2 hcd), t3, t4, hb]
    simp only [Outcome.bind]
  rw [hbd]
  simp only
  have := read_tail L hok hok.letters ha v (if 1 < ((v.month : Int) - bd.month).natAbs then nextYear bd else bd) b!":61:"
    (b := l.tail) rfl
  rw [indicatorOf_bytes hok.indicator] at this
  exact this

theorem read_unbooked (L : Lib) {l : Line} (hok : l.Ok) (hbl : l.booking = []) {v : Civil}
    (hv : parseDate l.valuta L.year = .ok v) {a : L.F} (ha : L.parseFloat (l.whole ++ b!"." ++ l.frac) = some a) :
    unmarshalTransaction L l.text = (references l.rest).bind fun refs =>
      .ok ⟨b!":61:", v, zeroTime, (indicatorOf ((l.indicator ++ l.kind).tail.map (·.toNat))).1,
        (indicatorOf ((l.indicator ++ l.kind).tail.map (·.toNat))).2, a, l.key, refs.reference, refs.bankReference,
        refs.additional⟩ := by
  obtain ⟨c, ls, hcl⟩ : ∃ c ls, l.indicator ++ l.kind = c :: ls := by
    cases h : l.indicator ++ l.kind with
    | nil =>
      have := congrArg List.length h
      simp at this
      rcases hok.indicator with ⟨h1, _⟩ | ⟨h1, _⟩ <;> simp [this] at h1
    | cons c ls => exact ⟨c, ls, rfl⟩
  have hlet := hok.letters
  rw [hcl] at hlet
  have hc := hlet c (by simp)
  have et : l.tail = c :: (ls ++ l.whole ++ b!"," ++ l.frac ++ b!"N" ++ l.key ++ l.rest) := by
    unfold Line.tail
    rw [hcl]
    simp
  have e : l.text = b!":61:" ++ (l.valuta ++ l.tail) := by
    unfold Line.text Line.tail
    simp [hbl]
  unfold unmarshalTransaction
  rw [e, tagElements_61]
  simp only [Outcome.bind]
  have t1 : (l.valuta ++ l.tail).take 6 = l.valuta := by rw [List.take_left']; exact hok.valuta
  have t2 : (l.valuta ++ l.tail).drop 6 = l.tail := by rw [List.drop_left']; exact hok.valuta
  rw [t1, t2, hv]
  simp only
  have hbd : bookingDate L v l.tail = .ok (zeroTime, ls ++ l.whole ++ b!"," ++ l.frac ++ b!"N" ++ l.key ++ l.rest) := by
    unfold bookingDate
    rw [if_neg (by rw [et]; simp), et, decode_ascii hc.1]
    have hnd : runeDigit L c.toNat = false := by
      rw [Bool.eq_false_iff]
      exact fun hh => hc.2 ((runeDigit_ascii L hc.1).1 hh)
    simp [hnd]
  rw [hbd]
  simp only
  have := read_tail L hok (ls := ls) (fun x hx => hlet x (by simp [hx])) ha v zeroTime b!":61:" rfl
  rw [hcl]
  exact this

/-! ## Dates of accepted lines -/

theorem six_year {y : Int} (h1 : 1000 ≤ y) (h2 : y ≤ 9999) {v : Bytes} (hv : v.length = 6) {t : Civil}
    (h : parseDate v y = .ok t) : 1000 ≤ t.year ∧ t.year ≤ 9999 ∧ 1 ≤ t.month ∧ t.month ≤ 12 ∧ 1 ≤ t.day ∧ t.day ≤ 31 := by
  rcases (C42_six h1 h2 hv t).1.1 h with ⟨hd, yy, mm, dd, g1, g2, rfl⟩ | ⟨_, ⟨_, ho⟩ | ⟨_, ho⟩⟩
  · have := existing_bounds g2
    have hlt : value v < 1000000 := by
      have := six_lt v hd
      rw [hv] at this
      exact this
    simp only
    omega
  · unfold overflow at ho
    rcases ho with ⟨_, _, rfl⟩ | ⟨_, _, rfl⟩ | ⟨_, _, rfl⟩ | ⟨_, _, rfl⟩ <;> simp <;> omega
  · unfold overflow at ho
    rcases ho with ⟨_, _, rfl⟩ | ⟨_, _, rfl⟩ | ⟨_, _, rfl⟩ | ⟨_, _, rfl⟩ <;> simp <;> omega

theorem dates_of {L : Lib} {v6 b4 rest : Bytes} {t : TransactionTag L.F} (hv : v6.length = 6) (hb : b4.length = 4) {c : Byte}
    (hc : b4.head? = some c) (hcd : Digit c) (h : unmarshalTransaction L (b!":61:" ++ v6 ++ b4 ++ rest) = .ok t) :
    parseDate v6 L.year = .ok t.valutaDate ∧ ∃ bd, parseDate b4 t.valutaDate.year = .ok bd ∧
      t.bookingDate = if 1 < ((t.valutaDate.month : Int) - bd.month).natAbs then nextYear bd else bd := by
  obtain ⟨bk, hbk⟩ : ∃ r, b4 = c :: r := by
    cases h : b4 with
    | nil => simp [h] at hc
    | cons x r => simp [h] at hc; subst hc; exact ⟨r, rfl⟩
  unfold unmarshalTransaction at h
  rw [show b!":61:" ++ v6 ++ b4 ++ rest = b!":61:" ++ (v6 ++ (b4 ++ rest)) by simp, tagElements_61] at h
  simp only [bind_ok_iff] at h
  obtain ⟨e, he, v, h1, bd, h2, l, h3, a, h4, refs, h5, h6⟩ := h
  obtain ⟨rfl⟩ : e = (b!":61:", v6 ++ (b4 ++ rest)) := by simpa using he.symm
  simp only at h1 h2 h6
  rw [List.take_left' hv] at h1
  rw [List.drop_left' hv] at h2
  simp only [Outcome.ok.injEq] at h6
  subst h6
  refine ⟨h1, ?_⟩
  unfold bookingDate at h2
  have hdec : decodeRune (b4 ++ rest) = (c.toNat, 1) := by rw [hbk]; exact decode_ascii (digit_ascii hcd)
  rw [if_neg (by rw [hbk]; simp), hdec, if_pos ((runeDigit_ascii L (digit_ascii hcd)).2 hcd), List.take_left' hb] at h2
  rw [bind_ok_iff] at h2
  obtain ⟨d, h7, h8⟩ := h2
  simp only [Outcome.ok.injEq] at h8
  subst h8
  exact ⟨d, h7, rfl⟩

/-- C41: the booking date of an accepted line has its own month and day.  Its year is that of
the value date if the months differ by at most one, and the next year otherwise. -/
theorem C41_year {L : Lib} (h1 : 1000 ≤ L.year) (h2 : L.year ≤ 9999) {v6 b4 rest : Bytes} {t : TransactionTag L.F}
    (hv : v6.length = 6) (hb : b4.length = 4) (hd : ∀ c ∈ b4, Digit c) {mm dd : Nat} (hval : value b4 = mm * 100 + dd)
    (h : unmarshalTransaction L (b!":61:" ++ v6 ++ b4 ++ rest) = .ok t) (hex : ExistingDate t.valutaDate.year mm dd) :
    ((t.valutaDate.month ≤ mm + 1 ∧ mm ≤ t.valutaDate.month + 1) → t.bookingDate = ⟨t.valutaDate.year, mm, dd, 0, 0, 0, 0⟩) ∧
    (¬ (t.valutaDate.month ≤ mm + 1 ∧ mm ≤ t.valutaDate.month + 1) → t.bookingDate =
      if mm = 2 ∧ dd = 29 then ⟨t.valutaDate.year + 1, 3, 1, 0, 0, 0, 0⟩ else ⟨t.valutaDate.year + 1, mm, dd, 0, 0, 0, 0⟩) := by
  obtain ⟨c, r, hcr⟩ : ∃ c r, b4 = c :: r := by
    cases b4 with
    | nil => simp at hb
    | cons c r => exact ⟨c, r, rfl⟩
  obtain ⟨g1, bd, g2, g3⟩ := dates_of hv hb (c := c) (by simp [hcr]) (hd c (by simp [hcr])) h
  obtain ⟨y1, y2, _, _, _, _⟩ := six_year h1 h2 hv g1
  have hbd : bd = ⟨t.valutaDate.year, mm, dd, 0, 0, 0, 0⟩ := by
    have := ((C42_four y1 y2 hb ⟨t.valutaDate.year, mm, dd, 0, 0, 0, 0⟩).1.2
      (.inl ⟨⟨hd, 0, mm, dd, by rw [hval, Nat.zero_mul, Nat.zero_add], by simpa using hex, by simp⟩, rfl⟩))
    rw [this] at g2
    simpa using g2.symm
  subst hbd
  simp only at g3
  constructor
  · intro hm
    rw [g3, if_neg (by omega)]
  · intro hm
    rw [g3, if_pos (by omega)]
    have hex' := (existing_iff _ _ _).1 hex
    unfold nextYear date
    simp only
    by_cases hf : mm = 2 ∧ dd = 29
    · obtain ⟨rfl, rfl⟩ := hf
      have hl : isLeap t.valutaDate.year = true := by
        by_contra hn
        simp [daysIn, hn] at hex'
      have hl' : isLeap (t.valutaDate.year + 1) = false := by
        unfold isLeap at hl ⊢
        simp only [Bool.and_eq_true, beq_iff_eq] at hl
        simp only [Bool.and_eq_false_iff, beq_eq_false_iff_ne]
        left
        omega
      simp [daysIn, hl']
    · rw [if_neg hf, if_pos]
      have : dd ≤ daysIn mm t.valutaDate.year := by omega
      unfold daysIn at this ⊢
      by_cases h2 : mm = 2
      · simp only [h2, if_true] at this ⊢
        have h29 : dd ≠ 29 := fun h => hf ⟨h2, h⟩
        have hle : (if isLeap t.valutaDate.year = true then 29 else 28) ≤ 29 := by split <;> omega
        split <;> omega
      · simp only [h2, if_false] at this ⊢
        exact this

theorem yearStart_mono {a b : Int} (h : a ≤ b) : 365 * (b - a) ≤ yearStart b - yearStart a := by
  unfold yearStart; omega

theorem yearStart_step (y : Int) : yearStart (y + 1) - yearStart y ≤ 366 := by
  unfold yearStart; omega

theorem dayNumber_bounds {y : Int} {m d : Nat} (h1 : 1 ≤ m) (h2 : m ≤ 12) (h3 : 1 ≤ d) (h4 : d ≤ 31) :
    yearStart y + 30 * m - 30 ≤ dayNumber y m d ∧ dayNumber y m d ≤ yearStart y + 30 * m + 6 := by
  have hm : 30 * (m : Int) - 31 ≤ monthStart m ∧ monthStart m ≤ 30 * m - 26 := by
    have : m = 1 ∨ m = 2 ∨ m = 3 ∨ m = 4 ∨ m = 5 ∨ m = 6 ∨ m = 7 ∨ m = 8 ∨ m = 9 ∨ m = 10 ∨ m = 11 ∨ m = 12 := by omega
    rcases this with rfl | rfl | rfl | rfl | rfl | rfl | rfl | rfl | rfl | rfl | rfl | rfl <;> simp [monthStart]
  unfold dayNumber
  split <;> omega

/-- C41: the booking date is the occurrence of its month and day closest to the value date, if
the months differ by at most one, or if the booking month is at least eight months before. -/
theorem C41_nearest {L : Lib} (h1 : 1000 ≤ L.year) (h2 : L.year ≤ 9999) {v6 b4 rest : Bytes} {t : TransactionTag L.F}
    (hv : v6.length = 6) (hb : b4.length = 4) (hd : ∀ c ∈ b4, Digit c) {mm dd : Nat} (hval : value b4 = mm * 100 + dd)
    (h : unmarshalTransaction L (b!":61:" ++ v6 ++ b4 ++ rest) = .ok t) (hex : ExistingDate t.valutaDate.year mm dd)
    (hm : (t.valutaDate.month ≤ mm + 1 ∧ mm ≤ t.valutaDate.month + 1) ∨ (mm + 8 ≤ t.valutaDate.month ∧ ¬ (mm = 2 ∧ dd = 29)))
    (y : Int) :
    apart (dayNumber t.valutaDate.year t.valutaDate.month t.valutaDate.day)
        (dayNumber t.bookingDate.year t.bookingDate.month t.bookingDate.day) ≤
      apart (dayNumber t.valutaDate.year t.valutaDate.month t.valutaDate.day) (dayNumber y mm dd) := by
  obtain ⟨g1, g2⟩ := C41_year h1 h2 hv hb hd hval h hex
  have hb' := existing_bounds hex
  obtain ⟨c, r, hcr⟩ : ∃ c r, b4 = c :: r := by
    cases b4 with
    | nil => simp at hb
    | cons c r => exact ⟨c, r, rfl⟩
  obtain ⟨k1, _⟩ := dates_of hv hb (c := c) (by simp [hcr]) (hd c (by simp [hcr])) h
  obtain ⟨_, _, m1, m2, d1, d2⟩ := six_year h1 h2 hv k1
  have bv := dayNumber_bounds (y := t.valutaDate.year) m1 m2 d1 d2
  have bb := fun y => dayNumber_bounds (y := y) (m := mm) (d := dd) (by omega) (by omega) (by omega) (by omega)
  have by' := bb y
  have ys := yearStart_step t.valutaDate.year
  unfold apart
  rcases hm with hm | ⟨hm, hf⟩
  · rw [g1 hm]
    have bs := bb t.valutaDate.year
    simp only at bs ⊢
    rcases Int.lt_trichotomy y t.valutaDate.year with hy | rfl | hy
    · have := yearStart_mono (show y ≤ t.valutaDate.year by omega)
      omega
    · omega
    · have := yearStart_mono (show t.valutaDate.year ≤ y by omega)
      omega
  · rw [g2 (by omega), if_neg hf]
    have bs := bb (t.valutaDate.year + 1)
    simp only at bs ⊢
    have y1 := yearStart_mono (show t.valutaDate.year ≤ t.valutaDate.year + 1 by omega)
    rcases Int.lt_trichotomy y (t.valutaDate.year + 1) with hy | rfl | hy
    · have := yearStart_mono (show y ≤ t.valutaDate.year by omega)
      omega
    · omega
    · have := yearStart_mono (show t.valutaDate.year + 1 ≤ y by omega)
      omega

/-- C41, what goes wrong: if the booking month is more than one month after the month of the
value date, or two to four months before it, the booking date is late: its month and day in
the year of the value date are closer.  (Five to seven months before, both are about half a
year away.) -/
theorem C41_late {L : Lib} (h1 : 1000 ≤ L.year) (h2 : L.year ≤ 9999) {v6 b4 rest : Bytes} {t : TransactionTag L.F}
    (hv : v6.length = 6) (hb : b4.length = 4) (hd : ∀ c ∈ b4, Digit c) {mm dd : Nat} (hval : value b4 = mm * 100 + dd)
    (h : unmarshalTransaction L (b!":61:" ++ v6 ++ b4 ++ rest) = .ok t) (hex : ExistingDate t.valutaDate.year mm dd)
    (hm : t.valutaDate.month + 1 < mm ∨ (mm + 1 < t.valutaDate.month ∧ t.valutaDate.month ≤ mm + 4)) :
    t.bookingDate.year = t.valutaDate.year + 1 ∧
    apart (dayNumber t.valutaDate.year t.valutaDate.month t.valutaDate.day) (dayNumber t.valutaDate.year mm dd) + 50 <
      apart (dayNumber t.valutaDate.year t.valutaDate.month t.valutaDate.day)
        (dayNumber t.bookingDate.year t.bookingDate.month t.bookingDate.day) := by
  obtain ⟨g1, g2⟩ := C41_year h1 h2 hv hb hd hval h hex
  have hb' := existing_bounds hex
  obtain ⟨c, r, hcr⟩ : ∃ c r, b4 = c :: r := by
    cases b4 with
    | nil => simp at hb
    | cons c r => exact ⟨c, r, rfl⟩
  obtain ⟨k1, _⟩ := dates_of hv hb (c := c) (by simp [hcr]) (hd c (by simp [hcr])) h
  obtain ⟨_, _, m1, m2, d1, d2⟩ := six_year h1 h2 hv k1
  have bv := dayNumber_bounds (y := t.valutaDate.year) m1 m2 d1 d2
  have bb := fun y => dayNumber_bounds (y := y) (m := mm) (d := dd) (by omega) (by omega) (by omega) (by omega)
  have b3 := dayNumber_bounds (y := t.valutaDate.year + 1) (m := 3) (d := 1) (by omega) (by omega) (by omega) (by omega)
  have ys := yearStart_mono (show t.valutaDate.year ≤ t.valutaDate.year + 1 by omega)
  have b0 := bb t.valutaDate.year
  have b1 := bb (t.valutaDate.year + 1)
  rw [g2 (by omega)]
  unfold apart
  split
  · refine ⟨rfl, ?_⟩
    simp only at *
    omega
  · refine ⟨rfl, ?_⟩
    simp only at *
    omega

/-- A line of 2 January with a booking of 30 December: the booking is dated almost a year
late. -/
def sampleLib : Lib where
  F := Bytes
  zero := b!"0"
  neg := fun a => 45 :: a
  parseFloat := fun v => if 46 ∈ v then some v else none
  digit := fun _ => false
  year := 2026

def sampleLine : Line :=
  ⟨b!"260102", b!"1230", b!"D", b!"R", b!"12", b!"50", b!"MSC", b!"KREF+//BANK\r\n/INFO"⟩

theorem sampleLine_ok : sampleLine.Ok where
  valuta := by decide
  letters := by simp [sampleLine, Letter, Digit]
  indicator := by decide
  whole := ⟨49, [50], rfl, by simp [Digit]⟩
  noComma := by decide
  noN := by decide
  key := by decide

example : ∃ t, unmarshalTransaction sampleLib sampleLine.text = .ok t ∧ t.valutaDate = ⟨2026, 1, 2, 0, 0, 0, 0⟩ ∧
    t.bookingDate = ⟨2027, 12, 30, 0, 0, 0, 0⟩ ∧
    apart (dayNumber 2026 1 2) (dayNumber 2027 12 30) = 727 ∧ apart (dayNumber 2026 1 2) (dayNumber 2025 12 30) = 3 :=
  ⟨⟨b!":61:", ⟨2026, 1, 2, 0, 0, 0, 0⟩, ⟨2027, 12, 30, 0, 0, 0, 0⟩, c!"D", c!"R", b!"12.50", b!"MSC", b!"KREF+", b!"BANK",
    b!"INFO"⟩, by rfl, rfl, rfl, by decide, by decide⟩

/-! ## Fields of a line -/

/-- C43: a line with a booking date is cut into its fields. -/
theorem C43_booked {L : Lib} (h1 : 1000 ≤ L.year) (h2 : L.year ≤ 9999) {l : Line} (hok : l.Ok) {v b : Civil} {a : L.F}
    (hv : IsDate (L.year / 100 * 100) l.valuta v) (hbl : l.booking.length = 4) (hb : IsDate v.year l.booking b)
    (hy : b.year = v.year) (ha : L.parseFloat (l.whole ++ b!"." ++ l.frac) = some a) :
    (∀ r bk i, Refs l.rest r bk i → ∃ t, unmarshalTransaction L l.text = .ok t ∧
      t.tag = b!":61:" ∧ t.valutaDate = v ∧ t.indicator = toUTF8 l.indicator ∧ t.currencyKind = toUTF8 l.kind ∧ t.amount = a ∧
      t.bookingKey = l.key ∧ t.reference = r ∧ t.bankReference = bk ∧ t.additional = i) ∧
    (Crash l.rest → unmarshalTransaction L l.text = .panic) := by
  have pv := (C42_six h1 h2 hok.valuta v).1.2 (.inl hv)
  obtain ⟨y1, y2, _⟩ := six_year h1 h2 hok.valuta pv
  have pb := (C42_four y1 y2 hbl b).1.2 (.inl ⟨hb, hy⟩)
  obtain ⟨c, r, hcr⟩ : ∃ c r, l.booking = c :: r := by
    cases h : l.booking with
    | nil => simp [h] at hbl
    | cons c r => exact ⟨c, r, rfl⟩
  have key := read_booked L hok hbl (c := c) (by simp [hcr]) (hb.1 c (by simp [hcr])) pv pb ha
  obtain ⟨k1, k2⟩ := references_iff l.rest
  constructor
  · intro r bk i hr
    rw [key, (k1 r bk i).2 hr]
    exact ⟨_, rfl, rfl, rfl, rfl, rfl, rfl, rfl, rfl, rfl, rfl⟩
  · intro hc
    rw [key, k2.2 hc]
    rfl

/-- C43: a line without booking date is cut into the same fields, except that the first letter
of the indicator is skipped: indicator and kind are taken from what follows it. -/
theorem C43_unbooked {L : Lib} (h1 : 1000 ≤ L.year) (h2 : L.year ≤ 9999) {l : Line} (hok : l.Ok) {v : Civil} {a : L.F}
    (hv : IsDate (L.year / 100 * 100) l.valuta v) (hb : l.booking = [])
    (ha : L.parseFloat (l.whole ++ b!"." ++ l.frac) = some a) {r bk i : Bytes} (hr : Refs l.rest r bk i) :
    ∃ t, unmarshalTransaction L l.text = .ok t ∧ t.tag = b!":61:" ∧ t.valutaDate = v ∧ t.bookingDate = ⟨1, 1, 1, 0, 0, 0, 0⟩ ∧
      t.indicator = toUTF8 ((l.indicator ++ l.kind).tail.take 1) ∧ t.currencyKind = toUTF8 ((l.indicator ++ l.kind).drop 2) ∧
      t.amount = a ∧ t.bookingKey = l.key ∧ t.reference = r ∧ t.bankReference = bk ∧ t.additional = i := by
  have pv := (C42_six h1 h2 hok.valuta v).1.2 (.inl hv)
  have key := read_unbooked L hok hb pv ha
  rw [key, ((references_iff l.rest).1 r bk i).2 hr]
  have hind : indicatorOf ((l.indicator ++ l.kind).tail.map (·.toNat)) =
      (toUTF8 ((l.indicator ++ l.kind).tail.take 1), toUTF8 ((l.indicator ++ l.kind).drop 2)) := by
    have hlen : (l.indicator ++ l.kind).length = 1 ∨ (l.indicator ++ l.kind).length = 2 ∨ (l.indicator ++ l.kind).length = 3 := by
      have := hok.indicator
      simp only [List.length_append]
      omega
    generalize l.indicator ++ l.kind = z at hlen
    match z, hlen with
    | [a], _ => simp [indicatorOf, toUTF8]
    | [a, b], _ => simp [indicatorOf, runes, toUTF8]
    | [a, b, c], _ => simp [indicatorOf, runes, toUTF8]
  exact ⟨_, rfl, rfl, rfl, rfl, by rw [hind], by rw [hind], rfl, rfl, rfl, rfl, rfl⟩

/-- Any text has references or crashes the parser; both happen. -/
theorem C43_references_total (s : Bytes) :
    ((∃ r b a, Refs s r b a) ∨ Crash s) ∧ ¬ ((∃ r b a, Refs s r b a) ∧ Crash s) ∧
    (∀ r b a r' b' a', Refs s r b a → Refs s r' b' a' → r' = r ∧ b' = b ∧ a' = a) :=
  ⟨references_total s, fun ⟨⟨_, _, _, h⟩, hc⟩ => crash_not_refs hc h, fun _ _ _ _ _ _ h h' => refs_unique h h'⟩

example : Refs sampleLine.rest b!"KREF+" b!"BANK" b!"INFO" ∧ Crash b!"KREF+\r\n//BANK" ∧
    Refs b!"A\r\n/B//C" b!"A\r\n/B" b!"B" b!"C" :=
  ⟨((references_iff _).1 _ _ _).1 (by decide), (references_iff _).2.1 (by decide), ((references_iff _).1 _ _ _).1 (by decide)⟩

example : IsDate (sampleLib.year / 100 * 100) sampleLine.valuta ⟨2026, 1, 2, 0, 0, 0, 0⟩ ∧
    IsDate 2026 sampleLine.booking ⟨2026, 12, 30, 0, 0, 0, 0⟩ :=
  ⟨⟨by simp [sampleLine, Digit], 26, 1, 2, by decide, by simp [ExistingDate, sampleLib], by simp [sampleLib]⟩,
   ⟨by simp [sampleLine, Digit], 0, 12, 30, by decide, by simp [ExistingDate], by simp⟩⟩

/-- C43: a reversal indicator without a kind of currency, such as `RD`, is read as the
indicator `R` and the kind `D`. -/
theorem C43_reversal {L : Lib} (h1 : 1000 ≤ L.year) (h2 : L.year ≤ 9999) {l : Line} (hok : l.Ok) {v b : Civil} {a : L.F}
    (hi : l.indicator = b!"R")
    (hv : IsDate (L.year / 100 * 100) l.valuta v) (hbl : l.booking.length = 4) (hb : IsDate v.year l.booking b)
    (hy : b.year = v.year) (ha : L.parseFloat (l.whole ++ b!"." ++ l.frac) = some a) (hc : ¬ Crash l.rest) :
    ∃ t, unmarshalTransaction L (b!":61:" ++ l.valuta ++ l.booking ++ (b!"R" ++ l.kind) ++ l.whole ++ b!"," ++ l.frac ++
      b!"N" ++ l.key ++ l.rest) = .ok t ∧ t.indicator = c!"R" ∧ t.currencyKind = toUTF8 l.kind := by
  obtain ⟨r, bk, i, hr⟩ := (references_total l.rest).resolve_right hc
  obtain ⟨t, ht, _, _, h3, h4, _⟩ := (C43_booked h1 h2 hok hv hbl hb hy ha).1 r bk i hr
  refine ⟨t, ?_, by rw [h3, hi]; rfl, h4⟩
  rw [← ht]
  unfold Line.text
  simp [hi]

/-! ## Signs -/

theorem transactions_at {L : Lib} {m : MT940 L.F} {txs : List (Transaction L.F)} (h : accountTransactions L m = .ok txs) {i : Nat}
    {q : Sequence L.F} (hq : m.transactions[i]? = some q) :
    ∃ a s c, m.account = some a ∧ m.startingBalance = some s ∧ m.closingBalance = some c ∧ txs[i]? = some (transactionOf L a s c q) := by
  unfold accountTransactions at h
  split at h
  · simp at h
  · rename_i a ha
    split at h
    · rename_i he
      simp at he
      simp [he] at hq
    · split at h
      · rename_i s c hs hc
        simp only [Outcome.ok.injEq] at h
        subst h
        exact ⟨a, s, c, ha, hs, hc, by simp [hq]⟩
      · simp at h

theorem single_D {v : Bytes} : toUTF8 v = c!"D" ↔ v = b!"D" := by
  constructor
  · intro h
    have hl : v.length = 1 := by simpa [toUTF8] using congrArg List.length h
    match v, hl, h with
    | [x], _, h =>
      simp only [toUTF8, List.map_cons, List.map_nil, List.cons.injEq, and_true] at h
      have := congrArg Char.toNat h
      rw [Element.byte_char] at this
      have : x = 68 := UInt8.toNat_inj.1 this
      simp [this]
  · rintro rfl; rfl

/-- C40: a line with a booking date is reported with the negative amount exactly if its
indicator is `D`, and with the amount itself otherwise. -/
theorem C40_booked {L : Lib} (h1 : 1000 ≤ L.year) (h2 : L.year ≤ 9999) {l : Line} (hok : l.Ok) {v b : Civil} {a : L.F}
    (hv : IsDate (L.year / 100 * 100) l.valuta v) (hbl : l.booking.length = 4) (hb : IsDate v.year l.booking b)
    (hy : b.year = v.year) (ha : L.parseFloat (l.whole ++ b!"." ++ l.frac) = some a) {t : TransactionTag L.F}
    (ht : unmarshalTransaction L l.text = .ok t) {m : MT940 L.F} {i : Nat} {d : Option CustomField}
    (hm : m.transactions[i]? = some ⟨t, d⟩) {txs : List (Transaction L.F)} (h : accountTransactions L m = .ok txs) :
    ∃ x, txs[i]? = some x ∧ x.amount = if l.indicator = b!"D" then L.neg a else a := by
  have hc : ¬ Crash l.rest := by
    intro hc
    have := (C43_booked h1 h2 hok hv hbl hb hy ha).2 hc
    rw [this] at ht
    simp at ht
  obtain ⟨r, bk, i', hr⟩ := (references_total l.rest).resolve_right hc
  obtain ⟨t', ht', _, _, h3, _, h5, _⟩ := (C43_booked h1 h2 hok hv hbl hb hy ha).1 r bk i' hr
  obtain rfl : t = t' := by rw [ht'] at ht; simpa using ht.symm
  obtain ⟨ac, s, c, _, _, _, hx⟩ := transactions_at h hm
  refine ⟨_, hx, ?_⟩
  simp only [transactionOf, h3, h5]
  by_cases hd : l.indicator = b!"D"
  · rw [if_pos (single_D.2 hd), if_pos hd]
  · rw [if_neg (fun hh => hd (single_D.1 hh)), if_neg hd]

/-- C40, what goes wrong: without a booking date the first letter is skipped, so a plain debit
and a plain credit are both reported with the amount itself. -/
theorem C40_unbooked {L : Lib} (h1 : 1000 ≤ L.year) (h2 : L.year ≤ 9999) {l : Line} (hok : l.Ok) {v : Civil} {a : L.F}
    (hv : IsDate (L.year / 100 * 100) l.valuta v) (hb : l.booking = [])
    (ha : L.parseFloat (l.whole ++ b!"." ++ l.frac) = some a) {t : TransactionTag L.F}
    (ht : unmarshalTransaction L l.text = .ok t) {m : MT940 L.F} {i : Nat} {d : Option CustomField}
    (hm : m.transactions[i]? = some ⟨t, d⟩) {txs : List (Transaction L.F)} (h : accountTransactions L m = .ok txs) :
    ∃ x, txs[i]? = some x ∧ x.amount = (if (l.indicator ++ l.kind)[1]? = some 68 then L.neg a else a) ∧
      (l.kind = [] → l.indicator = b!"D" → x.amount = a) := by
  have key := read_unbooked L hok hb ((C42_six h1 h2 hok.valuta v).1.2 (.inl hv)) ha
  have hc : ¬ Crash l.rest := by
    intro hc
    rw [(references_iff l.rest).2.2 hc] at key
    rw [key] at ht
    simp at ht
  obtain ⟨r, bk, i', hr⟩ := (references_total l.rest).resolve_right hc
  obtain ⟨t', ht', _, _, _, h3, _, h5, _⟩ := C43_unbooked h1 h2 hok hv hb ha hr
  obtain rfl : t = t' := by rw [ht'] at ht; simpa using ht.symm
  obtain ⟨ac, s, c, _, _, _, hx⟩ := transactions_at h hm
  have hD : toUTF8 ((l.indicator ++ l.kind).tail.take 1) = c!"D" ↔ (l.indicator ++ l.kind)[1]? = some 68 := by
    rw [single_D]
    generalize l.indicator ++ l.kind = z
    match z with
    | [] => simp
    | [a] => simp
    | a :: b :: r => simp
  refine ⟨_, hx, ?_, ?_⟩
  · simp only [transactionOf, h3, h5]
    by_cases hd : (l.indicator ++ l.kind)[1]? = some 68
    · rw [if_pos (hD.2 hd), if_pos hd]
    · rw [if_neg (fun hh => hd (hD.1 hh)), if_neg hd]
  · intro hk hi
    simp only [transactionOf, h3, h5]
    rw [if_neg]
    rw [hD, hi, hk]
    simp

/-- A debit of 12.50 with and without booking date. -/
example : ∃ t u, unmarshalTransaction sampleLib b!":61:2601020102D12,50NMSCX" = .ok t ∧ t.indicator = c!"D" ∧
    unmarshalTransaction sampleLib b!":61:260102D12,50NMSCX" = .ok u ∧ u.indicator = [] ∧ u.amount = t.amount :=
  ⟨⟨b!":61:", ⟨2026, 1, 2, 0, 0, 0, 0⟩, ⟨2026, 1, 2, 0, 0, 0, 0⟩, c!"D", [], b!"12.50", b!"MSC", b!"X", [], []⟩,
   ⟨b!":61:", ⟨2026, 1, 2, 0, 0, 0, 0⟩, ⟨1, 1, 1, 0, 0, 0, 0⟩, [], [], b!"12.50", b!"MSC", b!"X", [], []⟩,
   by rfl, rfl, by rfl, rfl, rfl⟩

end Verif.Swift
