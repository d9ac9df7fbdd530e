import Verif.Crypto.RsaProps

/-
The loops of the ISO 9796-1 coding in closed form.
-/

namespace Verif.Crypto

open Verif

/-! ## Specification -/

/-- The last `t` bytes of a message that is repeated to the left for ever. -/
def repeated (m : Bytes) (t : Nat) : Bytes := (List.range t).reverse.map fun k => m.reverse.getD (k % m.length) 0

/-- Every byte after its shadow. -/
def interleaved (v : Bytes) : Bytes := v.flatMap fun x => [shadowByte x, x]

/-! ## The message fills the block -/

theorem length_repeated (m : Bytes) (t : Nat) : (repeated m t).length = t := by simp [repeated]

theorem range_getD (l : Bytes) (r : Nat) (h : r ≤ l.length) : (List.range r).map (fun k => l.getD k 0) = l.take r := by
  apply List.ext_getElem?
  intro i
  by_cases hi : i < r
  · have : i < l.length := by omega
    simp [hi, List.getD_eq_getElem?_getD, List.getElem?_eq_getElem this]
  · simp [hi]

theorem repeated_add (m : Bytes) (i r : Nat) (hi : m.length ∣ i) (hr : r ≤ m.length) :
    repeated m (i + r) = m.drop (m.length - r) ++ repeated m i := by
  unfold repeated
  rw [List.range_add, List.reverse_append, List.map_append]
  congr 1
  rw [← List.map_reverse, List.map_map]
  have : ∀ k ∈ (List.range r).reverse, ((fun k => m.reverse.getD (k % m.length) 0) ∘ fun x => i + x) k = m.reverse.getD k 0 := by
    intro k hk
    simp only [List.mem_reverse, List.mem_range] at hk
    obtain ⟨c, rfl⟩ := hi
    simp only [Function.comp, Nat.mul_add_mod, Nat.mod_eq_of_lt (by omega : k < m.length)]
  rw [List.map_congr_left this, List.map_reverse, range_getD _ _ (by simpa using hr), List.take_reverse]
  simp

theorem repeated_self (m : Bytes) : repeated m m.length = m := by
  have := repeated_add m 0 m.length (by simp) le_rfl
  simpa [repeated] using this

/-- If the message is not longer, it stands at the end. -/
theorem repeated_ends (m : Bytes) (t : Nat) (h : m.length ≤ t) : ∃ u, repeated m t = u ++ m ∧ u.length = t - m.length := by
  refine ⟨(repeated m t).take (t - m.length), ?_, by simp [length_repeated]⟩
  have : (repeated m t).drop (t - m.length) = repeated m m.length := by
    unfold repeated
    rw [← List.map_drop, List.drop_reverse]
    simp
    congr 2
    omega
  calc repeated m t = (repeated m t).take (t - m.length) ++ (repeated m t).drop (t - m.length) := (List.take_append_drop _ _).symm
    _ = _ := by rw [this, repeated_self]

theorem arrayCopy_into (src dst : Bytes) (so d len : Nat) (h1 : so + len ≤ src.length) (h2 : d + len ≤ dst.length) :
    arrayCopy src so dst d len = .ok (dst.take d ++ section_ src so len ++ dst.drop (d + len)) := by
  unfold arrayCopy section_
  rw [if_pos (by omega)]
  have h3 : ((src.drop so).take len).length = len := by simp; omega
  have h4 : ((src.drop so).take len).take (dst.length - d) = (src.drop so).take len := by
    rw [List.take_of_length_le]
    omega
  simp [h4]
  omega

theorem section_section (inp : Bytes) (off z a : Nat) (ha : a ≤ z) :
    section_ inp (off + z - a) a = (section_ inp off z).drop (z - a) := by
  unfold section_
  rw [List.drop_take, List.drop_drop]
  congr 2 <;> omega

/-- The first loop of `encodeBlock` fills the end of the block with the repeated message. -/
theorem fillLoop_eq (inp : Bytes) (off z t : Nat) (hz : 0 < z) (h : off + z ≤ inp.length) (L : Nat) (hL : t ≤ L) :
    ∀ rounds i, z ∣ i → i ≤ t → t - i < rounds →
      fillLoop inp off z t rounds i (List.replicate (L - i) 0 ++ repeated (section_ inp off z) i) =
        some (.ok (List.replicate (L - t) 0 ++ repeated (section_ inp off z) t)) := by
  have hm : (section_ inp off z).length = z := by simp [section_]; omega
  intro rounds
  induction rounds with
  | zero => intro i _ _ h; omega
  | succ n ih =>
    intro i hd hi hr
    unfold fillLoop
    have hlen : (List.replicate (L - i) (0 : UInt8) ++ repeated (section_ inp off z) i).length = L := by
      simp [length_repeated]; omega
    by_cases hlt : i < t
    · rw [if_pos (by omega), hlen]
      by_cases hc : i + z ≤ t
      · rw [if_neg (by omega)]
        have e : ((L : Int) - (i + z)) = ((L - (i + z) : Nat) : Int) := by omega
        rw [e, arrayCopy_into _ _ _ _ _ h (by rw [hlen]; omega)]
        simp only
        have hadd := repeated_add (section_ inp off z) i z (by rw [hm]; exact hd) (by omega)
        rw [hm, Nat.sub_self, List.drop_zero] at hadd
        have hb : (List.replicate (L - i) (0 : UInt8) ++ repeated (section_ inp off z) i).take (L - (i + z)) ++ section_ inp off z ++
            (List.replicate (L - i) (0 : UInt8) ++ repeated (section_ inp off z) i).drop (L - (i + z) + z) =
            List.replicate (L - (i + z)) 0 ++ repeated (section_ inp off z) (i + z) := by
          have e1 : L - (i + z) + z = L - i := by omega
          rw [hadd, e1, List.take_append_of_le_length (by simp; omega), List.take_replicate, List.drop_left' (by simp)]
          have : min (L - (i + z)) (L - i) = L - (i + z) := by omega
          rw [this]
          simp
        rw [hb]
        have := ih (i + z) (Dvd.dvd.add hd (dvd_refl z)) hc (by omega)
        push_cast at this
        exact this
      · rw [if_pos (by omega)]
        have e : ((L : Int) - t) = ((L - t : Nat) : Int) := by omega
        have e2 : ((off : Int) + z - (t - i)) = ((off + z - (t - i) : Nat) : Int) := by omega
        have e3 : ((t : Int) - i) = ((t - i : Nat) : Int) := by omega
        rw [e2, e, e3, arrayCopy_into _ _ _ _ _ (by omega) (by rw [hlen]; omega)]
        simp only
        have hadd := repeated_add (section_ inp off z) i (t - i) (by rw [hm]; exact hd) (by omega)
        rw [hm, Nat.add_sub_cancel' hi] at hadd
        have hb : (List.replicate (L - i) (0 : UInt8) ++ repeated (section_ inp off z) i).take (L - t) ++
            section_ inp (off + z - (t - i)) (t - i) ++
            (List.replicate (L - i) (0 : UInt8) ++ repeated (section_ inp off z) i).drop (L - t + (t - i)) =
            List.replicate (L - t) 0 ++ repeated (section_ inp off z) t := by
          have e1 : L - t + (t - i) = L - i := by omega
          rw [hadd, e1, List.take_append_of_le_length (by simp; omega), List.take_replicate, List.drop_left' (by simp),
            section_section inp off z (t - i) (by omega)]
          have : min (L - t) (L - i) = L - t := by omega
          rw [this]
          simp
        rw [hb]
        rcases n with _ | n
        · omega
        · unfold fillLoop
          rw [if_neg (by omega)]
    · have : i = t := by omega
      subst this
      rw [if_neg (by omega)]

/-! ## Every byte gets its shadow -/

theorem byteAt_append (a : Bytes) (x : UInt8) (b : Bytes) (i : Int) (h : i = a.length) : byteAt (a ++ x :: b) i = .ok x := by
  subst h
  unfold byteAt
  rw [if_pos (by simp)]
  simp

theorem putByte_append (a : Bytes) (x y : UInt8) (b : Bytes) (i : Int) (h : i = a.length) :
    putByte (a ++ x :: b) i y = .ok (a ++ y :: b) := by
  subst h
  unfold putByte
  rw [if_pos (by simp)]
  simp

theorem shadowLoop_eq (t : Nat) : ∀ (w P junk : Bytes), junk.length = w.length → t = w.length + P.length / 2 →
    shadowLoop t w.length P.length (P ++ junk ++ w) = .ok (P ++ interleaved w) := by
  intro w
  induction w with
  | nil =>
    intro P junk hj _
    have : junk = [] := List.length_eq_zero_iff.1 (by simpa using hj)
    simp [shadowLoop, this, interleaved]
  | cons v w ih =>
    intro P junk hj ht
    rw [List.length_cons, shadowLoop]
    have hd : ((P.length : Int)).tdiv 2 = ((P.length / 2 : Nat) : Int) := (Int.ofNat_tdiv _ _).symm
    rw [byteAt_append (P ++ junk) v w _ (by rw [hd]; simp only [List.length_append, List.length_cons] at *; omega)]
    obtain ⟨j, js, rfl⟩ : ∃ j js, junk = j :: js := by
      cases junk with
      | nil => simp at hj
      | cons j js => exact ⟨j, js, rfl⟩
    simp only [Outcome.bind]
    have e1 : P ++ j :: js ++ v :: w = P ++ j :: (js ++ v :: w) := by simp
    rw [e1, putByte_append P j _ _ _ rfl]
    obtain ⟨y, ys, hy, hys⟩ : ∃ y ys, js ++ v :: w = y :: (ys ++ w) ∧ ys.length = w.length := by
      cases js with
      | nil =>
        have : w = [] := List.length_eq_zero_iff.1 (by simp only [List.length_cons, List.length_nil] at hj; omega)
        exact ⟨v, [], by simp [this]⟩
      | cons y ys => exact ⟨y, ys ++ [v], by simp, by simp at hj ⊢; omega⟩
    simp only
    have e2 : P ++ shadowByte v :: (js ++ v :: w) = (P ++ [shadowByte v]) ++ y :: (ys ++ w) := by rw [hy]; simp
    rw [e2, putByte_append _ y _ _ _ (by simp)]
    simp only
    have e3 : (P ++ [shadowByte v]) ++ v :: (ys ++ w) = (P ++ [shadowByte v, v]) ++ ys ++ w := by simp
    have e4 : (P.length : Int) + 2 = ((P ++ [shadowByte v, v]).length : Nat) := by simp
    rw [e3, e4, ih _ _ hys (by simp at ht ⊢; omega)]
    simp [interleaved]

end Verif.Crypto
