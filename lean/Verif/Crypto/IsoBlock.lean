import Verif.Crypto.IsoLemmas

/-
The whole block that is handed to the engine, and what is read from one.
-/

namespace Verif.Crypto

open Verif

/-! ## Specification -/

/-- The repeated message with its redundancy: every byte after its shadow, the shadow of the first byte
of the (last copy of the) message changed by the number of pad bits plus one, and the last byte
replaced by its low nibble and 6. -/
def redundant (m : Bytes) (padBits : Int) (t : Nat) : Bytes :=
  ((interleaved (repeated m t)).modify (2 * t - 2 * m.length) (· ^^^ toByte (padBits + 1))).modify (2 * t - 1)
    fun v => (v <<< 4) ||| 0x06

/-- The highest byte of which only `s` bits are used: the highest of these is set. -/
def topByte (s : Nat) (x : UInt8) : UInt8 := (x &&& (0xff >>> UInt8.ofNat (8 - s))) ||| (0x80 >>> UInt8.ofNat (8 - s))

/-- The bytes handed to the engine for a modulus of `bits` bits. -/
def payload (bits : Nat) (m : Bytes) (padBits : Int) : Bytes :=
  let r := redundant m padBits ((bits + 13) / 16)
  if bits % 16 = 2 then 1 :: r
  else if bits % 16 = 9 then r.tail.modify 0 (· ||| 0x80)
  else if bits % 16 = 1 then r.modify 0 (· ||| 0x80)
  else r.modify 0 (topByte ((bits - 1) % 8))

/-- The sizes of moduli for which a block can be built at all. -/
def BlockSize (bits : Nat) : Prop := bits % 16 ≤ 2 ∨ 9 ≤ bits % 16

/-! ## Bytes -/

theorem length_interleaved (v : Bytes) : (interleaved v).length = 2 * v.length := by
  induction v with
  | nil => rfl
  | cons x v ih =>
    have : interleaved (x :: v) = shadowByte x :: x :: interleaved v := by simp [interleaved]
    rw [this]
    simp only [List.length_cons, ih]
    omega

theorem interleaved_odd (v : Bytes) : ∀ i, (interleaved v)[2 * i + 1]? = v[i]? := by
  induction v with
  | nil => intro i; simp [interleaved]
  | cons x v ih =>
    have : interleaved (x :: v) = shadowByte x :: x :: interleaved v := by simp [interleaved]
    intro i
    rw [this]
    cases i with
    | zero => rfl
    | succ i => exact ih i

theorem interleaved_even (v : Bytes) : ∀ i, (interleaved v)[2 * i]? = (v[i]?).map shadowByte := by
  induction v with
  | nil => intro i; simp [interleaved]
  | cons x v ih =>
    have : interleaved (x :: v) = shadowByte x :: x :: interleaved v := by simp [interleaved]
    intro i
    rw [this]
    cases i with
    | zero => rfl
    | succ i => exact ih i

theorem length_redundant (m : Bytes) (pad : Int) (t : Nat) : (redundant m pad t).length = 2 * t := by
  simp [redundant, length_interleaved, length_repeated]

theorem updateByte_eq (b : Bytes) (i : Nat) (f : UInt8 → UInt8) (h : i < b.length) : updateByte b i f = .ok (b.modify i f) := by
  unfold updateByte byteAt putByte
  rw [if_pos (by omega)]
  simp only [Outcome.bind, Int.toNat_natCast]
  rw [if_pos (by omega)]
  congr 1
  rw [List.getD_eq_getElem?_getD, List.getElem?_eq_getElem h, Option.getD_some]
  apply List.ext_getElem?
  intro j
  rw [List.getElem?_set, List.getElem?_modify]
  by_cases hj : i = j
  · subst hj
    simp [h]
  · simp [hj]

theorem updateByte_panic (b : Bytes) (i : Int) (f : UInt8 → UInt8) (h : i < 0) : updateByte b i f = .panic := by
  unfold updateByte byteAt
  rw [if_neg (by omega)]
  rfl

/-- The two loops together. -/
theorem encoding_loops {rounds bits : Nat} {pad : Int} {inp : Bytes} {off z : Nat} (hz : 0 < z) (h : off + z ≤ inp.length)
    (hr : (bits + 13) / 16 < rounds) (d : Nat) (hL : (bits + 7) / 8 = 2 * ((bits + 13) / 16) + d) (hd : d ≤ 1) :
    encoding rounds bits pad inp off z = some
      (finishBlock bits pad z (List.replicate d 0 ++ interleaved (repeated (section_ inp off z) ((bits + 13) / 16)))) := by
  unfold encoding
  generalize ht : (bits + 13) / 16 = t at *
  simp only [hL]
  have hf := fillLoop_eq inp off z t hz h (2 * t + d) (by omega) rounds 0 (by simp) (by omega) (by omega)
  have h0 : List.replicate (2 * t + d - 0) (0 : UInt8) ++ repeated (section_ inp off z) 0 = List.replicate (2 * t + d) 0 := by
    simp [repeated]
  rw [h0] at hf
  rw [show ((0 : Nat) : Int) = 0 from rfl] at hf
  rw [hf]
  simp only [Option.map_some, Outcome.bind, Option.some.injEq]
  have hs := shadowLoop_eq t (repeated (section_ inp off z) t) (List.replicate d 0) (List.replicate t 0) (by simp [length_repeated])
    (by simp [length_repeated]; omega)
  have e1 : List.replicate (2 * t + d - t) (0 : UInt8) = List.replicate d 0 ++ List.replicate t 0 := by
    rw [List.replicate_append_replicate]
    congr 1
    omega
  rw [e1]
  have e2 : (((List.replicate d (0 : UInt8) ++ List.replicate t 0 ++ repeated (section_ inp off z) t).length : Int) - 2 * (t : Nat)) =
      ((List.replicate d (0 : UInt8)).length : Nat) := by
    simp [length_repeated]
    omega
  rw [e2]
  rw [length_repeated] at hs
  rw [hs]

theorem modify_append_right (a b : Bytes) (i : Nat) (f : UInt8 → UInt8) : (a ++ b).modify (a.length + i) f = a ++ b.modify i f := by
  induction a with
  | nil => simp
  | cons x a ih =>
    have : (x :: a).length + i = (a.length + i) + 1 := by simp; omega
    rw [this, List.cons_append, List.modify_succ_cons, ih]
    rfl

theorem modify_modify (b : Bytes) (i : Nat) (f g : UInt8 → UInt8) : (b.modify i f).modify i g = b.modify i (g ∘ f) := by
  apply List.ext_getElem?
  intro j
  simp only [List.getElem?_modify]
  by_cases h : i = j
  · subst h; cases b[i]? <;> simp
  · cases b[j]? <;> simp [h]

/-- What is handed to the engine: bytes from `o` on. -/
theorem encoding_eq {rounds bits : Nat} {pad : Int} {inp : Bytes} {off z : Nat} (hb : BlockSize bits) (hz : 0 < z)
    (hle : z ≤ (bits + 13) / 16) (h : off + z ≤ inp.length) (hr : (bits + 13) / 16 < rounds) :
    ∃ (F : Bytes) (o : Nat), encoding rounds bits pad inp off z = some (.ok (F, (o : Int))) ∧ o ≤ 1 ∧ F.length = (bits + 7) / 8 ∧
      F.drop o = payload bits (section_ inp off z) pad := by
  have hm : (section_ inp off z).length = z := by simp [section_]; omega
  obtain ⟨d, hd, hL⟩ : ∃ d ≤ 1, (bits + 7) / 8 = 2 * ((bits + 13) / 16) + d := by
    unfold BlockSize at hb
    exact ⟨(bits + 7) / 8 - 2 * ((bits + 13) / 16), by omega, by omega⟩
  rw [encoding_loops hz h hr d hL hd]
  unfold finishBlock payload
  generalize ht : (bits + 13) / 16 = t at *
  have hv := length_repeated (section_ inp off z) t
  have hlen : (List.replicate d (0 : UInt8) ++ interleaved (repeated (section_ inp off z) t)).length = d + 2 * t := by
    simp [length_interleaved, hv]
  have e1 : (((List.replicate d (0 : UInt8) ++ interleaved (repeated (section_ inp off z) t)).length : Int) - 2 * (z : Int)) =
      ((d + (2 * t - 2 * z) : Nat) : Int) := by rw [hlen]; omega
  rw [e1, updateByte_eq _ _ _ (by rw [hlen]; omega)]
  simp only [Outcome.bind]
  have e2 : ((((List.replicate d (0 : UInt8) ++ interleaved (repeated (section_ inp off z) t)).modify (d + (2 * t - 2 * z))
      (· ^^^ toByte (pad + 1))).length : Int) - 1) = ((d + (2 * t - 1) : Nat) : Int) := by
    rw [List.length_modify, hlen]; omega
  rw [e2, updateByte_eq _ _ _ (by rw [List.length_modify, hlen]; omega)]
  have e3 : ((List.replicate d (0 : UInt8) ++ interleaved (repeated (section_ inp off z) t)).modify (d + (2 * t - 2 * z))
      (· ^^^ toByte (pad + 1))).modify (d + (2 * t - 1)) (fun v => (v <<< 4) ||| 0x06) =
      List.replicate d 0 ++ redundant (section_ inp off z) pad t := by
    have hrep : (List.replicate d (0 : UInt8)).length = d := by simp
    have := modify_append_right (List.replicate d 0) (interleaved (repeated (section_ inp off z) t)) (2 * t - 2 * z)
      (· ^^^ toByte (pad + 1))
    rw [hrep] at this
    rw [this]
    have := modify_append_right (List.replicate d 0) ((interleaved (repeated (section_ inp off z) t)).modify (2 * t - 2 * z)
      (· ^^^ toByte (pad + 1))) (2 * t - 1) (fun v => (v <<< 4) ||| 0x06)
    rw [hrep] at this
    rw [this]
    unfold redundant
    rw [hm]
  rw [e3]
  have hlr := length_redundant (section_ inp off z) pad t
  generalize redundant (section_ inp off z) pad t = R at *
  have hmb : (8 - ((bits : Int) - 1).tmod 8) = ((8 - (bits - 1) % 8 : Nat) : Int) := by
    have : ((bits : Int) - 1) = ((bits - 1 : Nat) : Int) := by omega
    rw [this]
    have : (((bits - 1 : Nat) : Int)).tmod 8 = ((bits - 1) % 8 : Nat) := (Int.ofNat_tmod _ _).symm
    rw [this]
    omega
  simp only [hmb, Int.toNat_natCast]
  have hz0 : (0 : Int) = ((0 : Nat) : Int) := rfl
  by_cases hs : (bits - 1) % 8 = 0
  · rw [if_neg (by omega)]
    obtain ⟨x, R', rfl⟩ : ∃ x R', R = x :: R' := by
      cases R with
      | nil => simp at hlr; omega
      | cons x R' => exact ⟨x, R', rfl⟩
    rcases Nat.le_one_iff_eq_zero_or_eq_one.1 hd with rfl | rfl
    · -- 9
      have hp : putByte (List.replicate 0 (0 : UInt8) ++ x :: R') 0 0 = .ok (0 :: R') := putByte_append [] x 0 R' 0 rfl
      rw [hp]
      simp only
      have h9 : bits % 16 = 9 := by unfold BlockSize at hb; omega
      have hu := updateByte_eq (0 :: R') 1 (· ||| 0x80) (by simp at hlr ⊢; omega)
      rw [show ((1 : Nat) : Int) = 1 from rfl] at hu
      rw [hu]
      refine ⟨_, 1, rfl, le_rfl, by simp at hlr ⊢; omega, ?_⟩
      simp [h9]
    · have hp : putByte (List.replicate 1 (0 : UInt8) ++ x :: R') 0 0 = .ok (0 :: x :: R') := putByte_append [] 0 0 (x :: R') 0 rfl
      rw [hp]
      simp only
      have h9 : bits % 16 = 1 := by unfold BlockSize at hb; omega
      have hu := updateByte_eq (0 :: x :: R') 1 (· ||| 0x80) (by simp)
      rw [show ((1 : Nat) : Int) = 1 from rfl] at hu
      rw [hu]
      refine ⟨_, 1, rfl, le_rfl, by simp at hlr ⊢; omega, ?_⟩
      simp [h9]
  · rw [if_pos (by omega), hz0, updateByte_eq _ 0 _ (by simp [hlr]; omega)]
    simp only
    rw [updateByte_eq _ 0 _ (by simp [hlr]; omega), modify_modify]
    simp only [Outcome.map']
    refine ⟨_, 0, rfl, by omega, by simp [hlr]; omega, ?_⟩
    rw [List.drop_zero]
    have hf : ((fun x : UInt8 => x ||| 0x80 >>> UInt8.ofNat (8 - (bits - 1) % 8)) ∘ fun x => x &&& 0xff >>> UInt8.ofNat (8 - (bits - 1) % 8)) =
        topByte ((bits - 1) % 8) := rfl
    rw [hf]
    rcases Nat.le_one_iff_eq_zero_or_eq_one.1 hd with rfl | rfl
    · have h1 : bits % 16 ≠ 2 ∧ bits % 16 ≠ 9 ∧ bits % 16 ≠ 1 := by unfold BlockSize at hb; omega
      simp [h1.1, h1.2.1, h1.2.2]
    · have h2 : bits % 16 = 2 := by unfold BlockSize at hb; omega
      have h7 : (bits - 1) % 8 = 1 := by omega
      have h8 : topByte 1 0 = 1 := by decide
      simp [h2, h7, h8]

/-! ## The value of the bytes -/

theorem length_payload (bits : Nat) (m : Bytes) (pad : Int) :
    (payload bits m pad).length =
      if bits % 16 = 2 then 2 * ((bits + 13) / 16) + 1 else if bits % 16 = 9 then 2 * ((bits + 13) / 16) - 1 else 2 * ((bits + 13) / 16) := by
  unfold payload
  have hl := length_redundant m pad ((bits + 13) / 16)
  by_cases h2 : bits % 16 = 2
  · simp [h2, hl]
  by_cases h9 : bits % 16 = 9
  · simp [h9, hl]
  by_cases h1 : bits % 16 = 1
  · simp [h1, hl]
  · simp [h1, h2, h9, hl]

theorem topByte_bits (s : Nat) (h1 : 0 < s) (h2 : s < 8) (x : UInt8) :
    2 ^ (s - 1) ≤ (topByte s x).toNat ∧ (topByte s x).toNat < 2 ^ s := by
  have : ∀ s : Fin 8, 0 < s.val → ∀ x : UInt8, 2 ^ (s.val - 1) ≤ (topByte s.val x).toNat ∧ (topByte s.val x).toNat < 2 ^ s.val := by
    decide +kernel
  exact this ⟨s, h2⟩ h1 x

theorem or_bits (x : UInt8) : 2 ^ 7 ≤ (x ||| 0x80).toNat := by
  have : ∀ x : UInt8, 2 ^ 7 ≤ (x ||| 0x80).toNat := by decide +kernel
  exact this x

/-- The first byte has `k` bits, and all together are one less than the modulus has. -/
theorem payload_head (bits : Nat) (hb : BlockSize bits) (ht : 2 ≤ (bits + 13) / 16) (m : Bytes) (pad : Int) :
    ∃ c r k, payload bits m pad = c :: r ∧ 2 ^ (k - 1) ≤ c.toNat ∧ c.toNat < 2 ^ k ∧ 0 < k ∧ 8 * r.length + k = bits - 1 := by
  unfold payload
  have hl := length_redundant m pad ((bits + 13) / 16)
  generalize redundant m pad ((bits + 13) / 16) = R at *
  obtain ⟨x, y, R, rfl⟩ : ∃ x y R', R = x :: y :: R' := by
    match R, hl with
    | x :: y :: R, _ => exact ⟨x, y, R, rfl⟩
    | [x], hl => simp at hl; omega
    | [], hl => simp at hl; omega
  simp only [List.length_cons] at hl
  unfold BlockSize at hb
  by_cases h : bits % 16 = 2
  · refine ⟨1, x :: y :: R, 1, by simp only [h, if_true], by decide, by decide, by decide, ?_⟩
    simp only [List.length_cons]
    omega
  simp only [h, if_false]
  by_cases h9 : bits % 16 = 9
  · simp only [h9, if_true]
    exact ⟨y ||| 0x80, R, 8, rfl, or_bits y, UInt8.toNat_lt _, by decide, by omega⟩
  simp only [h9, if_false]
  by_cases h1 : bits % 16 = 1
  · simp only [h1, if_true]
    refine ⟨x ||| 0x80, y :: R, 8, rfl, or_bits x, UInt8.toNat_lt _, by decide, ?_⟩
    simp only [List.length_cons]
    omega
  simp only [h1, if_false]
  have hk := topByte_bits ((bits - 1) % 8) (by omega) (by omega) x
  refine ⟨topByte ((bits - 1) % 8) x, y :: R, (bits - 1) % 8, rfl, hk.1, hk.2, by omega, ?_⟩
  simp only [List.length_cons]
  omega

/-- The value has exactly one bit less than the modulus. -/
theorem payload_bits (bits : Nat) (hb : BlockSize bits) (ht : 2 ≤ (bits + 13) / 16) (m : Bytes) (pad : Int) :
    2 ^ (bits - 2) ≤ setBytes (payload bits m pad) ∧ setBytes (payload bits m pad) < 2 ^ (bits - 1) := by
  obtain ⟨c, r, k, hp, h1, h2, hk, hl⟩ := payload_head bits hb ht m pad
  rw [hp, setBytes_cons]
  have h256 : (256 : Nat) = 2 ^ 8 := rfl
  have hr := setBytes_lt r
  have e : 2 ^ (bits - 1) = 2 ^ k * 256 ^ r.length := by rw [h256, ← pow_mul, ← pow_add]; congr 1; omega
  have e2 : 2 ^ (bits - 2) = 2 ^ (k - 1) * 256 ^ r.length := by rw [h256, ← pow_mul, ← pow_add]; congr 1; omega
  rw [e, e2]
  constructor
  · have := Nat.mul_le_mul_right (256 ^ r.length) h1
    omega
  · have : (c.toNat + 1) * 256 ^ r.length ≤ 2 ^ k * 256 ^ r.length := Nat.mul_le_mul_right _ h2
    nlinarith

theorem nibble_six (v : UInt8) : ((v <<< 4) ||| 0x06).toNat % 16 = 6 := by
  have : ∀ v : UInt8, ((v <<< 4) ||| 0x06).toNat % 16 = 6 := by decide +kernel
  exact this v

/-- The last byte ends in 6. -/
theorem payload_last (bits : Nat) (ht : 2 ≤ (bits + 13) / 16) (m : Bytes) (pad : Int) :
    ∃ (a : Bytes) (v : UInt8), payload bits m pad = a ++ [(v <<< 4) ||| 0x06] := by
  have hred : ∃ (x y : UInt8) (a : Bytes) (v : UInt8), redundant m pad ((bits + 13) / 16) = x :: y :: a ++ [(v <<< 4) ||| 0x06] := by
    unfold redundant
    generalize hB : (interleaved (repeated m ((bits + 13) / 16))).modify (2 * ((bits + 13) / 16) - 2 * m.length) (· ^^^ toByte (pad + 1)) = B
    have hl : B.length = 2 * ((bits + 13) / 16) := by rw [← hB]; simp [length_interleaved, length_repeated]
    obtain ⟨b, v, rfl⟩ : ∃ b v, B = b ++ [v] := by
      refine ⟨B.dropLast, B.getLast (fun h => by simp [h] at hl; omega), (List.dropLast_append_getLast _).symm⟩
    simp only [List.length_append, List.length_singleton] at hl
    have e : 2 * ((bits + 13) / 16) - 1 = b.length + 0 := by omega
    rw [e, modify_append_right]
    match b, hl with
    | x :: y :: b, _ => exact ⟨x, y, b, v, rfl⟩
    | [x], hl => simp at hl; omega
    | [], hl => simp at hl; omega
  obtain ⟨x, y, a, v, hr⟩ := hred
  unfold payload
  rw [hr]
  simp only
  split
  · exact ⟨1 :: x :: y :: a, v, by simp⟩
  · split
    · exact ⟨(y ||| 0x80) :: a, v, rfl⟩
    · split
      · exact ⟨(x ||| 0x80) :: y :: a, v, rfl⟩
      · exact ⟨topByte ((bits - 1) % 8) x :: y :: a, v, rfl⟩

theorem payload_mod (bits : Nat) (ht : 2 ≤ (bits + 13) / 16) (m : Bytes) (pad : Int) :
    setBytes (payload bits m pad) % 16 = 6 := by
  obtain ⟨a, v, h⟩ := payload_last bits ht m pad
  rw [h, setBytes_concat]
  have := nibble_six v
  omega

/-! ## Reading -/

/-- The last byte of a block, with its high nibble taken from the shadow before it. -/
def restored (G : Bytes) : UInt8 :=
  (G.getD (G.length - 1) 0 >>> 4) ||| (nibble inverse (G.getD (G.length - 2) 0 >>> 4) <<< 4)

/-- Every second byte of a block, the last one restored. -/
def decoded (G : Bytes) : Bytes :=
  (List.range (G.length / 2)).map fun i => if 2 * i + 1 = G.length - 1 then restored G else G.getD (2 * i + 1) 0

theorem everySecond_eq (B : Bytes) : ∀ n i, 2 * (i + n) ≤ B.length →
    everySecond B 0 n i = .ok ((List.range n).map fun k => B.getD (2 * (i + k) + 1) 0) := by
  intro n
  induction n with
  | zero => intro i _; rfl
  | succ n ih =>
    intro i h
    unfold everySecond
    have : byteAt B (2 * (i : Int) + 0 + 1) = .ok (B.getD (2 * i + 1) 0) := by
      unfold byteAt
      rw [if_pos (by omega)]
      congr 2
    rw [this]
    simp only [Outcome.bind]
    rw [ih (i + 1) (by omega)]
    simp only [Outcome.map', Outcome.ok.injEq]
    rw [List.range_succ_eq_map, List.map_cons, List.map_map]
    congr 1
    apply List.map_congr_left
    intro k _
    simp only [Function.comp, Nat.succ_eq_add_one]
    congr 2
    omega

theorem low_nibble (v : UInt8) (h : v.toNat % 16 = 6) : v &&& 0x0f = 0x6 := by
  have : ∀ v : UInt8, v.toNat % 16 = 6 → v &&& 0x0f = 0x6 := by decide +kernel
  exact this v h

theorem byteAt_nat (b : Bytes) (i : Int) (j : Nat) (h : i = j) (hj : j < b.length) : byteAt b i = .ok (b.getD j 0) := by
  subst h
  unfold byteAt
  rw [if_pos (by omega)]
  rfl

theorem putByte_nat (b : Bytes) (i : Int) (j : Nat) (v : UInt8) (h : i = j) (hj : j < b.length) : putByte b i v = .ok (b.set j v) := by
  subst h
  unfold putByte
  rw [if_pos (by omega)]
  rfl

theorem convertOutputDecryptOnly_eq {y : Nat} (h0 : y ≠ 0) : convertOutputDecryptOnly y = .ok (numBytes y) := by
  obtain ⟨c, hc, hat⟩ := byteAt_zero h0
  unfold convertOutputDecryptOnly
  simp [hat, hc]

/-- Reading a value that ends in 6. -/
theorem decodeBlock_eq {engine : Engine} {n bits : Nat} {inp b : Bytes} {off len : Int} (he : engine inp off len = .ok b)
    (ht : 0 < (bits + 13) / 16) (h6 : setBytes b % 16 = 6) (h2 : 256 ≤ setBytes b) :
    decodeBlock engine n bits inp off len = .ok (decoded (numBytes (setBytes b)), 0) := by
  unfold decodeBlock
  rw [he]
  simp only [Outcome.bind]
  generalize setBytes b = x at *
  simp only [h6, if_true, Int.natAbs_natCast]
  rw [convertOutputDecryptOnly_eq (by omega)]
  have hv := setBytes_numBytes x
  have hlen : 2 ≤ (numBytes x).length := by
    by_contra hc
    have := setBytes_lt (numBytes x)
    rw [hv] at this
    have : 256 ^ (numBytes x).length ≤ 256 ^ 1 := Nat.pow_le_pow_right (by norm_num) (by omega)
    omega
  generalize hG : numBytes x = G at *
  simp only
  have hlast : (G.getD (G.length - 1) 0).toNat % 16 = 6 := by
    obtain ⟨g, v, rfl⟩ : ∃ g v, G = g ++ [v] :=
      ⟨G.dropLast, G.getLast (fun h => by simp [h] at hlen), (List.dropLast_append_getLast _).symm⟩
    rw [setBytes_concat] at hv
    simp
    omega
  rw [byteAt_nat G _ (G.length - 1) (by omega) (by omega)]
  simp only [low_nibble _ hlast, ne_eq, not_true_eq_false, if_false]
  rw [byteAt_nat G _ (G.length - 2) (by omega) (by omega)]
  simp only
  rw [putByte_nat G _ (G.length - 1) _ (by omega) (by omega)]
  simp only
  rw [byteAt_nat _ 1 1 rfl (by simp; omega)]
  simp only
  rw [putByte_nat _ 0 0 _ rfl (by simp; omega)]
  simp only [List.length_set]
  have hb : ∀ (B : Bytes) k s, boundaryLoop ((bits + 13) / 16 : Nat) B (k + 1) ((B.length : Int) - 1) s = .ok s := by
    intro B k s
    unfold boundaryLoop
    rw [if_neg (by omega)]
  have := hb ((G.set (G.length - 1) (G.getD (G.length - 1) 0 >>> 4 ||| nibble inverse (G.getD (G.length - 2) 0 >>> 4) <<< 4)).set 0
    (shadowByte ((G.set (G.length - 1) (G.getD (G.length - 1) 0 >>> 4 ||| nibble inverse (G.getD (G.length - 2) 0 >>> 4) <<< 4)).getD 1 0)))
    G.length (false, 1, 0)
  simp only [List.length_set] at this
  rw [this]
  simp only
  rw [putByte_nat _ 0 0 _ rfl (by simp; omega)]
  simp only [List.length_set, List.set_set]
  have hn : (((G.length : Int) - 0) / 2).toNat = G.length / 2 := by omega
  rw [hn, everySecond_eq _ _ 0 (by simp; omega)]
  simp only [Outcome.map']
  have hpad : (((1 : UInt8).toNat : Int) - 1) = 0 := rfl
  rw [hpad]
  congr 2
  unfold decoded
  apply List.map_congr_left
  intro k hk
  simp only [List.mem_range] at hk
  rw [Nat.zero_add, List.getD_eq_getElem?_getD, List.getElem?_set_ne (by omega)]
  by_cases hc : 2 * k + 1 = G.length - 1
  · rw [if_pos hc, hc, List.getElem?_set_self (by omega)]
    rfl
  · rw [if_neg hc, List.getElem?_set_ne (by omega), List.getD_eq_getElem?_getD]

end Verif.Crypto
