import Verif.Crypto.IsoBlock

/-
C53: the block coding of ISO 9796-1.
-/

namespace Verif.Crypto

open Verif

/-- C53: the table of shadows is a permutation of the nibbles, and the other table is its inverse. -/
theorem C53_tables (x : UInt8) (h : x < 16) :
    nibble inverse (nibble shadows x) = x ∧ nibble shadows (nibble inverse x) = x ∧ nibble shadows x < 16 := by
  have : ∀ x : UInt8, x < 16 → nibble inverse (nibble shadows x) = x ∧ nibble shadows (nibble inverse x) = x ∧ nibble shadows x < 16 := by
    decide +kernel
  exact this x h

/-! ## What cannot be encoded -/

/-- C53: an empty message is never encoded: the call does not return. -/
theorem C53_hangs (engine : Engine) (bits : Nat) (hb : 3 ≤ bits) (pad : Int) (inp : Bytes) (off : Nat) (h : off ≤ inp.length)
    (rounds : Nat) : encodeBlock rounds engine bits pad inp off 0 = none := by
  unfold encodeBlock encoding
  have key : ∀ rounds, fillLoop inp off 0 ((bits + 13) / 16 : Nat) rounds 0 (List.replicate ((bits + 7) / 8) 0) = none := by
    intro rounds
    induction rounds with
    | zero => rfl
    | succ n ih =>
      unfold fillLoop
      rw [if_pos (by omega), if_neg (by omega)]
      have := arrayCopy_into inp (List.replicate ((bits + 7) / 8) 0) off ((bits + 7) / 8) 0 (by omega) (by simp)
      simp only [List.length_replicate, Int.add_zero, Int.sub_zero]
      rw [show (((0 : Nat) : Int)) = 0 from rfl] at this
      rw [this]
      simp only [section_, List.take_zero, List.append_nil, Nat.add_zero]
      rw [List.take_append_drop]
      exact ih
  simp only [key, Option.map_none]

/-- C53: a message that is longer than half of the modulus, or any message if the number of bits of
the modulus is 3 to 8 more than a multiple of 16, crashes the encoder. -/
theorem C53_refused (engine : Engine) (bits : Nat) (pad : Int) (inp : Bytes) (off len rounds : Nat) (h0 : 0 < len)
    (h : off + len ≤ inp.length) (hr : (bits + 13) / 16 < rounds)
    (hbad : (bits + 13) / 16 < len ∨ 3 ≤ bits % 16 ∧ bits % 16 ≤ 8) :
    encodeBlock rounds engine bits pad inp off len = some .panic := by
  by_cases hb : 3 ≤ bits % 16 ∧ bits % 16 ≤ 8
  · unfold encodeBlock encoding
    have hf := fillLoop_eq inp off len ((bits + 13) / 16) h0 h ((bits + 7) / 8) (by omega) rounds 0 (by simp) (by omega) (by omega)
    have e : List.replicate ((bits + 7) / 8 - 0) (0 : UInt8) ++ repeated (section_ inp off len) 0 = List.replicate ((bits + 7) / 8) 0 := by
      simp [repeated]
    rw [e, show ((0 : Nat) : Int) = 0 from rfl] at hf
    simp only [hf, Option.map_some, Outcome.bind]
    have hlen : (List.replicate ((bits + 7) / 8 - (bits + 13) / 16) (0 : UInt8) ++ repeated (section_ inp off len) ((bits + 13) / 16)).length =
        (bits + 7) / 8 := by
      simp [length_repeated]; omega
    generalize List.replicate ((bits + 7) / 8 - (bits + 13) / 16) (0 : UInt8) ++ repeated (section_ inp off len) ((bits + 13) / 16) = B at *
    have hs : shadowLoop ((bits + 13) / 16 : Nat) ((bits + 13) / 16) ((B.length : Int) - 2 * ((bits + 13) / 16 : Nat)) B = .panic := by
      obtain ⟨k, hk⟩ : ∃ k, (bits + 13) / 16 = k + 1 := ⟨(bits + 13) / 16 - 1, by omega⟩
      have hi : ((B.length : Int) - 2 * ((bits + 13) / 16 : Nat)) = -1 := by rw [hlen]; omega
      rw [hi]
      conv_lhs => arg 2; rw [hk]
      unfold shadowLoop
      have hd : (-1 : Int).tdiv 2 = 0 := rfl
      rw [hd, byteAt_nat B _ ((bits + 7) / 8 - (bits + 13) / 16) (by rw [hlen]; omega) (by omega)]
      simp only [Outcome.bind, putByte]
      rw [if_neg (by omega)]
    rw [hs]
  · have hlong : (bits + 13) / 16 < len := by omega
    unfold encodeBlock
    rw [encoding_loops h0 h hr ((bits + 7) / 8 - 2 * ((bits + 13) / 16)) (by omega) (by omega)]
    unfold finishBlock
    rw [updateByte_panic]
    · rfl
    · simp [length_interleaved, length_repeated]
      omega

example : encodeBlock 100 (fun b _ _ => .ok b) 27 0 [1, 2, 3] 0 3 = some .panic ∧
    encodeBlock 100 (fun b _ _ => .ok b) 20 0 [1, 2, 3] 0 1 = some .panic ∧
    encodeBlock 100 (fun b _ _ => .ok b) 27 0 [1, 2, 3] 0 0 = none := by decide +kernel

/-! ## What is encoded -/

/-- C53: otherwise the engine is given a number that has exactly one bit less than the modulus and
ends in 6, in the bytes of the modulus. -/
theorem C53_block (engine : Engine) (bits : Nat) (pad : Int) (inp : Bytes) (off len rounds : Nat) (h0 : 0 < len)
    (h : off + len ≤ inp.length) (hr : (bits + 13) / 16 < rounds) (hlen : len ≤ (bits + 13) / 16) (h2 : 19 ≤ bits)
    (hb : ¬ (3 ≤ bits % 16 ∧ bits % 16 ≤ 8)) :
    ∃ (F : Bytes) (o : Nat), encodeBlock rounds engine bits pad inp off len = some (engine F o ((F.length : Int) - o)) ∧
      F.length = (bits + 7) / 8 ∧ Nat.size (value (F.drop o)) = bits - 1 ∧ value (F.drop o) % 16 = 6 := by
  have hB : BlockSize bits := by unfold BlockSize; omega
  obtain ⟨F, o, h1, h3, h4, h5⟩ := encoding_eq (pad := pad) hB h0 hlen h hr
  refine ⟨F, o, ?_, h4, ?_, ?_⟩
  · unfold encodeBlock
    rw [h1]
    rfl
  · rw [h5, ← value_eq]
    have := payload_bits bits hB (by omega) (section_ inp off len) pad
    apply le_antisymm
    · exact Nat.size_le.2 this.2
    · have := Nat.lt_size.2 this.1
      omega
  · rw [h5, ← value_eq]
    exact payload_mod bits (by omega) _ _

/-! ## Encoding and decoding -/

/-- What decoding makes of the encoded block. -/
theorem coded {n e d : Nat} (hk : KeyPair n e d) (hB : BlockSize (Nat.size n)) (h2 : 19 ≤ Nat.size n) (pad : Int) (inp : Bytes)
    (off len rounds : Nat) (h0 : 0 < len) (h : off + len ≤ inp.length) (hlen : len ≤ (Nat.size n + 13) / 16)
    (hr : (Nat.size n + 13) / 16 < rounds) :
    ∃ s, encodeBlock rounds (rsaBlock true ⟨n, e, none⟩) (Nat.size n) pad inp off len = some (.ok s) ∧ s.length = size n ∧
      decodeBlock (rsaBlock false ⟨n, d, none⟩) n (Nat.size n) s 0 s.length =
        .ok (decoded (payload (Nat.size n) (section_ inp off len) pad), 0) := by
  have ht : 2 ≤ (Nat.size n + 13) / 16 := by omega
  obtain ⟨F, o, h1, h3, h4, h5⟩ := encoding_eq (pad := pad) hB h0 hlen h hr
  have hbits := payload_bits (Nat.size n) hB ht (section_ inp off len) pad
  have hpos : 0 < 2 ^ (Nat.size n - 2) := by positivity
  have hn : n ≠ 0 := by rintro rfl; simp at h2
  have hlt : setBytes (payload (Nat.size n) (section_ inp off len) pad) < n := lt_of_lt_of_le hbits.2 (le_of_bitLen hn)
  obtain ⟨c, r, k, hp, hc, _, _, hl⟩ := payload_head (Nat.size n) hB ht (section_ inp off len) pad
  have hsec : section_ F o (F.length - o) = payload (Nat.size n) (section_ inp off len) pad := by
    rw [← h5]
    unfold section_
    rw [List.take_of_length_le (by simp)]
  have hoF : o + (F.length - o) ≤ F.length := by omega
  obtain ⟨s, hs, hsl, _⟩ := (C54_accepts hk.squarefree hk.enc F o (F.length - o) hoF).1
    ⟨by unfold size; omega, by rw [hsec, ← value_eq]; omega, by rw [hsec, ← value_eq]; exact hlt⟩
  have hcast : ((F.length : Int) - (o : Int)) = ((F.length - o : Nat) : Int) := by omega
  refine ⟨s, ?_, hsl, ?_⟩
  · unfold encodeBlock
    rw [h1]
    simp only [Option.map_some, Outcome.bind]
    rw [hcast, hs]
  · have hd := C54_blocks hk F o (F.length - o) hoF hs
    rw [hsec] at hd
    have hc0 : c ≠ 0 := by
      rintro rfl
      have : 0 < 2 ^ (k - 1) := by positivity
      simp at hc
    have hdw : (payload (Nat.size n) (section_ inp off len) pad).dropWhile (· = 0) = payload (Nat.size n) (section_ inp off len) pad := by
      rw [hp, List.dropWhile_cons]
      simp [hc0]
    rw [hdw] at hd
    have h256 : 256 ≤ setBytes (payload (Nat.size n) (section_ inp off len) pad) := by
      refine le_trans ?_ hbits.1
      calc 256 = 2 ^ 8 := rfl
        _ ≤ 2 ^ (Nat.size n - 2) := Nat.pow_le_pow_right (by norm_num) (by omega)
    have := decodeBlock_eq (n := n) (bits := Nat.size n) hd (by omega) (payload_mod _ ht _ _) h256
    rw [numBytes_setBytes, hdw] at this
    exact this

/-- The shadows of the repeated message, that of the first byte of the message changed by the number
of pad bits plus one. -/
def shadowed (m : Bytes) (pad : Int) (t : Nat) : Bytes :=
  ((repeated m t).map shadowByte).modify (t - m.length) (· ^^^ toByte (pad + 1))

theorem redundant_even (m : Bytes) (pad : Int) (t i : Nat) (hi : i < t) (hm : m.length ≤ t) :
    (redundant m pad t)[2 * i]? = (shadowed m pad t)[i]? := by
  unfold redundant shadowed
  rw [List.getElem?_modify, List.getElem?_modify, List.getElem?_modify, interleaved_even, List.getElem?_map]
  have h1 : ¬ (2 * t - 1 = 2 * i) := by omega
  have h2 : (2 * t - 2 * m.length = 2 * i) ↔ (t - m.length = i) := by omega
  simp only [h1, h2, if_false]
  cases (repeated m t)[i]? <;> simp

theorem redundant_odd (m : Bytes) (pad : Int) (t i : Nat) (hi : i + 1 < t) (hm : m.length ≤ t) :
    (redundant m pad t)[2 * i + 1]? = (repeated m t)[i]? := by
  unfold redundant
  rw [List.getElem?_modify, List.getElem?_modify, interleaved_odd]
  have h1 : ¬ (2 * t - 1 = 2 * i + 1) := by omega
  have h2 : ¬ (2 * t - 2 * m.length = 2 * i + 1) := by omega
  simp only [h1, h2, if_false]
  cases (repeated m t)[i]? <;> simp

theorem redundant_last (m : Bytes) (pad : Int) (t : Nat) (ht : 0 < t) (hm : m.length ≤ t) :
    (redundant m pad t)[2 * t - 1]? = ((repeated m t)[t - 1]?).map fun v : UInt8 => (v <<< 4) ||| 0x06 := by
  unfold redundant
  rw [List.getElem?_modify, List.getElem?_modify]
  have e : 2 * t - 1 = 2 * (t - 1) + 1 := by omega
  have h2 : ¬ (2 * t - 2 * m.length = 2 * t - 1) := by omega
  simp only [h2, if_false]
  rw [e, interleaved_odd]
  cases (repeated m t)[t - 1]? <;> simp

theorem restored_nibbles (v r : UInt8) (h : r < 16) :
    (((v <<< 4) ||| 0x06) >>> 4) ||| (nibble inverse ((shadowByte v ^^^ r) >>> 4) <<< 4) = v ∧
    (((v <<< 4) ||| 0x06) >>> 4) ||| (nibble inverse (shadowByte v >>> 4) <<< 4) = v := by
  have h1 : ∀ v : UInt8, ∀ r : Fin 16,
    (((v <<< 4) ||| 0x06) >>> 4) ||| (nibble inverse ((shadowByte v ^^^ UInt8.ofNat r.val) >>> 4) <<< 4) = v ∧
    (((v <<< 4) ||| 0x06) >>> 4) ||| (nibble inverse (shadowByte v >>> 4) <<< 4) = v := by decide +kernel
  have := h1 v ⟨r.toNat, h⟩
  simpa using this

/-- If the block has as many bytes as the redundant message, the repeated message is read. -/
theorem decoded_even (m : Bytes) (pad : Int) (t : Nat) (f : UInt8 → UInt8) (ht : 2 ≤ t) (hm : m.length ≤ t)
    (hpad : toByte (pad + 1) < 16) : decoded ((redundant m pad t).modify 0 f) = repeated m t := by
  have hl := length_redundant m pad t
  have hv := length_repeated m t
  unfold decoded
  rw [List.length_modify, hl]
  have e : 2 * t / 2 = t := by omega
  rw [e]
  apply List.ext_getElem?
  intro i
  by_cases hi : i < t
  · rw [List.getElem?_map, List.getElem?_range hi, Option.map_some]
    obtain ⟨x, hx⟩ : ∃ x, (repeated m t)[i]? = some x := ⟨_, List.getElem?_eq_getElem (by omega)⟩
    rw [hx]
    congr 1
    by_cases hc : 2 * i + 1 = 2 * t - 1
    · rw [if_pos hc]
      have hi' : i = t - 1 := by omega
      unfold restored
      rw [List.length_modify, hl, List.getD_eq_getElem?_getD, List.getD_eq_getElem?_getD, List.getElem?_modify, List.getElem?_modify,
        redundant_last m pad t (by omega) hm]
      have e2 : 2 * t - 2 = 2 * (t - 1) := by omega
      have n0 : ¬ (0 = 2 * t - 1) := by omega
      have n1 : ¬ (0 = 2 * (t - 1)) := by omega
      rw [e2, redundant_even m pad t (t - 1) (by omega) hm]
      unfold shadowed
      rw [List.getElem?_modify, List.getElem?_map, ← hi', hx]
      rw [← hi'] at n1
      simp only [Option.map_some, n0, n1, if_false]
      have hr := restored_nibbles x (toByte (pad + 1)) hpad
      by_cases hq : t - m.length = i
      · simpa [hq] using hr.1
      · simpa [hq] using hr.2
    · rw [if_neg hc, List.getD_eq_getElem?_getD, List.getElem?_modify, redundant_odd m pad t i (by omega) hm, hx]
      have n0 : ¬ (0 = 2 * i + 1) := by omega
      simp
  · rw [List.getElem?_eq_none (by simpa using hi), List.getElem?_eq_none (by omega)]

theorem toByte_small {pad : Int} (h0 : 0 ≤ pad) (h7 : pad ≤ 7) : toByte (pad + 1) < 16 := by
  obtain ⟨k, rfl⟩ : ∃ k : Nat, pad = k := ⟨pad.toNat, by omega⟩
  have : k < 8 := by omega
  have h : ∀ k : Fin 8, toByte ((k.val : Int) + 1) < 16 := by decide
  exact h ⟨k, this⟩

/-- C53: with an RSA key pair whose modulus has a multiple of 16 bits, or 1 or 10 to 15 more, a message
of at most half its length can be encoded and decoded again.  What is read is not the message but its
repetition to the left up to half the length of the modulus; the pad bits read are always 0. -/
theorem C53_roundtrip {n e d : Nat} (hk : KeyPair n e d) (h2 : 19 ≤ Nat.size n)
    (hB : Nat.size n % 16 ≤ 1 ∨ 10 ≤ Nat.size n % 16) (c : Coder) (hc : c.enc = true) (hkey : c.key = ⟨n, e, none⟩)
    (hpad : 0 ≤ c.padBits ∧ c.padBits ≤ 7) (inp : Bytes) (off len rounds : Nat) (h0 : 0 < len) (h : off + len ≤ inp.length)
    (hlen : len ≤ (Nat.size n + 13) / 16) (hr : (Nat.size n + 13) / 16 < rounds) :
    ∃ s, c.processBlock rounds inp off len = some (.ok s, c) ∧ s.length = size n ∧
      ((c.init false ⟨n, d, none⟩).processBlock rounds s 0 s.length) =
        some (.ok (repeated (section_ inp off len) ((Nat.size n + 13) / 16)), { key := ⟨n, d, none⟩, enc := false, padBits := 0 }) := by
  have hm : (section_ inp off len).length = len := by simp [section_]; omega
  have hB' : BlockSize (Nat.size n) := by unfold BlockSize; omega
  obtain ⟨s, h1, h3, h4⟩ := coded hk hB' h2 c.padBits inp off len rounds h0 h hlen hr
  refine ⟨s, ?_, h3, ?_⟩
  · unfold Coder.processBlock
    rw [hc, hkey]
    simp only [if_true]
    have : bitLen n = Nat.size n := rfl
    rw [this, h1]
    rfl
  · unfold Coder.processBlock Coder.init
    simp only [Bool.false_eq_true, if_false]
    have : bitLen n = Nat.size n := rfl
    rw [this, h4]
    simp only
    have hd : decoded (payload (Nat.size n) (section_ inp off len) c.padBits) = repeated (section_ inp off len) ((Nat.size n + 13) / 16) := by
      unfold payload
      have n2 : ¬ Nat.size n % 16 = 2 := by omega
      have n9 : ¬ Nat.size n % 16 = 9 := by omega
      simp only [n2, n9, if_false]
      split <;> exact decoded_even _ _ _ _ (by omega) (by omega) (toByte_small hpad.1 hpad.2)
    rw [hd]

/-- C53: a message of exactly half the length of the modulus is read as it was. -/
theorem C53_full {n e d : Nat} (hk : KeyPair n e d) (h2 : 19 ≤ Nat.size n)
    (hB : Nat.size n % 16 ≤ 1 ∨ 10 ≤ Nat.size n % 16) (c : Coder) (hc : c.enc = true) (hkey : c.key = ⟨n, e, none⟩)
    (hpad : 0 ≤ c.padBits ∧ c.padBits ≤ 7) (msg : Bytes) (hlen : msg.length = (Nat.size n + 13) / 16) (rounds : Nat)
    (hr : (Nat.size n + 13) / 16 < rounds) :
    ∃ s, c.processBlock rounds msg 0 msg.length = some (.ok s, c) ∧
      ((c.init false ⟨n, d, none⟩).processBlock rounds s 0 s.length) =
        some (.ok msg, { key := ⟨n, d, none⟩, enc := false, padBits := 0 }) := by
  obtain ⟨s, h1, _, h3⟩ := C53_roundtrip hk h2 hB c hc hkey hpad msg 0 msg.length rounds (by omega) (by omega) (by omega) hr
  refine ⟨s, h1, ?_⟩
  rw [h3]
  have : section_ msg 0 msg.length = msg := by simp [section_]
  rw [this, ← hlen, repeated_self]

/-- C53: a shorter message is never read as it was: what is read has half the length of the modulus. -/
theorem C53_short (m : Bytes) (t : Nat) (h : m.length < t) : repeated m t ≠ m := by
  intro he
  have := length_repeated m t
  rw [he] at this
  omega

theorem decoded_odd (G : Bytes) (t : Nat) (h : G.length = 2 * t + 1) :
    decoded G = (List.range t).map fun i => G.getD (2 * i + 1) 0 := by
  unfold decoded
  have : G.length / 2 = t := by omega
  rw [this]
  apply List.map_congr_left
  intro i hi
  rw [if_neg (by simp at hi; omega)]

/-- C53: with a modulus whose number of bits is 2 or 9 more than a multiple of 16, what is read are the
shadows of the repeated message, in the second case without the first. -/
theorem C53_garbled {n e d : Nat} (hk : KeyPair n e d) (h2 : 19 ≤ Nat.size n)
    (hB : Nat.size n % 16 = 2 ∨ Nat.size n % 16 = 9) (c : Coder) (hc : c.enc = true) (hkey : c.key = ⟨n, e, none⟩)
    (inp : Bytes) (off len rounds : Nat) (h0 : 0 < len) (h : off + len ≤ inp.length)
    (hlen : len ≤ (Nat.size n + 13) / 16) (hr : (Nat.size n + 13) / 16 < rounds) :
    ∃ s, c.processBlock rounds inp off len = some (.ok s, c) ∧
      ((c.init false ⟨n, d, none⟩).processBlock rounds s 0 s.length) =
        some (.ok ((shadowed (section_ inp off len) c.padBits ((Nat.size n + 13) / 16)).drop (if Nat.size n % 16 = 2 then 0 else 1)),
          { key := ⟨n, d, none⟩, enc := false, padBits := 0 }) := by
  have hm : (section_ inp off len).length = len := by simp [section_]; omega
  have hB' : BlockSize (Nat.size n) := by unfold BlockSize; omega
  obtain ⟨s, h1, h3, h4⟩ := coded hk hB' h2 c.padBits inp off len rounds h0 h hlen hr
  refine ⟨s, ?_, ?_⟩
  · unfold Coder.processBlock
    rw [hc, hkey]
    simp only [if_true]
    have : bitLen n = Nat.size n := rfl
    rw [this, h1]
    rfl
  · unfold Coder.processBlock Coder.init
    simp only [Bool.false_eq_true, if_false]
    have : bitLen n = Nat.size n := rfl
    rw [this, h4]
    simp only
    congr 3
    have hl := length_redundant (section_ inp off len) c.padBits ((Nat.size n + 13) / 16)
    have hls : (shadowed (section_ inp off len) c.padBits ((Nat.size n + 13) / 16)).length = (Nat.size n + 13) / 16 := by
      simp [shadowed, length_repeated]
    have hev := fun i hi => redundant_even (section_ inp off len) c.padBits ((Nat.size n + 13) / 16) i hi (by omega)
    unfold payload
    generalize redundant (section_ inp off len) c.padBits ((Nat.size n + 13) / 16) = R at *
    generalize shadowed (section_ inp off len) c.padBits ((Nat.size n + 13) / 16) = S at *
    generalize ht : (Nat.size n + 13) / 16 = t at *
    by_cases hc2 : Nat.size n % 16 = 2
    · simp only [hc2, if_true, List.drop_zero]
      rw [decoded_odd (1 :: R) t (by simp [hl])]
      apply List.ext_getElem?
      intro i
      by_cases hi : i < t
      · rw [List.getElem?_map, List.getElem?_range hi, Option.map_some, List.getD_eq_getElem?_getD, List.getElem?_cons_succ, hev i hi,
          List.getElem?_eq_getElem (by omega)]
        rfl
      · rw [List.getElem?_eq_none (by simpa using hi), List.getElem?_eq_none (by omega)]
    · have h9 : Nat.size n % 16 = 9 := by omega
      simp only [h9, show ¬ (9 = 2) by decide, if_false, if_true]
      rw [decoded_odd _ (t - 1) (by simp [hl]; omega)]
      apply List.ext_getElem?
      intro i
      by_cases hi : i < t - 1
      · rw [List.getElem?_map, List.getElem?_range hi, Option.map_some, List.getD_eq_getElem?_getD, List.getElem?_modify,
          List.getElem?_tail, List.getElem?_drop]
        have := hev (i + 1) (by omega)
        rw [show 2 * (i + 1) = 2 * i + 1 + 1 by ring] at this
        rw [this, show 1 + i = i + 1 by ring, List.getElem?_eq_getElem (by omega)]
        simp
      · rw [List.getElem?_eq_none (by simpa using hi), List.getElem?_eq_none (by simp; omega)]

namespace Sample

/-- A key pair with a modulus of 27 bits. -/
theorem pair27 : KeyPair 68182003 11 2123 := by
  have hf : (68182003 : Nat) = 5839 * 11677 := rfl
  have h1 : Nat.Prime 5839 := by norm_num
  have h2 : Nat.Prime 11677 := by norm_num
  refine ⟨?_, by norm_num, by norm_num, ?_⟩
  · rw [hf, Nat.squarefree_mul (by norm_num)]
    exact ⟨h1.squarefree, h2.squarefree⟩
  · intro p hp hd
    rw [hf, hp.dvd_mul, Nat.prime_dvd_prime_iff_eq hp h1, Nat.prime_dvd_prime_iff_eq hp h2] at hd
    rcases hd with rfl | rfl <;> decide

/-- A key pair with a modulus of 34 bits. -/
theorem pair34 : KeyPair 8593801651 37 14173 := by
  have hf : (8593801651 : Nat) = 65551 * 131101 := rfl
  have h1 : Nat.Prime 65551 := by norm_num
  have h2 : Nat.Prime 131101 := by norm_num
  refine ⟨?_, by norm_num, by norm_num, ?_⟩
  · rw [hf, Nat.squarefree_mul (by norm_num)]
    exact ⟨h1.squarefree, h2.squarefree⟩
  · intro p hp hd
    rw [hf, hp.dvd_mul, Nat.prime_dvd_prime_iff_eq hp h1, Nat.prime_dvd_prime_iff_eq hp h2] at hd
    rcases hd with rfl | rfl <;> decide

/-- Encoding with one exponent, decoding with the other. -/
def through (n e d : Nat) (pad : Int) (msg : Bytes) : Option (Outcome Bytes × Coder) :=
  match (Coder.mk ⟨n, e, none⟩ true pad).processBlock 100 msg 0 msg.length with
  | some (.ok s, c) => (c.init false ⟨n, d, none⟩).processBlock 100 s 0 s.length
  | _ => none

end Sample

example : KeyPair 68182003 11 2123 ∧ Nat.size 68182003 = 27 ∧ (27 + 13) / 16 = 2 ∧
    Sample.through 68182003 11 2123 4 [200, 100] = some (.ok [200, 100], ⟨⟨68182003, 2123, none⟩, false, 0⟩) ∧
    Sample.through 68182003 11 2123 4 [200] = some (.ok [200, 200], ⟨⟨68182003, 2123, none⟩, false, 0⟩) :=
  ⟨Sample.pair27, by decide +kernel, by decide, by decide +kernel, by decide +kernel⟩

example : KeyPair 8593801651 37 14173 ∧ Nat.size 8593801651 = 34 ∧ 34 % 16 = 2 ∧
    Sample.through 8593801651 37 14173 0 [200, 100] = some (.ok (shadowed [200, 100] 0 2), ⟨⟨8593801651, 14173, none⟩, false, 0⟩) :=
  ⟨Sample.pair34, by decide +kernel, by decide, by decide +kernel⟩

/-! ## What is accepted -/

/-- C53: what a coder for decryption does depends on one number only, that which RSA makes of its
input.  If this ends in 6 and has at least two bytes, every second byte of it is returned, whatever the
others are: the redundancy is never looked at.  If it ends in 6 but has one byte, or if its negative ends in 6,
which is a valid form of signature, or if it is zero, the coder crashes.  Everything else is refused. -/
theorem C53_decides {n e : Nat} (c : Coder) (hc : c.enc = false) (hkey : c.key = ⟨n, e, none⟩) (inp : Bytes) (off len rounds : Nat)
    (h : off + len ≤ inp.length) (hlen : len ≤ size n) (hv : value (section_ inp off len) < n) :
    let x := value (section_ inp off len) ^ e % n
    c.processBlock rounds inp off len =
      if x = 0 ∨ x = 6 + 16 * (x / 16) ∧ x < 256 ∨ x % 16 ≠ 6 ∧ (n - x) % 16 = 6 then some (.panic, c)
      else if x % 16 = 6 then some (.ok (decoded (numBytes x)), { c with padBits := 0 })
      else some (.err, c) := by
  intro x
  have hxn : x < n := Nat.mod_lt _ (by omega)
  unfold Coder.processBlock
  rw [hc, hkey]
  simp only [Bool.false_eq_true, if_false]
  have hrsa : rsaBlock false ⟨n, e, none⟩ inp off len = if x = 0 then .panic else .ok (numBytes x) := by
    unfold rsaBlock
    rw [convertInput_eq false ⟨n, e, none⟩ inp off len h hlen, if_pos hv]
    simp only [Outcome.bind, processNumber]
    show convertOutput false ⟨n, e, none⟩ x = _
    by_cases hx : x = 0
    · rw [if_pos hx, hx, convertOutput_zero]
    · rw [if_neg hx, convertOutput_false hx]
  by_cases hx : x = 0
  · rw [if_pos (Or.inl hx)]
    have : decodeBlock (rsaBlock false ⟨n, e, none⟩) n (bitLen n) inp off len = .panic := by
      unfold decodeBlock
      rw [hrsa, if_pos hx]
      rfl
    rw [this]
  · rw [if_neg hx] at hrsa
    by_cases h6 : x % 16 = 6
    · have hn7 : 6 < n := by omega
      have hsz : 3 ≤ bitLen n := by
        have : 2 < Nat.size n := Nat.lt_size.2 (by norm_num; omega)
        exact this
      by_cases h256 : x < 256
      · rw [if_pos (Or.inr (Or.inl ⟨by omega, h256⟩))]
        have : decodeBlock (rsaBlock false ⟨n, e, none⟩) n (bitLen n) inp off len = .panic := by
          unfold decodeBlock
          rw [hrsa]
          simp only [Outcome.bind, setBytes_numBytes, h6, if_true, Int.natAbs_natCast]
          rw [convertOutputDecryptOnly_eq hx]
          have hl : (numBytes x).length = 1 := by
            have h1 : (numBytes x).length ≤ 1 := numBytes_length_le (by simpa using h256)
            have h2 : (numBytes x).length ≠ 0 := fun hz => numBytes_ne_nil hx (List.length_eq_zero_iff.1 hz)
            omega
          obtain ⟨v, hv⟩ := List.length_eq_one_iff.1 hl
          have hval := setBytes_numBytes x
          rw [hv] at hval ⊢
          have hval' : v.toNat = x := by simpa [setBytes] using hval
          have hn := low_nibble v (by rw [hval']; exact h6)
          simp [byteAt, hn]
        rw [this]
      · rw [if_neg (by omega), if_pos h6]
        have := decodeBlock_eq (engine := rsaBlock false ⟨n, e, none⟩) (n := n) (bits := bitLen n) hrsa (by omega)
          (by rw [setBytes_numBytes]; exact h6) (by rw [setBytes_numBytes]; omega)
        rw [setBytes_numBytes] at this
        rw [this]
    · have hi : (((n : Int) - (x : Int)) % 16 = 6) ↔ (n - x) % 16 = 6 := by omega
      by_cases hm : (n - x) % 16 = 6
      · rw [if_pos (Or.inr (Or.inr ⟨h6, hm⟩))]
        have : decodeBlock (rsaBlock false ⟨n, e, none⟩) n (bitLen n) inp off len = .panic := by
          unfold decodeBlock
          rw [hrsa]
          simp only [Outcome.bind, setBytes_numBytes, h6, if_false]
          rw [if_pos (hi.2 hm)]
          rfl
        rw [this]
      · rw [if_neg (by omega), if_neg h6]
        have : decodeBlock (rsaBlock false ⟨n, e, none⟩) n (bitLen n) inp off len = .err := by
          unfold decodeBlock
          rw [hrsa]
          simp only [Outcome.bind, setBytes_numBytes, h6, if_false]
          rw [if_neg (fun hh => hm (hi.1 hh))]
        rw [this]

/-- C53: the redundancy is never looked at: two numbers that differ only in the bytes before those that
are read, but not the one before the last, give the same message. -/
theorem C53_unchecked (G H : Bytes) (hl : G.length = H.length) (h : ∀ i, 2 * i + 1 < G.length → G.getD (2 * i + 1) 0 = H.getD (2 * i + 1) 0)
    (h2 : G.getD (G.length - 2) 0 = H.getD (G.length - 2) 0) (he : G.length % 2 = 0) (hpos : 0 < G.length) : decoded G = decoded H := by
  have hlast : G.getD (G.length - 1) 0 = H.getD (G.length - 1) 0 := by
    have := h (G.length / 2 - 1) (by omega)
    rwa [show 2 * (G.length / 2 - 1) + 1 = G.length - 1 by omega] at this
  unfold decoded restored
  rw [← hl, hlast, h2]
  apply List.map_congr_left
  intro i hi
  simp only [List.mem_range] at hi
  rw [h i (by omega)]

/-- Which numbers are accepted, refused, and crash the coder. -/
example : let c : Coder := ⟨⟨68182003, 1, none⟩, false, 4⟩
    c.processBlock 0 [3, 1, 2, 6] 0 4 = some (.ok [1, 128], ⟨⟨68182003, 1, none⟩, false, 0⟩) ∧
    c.processBlock 0 [3, 1, 2, 5] 0 4 = some (.err, c) ∧
    68182003 % 16 = 3 ∧ c.processBlock 0 [3, 1, 2, 13] 0 4 = some (.panic, c) ∧
    c.processBlock 0 [6] 0 1 = some (.panic, c) := by decide +kernel

/-- C53: the largest message the coder says it takes has half the bytes of the modulus, and what it
returns has as many bytes as the modulus.  For the sizes that crash it, it says the same. -/
theorem C53_sizes (c : Coder) (hc : c.enc = true) :
    c.inputBlockSize = (size c.key.modulus / 2 : Nat) ∧ c.outputBlockSize = size c.key.modulus := by
  unfold Coder.inputBlockSize Coder.outputBlockSize rsaInputBlockSize rsaOutputBlockSize
  rw [hc]
  simp only [if_true]
  have : ((bitLen c.key.modulus + 7) / 8 : Nat) = size c.key.modulus := rfl
  rw [this]
  refine ⟨?_, rfl⟩
  rw [Int.sub_add_cancel]
  exact (Int.ofNat_tdiv _ _).symm

example : (Coder.mk ⟨68182003, 11, none⟩ true 0).inputBlockSize = 2 ∧ (Coder.mk ⟨68182003, 11, none⟩ true 0).outputBlockSize = 4 := by
  decide +kernel

end Verif.Crypto
