import Verif.Transport.Utf8
import Mathlib.Data.List.Forall2
import Mathlib.Data.List.Basic

namespace Verif.Transport

open GoLib
open Swift (decodeRune cont)
open String (utf8EncodeChar)

theorem char_range (c : Char) : c.toNat < 0xD800 ∨ (0xDFFF < c.toNat ∧ c.toNat < 0x110000) := by
  have := c.valid
  simpa [UInt32.isValidChar, Nat.isValidChar] using this

theorem decode_char (c : Char) (r : Bytes) :
    decodeRune (utf8EncodeChar c ++ r) = (c.toNat, (utf8EncodeChar c).length) := by
  have hv := char_range c
  have e : c.val.toNat = c.toNat := rfl
  unfold utf8EncodeChar
  rw [e]
  generalize c.toNat = v at hv
  by_cases h1 : v ≤ 0x7f
  · simp only [h1, if_true, List.cons_append, List.nil_append, decodeRune, UInt8.toNat_ofNat']
    rw [if_pos (by omega)]
    simp; omega
  · by_cases h2 : v ≤ 0x7ff
    · simp only [h1, h2, if_true, if_false, List.cons_append, List.nil_append, decodeRune, cont, UInt8.toNat_ofNat']
      rw [if_neg (by omega), if_pos (by omega), if_pos (by simp; omega)]
      simp; omega
    · by_cases h3 : v ≤ 0xffff
      · simp only [h1, h2, h3, if_true, if_false, List.cons_append, List.nil_append, decodeRune, cont, UInt8.toNat_ofNat']
        rw [if_neg (by omega), if_neg (by omega), if_pos (by omega), if_pos (by simp; split <;> split <;> omega)]
        simp; omega
      · simp only [h1, h2, h3, if_false, List.cons_append, List.nil_append, decodeRune, cont, UInt8.toNat_ofNat']
        rw [if_neg (by omega), if_neg (by omega), if_neg (by omega), if_pos (by omega), if_pos (by simp; split <;> split <;> omega)]
        simp; omega

/-- A number that is a character. -/
theorem toNat_ofNat {n : Nat} (h : n < 0xD800 ∨ (0xDFFF < n ∧ n < 0x110000)) : (Char.ofNat n).toNat = n := by
  have hv : n.isValidChar := h
  rw [Char.ofNat, dif_pos hv]
  show (Char.ofNatAux n hv).val.toNat = n
  simp [Char.ofNatAux]

theorem byte_eq {n : Nat} {b : Byte} (h : n = b.toNat) : UInt8.ofNat n = b := by
  subst h; simp

/-- What is decoded as a valid character is the encoding of that character. -/
theorem char_of_decode {a : Byte} {r : Bytes} (h : ¬ (0x80 ≤ a.toNat ∧ (decodeRune (a :: r)).2 = 1)) :
    ∃ c s, a :: r = utf8EncodeChar c ++ s := by
  have ha := a.toNat_lt
  by_cases h1 : a.toNat < 0x80
  · refine ⟨Char.ofNat a.toNat, r, ?_⟩
    have e : (Char.ofNat a.toNat).val.toNat = a.toNat := toNat_ofNat (by omega)
    rw [utf8EncodeChar]
    simp only [e]
    rw [if_pos (by omega)]
    simp
  have h : ¬ (decodeRune (a :: r)).2 = 1 := fun q => h ⟨by omega, q⟩
  by_cases h2 : 0xC2 ≤ a.toNat ∧ a.toNat ≤ 0xDF
  · rcases r with _ | ⟨b, r⟩
    · exact absurd (by simp [decodeRune, h1, h2]) h
    by_cases hb : cont 0x80 0xBF b
    · simp only [cont, Bool.and_eq_true, decide_eq_true_eq] at hb
      refine ⟨Char.ofNat ((a.toNat - 0xC0) * 64 + (b.toNat - 0x80)), r, ?_⟩
      have e : (Char.ofNat ((a.toNat - 0xC0) * 64 + (b.toNat - 0x80))).val.toNat = (a.toNat - 0xC0) * 64 + (b.toNat - 0x80) :=
        toNat_ofNat (by omega)
      rw [utf8EncodeChar]
      simp only [e]
      rw [if_neg (by omega), if_pos (by omega), byte_eq (b := a) (by omega), byte_eq (b := b) (by omega)]
      rfl
    · exact absurd (by simp [decodeRune, h1, h2, hb]) h
  by_cases h3 : 0xE0 ≤ a.toNat ∧ a.toNat ≤ 0xEF
  · rcases r with _ | ⟨b, _ | ⟨d, r⟩⟩
    · exact absurd (by simp [decodeRune, h1, h2, h3]) h
    · exact absurd (by simp [decodeRune, h1, h2, h3]) h
    by_cases hb : cont (if a.toNat = 0xE0 then 0xA0 else 0x80) (if a.toNat = 0xED then 0x9F else 0xBF) b && cont 0x80 0xBF d
    · simp only [cont, Bool.and_eq_true, decide_eq_true_eq] at hb
      have q1 : a.toNat = 0xE0 → 0xA0 ≤ b.toNat := fun q => by have := hb.1.1; rwa [if_pos q] at this
      have q2 : a.toNat = 0xED → b.toNat ≤ 0x9F := fun q => by have := hb.1.2; rwa [if_pos q] at this
      have q3 : 0x80 ≤ b.toNat := by have := hb.1.1; split at this <;> omega
      have q4 : b.toNat ≤ 0xBF := by have := hb.1.2; split at this <;> omega
      have q5 := hb.2
      clear hb h
      have q6 : (a.toNat - 0xE0) * 4096 + (b.toNat - 0x80) * 64 + (d.toNat - 0x80) < 0xD800 ∨
          (0xDFFF < (a.toNat - 0xE0) * 4096 + (b.toNat - 0x80) * 64 + (d.toNat - 0x80) ∧
           (a.toNat - 0xE0) * 4096 + (b.toNat - 0x80) * 64 + (d.toNat - 0x80) < 0x110000) := by
        by_cases k : a.toNat = 0xED
        · have := q2 k; omega
        · omega
      refine ⟨Char.ofNat ((a.toNat - 0xE0) * 4096 + (b.toNat - 0x80) * 64 + (d.toNat - 0x80)), r, ?_⟩
      have e : (Char.ofNat ((a.toNat - 0xE0) * 4096 + (b.toNat - 0x80) * 64 + (d.toNat - 0x80))).val.toNat =
          (a.toNat - 0xE0) * 4096 + (b.toNat - 0x80) * 64 + (d.toNat - 0x80) := toNat_ofNat q6
      have q7 : 0x7ff < (a.toNat - 0xE0) * 4096 + (b.toNat - 0x80) * 64 + (d.toNat - 0x80) := by
        by_cases k : a.toNat = 0xE0
        · have := q1 k; omega
        · omega
      rw [utf8EncodeChar]
      simp only [e]
      rw [if_neg (by omega), if_neg (by omega), if_pos (by omega), byte_eq (b := a) (by omega),
        byte_eq (b := b) (by omega), byte_eq (b := d) (by omega)]
      rfl
    · exact absurd (by simp only [decodeRune, if_neg h1, if_neg h2, if_pos h3, if_neg hb]) h
  by_cases h4 : 0xF0 ≤ a.toNat ∧ a.toNat ≤ 0xF4
  · rcases r with _ | ⟨b, _ | ⟨d, _ | ⟨g, r⟩⟩⟩
    · exact absurd (by simp [decodeRune, h1, h2, h3, h4]) h
    · exact absurd (by simp [decodeRune, h1, h2, h3, h4]) h
    · exact absurd (by simp [decodeRune, h1, h2, h3, h4]) h
    by_cases hb : cont (if a.toNat = 0xF0 then 0x90 else 0x80) (if a.toNat = 0xF4 then 0x8F else 0xBF) b && cont 0x80 0xBF d && cont 0x80 0xBF g
    · simp only [cont, Bool.and_eq_true, decide_eq_true_eq] at hb
      have q1 : a.toNat = 0xF0 → 0x90 ≤ b.toNat := fun q => by have := hb.1.1.1; rwa [if_pos q] at this
      have q2 : a.toNat = 0xF4 → b.toNat ≤ 0x8F := fun q => by have := hb.1.1.2; rwa [if_pos q] at this
      have q3 : 0x80 ≤ b.toNat := by have := hb.1.1.1; split at this <;> omega
      have q4 : b.toNat ≤ 0xBF := by have := hb.1.1.2; split at this <;> omega
      have q5 := hb.1.2
      have q6 := hb.2
      clear hb h
      have q7 : 0xffff < (a.toNat - 0xF0) * 262144 + (b.toNat - 0x80) * 4096 + (d.toNat - 0x80) * 64 + (g.toNat - 0x80) := by
        by_cases k : a.toNat = 0xF0
        · have := q1 k; omega
        · omega
      have q8 : (a.toNat - 0xF0) * 262144 + (b.toNat - 0x80) * 4096 + (d.toNat - 0x80) * 64 + (g.toNat - 0x80) < 0x110000 := by
        by_cases k : a.toNat = 0xF4
        · have := q2 k; omega
        · omega
      refine ⟨Char.ofNat ((a.toNat - 0xF0) * 262144 + (b.toNat - 0x80) * 4096 + (d.toNat - 0x80) * 64 + (g.toNat - 0x80)), r, ?_⟩
      have e : (Char.ofNat ((a.toNat - 0xF0) * 262144 + (b.toNat - 0x80) * 4096 + (d.toNat - 0x80) * 64 + (g.toNat - 0x80))).val.toNat =
          (a.toNat - 0xF0) * 262144 + (b.toNat - 0x80) * 4096 + (d.toNat - 0x80) * 64 + (g.toNat - 0x80) := toNat_ofNat (by omega)
      rw [utf8EncodeChar]
      simp only [e]
      rw [if_neg (by omega), if_neg (by omega), if_neg (by omega), byte_eq (b := a) (by omega),
        byte_eq (b := b) (by omega), byte_eq (b := d) (by omega), byte_eq (b := g) (by omega)]
      rfl
    · exact absurd (by simp only [decodeRune, if_neg h1, if_neg h2, if_neg h3, if_pos h4, if_neg hb]) h
  · exact absurd (by simp [decodeRune, h1, h2, h3, h4]) h

/-! ## Specification -/

namespace Spec

/-- The beginning of a character in UTF-8 without its end; nothing at all is one too. -/
def Unfinished (b : Bytes) : Prop := ∃ c rest, rest ≠ [] ∧ utf8EncodeChar c = b ++ rest

/-- The text begins with a whole character in UTF-8. -/
def Begins (b : Bytes) : Prop := ∃ c rest, b = utf8EncodeChar c ++ rest

/-- Every character has the byte at its place. -/
def Encoded (m : Charmap) (text : Str) (b : Bytes) : Prop := List.Forall₂ (fun c x => m.enc c = some x) text b

/-- The charmap has ASCII where ASCII has it, and only there. -/
def Ascii (m : Charmap) : Prop := ∀ c : Char, c.toNat < 128 → m.enc c = some (UInt8.ofNat c.toNat)

end Spec

open Spec

theorem snd_ite {p : Prop} [Decidable p] {x y n : Nat} : (if p then (x, n + 1) else (y, 1)).2 ≤ n + 1 := by
  split <;> simp

/-- Nothing more than the end of a character is missing exactly if `fullRune` says no. -/
theorem not_full {a : Byte} {r : Bytes} (ha : 0x80 ≤ a.toNat) (hd : (decodeRune (a :: r)).2 = 1) :
    fullRune (a :: r) = false ↔ Unfinished (a :: r) := by
  constructor
  · intro h
    have build : ∀ s : Bytes, s ≠ [] → (decodeRune (a :: (r ++ s))).2 = (a :: (r ++ s)).length → Unfinished (a :: r) := by
      intro s hs hl
      obtain ⟨c, w, e⟩ := char_of_decode (a := a) (r := r ++ s) (by
        rw [hl]; intro q
        rcases s with _ | ⟨x, s⟩
        · exact hs rfl
        · simp at q)
      have := decode_char c w
      rw [← e] at this
      rw [this] at hl
      have hw : w = [] := by
        have : (a :: (r ++ s)).length = (utf8EncodeChar c ++ w).length := by rw [e]
        rw [← hl, List.length_append] at this
        exact List.eq_nil_of_length_eq_zero (by omega)
      subst hw
      exact ⟨c, s, hs, by rw [List.append_nil] at e; rw [← e]; rfl⟩
    have h1 : ¬ a.toNat < 0x80 := by omega
    by_cases h2 : 0xC2 ≤ a.toNat ∧ a.toNat ≤ 0xDF
    · simp only [fullRune, if_pos h2] at h
      rcases r with _ | ⟨b, r⟩
      · exact build [0x80] (by simp) (by simp [decodeRune, h1, h2, cont])
      · simp at h
    by_cases h3 : 0xE0 ≤ a.toNat ∧ a.toNat ≤ 0xEF
    · simp only [fullRune, if_neg h2, if_pos h3] at h
      rcases r with _ | ⟨b, _ | ⟨d, r⟩⟩
      · refine build [if a.toNat = 0xE0 then 0xA0 else 0x80, 0x80] (by simp) ?_
        by_cases k : a.toNat = 0xE0
        · simp [decodeRune, k, cont]
        · by_cases k' : a.toNat = 0xED
          · simp [decodeRune, k', cont]
          · simp [decodeRune, h1, h2, h3, k, k', cont]
      · simp only [Bool.not_eq_eq_eq_not, Bool.not_false] at h
        refine build [0x80] (by simp) ?_
        have h5 : (cont (if a.toNat = 0xE0 then 0xA0 else 0x80) (if a.toNat = 0xED then 0x9F else 0xBF) b && cont 0x80 0xBF 0x80) = true := by
          rw [h]; rfl
        simp only [decodeRune, if_neg h1, if_neg h2, if_pos h3, List.cons_append, List.nil_append, if_pos h5]
        rfl
      · simp at h
    by_cases h4 : 0xF0 ≤ a.toNat ∧ a.toNat ≤ 0xF4
    · simp only [fullRune, if_neg h2, if_neg h3, if_pos h4] at h
      rcases r with _ | ⟨b, _ | ⟨d, _ | ⟨g, r⟩⟩⟩
      · refine build [if a.toNat = 0xF0 then 0x90 else 0x80, 0x80, 0x80] (by simp) ?_
        by_cases k : a.toNat = 0xF0
        · simp [decodeRune, k, cont]
        · by_cases k' : a.toNat = 0xF4
          · simp [decodeRune, k', cont]
          · simp [decodeRune, h1, h2, h3, h4, k, k', cont]
      · simp only [Bool.not_eq_eq_eq_not, Bool.not_false] at h
        refine build [0x80, 0x80] (by simp) ?_
        have h5 : (cont (if a.toNat = 0xF0 then 0x90 else 0x80) (if a.toNat = 0xF4 then 0x8F else 0xBF) b && cont 0x80 0xBF 0x80 && cont 0x80 0xBF 0x80) = true := by
          rw [h]; rfl
        simp only [decodeRune, if_neg h1, if_neg h2, if_neg h3, if_pos h4, List.cons_append, List.nil_append, if_pos h5]
        rfl
      · simp only [Bool.not_eq_eq_eq_not, Bool.not_false] at h
        refine build [0x80] (by simp) ?_
        have h5 : (cont (if a.toNat = 0xF0 then 0x90 else 0x80) (if a.toNat = 0xF4 then 0x8F else 0xBF) b && cont 0x80 0xBF d && cont 0x80 0xBF 0x80) = true := by
          rw [h]; rfl
        simp only [decodeRune, if_neg h1, if_neg h2, if_neg h3, if_pos h4, List.cons_append, List.nil_append, if_pos h5]
        rfl
      · simp at h
    · simp [fullRune, h2, h3, h4] at h
  · rintro ⟨c, s, hs, e⟩
    have hl := decode_char c []
    rw [List.append_nil, e] at hl
    have hl : (decodeRune (a :: (r ++ s))).2 = (a :: (r ++ s)).length := by rw [show a :: (r ++ s) = a :: r ++ s from rfl, hl]
    have h1 : ¬ a.toNat < 0x80 := by omega
    have hs' : 0 < s.length := List.length_pos_iff.2 hs
    by_cases h2 : 0xC2 ≤ a.toNat ∧ a.toNat ≤ 0xDF
    · have : (decodeRune (a :: (r ++ s))).2 ≤ 2 := by
        simp only [decodeRune, if_neg h1, if_pos h2]
        split
        · split <;> simp
        · simp
      rw [hl] at this
      simp at this
      have : r = [] := List.eq_nil_of_length_eq_zero (by omega)
      subst this
      simp [fullRune, h2]
    by_cases h3 : 0xE0 ≤ a.toNat ∧ a.toNat ≤ 0xEF
    · simp only [fullRune, if_neg h2, if_pos h3]
      rcases r with _ | ⟨b, _ | ⟨d, r⟩⟩
      · rfl
      · simp only [Bool.not_eq_eq_eq_not, Bool.not_false]
        by_contra hb
        rcases s with _ | ⟨x, s⟩
        · exact hs rfl
        simp [decodeRune, h1, h2, h3, hb] at hl
      · exfalso
        have : (decodeRune (a :: (b :: d :: r ++ s))).2 ≤ 3 := by
          simp only [decodeRune, if_neg h1, if_neg h2, if_pos h3, List.cons_append]
          apply snd_ite
        rw [hl] at this
        simp only [List.length_cons, List.length_append] at this
        omega
    by_cases h4 : 0xF0 ≤ a.toNat ∧ a.toNat ≤ 0xF4
    · simp only [fullRune, if_neg h2, if_neg h3, if_pos h4]
      rcases r with _ | ⟨b, _ | ⟨d, _ | ⟨g, r⟩⟩⟩
      · rfl
      · simp only [Bool.not_eq_eq_eq_not, Bool.not_false]
        by_contra hb
        rcases s with _ | ⟨x, _ | ⟨y, s⟩⟩
        · exact hs rfl
        · simp [decodeRune, h1, h2, h3, h4] at hl
        · simp [decodeRune, h1, h2, h3, h4, hb] at hl
      · simp only [Bool.not_eq_eq_eq_not, Bool.not_false]
        by_contra hb
        rcases s with _ | ⟨x, s⟩
        · exact hs rfl
        · simp only [decodeRune, if_neg h1, if_neg h2, if_neg h3, if_pos h4, List.cons_append, List.nil_append, Bool.eq_false_iff.2 hb, Bool.false_and] at hl
          simp at hl
      · exfalso
        have : (decodeRune (a :: (b :: d :: g :: r ++ s))).2 ≤ 4 := by
          simp only [decodeRune, if_neg h1, if_neg h2, if_neg h3, if_pos h4, List.cons_append]
          apply snd_ite
        rw [hl] at this
        simp only [List.length_cons, List.length_append] at this
        omega
    · exfalso
      simp [decodeRune, h1, h2, h3, h4] at hl
      exact hs hl.2

/-! ## What is written -/

theorem char_of_toNat (c : Char) : Char.ofNat c.toNat = c := Char.ofNat_toNat c

theorem map_map (x : Byte) (bs : Bytes) (o : Outcome Bytes) :
    (o.map' fun w => bs ++ w).map' (fun w => x :: w) = o.map' fun w => (x :: bs) ++ w := by
  cases o <;> rfl

/-- One round on a whole character. -/
theorem write_char (m : Charmap) (n : Nat) (c : Char) (rest : Bytes) :
    writeEncoded m (n + 1) (utf8EncodeChar c ++ rest) =
      match m.enc c with
      | none => .err
      | some x => (writeEncoded m n rest).map' fun w => x :: w := by
  have hd := decode_char c rest
  rcases e : utf8EncodeChar c with _ | ⟨a, r⟩
  · exact absurd e String.utf8EncodeChar_ne_nil
  rw [e] at hd
  simp only [List.cons_append] at hd ⊢
  have hn : ¬ (0x80 ≤ a.toNat ∧ (decodeRune (a :: (r ++ rest))).2 = 1) := by
    rintro ⟨h1, h2⟩
    rw [hd] at h2
    have hr : r = [] := List.eq_nil_of_length_eq_zero (by simpa using h2)
    subst hr
    have hc : (decodeRune [a]).1 = c.toNat := by
      have := decode_char c []
      rw [e] at this
      rw [show [a] = [a] ++ ([] : Bytes) from rfl, this]
    unfold utf8EncodeChar at e
    simp only at e
    split at e
    · rename_i h
      have : a.toNat = c.val.toNat := by
        rw [← (List.cons.inj e).1, UInt8.toNat_ofNat']; omega
      omega
    · split at e
      · simp at e
      · split at e <;> simp at e
  have hdrop : (a :: (r ++ rest)).drop (a :: r).length = rest := by
    rw [show a :: (r ++ rest) = (a :: r) ++ rest from rfl, List.drop_left]
  simp only [writeEncoded, if_neg hn]
  rw [hd]
  simp only [char_of_toNat, hdrop]
  cases m.enc c <;> rfl

/-- Characters with a byte are written, whatever follows. -/
theorem write_text {m : Charmap} {text : Str} {bs : Bytes} (h : Encoded m text bs) :
    ∀ (n : Nat) (rest : Bytes), (Message.utf8 text ++ rest).length ≤ n →
      ∃ k, rest.length ≤ k ∧
        writeEncoded m n (Message.utf8 text ++ rest) = (writeEncoded m k rest).map' fun w => bs ++ w := by
  induction h with
  | nil =>
    intro n rest hn
    exact ⟨n, by simpa [Message.utf8] using hn, by simp [Message.utf8]; cases writeEncoded m n rest <;> rfl⟩
  | @cons c x text bs hc _ ih =>
    intro n rest hn
    have e : Message.utf8 (c :: text) ++ rest = utf8EncodeChar c ++ (Message.utf8 text ++ rest) := by simp [Message.utf8]
    rw [e] at hn ⊢
    have hpos : 0 < (utf8EncodeChar c).length := List.length_pos_iff.2 String.utf8EncodeChar_ne_nil
    rw [List.length_append] at hn
    rcases n with _ | n
    · omega
    obtain ⟨k, hk, hw⟩ := ih n rest (by omega)
    refine ⟨k, hk, ?_⟩
    rw [write_char, hc]
    simp only
    rw [hw, map_map]

/-- The beginning of a character at the end of the text is kept back. -/
theorem write_unfinished {m : Charmap} {tail : Bytes} (h : Unfinished tail) : ∀ k, writeEncoded m k tail = .ok [] := by
  intro k
  rcases k with _ | k
  · rfl
  rcases tail with _ | ⟨a, r⟩
  · rfl
  obtain ⟨c, s, hs, e⟩ := h
  have hd : 0x80 ≤ a.toNat ∧ (decodeRune (a :: r)).2 = 1 := by
    by_contra hn
    obtain ⟨c', s', e'⟩ := char_of_decode hn
    -- two characters cannot begin alike and differ in length
    have h1 := decode_char c []
    have h2 := decode_char c' (s' ++ s)
    rw [List.append_nil, e, e', List.append_assoc, h2] at h1
    have h3 := (Prod.mk.inj h1).2
    have h4 : 0 < s.length := List.length_pos_iff.2 hs
    simp only [List.length_append] at h3
    omega
  have hf := (not_full hd.1 hd.2).2 ⟨c, s, hs, e⟩
  simp only [writeEncoded, if_pos hd]
  simp [hf]

/-- Anything else stops the writer. -/
theorem write_broken {m : Charmap} {tail : Bytes} (h : ¬ Unfinished tail) (hb : ¬ Begins tail) :
    ∀ k, tail.length ≤ k → writeEncoded m k tail = .err := by
  intro k hk
  rcases tail with _ | ⟨a, r⟩
  · exact absurd ⟨'a', utf8EncodeChar 'a', String.utf8EncodeChar_ne_nil, rfl⟩ h
  rcases k with _ | k
  · simp at hk
  have hd : 0x80 ≤ a.toNat ∧ (decodeRune (a :: r)).2 = 1 := by
    by_contra hn
    exact hb (char_of_decode hn)
  have hf : fullRune (a :: r) = true := by
    by_contra hn
    exact h ((not_full hd.1 hd.2).1 (Bool.eq_false_iff.2 hn))
  simp only [writeEncoded, if_pos hd]
  simp [hf]

/-- A text can be divided: characters with a byte, and then the beginning of a character,
or a character without a byte, or something that is no character. -/
theorem divide (m : Charmap) : ∀ (n : Nat) (b : Bytes), b.length ≤ n →
    ∃ text bs tail, Encoded m text bs ∧ b = Message.utf8 text ++ tail ∧
      (Unfinished tail ∨ (∃ c rest, m.enc c = none ∧ tail = utf8EncodeChar c ++ rest) ∨
        (¬ Unfinished tail ∧ ¬ Begins tail)) := by
  intro n
  induction n with
  | zero =>
    intro b hb
    have : b = [] := List.eq_nil_of_length_eq_zero (by omega)
    subst this
    exact ⟨[], [], [], List.Forall₂.nil, rfl, .inl ⟨'a', utf8EncodeChar 'a', String.utf8EncodeChar_ne_nil, rfl⟩⟩
  | succ n ih =>
    intro b hb
    by_cases h : Begins b
    · obtain ⟨c, rest, e⟩ := h
      rcases hc : m.enc c with _ | x
      · exact ⟨[], [], b, List.Forall₂.nil, rfl, .inr (.inl ⟨c, rest, hc, e⟩)⟩
      · have hpos : 0 < (utf8EncodeChar c).length := List.length_pos_iff.2 String.utf8EncodeChar_ne_nil
        obtain ⟨text, bs, tail, h1, h2, h3⟩ := ih rest (by
          rw [e, List.length_append] at hb; omega)
        exact ⟨c :: text, x :: bs, tail, List.Forall₂.cons hc h1, by rw [e, h2]; simp [Message.utf8], h3⟩
    · by_cases hu : Unfinished b
      · exact ⟨[], [], b, List.Forall₂.nil, rfl, .inl hu⟩
      · exact ⟨[], [], b, List.Forall₂.nil, rfl, .inr (.inr ⟨hu, h⟩)⟩

/-- What the transport below is asked and what the caller gets, if the text could be written. -/
theorem middleware_ok {m : Charmap} {body bs : Bytes} (h : writeEncoded m body.length body = .ok bs) (t : Transport) :
    utf8Middleware m t body = (t bs).map' fun b => (Message.utf8 (b.1.map m.dec), b.2) := by
  simp only [utf8Middleware, h]
  rfl

/-! ## C108 -/

/-- C108: A request in UTF-8 whose characters all have a byte reaches the transport below
as those bytes, one per character.  If the request ends within a character, the beginning
of it is left out and nobody is told.  The answer is given to the caller as UTF-8, one
character per byte; whether the answer could be read to its end, and every error of the
transport below, is passed on as it is. -/
theorem C108_sent {m : Charmap} {text : Str} {bs tail : Bytes} (h : Encoded m text bs) (ht : Unfinished tail) (t : Transport) :
    utf8Middleware m t (Message.utf8 text ++ tail) =
      (t bs).map' fun b => (Message.utf8 (b.1.map m.dec), b.2) := by
  obtain ⟨k, _, hw⟩ := write_text h _ tail (Nat.le_refl _)
  refine middleware_ok ?_ t
  rw [hw, write_unfinished ht]
  simp [Outcome.map']

/-- C108: In every other case the caller gets an error, whatever the transport below would
answer; that is, nothing depends on the transport below and nothing was sent. -/
theorem C108_refused (m : Charmap) (body : Bytes) :
    (∀ t : Transport, utf8Middleware m t body = .err) ↔
      ¬ ∃ text bs tail, Encoded m text bs ∧ Unfinished tail ∧ body = Message.utf8 text ++ tail := by
  constructor
  · rintro h ⟨text, bs, tail, h1, h2, rfl⟩
    have := h fun _ => .ok ([], true)
    rw [C108_sent h1 h2] at this
    cases this
  · intro h t
    obtain ⟨text, bs, tail, h1, h2, h3⟩ := divide m _ body (Nat.le_refl _)
    have hw : writeEncoded m body.length body = .err := by
      rw [h2]
      obtain ⟨k, hk, hw⟩ := write_text h1 _ tail (Nat.le_refl _)
      rw [hw]
      rcases h3 with h3 | ⟨c, rest, hc, e⟩ | ⟨h3, h4⟩
      · exact absurd ⟨text, bs, tail, h1, h3, h2⟩ h
      · have hpos : 0 < (utf8EncodeChar c).length := List.length_pos_iff.2 String.utf8EncodeChar_ne_nil
        rw [e] at hk ⊢
        rw [List.length_append] at hk
        rcases k with _ | k
        · omega
        rw [write_char, hc]
        rfl
      · rw [write_broken h3 h4 k hk]
        rfl
    simp only [utf8Middleware, hw]
    rfl

/-- C108: A bank that sends a text back as it came is read as the same text, if the charmap
reads each byte as the character it was written for. -/
theorem C108_echo {m : Charmap} {text : Str} (h : ∀ c ∈ text, ∃ x, m.enc c = some x ∧ m.dec x = c) :
    utf8Middleware m (fun b => .ok (b, true)) (Message.utf8 text) = .ok (Message.utf8 text, true) := by
  have key : ∃ bs, Encoded m text bs ∧ bs.map m.dec = text := by
    induction text with
    | nil => exact ⟨[], List.Forall₂.nil, rfl⟩
    | cons c text ih =>
      obtain ⟨bs, h1, h2⟩ := ih fun d hd => h d (by simp [hd])
      obtain ⟨x, h3, h4⟩ := h c (by simp)
      exact ⟨x :: bs, List.Forall₂.cons h3 h1, by simp [h2, h4]⟩
  obtain ⟨bs, h1, h2⟩ := key
  have := C108_sent h1 (tail := []) ⟨'a', utf8EncodeChar 'a', String.utf8EncodeChar_ne_nil, rfl⟩ (fun b => .ok (b, true))
  rw [List.append_nil] at this
  rw [this]
  simp [Outcome.map', h2]

theorem encoded_length {m : Charmap} {text : Str} {bs : Bytes} (h : Encoded m text bs) : bs.length = text.length :=
  (List.Forall₂.length_eq h).symm

/-- A text in UTF-8 has at least as many bytes as characters, and more if a byte is not ASCII. -/
theorem utf8_length (text : Str) :
    text.length ≤ (Message.utf8 text).length ∧
      ((∃ x ∈ Message.utf8 text, 128 ≤ x.toNat) → text.length < (Message.utf8 text).length) := by
  induction text with
  | nil => simp [Message.utf8]
  | cons c text ih =>
    have e : Message.utf8 (c :: text) = utf8EncodeChar c ++ Message.utf8 text := by simp [Message.utf8]
    rw [e]
    have hpos : 0 < (utf8EncodeChar c).length := List.length_pos_iff.2 String.utf8EncodeChar_ne_nil
    simp only [List.length_cons, List.length_append]
    refine ⟨by omega, ?_⟩
    rintro ⟨x, hx, h⟩
    rcases List.mem_append.1 hx with hx | hx
    · have : 1 < (utf8EncodeChar c).length := by
        unfold utf8EncodeChar at hx ⊢
        simp only at hx ⊢
        split
        · rename_i hc
          rw [if_pos hc, List.mem_singleton] at hx
          subst hx
          rw [UInt8.toNat_ofNat'] at h
          omega
        · split
          · simp
          · split <;> simp
      omega
    · have := ih.2 ⟨x, hx, h⟩
      omega

theorem ascii_text {body : Bytes} (h : ∀ x ∈ body, x.toNat < 128) :
    Message.utf8 (body.map fun x => Char.ofNat x.toNat) = body := by
  induction body with
  | nil => rfl
  | cons x body ih =>
    have hx : x.toNat < 128 := h x (by simp)
    have e : (Char.ofNat x.toNat).val.toNat = x.toNat := toNat_ofNat (by omega)
    have : utf8EncodeChar (Char.ofNat x.toNat) = [x] := by
      rw [utf8EncodeChar]
      simp only [e]
      rw [if_pos (by omega)]
      simp
    have ih := ih fun y hy => h y (by simp [hy])
    simp only [Message.utf8, List.map_cons, List.flatMap_cons, this] at ih ⊢
    rw [ih]
    rfl

/-- C108: The messages of this library are written in ISO 8859-1, not in UTF-8.  With this
middleware a message reaches the bank as it was written exactly if it is ASCII; a message
with an umlaut is never sent as it is. -/
theorem C108_unchanged {m : Charmap} (hm : Ascii m) (body : Bytes) :
    (∀ t : Transport, utf8Middleware m t body = (t body).map' fun b => (Message.utf8 (b.1.map m.dec), b.2)) ↔
      ∀ x ∈ body, x.toNat < 128 := by
  constructor
  · intro h
    by_contra hn
    have hx : ∃ x ∈ body, 128 ≤ x.toNat := by
      push Not at hn
      obtain ⟨x, h1, h2⟩ := hn
      exact ⟨x, h1, by omega⟩
    have hr : ¬ ∀ t : Transport, utf8Middleware m t body = .err := by
      intro hr
      have h1 := h fun _ => .ok ([], true)
      rw [hr] at h1
      cases h1
    rw [C108_refused, not_not] at hr
    obtain ⟨text, bs, tail, h1, h2, e⟩ := hr
    have h3 := h fun b => if b = body then .ok ([], true) else .err
    rw [e, C108_sent h1 h2, ← e] at h3
    simp only [if_true] at h3
    have hb : bs = body := by
      by_contra hb
      rw [if_neg hb] at h3
      cases h3
    have hl := encoded_length h1
    have hu := utf8_length text
    rw [hb, e, List.length_append] at hl
    obtain ⟨x, hx, h4⟩ := hx
    rw [e] at hx
    rcases List.mem_append.1 hx with hx | hx
    · have := hu.2 ⟨x, hx, h4⟩
      omega
    · have := List.length_pos_of_mem hx
      omega
  · intro h t
    have he : Encoded m (body.map fun x => Char.ofNat x.toNat) body := by
      clear * - h hm
      induction body with
      | nil => exact List.Forall₂.nil
      | cons x body ih =>
        have hx : x.toNat < 128 := h x (by simp)
        have e : (Char.ofNat x.toNat).toNat = x.toNat := toNat_ofNat (by omega)
        exact List.Forall₂.cons (by show m.enc (Char.ofNat x.toNat) = some x; rw [hm _ (by omega), e]; simp) (ih fun y hy => h y (by simp [hy]))
    have := C108_sent he (tail := []) ⟨'a', utf8EncodeChar 'a', String.utf8EncodeChar_ne_nil, rfl⟩ t
    rwa [List.append_nil, ascii_text h] at this

/-! ## Examples -/

/-- `ISO8859_1` has ASCII at its place. -/
theorem latin1_ascii : Ascii latin1 := fun c h => by
  simp only [latin1]
  rw [if_pos (by omega)]

/-- C108_sent: `Müller` has six bytes in ISO 8859-1; the torn character at the end of the
request is left out.  The byte of the answer becomes two. -/
example :
    Encoded latin1 c!"Müller" [77, 0xFC, 108, 108, 101, 114] ∧ Unfinished [0xC3] ∧
      utf8Middleware latin1 (fun b => if b = [77, 0xFC, 108, 108, 101, 114] then .ok ([0xDF], false) else .err)
          [77, 0xC3, 0xBC, 108, 108, 101, 114, 0xC3] = .ok ([0xC3, 0x9F], false) := by
  refine ⟨?_, ⟨'ü', [0xBC], by simp, by decide +kernel⟩, by decide +kernel⟩
  repeat' constructor

/-- C108_refused: the Euro sign has no byte in ISO 8859-1. -/
example : utf8Middleware latin1 (fun b => .ok (b, true)) [49, 0xE2, 0x82, 0xAC] = .err := by decide +kernel

/-- C108_refused, C108_unchanged: `ü'` in ISO 8859-1 is not UTF-8; the message is not sent. -/
example : utf8Middleware latin1 (fun b => .ok (b, true)) [0xFC, 39] = .err := by decide +kernel

/-- C108_unchanged: `Ã¤` in ISO 8859-1 looks like UTF-8; another message is sent. -/
example : utf8Middleware latin1 (fun b => if b = [0xE4, 39] then .ok ([], true) else .err) [0xC3, 0xA4, 39] = .ok ([], true) := by
  decide +kernel

/-- C108_echo. -/
example : utf8Middleware latin1 (fun b => .ok (b, true)) (Message.utf8 c!"Grüße") = .ok (Message.utf8 c!"Grüße", true) :=
  C108_echo (by
    intro c hc
    have : ∀ c ∈ c!"Grüße", latin1.enc c = some (UInt8.ofNat c.toNat) ∧ latin1.dec (UInt8.ofNat c.toNat) = c := by decide +kernel
    exact ⟨_, this c hc⟩)

end Verif.Transport
