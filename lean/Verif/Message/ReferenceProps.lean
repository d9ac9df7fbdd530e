import Verif.Message.Reference
import Verif.Dialog.DeliveryProps

/-
C99: what the control reference tells apart.
-/

namespace Verif.Message

open GoLib

/-! ## The checksum -/

theorem crcBit_top (x : BitVec 32) : (crcBit x).getLsbD 31 = x.getLsbD 0 := by
  unfold crcBit
  cases h : x.getLsbD 0 <;> simp [BitVec.getLsbD_of_ge]

theorem crcBit_inj {x y : BitVec 32} (h : crcBit x = crcBit y) : x = y := by
  have h0 : x.getLsbD 0 = y.getLsbD 0 := by rw [← crcBit_top, ← crcBit_top, h]
  unfold crcBit at h
  rw [h0] at h
  have h1 : x >>> 1 = y >>> 1 := by
    have := congrArg (· ^^^ (if y.getLsbD 0 then 0xedb88320#32 else 0#32)) h
    simpa [BitVec.xor_assoc] using this
  apply BitVec.eq_of_getLsbD_eq
  intro i hi
  cases i with
  | zero => exact h0
  | succ i =>
    have := congrArg (fun z : BitVec 32 => z.getLsbD i) h1
    simpa [BitVec.getLsbD_ushiftRight, Nat.add_comm] using this

theorem crcByte_inj {x y : BitVec 32} (h : crcByte x = crcByte y) : x = y :=
  crcBit_inj (crcBit_inj (crcBit_inj (crcBit_inj (crcBit_inj (crcBit_inj (crcBit_inj (crcBit_inj h)))))))

theorem crcBit_xor (x y : BitVec 32) : crcBit (x ^^^ y) = crcBit x ^^^ crcBit y := by
  unfold crcBit
  rw [BitVec.getLsbD_xor, BitVec.ushiftRight_xor_distrib]
  generalize x >>> 1 = a
  generalize y >>> 1 = b
  generalize 0xedb88320#32 = p
  apply BitVec.eq_of_getLsbD_eq
  intro i hi
  cases x.getLsbD 0 <;> cases y.getLsbD 0 <;> simp <;> cases a.getLsbD i <;> cases b.getLsbD i <;> cases p.getLsbD i <;> rfl

theorem crcByte_xor (x y : BitVec 32) : crcByte (x ^^^ y) = crcByte x ^^^ crcByte y := by
  unfold crcByte
  simp only [crcBit_xor]

theorem crcStep_inj {x y : BitVec 32} {b : Byte} (h : crcStep x b = crcStep y b) : x = y := by
  have := crcByte_inj h
  have := congrArg (· ^^^ b.toBitVec.setWidth 32) this
  simpa [BitVec.xor_assoc] using this

theorem crcFold_inj {x y : BitVec 32} (b : Bytes) (h : b.foldl crcStep x = b.foldl crcStep y) : x = y := by
  induction b generalizing x y with
  | nil => exact h
  | cons c b ih => exact crcStep_inj (ih h)

theorem crcByte_shifted : ∀ b : UInt8, crcByte (b.toBitVec.setWidth 32 <<< 8) = b.toBitVec.setWidth 32 ∧
    crcByte (crcByte (b.toBitVec.setWidth 32 <<< 16)) = b.toBitVec.setWidth 32 ∧
    crcByte (crcByte (crcByte (b.toBitVec.setWidth 32 <<< 24))) = b.toBitVec.setWidth 32 := by decide +kernel

/-- Four bytes at once. -/
def word (a b c d : Byte) : BitVec 32 :=
  a.toBitVec.setWidth 32 ^^^ b.toBitVec.setWidth 32 <<< 8 ^^^ c.toBitVec.setWidth 32 <<< 16 ^^^ d.toBitVec.setWidth 32 <<< 24

theorem crcFold_four (x : BitVec 32) (a b c d : Byte) :
    [a, b, c, d].foldl crcStep x = crcByte (crcByte (crcByte (crcByte (x ^^^ word a b c d)))) := by
  simp only [List.foldl_cons, List.foldl_nil, crcStep]
  obtain ⟨hb, -, -⟩ := crcByte_shifted b
  obtain ⟨-, hc, -⟩ := crcByte_shifted c
  obtain ⟨-, -, hd⟩ := crcByte_shifted d
  conv_lhs => rw [← hb, ← hc, ← hd]
  simp only [← crcByte_xor, word, BitVec.xor_assoc]

theorem word_inj {a b c d a' b' c' d' : Byte} (h : word a b c d = word a' b' c' d') : a = a' ∧ b = b' ∧ c = c' ∧ d = d' := by
  have key : ∀ {x y : Byte}, (∀ i < 8, x.toBitVec.getLsbD i = y.toBitVec.getLsbD i) → x = y := fun h =>
    UInt8.toBitVec_inj.1 (BitVec.eq_of_getLsbD_eq fun i hi => h i hi)
  have bit : ∀ i, (word a b c d).getLsbD i = (word a' b' c' d').getLsbD i := fun i => by rw [h]
  refine ⟨key fun i hi => ?_, key fun i hi => ?_, key fun i hi => ?_, key fun i hi => ?_⟩
  · have := bit i
    have h1 : i < 16 := by omega
    have h2 : i < 24 := by omega
    have h3 : i < 32 := by omega
    simpa [word, BitVec.getLsbD_shiftLeft, BitVec.getLsbD_setWidth, hi, h1, h2, h3] using this
  · have := bit (8 + i)
    have h1 : 8 + i < 16 := by omega
    have h2 : 8 + i < 24 := by omega
    have h3 : 8 + i < 32 := by omega
    have h4 : ∀ z : Byte, z.toBitVec.getLsbD (8 + i) = false := fun z => BitVec.getLsbD_of_ge _ _ (by omega)
    simpa [word, BitVec.getLsbD_shiftLeft, BitVec.getLsbD_setWidth, h1, h2, h3, h4] using this
  · have := bit (16 + i)
    have h2 : 16 + i < 24 := by omega
    have h3 : 16 + i < 32 := by omega
    have h4 : ∀ z : Byte, z.toBitVec.getLsbD (16 + i) = false := fun z => BitVec.getLsbD_of_ge _ _ (by omega)
    have h5 : ∀ z : Byte, z.toBitVec.getLsbD (16 + i - 8) = false := fun z => BitVec.getLsbD_of_ge _ _ (by omega)
    simpa [word, BitVec.getLsbD_shiftLeft, BitVec.getLsbD_setWidth, h2, h3, h4, h5] using this
  · have := bit (24 + i)
    have h3 : 24 + i < 32 := by omega
    have h4 : ∀ z : Byte, z.toBitVec.getLsbD (24 + i) = false := fun z => BitVec.getLsbD_of_ge _ _ (by omega)
    have h5 : ∀ z : Byte, z.toBitVec.getLsbD (24 + i - 8) = false := fun z => BitVec.getLsbD_of_ge _ _ (by omega)
    have h6 : ∀ z : Byte, z.toBitVec.getLsbD (24 + i - 16) = false := fun z => BitVec.getLsbD_of_ge _ _ (by omega)
    simpa [word, BitVec.getLsbD_shiftLeft, BitVec.getLsbD_setWidth, h3, h4, h5, h6] using this

/-- The checksum tells apart two texts of the same length that differ only within four adjacent bytes. -/
theorem crcFold_window {i : BitVec 32} {x y : Bytes} (a z : Bytes) (hl : x.length = y.length) (h4 : x.length ≤ 4)
    (h : (a ++ x ++ z).foldl crcStep i = (a ++ y ++ z).foldl crcStep i) : x = y := by
  have four : ∀ u v : Bytes, u.length = 4 → v.length = 4 → ∀ j, u.foldl crcStep j = v.foldl crcStep j → u = v := by
    intro u v hu hv j hj
    obtain ⟨a, b, c, d, rfl⟩ : ∃ a b c d, u = [a, b, c, d] := by
      rcases u with _ | ⟨a, _ | ⟨b, _ | ⟨c, _ | ⟨d, _ | ⟨e, r⟩⟩⟩⟩⟩ <;> simp at hu
      exact ⟨a, b, c, d, rfl⟩
    obtain ⟨a', b', c', d', rfl⟩ : ∃ a b c d, v = [a, b, c, d] := by
      rcases v with _ | ⟨a, _ | ⟨b, _ | ⟨c, _ | ⟨d, _ | ⟨e, r⟩⟩⟩⟩⟩ <;> simp at hv
      exact ⟨a, b, c, d, rfl⟩
    rw [crcFold_four, crcFold_four] at hj
    have hj := crcByte_inj (crcByte_inj (crcByte_inj (crcByte_inj hj)))
    have hj : word a b c d = word a' b' c' d' := by
      have := congrArg (j ^^^ ·) hj
      simpa [← BitVec.xor_assoc] using this
    obtain ⟨rfl, rfl, rfl, rfl⟩ := word_inj hj
    rfl
  simp only [List.foldl_append] at h
  have h := crcFold_inj z h
  generalize a.foldl crcStep i = j at h
  have hp := congrArg (fun j => (List.replicate (4 - x.length) 0).foldl crcStep j) h
  simp only [← List.foldl_append] at hp
  have := four _ _ (by simp; omega) (by simp; omega) _ hp
  exact List.append_inj_left this hl

theorem crc32_window {x y : Bytes} (a z : Bytes) (hl : x.length = y.length) (h4 : x.length ≤ 4)
    (h : crc32 (a ++ x ++ z) = crc32 (a ++ y ++ z)) : x = y := by
  unfold crc32 at h
  exact crcFold_window a z hl h4 (by simpa using congrArg (~~~ ·) h)

/-! ## Eight digits -/

theorem hexDigit_inj : ∀ a < 16, ∀ b < 16, hexDigit a = hexDigit b → a = b := by decide

theorem hexDigit_mem : ∀ a < 16, hexDigit a ∈ c!"0123456789abcdef" := by decide

theorem hex32_inj {a b : Nat} (ha : a < 2 ^ 32) (hb : b < 2 ^ 32) (h : hex32 a = hex32 b) : a = b := by
  simp only [hex32, List.map_cons, List.map_nil, List.cons.injEq, and_true] at h
  have key : ∀ k l : Nat, hexDigit (k % 16) = hexDigit (l % 16) → k % 16 = l % 16 := fun k l hk =>
    hexDigit_inj _ (Nat.mod_lt _ (by omega)) _ (Nat.mod_lt _ (by omega)) hk
  obtain ⟨h1, h2, h3, h4, h5, h6, h7, h8⟩ := h
  have h1 := key _ _ h1
  have h2 := key _ _ h2
  have h3 := key _ _ h3
  have h4 := key _ _ h4
  have h5 := key _ _ h5
  have h6 := key _ _ h6
  have h7 := key _ _ h7
  have h8 := key _ _ h8
  omega

-- the check value of the CRC catalogues
example : hex32 (crc32 b!"123456789").toNat = c!"cbf43926" := by decide +kernel

/-- C99: the control reference is made of eight digits, so it needs no escape signs and fits into the
element of at most fourteen characters. -/
theorem C99_form (k : KeyName) : (controlReference k).length = 8 ∧ ∀ c ∈ controlReference k, c ∈ c!"0123456789abcdef" := by
  refine ⟨rfl, ?_⟩
  intro c hc
  simp only [controlReference, hex32, List.mem_map] at hc
  obtain ⟨n, -, rfl⟩ := hc
  exact hexDigit_mem _ (Nat.mod_lt _ (by omega))

/-! ## What it tells apart -/

/-- The six parts of the name of a key, one after the other, as bytes.  A text is a list of characters;
its bytes are those of UTF-8. -/
def written (k : KeyName) : Bytes :=
  [itoa k.country, utf8 k.bankId, utf8 k.userId, utf8 k.keyType, itoa k.number, itoa k.version].flatten

theorem written_eq (k : KeyName) : referenceBytes k = written k := by simp [referenceBytes, written]

/-- C99: the reference depends on nothing but the parts of the name written one after the other. -/
theorem C99_collides {k l : KeyName} (h : written k = written l) : controlReference k = controlReference l := by
  unfold controlReference
  rw [written_eq, written_eq, h]

/-- C99: two names that differ only within four adjacent bytes have different references. -/
theorem C99_window {k l : KeyName} {a x y z : Bytes} (hk : written k = a ++ x ++ z) (hl : written l = a ++ y ++ z)
    (hlen : x.length = y.length) (h4 : x.length ≤ 4) (hne : x ≠ y) : controlReference k ≠ controlReference l := by
  intro h
  have := hex32_inj (BitVec.isLt _) (BitVec.isLt _) h
  have := BitVec.eq_of_toNat_eq this
  rw [written_eq, written_eq, hk, hl] at this
  exact hne (crc32_window a z hlen h4 this)

theorem utf8_ascii {s : Str} (h : ∀ c ∈ s, c.toNat < 128) : utf8 s = s.map fun c => UInt8.ofNat c.toNat := by
  induction s with
  | nil => rfl
  | cons c s ih =>
    have hc := h c (by simp)
    have : String.utf8EncodeChar c = [UInt8.ofNat c.toNat] := by
      have : c.toNat ≤ 127 := by omega
      simp [String.utf8EncodeChar, this]
    rw [List.map_cons, ← ih fun d hd => h d (by simp [hd]), ← List.singleton_append (l := utf8 s), ← this]
    rfl

theorem ascii_inj {s t : Str} (hs : ∀ c ∈ s, c.toNat < 128) (ht : ∀ c ∈ t, c.toNat < 128)
    (h : (s.map fun c => UInt8.ofNat c.toNat) = t.map fun c => UInt8.ofNat c.toNat) : s = t := by
  induction s generalizing t with
  | nil => cases t <;> simp at h ⊢
  | cons c s ih =>
    cases t with
    | nil => simp at h
    | cons d t =>
      simp only [List.map_cons, List.cons.injEq] at h
      have hc := hs c (by simp)
      have hd := ht d (by simp)
      have := congrArg UInt8.toNat h.1
      simp only [UInt8.toNat_ofNat'] at this
      rw [Nat.mod_eq_of_lt (by omega), Nat.mod_eq_of_lt (by omega)] at this
      rw [ih (fun e he => hs e (by simp [he])) (fun e he => ht e (by simp [he])) h.2, Char.ext (UInt32.toNat_inj.1 this)]

/-- C99: two users of the same bank whose names are ASCII, of the same length, and differ only within
four adjacent characters, have different references. -/
theorem C99_users {bank : KeyName} {p q x y : Str} (ha : ∀ c ∈ p ++ x ++ y ++ q, c.toNat < 128)
    (hlen : x.length = y.length) (h4 : x.length ≤ 4) (hne : x ≠ y) :
    controlReference { bank with userId := p ++ x ++ q } ≠ controlReference { bank with userId := p ++ y ++ q } := by
  have app : ∀ s t : Str, utf8 (s ++ t) = utf8 s ++ utf8 t := fun s t => by simp [utf8]
  have hx := utf8_ascii (s := x) fun c hc => ha c (by simp [hc])
  have hy := utf8_ascii (s := y) fun c hc => ha c (by simp [hc])
  refine C99_window (a := itoa bank.country ++ utf8 bank.bankId ++ utf8 p)
    (z := utf8 q ++ utf8 bank.keyType ++ itoa bank.number ++ itoa bank.version)
    (by simp [written, app]; rfl) (by simp [written, app]; rfl) ?_ ?_ ?_
  · rw [hx, hy]; simpa using hlen
  · rw [hx]; simpa using h4
  · rw [hx, hy]
    intro h
    apply hne
    exact ascii_inj (fun c hc => ha c (by simp [hc])) (fun c hc => ha c (by simp [hc])) h

namespace Sample

/-- The name of the key of a user of some bank. -/
def key (user : Str) : KeyName := ⟨280, c!"10010010", user, c!"S", 0, 0⟩

end Sample

example : controlReference (Sample.key c!"12345678") = c!"f05bffbc" ∧ controlReference (Sample.key c!"12987678") = c!"a5457144" ∧
    controlReference (Sample.key c!"12345678") ≠ controlReference (Sample.key c!"12987678") := by
  refine ⟨by decide +kernel, by decide +kernel, ?_⟩
  exact C99_users (bank := Sample.key []) (p := c!"12") (x := c!"345") (y := c!"987") (q := c!"678") (by decide) rfl (by decide) (by decide)

/-- C99: the reference does not identify the user: there are two users of the same bank, with names of
the same length made of digits, who have the same reference; and a longer bank ID with a shorter user name
gives the same reference as a shorter bank ID with a longer user name. -/
theorem C99_not_unique :
    (∃ u v : Str, u ≠ v ∧ u.length = v.length ∧ (∀ c ∈ u ++ v, c ∈ c!"0123456789") ∧
      controlReference ⟨280, c!"10010010", u, c!"S", 0, 0⟩ = controlReference ⟨280, c!"10010010", v, c!"S", 0, 0⟩) ∧
    ∀ (country number version : Int) (b u v t : Str),
      controlReference ⟨country, b ++ u, v, t, number, version⟩ = controlReference ⟨country, b, u ++ v, t, number, version⟩ := by
  constructor
  · exact ⟨c!"99504575", c!"20959281", by decide, rfl, by decide, by decide +kernel⟩
  · intro country number version b u v t
    exact C99_collides (by simp [written, utf8])

example : controlReference (Sample.key c!"99504575") = c!"97a133b9" ∧ controlReference (Sample.key c!"20959281") = c!"97a133b9" := by
  decide +kernel

-- a one of the version may as well be a one of the number
example : controlReference ⟨280, c!"10010010", c!"user", c!"S", 1, 12⟩ = controlReference ⟨280, c!"10010010", c!"user", c!"S", 11, 2⟩ :=
  C99_collides (by decide +kernel)

/-! ## In the messages -/

end Verif.Message

namespace Verif.Dialog

open GoLib Element Element.Spec Segment Message Domain Transport

variable {σ α : Type}

theorem enc_plain {s : Str} (h : ∀ c ∈ s, c ∈ c!"0123456789abcdef") :
    enc (escape s) = s.map fun c => UInt8.ofNat c.toNat := by
  induction s with
  | nil => rfl
  | cons c s ih =>
    have h1 := ih fun d hd => h d (by simp [hd])
    have h2 : ∀ c ∈ c!"0123456789abcdef", enc (escape [c]) = [UInt8.ofNat c.toNat] := by decide
    rw [show c :: s = [c] ++ s from rfl, escape_append, enc_append, h1, h2 c (h c (by simp))]
    rfl

/-- C99: whatever was done before with a new PIN/TAN dialog, and whatever PIN was set, the signature end
of every message of a call carries the reference made of bank and user. -/
theorem C99_sent (w : World σ α) (hw : w.controlRef = controlReference) (bank : BankId) (user : Str) (v : Version)
    (name version : Str) (cs : List Call) (c : Call) (hc : ∀ j, c ≠ .sendAnonymous j) :
    let s := runAll w cs ⟨newPinTanDialog w bank user v name version, 0, []⟩
    ∃ E, (run w c s).2.sent = s.sent ++ E ∧ ∀ e ∈ E, ∃ (a z : Bytes) (pos ver : Int),
      e.bytes = a ++ b!"HNSHA:" ++ itoa pos ++ b!":" ++ itoa ver ++ b!"+" ++
        (controlReference ⟨bank.country, bank.id, user, c!"S", 0, 0⟩).map (fun d => UInt8.ofNat d.toNat) ++ b!"++" ++ z := by
  intro s
  obtain ⟨E, ns, h1, h2, -, -⟩ := C96_secured w bank user v name version cs c hc
  refine ⟨E, h1, fun e he => ?_⟩
  obtain ⟨n, -, h3⟩ : ∃ n ∈ ns, Delivered w ⟨lastPin [] cs, w.controlRef ⟨bank.country, bank.id, user, c!"S", 0, 0⟩,
      ⟨bank.country, bank.id, user, c!"S", 0, 0⟩⟩ n e := by
    clear h1
    induction h2 with
    | nil => simp at he
    | cons h _ ih =>
      rcases List.mem_cons.1 he with rfl | he
      · exact ⟨_, by simp, h⟩
      · obtain ⟨n, hn, h3⟩ := ih he
        exact ⟨n, by simp [hn], h3⟩
  obtain ⟨p, h4, -⟩ := h3.bytes
  rw [hw] at h4
  generalize hr : controlReference ⟨bank.country, bank.id, user, c!"S", 0, 0⟩ = r at *
  have hh : ∀ c ∈ r, c ∈ c!"0123456789abcdef" := by rw [← hr]; exact (C99_form _).2
  rw [← enc_plain hh]
  unfold Parts.bytes at h4
  generalize itoa (p.data _).length = l at h4
  unfold Parts.data at h4
  refine ⟨p.first ++ p.security ++ (b!"HNVSD:999:1+@" ++ l ++ b!"@" ++ (p.signature ++ p.contents.flatten)),
    pinBytes (lastPin [] cs) ++ b!"'" ++ b!"'" ++ p.last, p.contents.length + 3, p.version, ?_⟩
  rw [h4]
  simp

namespace Sample

/-- The bank that agrees to everything, and the control reference of the code. -/
def referring : World Bytes Bytes := { world good with controlRef := controlReference }

/-- The ends of the messages of a synchronisation. -/
def ends (user pin : Str) : List Bytes :=
  (runAll referring [.setPin pin, .sync] ⟨newPinTanDialog referring ⟨280, c!"10010010"⟩ user .fints300 [] [], 0, []⟩).sent.map
    fun e => e.bytes.drop (e.bytes.length - 40)

end Sample

example : Sample.ends c!"99504575" c!"1234" =
      [b!"0'HNSHA:7:2+97a133b9++1234''HNHBS:8:1+1'", b!"1'HNSHA:4:2+97a133b9++1234''HNHBS:5:1+2'"] ∧
    Sample.ends c!"20959281" c!"5678" =
      [b!"0'HNSHA:7:2+97a133b9++5678''HNHBS:8:1+1'", b!"1'HNSHA:4:2+97a133b9++5678''HNHBS:5:1+2'"] := by decide +kernel

end Verif.Dialog
