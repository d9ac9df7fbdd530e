import Verif.Dialog.DeliveryProps
import Verif.Segment.StandardProps
import Verif.Dialog.Sample

/-
C125: what a bank that reads the HBCI syntax finds in a message signed and wrapped with a PIN.
-/

namespace Verif.Dialog

open GoLib Element Element.Spec Segment Segment.Spec Message Domain Transport Charset Time Verif.Token.Spec

variable {σ α : Type}

/-! ## Specification: a secured message -/

/-- A number in at least twelve decimal digits. -/
def decimal12 (n : Int) : Str := toUTF8 (zeroPad 12 n)

/-- A time as hour, minute and second. -/
def timeText (t : Civil) : Str := toUTF8 (format6 t)

/-- Several texts. -/
def words (ts : List Str) : List Part := ts.map .text

/-- The name of a key: country, bank, user, kind of key, number and version. -/
def keyParts (k : KeyName) : List Part :=
  words [decimal3 k.country, k.bankId, k.userId, k.keyType, decimal k.number, decimal k.version]

/-- The client system that sends. -/
def senderParts (system : Str) : List Part := words [c!"1", [], system]

/-- When the message was secured. -/
def stampParts (t : Civil) : List Part := words [c!"1", dateText t, timeText t]

/-- The profile of the security procedure: 1 for the one-step procedure, 2 for any other. -/
def profileParts (fn : Str) : List Part := words [c!"PIN", if fn = c!"999" then c!"1" else c!"2"]

/-- The elements of HNSHK. -/
def signatureElements (v : Version) (fn ref system : Str) (k : KeyName) (t : Civil) : List (List Part) :=
  (match v with
    | .hbci220 => []
    | .fints300 => [profileParts fn]) ++
  [word fn, word ref, word c!"1", word c!"1", senderParts system, word c!"0", stampParts t,
   words [c!"1", c!"999", c!"1"], words [c!"6", c!"10", c!"16"], keyParts k]

/-- The elements of HNVSK. -/
def encryptionElements (v : Version) (fn system : Str) (k : KeyName) (t : Civil) : List (List Part) :=
  (match v with
    | .hbci220 => []
    | .fints300 => [profileParts fn]) ++
  [word c!"998", word c!"1", senderParts system, stampParts t,
   words [c!"2", c!"2", c!"13"] ++ [.data [0, 0, 0, 0, 0, 0, 0, 0]] ++ words [c!"5", c!"1"], keyParts k, word c!"0"]

/-- The versions of HNSHK, HNVSK and HNSHA. -/
def versions : Version → Int × Int × Int
  | .hbci220 => (3, 2, 1)
  | .fints300 => (4, 3, 2)

/-- No text of a key name loses its end, and the bank has a number. -/
structure CleanKey (k : KeyName) : Prop where
  bank : k.bankId ≠ [] ∧ CleanText k.bankId
  user : CleanText k.userId
  kind : CleanText k.keyType

/-- The same for a client system. -/
def CleanSystem (s : Str) : Prop := s ≠ [] ∧ CleanText s

/-- The HNHBK of a message of this size. -/
def firstSegment (size : Nat) (hbci : Int) (dialog : Str) (number : Int) : List (List Part) :=
  headParts c!"HNHBK" 1 3 none :: [word (decimal12 size), word (decimal hbci), word dialog, word (decimal number)]

/-- The HNHBS of a message with this number; it is the segment with number `n`. -/
def lastSegment (n : Int) (number : Int) : List (List Part) :=
  headParts c!"HNHBS" n 1 none :: [word (decimal number)]

/-- A message signed by `p` and wrapped by `c`: HNHBK, HNVSK, HNVSD and HNHBS.  HNVSD consists of data.  The data are
a message of their own: HNSHK, the given segments, numbered from 3, and HNSHA with the PIN. -/
def ReadSecured (b : Bytes) (v : Version) (p : SignatureProvider) (c : CryptoProvider) (signed wrapped : Civil)
    (hbci : Int) (dialog : Str) (number : Int) (segs : List Seg) : Prop :=
  ∃ data, standard b = some
      [firstSegment b.length hbci dialog number,
        headParts c!"HNVSK" 998 (versions v).2.1 none :: encryptionElements v c.securityFn c.clientSystemId c.key.keyName wrapped,
        [headParts c!"HNVSD" 999 1 none, [.data data]],
        lastSegment (segs.length + 4) number] ∧
    standard data = some
      ([headParts c!"HNSHK" 2 (versions v).1 none ::
          signatureElements v p.securityFn p.controlRef p.clientSystemId p.key.keyName signed] ++
        segs.mapIdx (fun i s => shown (i + 3) s) ++
        [headParts c!"HNSHA" (segs.length + 3) (versions v).2.2 none :: [word p.controlRef, word [], word p.key.pin]])

/-- A message that is not secured: HNHBK, the given segments, numbered from 2, and HNHBS. -/
def ReadPlain (b : Bytes) (hbci : Int) (dialog : Str) (number : Int) (segs : List Seg) : Prop :=
  standard b = some ([firstSegment b.length hbci dialog number] ++ segs.mapIdx (fun i s => shown (i + 2) s) ++
    [lastSegment (segs.length + 2) number])

/-- No text of the providers loses its end. -/
structure CleanAccess (p : SignatureProvider) (c : CryptoProvider) : Prop where
  pin : CleanText p.key.pin
  signFn : CleanText p.securityFn
  reference : CleanText p.controlRef
  signSystem : CleanSystem p.clientSystemId
  signKey : CleanKey p.key.keyName
  cryptSystem : CleanSystem c.clientSystemId
  cryptKey : CleanKey c.key.keyName

/-! ## The elements are read as specified -/

theorem stripped_last {ts : List Part} {t : Part} (h : t ≠ .text []) : stripped (ts ++ [t]) = ts ++ [t] := by
  have := stripped_split (out := ts) (x := t) (tail := []) (by simpa using h) (by simp)
  simpa using this

theorem shortened_last {fs : List (List Part)} {f : List Part} (h : f ≠ [.text []]) : shortened (fs ++ [f]) = fs ++ [f] := by
  have := dropEnd_split (p := fun f : List Part => f == [.text []]) (out := fs) (x := f) (tail := []) (by simpa using h) (by simp)
  rw [List.append_nil] at this
  exact this

theorem shortened_snoc {fs : List (List Part)} {f : List Part} (h : f ≠ [.text []]) :
    shortened (fs ++ [f] ++ [word []]) = fs ++ [f] :=
  dropEnd_split (p := fun f : List Part => f == [.text []]) (out := fs) (x := f) (tail := [word []]) (by simpa using h)
    (by simp [word])

theorem decimal_ne_nil (n : Int) : decimal n ≠ [] := by
  have := itoa_ne_nil n
  simpa [decimal, toUTF8] using this

theorem decimal_zero : decimal 0 = c!"0" := by decide +kernel

theorem time_plain {t : Civil} : ∀ x ∈ format6 t, Digit x ∨ x = 45 ∨ x = 74 ∨ x = 78 := by
  intro x hx
  unfold format6 at hx
  simp only [List.mem_append] at hx
  rcases hx with (h | h) | h <;> exact Or.inl (pad_mem h)

theorem clean_time (t : Civil) : CleanText (timeText t) := clean_of_plain time_plain

theorem clean_decimal12 (n : Int) : CleanText (decimal12 n) := clean_of_plain zeroPad_plain

theorem parts_key {k : KeyName} (h : CleanKey k) : partsOf (keyNameDE k) = some (keyParts k) := by
  have e : stripped [.text (decimal3 k.country), .text k.bankId] = [.text (decimal3 k.country), .text k.bankId] :=
    stripped_last (ts := [.text (decimal3 k.country)]) (by simpa using h.bank.1)
  unfold keyNameDE bankIdentification
  simp only [partsOf, partsAll, partsOpt, Option.bind_some, Option.map_some, Option.some.injEq]
  simp only [List.flatten_cons, List.flatten_nil, List.append_nil, List.cons_append, List.nil_append]
  show stripped (stripped [.text (decimal3 k.country), .text k.bankId] ++
    [.text k.userId, .text k.keyType, .text (decimal k.number), .text (decimal k.version)]) = _
  rw [e]
  exact stripped_last (ts := words [decimal3 k.country, k.bankId, k.userId, k.keyType, decimal k.number])
    (by simpa using decimal_ne_nil k.version)

theorem clean_key {k : KeyName} (h : CleanKey k) : ∀ t ∈ keyParts k, Clean t := by
  intro t ht
  simp only [keyParts, words, List.map_cons, List.map_nil, List.mem_cons, List.not_mem_nil, or_false] at ht
  rcases ht with rfl | rfl | rfl | rfl | rfl | rfl
  · exact clean_decimal3 _
  · exact h.bank.2
  · exact h.user
  · exact h.kind
  · exact clean_decimal _
  · exact clean_decimal _

theorem parts_sender {s : Str} (h : CleanSystem s) : partsOf (securityId s) = some (senderParts s) := by
  unfold securityId
  simp only [partsOf, partsAll, partsOpt, Option.bind_some, Option.map_some, Option.some.injEq]
  exact stripped_last (ts := words [c!"1", []]) (by simpa using h.1)

theorem clean_sender {s : Str} (h : CleanSystem s) : ∀ t ∈ senderParts s, Clean t := by
  intro t ht
  simp only [senderParts, words, List.map_cons, List.map_nil, List.mem_cons, List.not_mem_nil, or_false] at ht
  rcases ht with rfl | rfl | rfl
  · simp [Clean, CleanText]
  · exact clean_nil
  · exact h.2

theorem parts_stamp (t : Civil) : partsOf (securityDate t) = some (stampParts t) := by
  unfold securityDate
  simp only [partsOf, partsAll, partsOpt, Option.bind_some, Option.map_some, Option.some.injEq]
  refine stripped_last (ts := words [c!"1", dateText t]) ?_
  have : natDec t.sec ≠ [] := by
    have := itoa_ne_nil (t.sec : Int)
    unfold itoa at this
    rwa [if_neg (by omega), Int.natAbs_natCast] at this
  simp [format6, toUTF8, Time.pad, this]

theorem clean_stamp (t : Civil) : ∀ x ∈ stampParts t, Clean x := by
  intro x hx
  simp only [stampParts, words, List.map_cons, List.map_nil, List.mem_cons, List.not_mem_nil, or_false] at hx
  rcases hx with rfl | rfl | rfl
  · simp [Clean, CleanText]
  · exact clean_date t
  · exact clean_time t

theorem parts_profile (fn : Str) : partsOf (securityProfile (profileFor fn)) = some (profileParts fn) := by
  have h1 : toUTF8 (itoa 1) = c!"1" := by decide +kernel
  have h2 : toUTF8 (itoa 2) = c!"2" := by decide +kernel
  unfold securityProfile profileFor profileParts
  by_cases h : fn = c!"999" <;>
    simp [h, partsOf, partsAll, partsOpt, h1, h2, stripped, words]

theorem clean_profile (fn : Str) : ∀ x ∈ profileParts fn, Clean x := by
  intro x hx
  unfold profileParts words at hx
  by_cases h : fn = c!"999" <;> simp [h] at hx <;> rcases hx with rfl | rfl <;> simp [Clean, CleanText]

theorem parts_hash : partsOf hashAlgorithm = some (words [c!"1", c!"999", c!"1"]) := by decide +kernel

theorem parts_algorithm : partsOf signatureAlgorithm = some (words [c!"6", c!"10", c!"16"]) := by decide +kernel

theorem parts_cipher : partsOf pinTanEncryptionAlgorithm =
    some (words [c!"2", c!"2", c!"13"] ++ [.data [0, 0, 0, 0, 0, 0, 0, 0]] ++ words [c!"5", c!"1"]) := by decide +kernel

theorem clean_words {ts : List Str} (h : ∀ t ∈ ts, CleanText t) : ∀ x ∈ words ts, Clean x := by
  intro x hx
  obtain ⟨t, ht, rfl⟩ := List.mem_map.1 hx
  exact h t ht

theorem key_ne (k : KeyName) : keyParts k ≠ [.text []] := by simp [keyParts, words]

theorem clean_word {s : Str} (h : CleanText s) : ∀ x ∈ word s, Clean x := by
  intro x hx
  rw [List.mem_singleton.1 hx]
  exact h

theorem shown_eq {s : Seg} {n : Int} {fs : List (List Part)} (h : partsAll s.elements = some fs) :
    shown n s = headParts s.header.id n s.header.version s.header.ref :: shortened fs := by
  unfold shown
  rw [h]
  rfl

/-- The signature header is read as specified. -/
theorem read_signature {v : Version} {fn ref system : Str} {k : KeyName} {t : Civil} {n : Int} (hf : CleanText fn)
    (hr : CleanText ref) (hs : CleanSystem system) (hk : CleanKey k) :
    CleanSeg ((signatureHeader v fn ref system k t).setPosition n) ∧
    shown n ((signatureHeader v fn ref system k t).setPosition n) =
      headParts c!"HNSHK" n (versions v).1 none :: signatureElements v fn ref system k t := by
  have hp : partsAll (signatureHeader v fn ref system k t).elements = some (signatureElements v fn ref system k t ++ [word []]) := by
    have hz : toUTF8 (itoa 0) = c!"0" := decimal_zero
    cases v <;>
      simp [signatureHeader, newSegment, partsAll, partsOpt, parts_profile, parts_sender hs, parts_stamp, parts_hash,
        parts_algorithm, parts_key hk, partsOf, signatureElements, word, hz]
  have hc : ∀ f ∈ signatureElements v fn ref system k t ++ [word []], ∀ x ∈ f, Clean x := by
    have h1 : CleanText c!"1" := by simp [CleanText]
    have h0 : CleanText c!"0" := by simp [CleanText]
    have key : ∀ f ∈ [word fn, word ref, word c!"1", word c!"1", senderParts system, word c!"0", stampParts t,
        words [c!"1", c!"999", c!"1"], words [c!"6", c!"10", c!"16"], keyParts k] ++ [word []], ∀ x ∈ f, Clean x := by
      intro f hff
      simp only [List.cons_append, List.nil_append, List.mem_cons, List.not_mem_nil, or_false] at hff
      rcases hff with rfl | rfl | rfl | rfl | rfl | rfl | rfl | rfl | rfl | rfl | rfl
      · exact clean_word hf
      · exact clean_word hr
      · exact clean_word h1
      · exact clean_word h1
      · exact clean_sender hs
      · exact clean_word h0
      · exact clean_stamp t
      · exact clean_words (by simp [CleanText])
      · exact clean_words (by simp [CleanText])
      · exact clean_key hk
      · exact clean_word cleanText_nil
    intro f hff
    unfold signatureElements at hff
    rw [List.append_assoc] at hff
    rcases List.mem_append.1 hff with h | h
    · cases v
      · simp at h
      · simp only [List.mem_singleton] at h
        rw [h]
        exact clean_profile fn
    · exact key f h
  refine ⟨⟨_, hp, hc⟩, ?_⟩
  rw [shown_eq (s := (signatureHeader v fn ref system k t).setPosition n) hp]
  have e : signatureElements v fn ref system k t =
      (signatureElements v fn ref system k t).dropLast ++ [keyParts k] := by cases v <;> rfl
  rw [e, shortened_snoc (key_ne k)]
  cases v <;> rfl

/-- The encryption header is read as specified. -/
theorem read_encryption {v : Version} {fn system : Str} {k : KeyName} {t : Civil} (hs : CleanSystem system) (hk : CleanKey k) :
    CleanSeg (encryptionHeader v fn system k t) ∧
    shown 998 (encryptionHeader v fn system k t) =
      headParts c!"HNVSK" 998 (versions v).2.1 none :: encryptionElements v fn system k t := by
  have hp : partsAll (encryptionHeader v fn system k t).elements = some (encryptionElements v fn system k t ++ [word []]) := by
    cases v <;>
      simp [encryptionHeader, newSegment, partsAll, partsOpt, parts_profile, parts_sender hs, parts_stamp, parts_cipher,
        parts_key hk, partsOf, encryptionElements, word]
  have hc : ∀ f ∈ encryptionElements v fn system k t ++ [word []], ∀ x ∈ f, Clean x := by
    have key : ∀ f ∈ [word c!"998", word c!"1", senderParts system, stampParts t,
        words [c!"2", c!"2", c!"13"] ++ [.data [0, 0, 0, 0, 0, 0, 0, 0]] ++ words [c!"5", c!"1"], keyParts k, word c!"0"] ++ [word []],
        ∀ x ∈ f, Clean x := by
      intro f hff
      simp only [List.cons_append, List.nil_append, List.mem_cons, List.not_mem_nil, or_false] at hff
      rcases hff with rfl | rfl | rfl | rfl | rfl | rfl | rfl | rfl
      · exact clean_word (by simp [CleanText])
      · exact clean_word (by simp [CleanText])
      · exact clean_sender hs
      · exact clean_stamp t
      · simp [words, Clean, CleanText]
      · exact clean_key hk
      · exact clean_word (by simp [CleanText])
      · exact clean_word cleanText_nil
    intro f hff
    unfold encryptionElements at hff
    rw [List.append_assoc] at hff
    rcases List.mem_append.1 hff with h | h
    · cases v
      · simp at h
      · simp only [List.mem_singleton] at h
        rw [h]
        exact clean_profile fn
    · exact key f h
  refine ⟨⟨_, hp, hc⟩, ?_⟩
  rw [shown_eq hp]
  have e : encryptionElements v fn system k t = (encryptionElements v fn system k t).dropLast ++ [word c!"0"] := by cases v <;> rfl
  rw [e, shortened_snoc (by simp [word])]
  cases v <;> rfl

/-- The signature end is read as reference and PIN. -/
theorem read_end {v : Version} {ref pin : Str} {n : Int} (hr : CleanText ref) (hp : CleanText pin) (hne : pin ≠ []) :
    CleanSeg ((signatureEnd v ref pin).setPosition n) ∧
    shown n ((signatureEnd v ref pin).setPosition n) =
      headParts c!"HNSHA" n (versions v).2.2 none :: [word ref, word [], word pin] := by
  have h : partsAll (signatureEnd v ref pin).elements = some [word ref, word [], word pin] := by
    have : stripped [.text pin, .text []] = [.text pin] := by
      have := stripped_split (out := []) (x := .text pin) (tail := [.text []]) (by simpa using hne) (by simp)
      simpa using this
    cases v <;> simp [signatureEnd, newSegment, pinTanDE, partsAll, partsOpt, partsOf, this, word]
  refine ⟨⟨_, h, ?_⟩, ?_⟩
  · intro f hf
    simp only [List.mem_cons, List.not_mem_nil, or_false] at hf
    rcases hf with rfl | rfl | rfl
    · exact clean_word hr
    · exact clean_word cleanText_nil
    · exact clean_word hp
  · rw [shown_eq (s := (signatureEnd v ref pin).setPosition n) h]
    rw [show [word ref, word [], word pin] = [word ref, word []] ++ [word pin] from rfl, shortened_last (by simpa [word] using hne)]
    cases v <;> rfl

/-- The message header is read as size, version, dialog and number. -/
theorem read_first {h : MsgHeader} (hr : h.ref = none) (hd : CleanText h.dialogId) :
    CleanSeg h.seg ∧ shown h.position h.seg = headParts c!"HNHBK" h.position 3 none ::
      [word (decimal12 h.size), word (decimal h.hbciVersion), word h.dialogId, word (decimal h.number)] := by
  have hp : partsAll h.seg.elements = some ([word (decimal12 h.size), word (decimal h.hbciVersion), word h.dialogId,
      word (decimal h.number)] ++ [word []]) := by
    simp [MsgHeader.seg, newSegment, partsAll, partsOpt, partsOf, hr, word, decimal12, decimal]
  refine ⟨⟨_, hp, ?_⟩, ?_⟩
  · intro f hf
    simp only [List.cons_append, List.nil_append, List.mem_cons, List.not_mem_nil, or_false] at hf
    rcases hf with rfl | rfl | rfl | rfl | rfl
    · exact clean_word (clean_decimal12 _)
    · exact clean_word (clean_decimal _)
    · exact clean_word hd
    · exact clean_word (clean_decimal _)
    · exact clean_word cleanText_nil
  · rw [shown_eq hp]
    have := shortened_snoc (fs := [word (decimal12 h.size), word (decimal h.hbciVersion), word h.dialogId])
      (f := word (decimal h.number)) (by simpa [word] using decimal_ne_nil h.number)
    simp only [List.cons_append, List.nil_append] at this ⊢
    rw [this]
    rfl

/-- The message end is read as the number of the message. -/
theorem read_last (e : MsgEnd) :
    CleanSeg e.seg ∧ shown e.position e.seg = headParts c!"HNHBS" e.position 1 none :: [word (decimal e.number)] := by
  have hp : partsAll e.seg.elements = some [word (decimal e.number)] := by
    simp [MsgEnd.seg, newSegment, partsAll, partsOpt, partsOf, word, decimal]
  refine ⟨⟨_, hp, ?_⟩, ?_⟩
  · intro f hf
    rw [List.mem_singleton.1 hf]
    exact clean_word (clean_decimal _)
  · rw [shown_eq hp]
    have := shortened_last (fs := []) (f := word (decimal e.number)) (by simpa [word] using decimal_ne_nil e.number)
    rw [List.nil_append] at this
    rw [this]
    rfl

/-! ## Whole messages -/

/-- A message that was signed and wrapped with a PIN is read as such. -/
theorem C125_secured {segs : List (Option Seg)} {h : MsgHeader} {q : MsgEnd} {v : Version}
    {p : SignatureProvider} {c : CryptoProvider} {t t' : Civil} {m m' : BasicMessage} {x : EncryptedMessage} {b : Bytes}
    (hp : p.key.pin = c.key.pin)
    (h1 : BasicMessage.sign ⟨h, q, none, none, some segs, v, []⟩ p t = .ok m)
    (h2 : m.encrypt c t' = .ok x) (h3 : x.msg.marshal = .ok (b, m'))
    (hs : ∀ s ∈ segs.filterMap id, CleanSeg s) (hr : h.ref = none) (hd : CleanText h.dialogId) (hq : q.number = h.number)
    (ha : CleanAccess p c) (hz : -(10 ^ 11) < h.size ∧ h.size < 10 ^ 12) (hl : b.length < 10 ^ 12) :
    ReadSecured b v p c t t' h.hbciVersion h.dialogId h.number (segs.filterMap id) := by
  obtain ⟨hpin, hpf, hpr, hps, hpk, hcs, hck⟩ := ha
  obtain ⟨hne, b0, b1, hk, ha, b3, l4, g0, g1, k3, k4, k2, g3, hb, hh, hcon⟩ := pieces_of hp h1 h2 h3
  have hsize : m'.header.size = b.length := by
    obtain ⟨_, _, e1, _, e3, _, _⟩ := C20_encrypt h2
    have hm : m.header = { h with position := 1 } := by
      unfold BasicMessage.sign BasicMessage.setPositions at h1
      simp only [Outcome.ok.injEq, positionOpt] at h1
      rw [← h1]
    have := C18_size e3 h3 (by rw [e1, hm]; exact hz.1) (by rw [e1, hm]; exact hz.2) hl
    obtain ⟨_, _, _, _, _, _, hz⟩ := this
    exact hz
  have hv : m.version = v := by
    unfold BasicMessage.sign BasicMessage.setPositions at h1
    simp only [Outcome.ok.injEq, positionOpt] at h1
    rw [← h1]
  have hend : m.end_ = ⟨(segs.filterMap id).length + 4, q.number⟩ := by
    unfold BasicMessage.sign BasicMessage.setPositions at h1
    simp only [Outcome.ok.injEq, positionOpt] at h1
    rw [← h1]
    simp only [MsgEnd.mk.injEq, and_true]
    rw [(positionAll_spec segs _).2]
    omega
  have hcont : (m.content.getD []).filterMap id = (segs.filterMap id).mapIdx fun i s => s.setPosition (i + 3) := by
    rw [hcon, Option.getD_some, (positionAll_spec segs _).1]
    congr 1
    funext i s
    congr 1
    omega
  rw [hcont] at k4
  rw [hcont, List.length_mapIdx] at k2
  rw [hv] at g1
  rw [hend] at g3
  obtain ⟨c1, d1⟩ := read_signature (v := v) (t := t) (n := 2) hpf hpr hps hpk
  obtain ⟨c2, d2⟩ := read_end (v := v) (n := (segs.filterMap id).length + 3) hpr hpin hne
  obtain ⟨c3, d3⟩ := read_encryption (v := v) (fn := c.securityFn) (t := t') hcs hck
  obtain ⟨c4, d4⟩ := read_first (h := m'.header) (by rw [hh]; exact hr) (by rw [hh]; exact hd)
  obtain ⟨c5, d5⟩ := read_last ⟨(segs.filterMap id).length + 4, q.number⟩
  have hin : standard (hk ++ l4.flatten ++ ha) = some
      ([headParts c!"HNSHK" 2 (versions v).1 none ::
          signatureElements v p.securityFn p.controlRef p.clientSystemId p.key.keyName t] ++
        (segs.filterMap id).mapIdx (fun i s => shown (i + 3) s) ++
        [headParts c!"HNSHA" ((segs.filterMap id).length + 3) (versions v).2.2 none ::
          [word p.controlRef, word [], word p.key.pin]]) := by
    have := C124_message (ss := [(signatureHeader v p.securityFn p.controlRef p.clientSystemId p.key.keyName t).setPosition 2] ++
        (segs.filterMap id).mapIdx (fun i s => s.setPosition (i + 3)) ++
        [(signatureEnd v p.controlRef p.key.pin).setPosition ((segs.filterMap id).length + 3)]) (bs := [hk] ++ l4 ++ [ha])
      (by simp only [List.map_append, List.map_cons, List.map_nil, k3, k4, k2]) (by
        intro s hs'
        rcases List.mem_append.1 hs' with hs' | hs'
        · rcases List.mem_append.1 hs' with hs' | hs'
          · rw [List.mem_singleton.1 hs']; exact c1
          · obtain ⟨i, hi, rfl⟩ := List.mem_mapIdx.1 hs'
            have := hs _ (List.getElem_mem hi)
            exact this
        · rw [List.mem_singleton.1 hs']; exact c2)
    rw [show ([hk] ++ l4 ++ [ha]).flatten = hk ++ l4.flatten ++ ha by simp] at this
    rw [this, List.map_append, List.map_append]
    have hmap : ∀ l : List Seg, (l.mapIdx fun i s => s.setPosition (i + 3)).map (fun s => shown s.header.position s) =
        l.mapIdx fun i s => shown (i + 3) s := by
      intro l
      apply List.ext_getElem
      · simp
      · intro i _ _
        simp [shown, Seg.setPosition, Header.setPosition]
    rw [hmap]
    simp only [List.map_cons, List.map_nil]
    rw [← d1, ← d2]
    rfl
  generalize hD : hk ++ l4.flatten ++ ha = D at hin hb
  have hlast : D.getLast? = some 39 := by
    obtain ⟨z, hz⟩ : ∃ z, ha = z ++ [39] := ⟨_, signatureEnd_bytes hne k2⟩
    rw [← hD, hz, ← List.append_assoc, List.getLast?_concat]
  have hdata : partsAll (newSegment 999 c!"HNVSD" 1 [some (.binary D (-1))]).elements = some [[.data D]] := by
    simp [newSegment, partsAll, partsOpt, partsOf]
  have c6 : CleanSeg (newSegment 999 c!"HNVSD" 1 [some (.binary D (-1))]) := by
    refine ⟨_, hdata, ?_⟩
    intro f hf y hy
    rw [List.mem_singleton.1 hf] at hy
    rw [List.mem_singleton.1 hy]
    exact ⟨by rw [hlast]; decide, by rw [hlast]; decide⟩
  have d6 : shown 999 (newSegment 999 c!"HNVSD" 1 [some (.binary D (-1))]) = [headParts c!"HNVSD" 999 1 none, [.data D]] := by
    rw [shown_eq hdata]
    have := shortened_last (fs := []) (f := [.data D]) (by simp)
    rw [List.nil_append] at this
    rw [this]
    rfl
  obtain ⟨b2, g2⟩ : ∃ b2, (newSegment 999 c!"HNVSD" 1 [some (.binary D (-1))]).marshal = .ok b2 := by
    refine (seg_ok_iff _).2 ?_
    exact ⟨(latin1_of_all (by decide) : Latin1 c!"HNVSD"), by simp [newSegment, textsAll, texts]⟩
  have hb2 := encryptedData_bytes hlast g2
  refine ⟨D, ?_, hin⟩
  have := C124_message (ss := [m'.header.seg, encryptionHeader v c.securityFn c.clientSystemId c.key.keyName t',
      newSegment 999 c!"HNVSD" 1 [some (.binary D (-1))], MsgEnd.seg ⟨(segs.filterMap id).length + 4, q.number⟩])
    (bs := [b0, b1, b2, b3]) (by simp only [List.map_cons, List.map_nil, g0, g1, g2, g3]) (by
      intro s hs'
      simp only [List.mem_cons, List.not_mem_nil, or_false] at hs'
      rcases hs' with rfl | rfl | rfl | rfl
      · exact c4
      · exact c3
      · exact c6
      · exact c5)
  have e : [b0, b1, b2, b3].flatten = b := by rw [hb, hb2]; simp
  rw [e] at this
  rw [this]
  simp only [List.map_cons, List.map_nil, Option.some.injEq, List.cons.injEq, and_true]
  have hpos : m'.header.position = 1 := by rw [hh]
  rw [hq] at d5
  refine ⟨?_, ?_, d6, by rw [hq]; exact d5⟩
  · show shown m'.header.position m'.header.seg = _
    rw [d4, hpos, hsize, hh]
    rfl
  · rw [← d3]
    cases v <;> rfl

/-- A message that was only numbered is read as such. -/
theorem C125_unsecured {segs : List (Option Seg)} {h : MsgHeader} {q : MsgEnd} {v : Version} {m m' : BasicMessage} {b : Bytes}
    (h1 : BasicMessage.setPositions ⟨h, q, none, none, some segs, v, []⟩ = .ok m) (h2 : m.marshal = .ok (b, m'))
    (hs : ∀ s ∈ segs.filterMap id, CleanSeg s) (hr : h.ref = none) (hd : CleanText h.dialogId) (hq : q.number = h.number)
    (hz : -(10 ^ 11) < h.size ∧ h.size < 10 ^ 12) (hl : b.length < 10 ^ 12) :
    ReadPlain b h.hbciVersion h.dialogId h.number (segs.filterMap id) := by
  obtain ⟨first, last, l4, g0, k4, g3, hb, hh, hcon⟩ := plain_pieces h1 h2
  have hm : m.header = { h with position := 1 } ∧ m.cache = [] ∧ m.end_ = ⟨(segs.filterMap id).length + 2, q.number⟩ := by
    unfold BasicMessage.setPositions at h1
    simp only [Outcome.ok.injEq, positionOpt] at h1
    rw [← h1]
    refine ⟨rfl, rfl, ?_⟩
    simp only [MsgEnd.mk.injEq, and_true]
    rw [(positionAll_spec segs _).2]
    omega
  have hsize : m'.header.size = b.length := by
    obtain ⟨_, _, _, _, _, _, hz⟩ :=
      C18_size hm.2.1 h2 (by rw [hm.1]; exact hz.1) (by rw [hm.1]; exact hz.2) hl
    exact hz
  have hcont : (m.content.getD []).filterMap id = (segs.filterMap id).mapIdx fun i s => s.setPosition (i + 2) := by
    rw [hcon, Option.getD_some, (positionAll_spec segs _).1]
    congr 1
    funext i s
    congr 1
    omega
  rw [hcont] at k4
  rw [hm.2.2] at g3
  obtain ⟨c4, d4⟩ := read_first (h := m'.header) (by rw [hh]; exact hr) (by rw [hh]; exact hd)
  obtain ⟨c5, d5⟩ := read_last ⟨(segs.filterMap id).length + 2, q.number⟩
  have := C124_message (ss := [m'.header.seg] ++ (segs.filterMap id).mapIdx (fun i s => s.setPosition (i + 2)) ++
      [MsgEnd.seg ⟨(segs.filterMap id).length + 2, q.number⟩]) (bs := [first] ++ l4 ++ [last])
    (by simp only [List.map_append, List.map_cons, List.map_nil, g0, k4, g3]) (by
      intro s hs'
      rcases List.mem_append.1 hs' with hs' | hs'
      · rcases List.mem_append.1 hs' with hs' | hs'
        · rw [List.mem_singleton.1 hs']; exact c4
        · obtain ⟨i, hi, rfl⟩ := List.mem_mapIdx.1 hs'
          have := hs _ (List.getElem_mem hi)
          exact this
      · rw [List.mem_singleton.1 hs']; exact c5)
  rw [show ([first] ++ l4 ++ [last]).flatten = b by rw [hb]; simp] at this
  have hmap : ∀ l : List Seg, (l.mapIdx fun i s => s.setPosition (i + 2)).map (fun s => shown s.header.position s) =
      l.mapIdx fun i s => shown (i + 2) s := by
    intro l
    apply List.ext_getElem
    · simp
    · intro i _ _
      simp [shown, Seg.setPosition, Header.setPosition]
  unfold ReadPlain
  rw [this, List.map_append, List.map_append, hmap]
  have hpos : m'.header.position = 1 := by rw [hh]
  have e1 : shown m'.header.seg.header.position m'.header.seg = firstSegment b.length h.hbciVersion h.dialogId h.number := by
    show shown m'.header.position m'.header.seg = _
    rw [d4, hpos, hsize, hh]
    rfl
  rw [hq] at d5
  simp only [List.map_cons, List.map_nil]
  rw [e1]
  congr 2
  rw [hq]
  exact congrArg (fun x => [x]) d5

/-! ## Nothing is lost -/

theorem word_inj {a b : Str} (h : word a = word b) : a = b := by simpa [word] using h

theorem keyParts_inj {k l : KeyName} (h : keyParts k = keyParts l) : k = l := by
  obtain ⟨k1, k2, k3, k4, k5, k6⟩ := k
  obtain ⟨l1, l2, l3, l4, l5, l6⟩ := l
  simp only [keyParts, words, List.map_cons, List.map_nil, List.cons.injEq, Part.text.injEq, and_true] at h
  obtain ⟨h1, h2, h3, h4, h5, h6⟩ := h
  rw [decimal3_inj h1, h2, h3, h4, decimal_inj h5, decimal_inj h6]

theorem headParts_inj {i j : Str} {m n v u : Int} (h : headParts i m v none = headParts j n u none) : i = j ∧ m = n ∧ v = u := by
  simp only [headParts, Option.toList_none, List.map_nil, List.append_nil, List.map_cons, List.cons.injEq, Part.text.injEq,
    and_true] at h
  exact ⟨h.1, decimal_inj h.2.1, decimal_inj h.2.2⟩

/-- Two secured messages with the same bytes say the same: version, dialog, number, PIN, reference, security function,
client system and key names are equal, both were secured at the same second, and both contain as many segments, which
look the same one by one. -/
theorem C125_same {b : Bytes} {v v' : Version} {p p' : SignatureProvider} {c c' : CryptoProvider} {t t' u u' : Civil}
    {i i' : Int} {d d' : Str} {n n' : Int} {ss ss' : List Seg}
    (h : ReadSecured b v p c t u i d n ss) (h' : ReadSecured b v' p' c' t' u' i' d' n' ss') :
    v = v' ∧ i = i' ∧ d = d' ∧ n = n' ∧ p = p' ∧ c.key.keyName = c'.key.keyName ∧ c.clientSystemId = c'.clientSystemId ∧
      (dateText t, timeText t) = (dateText t', timeText t') ∧ (dateText u, timeText u) = (dateText u', timeText u') ∧
      ss.mapIdx (fun i s => shown (i + 3) s) = ss'.mapIdx (fun i s => shown (i + 3) s) := by
  obtain ⟨data, h1, h2⟩ := h
  obtain ⟨data', h1', h2'⟩ := h'
  rw [h1'] at h1
  simp only [Option.some.injEq, List.cons.injEq, firstSegment, lastSegment, and_true, Part.data.injEq] at h1
  obtain ⟨⟨-, -, e1, e2, e3⟩, ⟨e4, e5⟩, ⟨-, rfl⟩, e6, -⟩ := h1
  have hv : v = v' := by
    have := (headParts_inj e4).2.2
    cases v <;> cases v' <;> first | rfl | exact absurd this (by decide)
  subst hv
  have hlen : ss'.length = ss.length := by
    have := (headParts_inj e6).2.1
    omega
  rw [h2'] at h2
  simp only [Option.some.injEq] at h2
  obtain ⟨h3, h4⟩ := List.append_inj h2 (by simp [hlen])
  obtain ⟨h5, h6⟩ := List.append_inj h3 (by simp)
  simp only [List.cons.injEq, and_true] at h4 h5
  have hsig : ∀ {fn fn' r r' y y' : Str} {k k' : KeyName} {t t' : Civil},
      signatureElements v fn r y k t = signatureElements v fn' r' y' k' t' →
        fn = fn' ∧ r = r' ∧ y = y' ∧ k = k' ∧ (dateText t, timeText t) = (dateText t', timeText t') := by
    intro fn fn' r r' y y' k k' t t' h
    have key : word fn = word fn' ∧ word r = word r' ∧ senderParts y = senderParts y' ∧ stampParts t = stampParts t' ∧
        keyParts k = keyParts k' := by
      cases v <;> simp only [signatureElements, List.nil_append, List.cons_append, List.cons.injEq] at h <;> tauto
    obtain ⟨k1, k2, k3, k4, k5⟩ := key
    refine ⟨word_inj k1, word_inj k2, ?_, keyParts_inj k5, ?_⟩
    · simpa [senderParts, words] using k3
    · simpa [stampParts, words] using k4
  have henc : ∀ {fn fn' y y' : Str} {k k' : KeyName} {t t' : Civil},
      encryptionElements v fn y k t = encryptionElements v fn' y' k' t' →
        y = y' ∧ k = k' ∧ (dateText t, timeText t) = (dateText t', timeText t') := by
    intro fn fn' y y' k k' t t' h
    have key : senderParts y = senderParts y' ∧ stampParts t = stampParts t' ∧ keyParts k = keyParts k' := by
      cases v <;> simp only [encryptionElements, List.nil_append, List.cons_append, List.cons.injEq] at h <;> tauto
    obtain ⟨k1, k2, k3⟩ := key
    refine ⟨?_, keyParts_inj k3, ?_⟩
    · simpa [senderParts, words] using k1
    · simpa [stampParts, words] using k2
  obtain ⟨f1, f2, f3, f4, f5⟩ := hsig h5.2
  obtain ⟨g1, g2, g3⟩ := henc e5
  obtain ⟨q1, q2, q3⟩ := h4
  have hp : p = p' := by
    obtain ⟨⟨pin, key⟩, a, b, c⟩ := p
    obtain ⟨⟨pin', key'⟩, a', b', c'⟩ := p'
    simp only at f1 f2 f3 f4 q3
    rw [f1, f2, f3, f4, word_inj q3.2]
  exact ⟨rfl, (decimal_inj (word_inj e1)).symm, (word_inj e2).symm, (decimal_inj (word_inj e3)).symm, hp, g2.symm, g1.symm,
    f5.symm, g3.symm, h6.symm⟩

/-! ## In a dialog -/

/-- What a dialog hands over for some segments is read as a secured message with the dialog ID and the next number, if
it hands over anything. -/
theorem C125_exchange (w : World σ α) (k : Kind) (segs : List (Option Seg)) (v : Version) (s : St σ α) (hp : OnePin s.d)
    (hs : ∀ x ∈ segs.filterMap id, CleanSeg x) (hd : CleanText s.d.dialogId) (ha : CleanAccess s.d.sig s.d.crypto) :
    (exchange w k segs v s).2.sent = s.sent ∨ ∃ e, (exchange w k segs v s).2.sent = s.sent ++ [e] ∧
      (e.bytes.length < 10 ^ 12 →
        ReadSecured e.bytes v s.d.sig s.d.crypto (w.env (s.step + 1)).signTime (w.env (s.step + 1)).encryptTime
          s.d.version.number s.d.dialogId (s.d.messageCount + 1) (segs.filterMap id)) := by
  unfold exchange M.bind
  simp only [newMessage_ok]
  unfold sign
  cases hm : BasicMessage.sign _ s.d.sig (w.env (s.step + 1)).signTime with
  | err => exact Or.inl rfl
  | panic => exact Or.inl rfl
  | ok m =>
    simp only
    rcases requestEncrypted_log w k m
      { s with d := { s.d with messageCount := s.d.messageCount + 1 }, step := s.step + 1 } with h | ⟨x, m', b, h1, h2, h3⟩
    · rw [h]; exact Or.inl rfl
    · rw [h3]
      exact Or.inr ⟨_, rfl, fun hl => C125_secured hp hm h1 h2 hs rfl hd rfl ha (by simp [newMsgHeader]) hl⟩

/-- The same for a message that is not secured. -/
theorem C125_exchangePlain (w : World σ α) (k : Kind) (segs : List (Option Seg)) (v : Version) (s : St σ α)
    (hs : ∀ x ∈ segs.filterMap id, CleanSeg x) (hd : CleanText s.d.dialogId) :
    (exchangePlain w k segs v s).2.sent = s.sent ∨ ∃ e, (exchangePlain w k segs v s).2.sent = s.sent ++ [e] ∧
      (e.bytes.length < 10 ^ 12 →
        ReadPlain e.bytes s.d.version.number s.d.dialogId (s.d.messageCount + 1) (segs.filterMap id)) := by
  unfold exchangePlain M.bind
  simp only [newMessage_ok, M.lift]
  cases hm : BasicMessage.setPositions _ with
  | err => exact Or.inl rfl
  | panic => exact Or.inl rfl
  | ok m =>
    simp only
    unfold request
    cases h2 : m.marshal with
    | err => exact Or.inl rfl
    | panic => exact Or.inl rfl
    | ok r => exact Or.inr ⟨_, rfl, fun hl => C125_unsecured hm h2 hs rfl hd rfl (by simp [newMsgHeader]) hl⟩

/-! ## A concrete case -/

theorem sample_access : CleanAccess (Sample.known Sample.good).d.sig (Sample.known Sample.good).d.crypto := by
  have e1 : (Sample.known Sample.good).d.sig = ⟨⟨c!"secret", ⟨280, c!"10000000", c!"user", c!"S", 0, 0⟩⟩, c!"sys0", c!"999", c!"1234"⟩ := rfl
  have e2 : (Sample.known Sample.good).d.crypto = ⟨⟨c!"secret", ⟨280, c!"10000000", c!"user", c!"V", 0, 0⟩⟩, c!"sys0", c!"999"⟩ := rfl
  rw [e1, e2]
  constructor <;> first | (constructor <;> simp [CleanText]) | simp [CleanText, CleanSystem]

theorem sample_segments : ∀ x ∈ Sample.work.segments.filterMap id, CleanSeg x := by
  intro x hx
  simp only [Sample.work, List.filterMap_cons, id, List.filterMap_nil, List.mem_singleton] at hx
  subst hx
  refine ⟨[word c!"4", word c!"HKSAL", word [], word [], word [], word [], word []], by decide +kernel, ?_⟩
  intro f hf t ht
  simp only [List.mem_cons, List.not_mem_nil, or_false] at hf
  rcases hf with rfl | rfl | rfl | rfl | rfl | rfl | rfl <;> rw [List.mem_singleton.1 ht] <;> simp [Clean, CleanText]

set_option maxRecDepth 20000 in
/-- A request for a TAN in a dialog. -/
example : (exchange (Sample.world Sample.good) .job Sample.work.segments .fints300 (Sample.known Sample.good)).2.sent.map
    (fun e => (standard e.bytes).map fun ss => ss.map fun fs => fs.head?) =
    [some [some (words [c!"HNHBK", c!"1", c!"3"]), some (words [c!"HNVSK", c!"998", c!"3"]),
      some (words [c!"HNVSD", c!"999", c!"1"]), some (words [c!"HNHBS", c!"5", c!"1"])]] := by
  decide +kernel

set_option maxRecDepth 20000 in
/-- The job, as the bank sees it. -/
example : shown 3 (tanRequestV6 c!"HKSAL") = [words [c!"HKTAN", c!"3", c!"6"], [.text c!"4"], [.text c!"HKSAL"]] := by
  decide +kernel

/-- Without a number of the bank all that follows in the name of the key moves up: the user is read as the bank. -/
theorem C125_no_bank {k : KeyName} (h : k.bankId = []) : partsOf (keyNameDE k) =
    some (words [decimal3 k.country, k.userId, k.keyType, decimal k.number, decimal k.version]) := by
  have e : stripped [.text (decimal3 k.country), .text []] = [.text (decimal3 k.country)] := by
    have := stripped_split (out := []) (x := .text (decimal3 k.country)) (tail := [.text []])
      (by simpa using decimal3_ne_nil k.country) (by simp)
    simpa using this
  unfold keyNameDE bankIdentification
  simp only [partsOf, partsAll, partsOpt, Option.bind_some, Option.map_some, Option.some.injEq]
  simp only [List.flatten_cons, List.flatten_nil, List.append_nil, List.cons_append, List.nil_append]
  show stripped (stripped [.text (decimal3 k.country), .text k.bankId] ++
    [.text k.userId, .text k.keyType, .text (decimal k.number), .text (decimal k.version)]) = _
  rw [h, e]
  exact stripped_last (ts := words [decimal3 k.country, k.userId, k.keyType, decimal k.number])
    (by simpa using decimal_ne_nil k.version)

set_option maxRecDepth 20000 in
example : (keyNameDE ⟨280, [], c!"user", c!"S", 0, 0⟩).marshal = .ok b!"280:user:S:0:0" := by decide +kernel

end Verif.Dialog
