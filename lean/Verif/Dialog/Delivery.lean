import Verif.Dialog.StateProps
import Verif.Element.GroupsLemmas
import Verif.Message.Props

/-
What a secured message looks like on its way to the transport, and which PIN it carries.
-/

namespace Verif.Dialog

open GoLib Element Element.Spec Segment Message Domain Transport

/-! ## Specification -/

/-- Who signs: the PIN, the control reference and the name of the key. -/
structure Signer where
  pin : Str
  reference : Str
  key : KeyName

/-- The PIN as it is transmitted: escaped.  If it ends in a separator, that separator is cut off, but
not the escape sign before it. -/
def pinBytes (pin : Str) : Bytes :=
  enc (if pin.getLast? = some ':' ∨ pin.getLast? = some '+' then (escape pin).dropLast else escape pin)

/-- The parts of a secured message: the bytes of the contents between signature header and signature
end, in the data segment, between the other segments. -/
structure Parts where
  first : Bytes
  security : Bytes
  signature : Bytes
  contents : List Bytes
  /-- the version of the signature end, 1 or 2 -/
  version : Int
  last : Bytes

/-- What stands in the data segment. -/
def Parts.data (p : Parts) (who : Signer) : Bytes :=
  p.signature ++ p.contents.flatten ++
    (b!"HNSHA:" ++ itoa (p.contents.length + 3) ++ b!":" ++ itoa p.version ++ b!"+" ++ enc (escape who.reference) ++ b!"++" ++
      pinBytes who.pin ++ b!"'")

/-- The whole message. -/
def Parts.bytes (p : Parts) (who : Signer) : Bytes :=
  p.first ++ p.security ++ (b!"HNVSD:999:1+@" ++ itoa (p.data who).length ++ b!"@" ++ p.data who ++ b!"'") ++ p.last

/-- A message that was signed by `who`, wrapped, and handed to the transport of step `n`. -/
structure Delivered {σ α : Type} (w : World σ α) (who : Signer) (n : Nat) (e : Sent σ) : Prop where
  answer : e.reply = receive w.decoders ((w.env n).transport e.bytes)
  bytes : ∃ p : Parts, e.bytes = p.bytes who ∧
    ((e.plain.content.getD []).filterMap id).map Seg.marshal = p.contents.map .ok ∧
    (p.version = 1 ∨ p.version = 2) ∧
    b!"HNHBK:1:3" <+: p.first ∧ b!"HNVSK:998:" <+: p.security ∧ b!"HNSHK:2:" <+: p.signature ∧ b!"HNHBS:" <+: p.last ∧
    -- the signature header ends with the name of the key
    ∃ k, (DE.group 5
        [some (.group 2 [some (.countryCode who.key.country 3), some (.alnum who.key.bankId 30)]),
         some (.identification who.key.userId 30), some (.alnum who.key.keyType 1),
         some (.number who.key.number 3), some (.number who.key.version 3)]).marshal = .ok k ∧
      b!"+" ++ k ++ b!"'" <:+ p.signature

variable {σ α : Type}

/-! ## The signature end -/

theorem enc_append (a b : Str) : enc (a ++ b) = enc a ++ enc b := by simp [enc]

theorem escape_append (a b : Str) : escape (a ++ b) = escape a ++ escape b := by simp [escape]

/-- The end of the segment with the PIN, whatever separator it ends in. -/
theorem trimmed_pin {pin : Str} (hne : pin ≠ []) (hl : Latin1 pin) (x : Bytes) :
    trimRight 43 (x ++ trimRight 58 (enc (escape pin))) = x ++ pinBytes pin := by
  obtain ⟨r, c, rfl⟩ : ∃ r c, pin = r ++ [c] := ⟨_, _, (List.dropLast_append_getLast hne).symm⟩
  unfold pinBytes
  simp only [List.getLast?_append, List.getLast?_singleton, Option.some.injEq, escape_append, enc_append, Option.some_or]
  have q : ∀ y : Bytes, trimRight 58 (y ++ [63]) = y ++ [63] := fun y => trimRight_of_last (by simp)
  have q' : ∀ y : Bytes, trimRight 43 (y ++ [63]) = y ++ [63] := fun y => trimRight_of_last (by simp)
  by_cases h1 : c = ':'
  · subst h1
    have : enc (escape [':']) = [63] ++ [58] := rfl
    rw [this, if_pos (Or.inl rfl), ← List.append_assoc, trimRight_append_single, q, ← List.append_assoc, q']
    have : escape [':'] = ['?'] ++ [':'] := rfl
    rw [this, ← List.append_assoc, List.dropLast_concat, enc_append]
    simp [enc]
  · by_cases h2 : c = '+'
    · subst h2
      have : enc (escape ['+']) = [63] ++ [43] := rfl
      rw [this, if_pos (Or.inr rfl), ← List.append_assoc, trimRight_of_last (c := 58) (by simp), ← List.append_assoc,
        trimRight_append_single, ← List.append_assoc, q']
      have : escape ['+'] = ['?'] ++ ['+'] := rfl
      rw [this, ← List.append_assoc, List.dropLast_concat, enc_append]
      simp [enc]
    · rw [if_neg (by simp [h1, h2])]
      have hc : c.toNat ≤ 255 := hl c (by simp)
      have hx : ∃ y, enc (escape [c]) = y ++ [UInt8.ofNat c.toNat] := by
        by_cases hs : special c
        · exact ⟨[63], by simp [escape, enc, hs]⟩
        · exact ⟨[], by simp [escape, enc, hs]⟩
      obtain ⟨y, hy⟩ := hx
      have hb : ∀ k : Char, k.toNat ≤ 255 → c ≠ k → UInt8.ofNat c.toNat ≠ UInt8.ofNat k.toNat := by
        intro k hk hn he
        apply hn
        have := congrArg UInt8.toNat he
        simp only [UInt8.toNat_ofNat'] at this
        rw [Nat.mod_eq_of_lt (by omega), Nat.mod_eq_of_lt (by omega)] at this
        exact Char.ext (UInt32.toNat_inj.1 this)
      have e : ∀ (z : Bytes) (k : Byte), UInt8.ofNat c.toNat ≠ k → trimRight k (z ++ [UInt8.ofNat c.toNat]) = z ++ [UInt8.ofNat c.toNat] :=
        fun z k hk => trimRight_of_last (by simpa using hk)
      rw [hy, ← List.append_assoc, e _ 58 (hb ':' (by decide) h1), ← List.append_assoc, e _ 43 (hb '+' (by decide) h2),
        enc_append, hy]
      simp

/-- The version of the signature end. -/
def endVersion : Version → Int
  | .hbci220 => 1
  | .fints300 => 2

/-- The bytes of a numbered signature end. -/
theorem signatureEnd_bytes {v : Version} {ref pin : Str} {k : Int} {b : Bytes} (hp : pin ≠ [])
    (h : ((signatureEnd v ref pin).setPosition k).marshal = .ok b) :
    b = b!"HNSHA:" ++ itoa k ++ b!":" ++ itoa (endVersion v) ++ b!"+" ++ enc (escape ref) ++ b!"++" ++
      pinBytes pin ++ b!"'" := by
  have hw := (seg_ok_iff _).1 ⟨b, h⟩
  rw [writable_setPosition, signatureEnd_writable] at hw
  have ht := trimmed_pin hp hw.2
  have hid : Latin1 c!"HNSHA" := latin1_of_all (by decide)
  have he : enc (escape c!"HNSHA") = b!"HNSHA" := by decide
  unfold Seg.marshal at h
  cases v <;>
  · simp only [signatureEnd, newSegment, Seg.setPosition, Header.setPosition, newHeader] at h
    rw [header_marshal _ hid] at h
    simp only [pinTanDE, if_true, DE.marshalAll, DE.marshalOpt, DE.marshal, marshalText_ok hw.1, marshalText_ok hw.2,
      Outcome.bind, Outcome.map', join, Outcome.ok.injEq, trimRight_append_single] at h
    rw [← h]
    have := fun q : Int => ht (headerBytes ⟨c!"HNSHA", k, q, none⟩ ++ 43 :: enc (escape ref) ++ [43, 43])
    simp only [List.append_assoc, List.cons_append, List.nil_append] at this ⊢
    rw [this]
    simp [headerBytes, he, endVersion]

/-- Cutting separators leaves what stands before the last other byte. -/
theorem trimRight_prefix {c : Byte} {x : Bytes} (h : x.getLast? ≠ some c) (y : Bytes) : x <+: trimRight c (x ++ y) := by
  obtain ⟨k, hk⟩ := trimRight_spec c (x ++ y)
  rcases List.prefix_or_prefix_of_prefix (⟨y, hk⟩ : x <+: trimRight c (x ++ y) ++ List.replicate k c)
    (List.prefix_append _ _) with hp | ⟨z, hz⟩
  · exact hp
  · generalize ht : trimRight c (x ++ y) = t at *
    subst hz
    rw [List.append_assoc] at hk
    have hk := List.append_cancel_left hk
    by_cases hz : z = []
    · simp [hz]
    · refine absurd ?_ h
      rw [List.getLast?_append_of_ne_nil _ hz, List.getLast?_eq_getLast_of_ne_nil hz]
      have : z.getLast hz ∈ List.replicate k c := by rw [← hk]; simp
      rw [(List.mem_replicate.1 this).2]

/-- A segment starts with its header. -/
theorem seg_starts {s : Seg} {b : Bytes} (h : s.marshal = .ok b) : headerBytes s.header <+: b := by
  unfold Seg.marshal at h
  obtain ⟨hb, h1, h2⟩ := bind_ok h
  obtain ⟨ps, h3, rfl⟩ := map_ok h2
  rw [header_marshal_eq h1]
  have : ∃ y, join 43 (headerBytes s.header :: ps) = headerBytes s.header ++ y := by
    cases ps with
    | nil => exact ⟨[], by simp [join]⟩
    | cons p ps => exact ⟨_, rfl⟩
  obtain ⟨y, hy⟩ := this
  rw [hy]
  exact (trimRight_prefix (headerBytes_last _).1 y).trans (List.prefix_append _ _)

/-- The bytes of the name of a key end in a digit. -/
theorem keyName_last {k : KeyName} {b : Bytes} (h : (keyNameDE k).marshal = .ok b) :
    b ≠ [] ∧ b.getLast? ≠ some 43 := by
  unfold keyNameDE at h
  rw [DE.marshal] at h
  obtain ⟨ps, h1, rfl⟩ := map_ok h
  rw [marshalAll_ok] at h1
  obtain ⟨x, hx⟩ : ∃ x, join 58 ps = x ++ itoa k.version := by
    have : ∃ qs, ps = qs ++ [itoa k.version] := by
      rcases ps with _ | ⟨a, _ | ⟨b, _ | ⟨c, _ | ⟨d, _ | ⟨e, _ | ⟨f, r⟩⟩⟩⟩⟩⟩
      all_goals simp only [List.map_cons, List.cons.injEq, DE.marshalOpt, DE.marshal, marshalNumber, Outcome.ok.injEq, List.map_nil,
        reduceCtorEq, and_false] at h1
      exact ⟨[a, b, c, d], by rw [h1.2.2.2.2.1]; rfl⟩
    obtain ⟨qs, rfl⟩ := this
    exact ⟨_, join_snoc _ _ _⟩
  have := (headerBytes_last ⟨[], 0, k.version, none⟩)
  simp only [headerBytes, List.append_nil] at this
  have hn := itoa_ne_nil k.version
  have hl : ∀ y : Bytes, (y ++ itoa k.version).getLast? = (itoa k.version).getLast? := fun y => List.getLast?_append_of_ne_nil y hn
  have hl' : ∀ (y : Bytes), (y ++ 58 :: itoa k.version).getLast? = (itoa k.version).getLast? := fun y => by
    rw [← hl (y ++ [58])]; simp
  rw [hl'] at this
  rw [hx, trimRight_of_last (by rw [hl]; exact this.2), hl]
  exact ⟨by simp [hn], this.1⟩

/-- The signature header ends with the name of the key. -/
theorem signatureHeader_ends {v : Version} {fn ref id : Str} {key : KeyName} {now : Time.Civil} {b : Bytes} {p : Int}
    (h : ((signatureHeader v fn ref id key now).setPosition p).marshal = .ok b) :
    ∃ k, (keyNameDE key).marshal = .ok k ∧ b!"+" ++ k ++ b!"'" <:+ b := by
  obtain ⟨A, he⟩ : ∃ A, ((signatureHeader v fn ref id key now).setPosition p).elements = A ++ [some (keyNameDE key), none] := by
    cases v
    · exact ⟨((signatureHeader .hbci220 fn ref id key now).setPosition p).elements.take 9, rfl⟩
    · exact ⟨((signatureHeader .fints300 fn ref id key now).setPosition p).elements.take 10, rfl⟩
  unfold Seg.marshal at h
  rw [he] at h
  obtain ⟨hb, h1, h2⟩ := bind_ok h
  obtain ⟨ps, h3, rfl⟩ := map_ok h2
  rw [marshalAll_ok, List.map_append] at h3
  obtain ⟨qs, rs, rfl, h4, h5⟩ := List.append_eq_map_iff.1 h3
  rcases rs with _ | ⟨k, _ | ⟨e, _ | ⟨f, r⟩⟩⟩
  all_goals simp only [List.map_cons, List.cons.injEq, DE.marshalOpt, Outcome.ok.injEq, List.map_nil, and_true, reduceCtorEq,
    and_false] at h5
  obtain ⟨h5, rfl⟩ := h5
  refine ⟨k, h5.symm, ?_⟩
  have : hb :: (qs ++ [k, []]) = (hb :: qs) ++ [k] ++ List.replicate 1 [] := by simp
  rw [this, join_trailing]
  obtain ⟨hn, hk⟩ := keyName_last h5.symm
  obtain ⟨y, hy⟩ : ∃ y, pre 43 (hb :: qs) = y ++ [43] := by
    rw [← List.dropLast_append_getLast (l := hb :: qs) (by simp)]
    exact ⟨pre 43 (hb :: qs).dropLast ++ (hb :: qs).getLast (by simp), by simp [pre]⟩
  rw [hy, List.replicate_one, trimRight_append_single, trimRight_of_last (by rw [List.getLast?_append_of_ne_nil _ hn]; exact hk)]
  exact ⟨y, by simp⟩

/-! ## Secured messages -/

/-- What `requestEncrypted` does to the log. -/
theorem requestEncrypted_log (w : World σ α) (k : Kind) (m : BasicMessage) (s : St σ α) :
    (requestEncrypted w k m s).2 = s ∨ ∃ (x : EncryptedMessage) (m' : BasicMessage) (b : Bytes),
      m.encrypt s.d.crypto (w.env s.step).encryptTime = .ok x ∧ x.msg.marshal = .ok (b, m') ∧
      (requestEncrypted w k m s).2 =
        { s with sent := s.sent ++ [⟨k, m, x.msg, b, receive w.decoders ((w.env s.step).transport b)⟩] } := by
  unfold requestEncrypted request
  cases h1 : m.encrypt s.d.crypto (w.env s.step).encryptTime with
  | err => exact Or.inl rfl
  | panic => exact Or.inl rfl
  | ok x =>
    cases h2 : x.msg.marshal with
    | err => left; simp [h2]
    | panic => left; simp [h2]
    | ok r => exact Or.inr ⟨x, r.2, r.1, rfl, h2, by simp [h2]⟩

/-- The bytes of the data segment. -/
theorem encryptedData_bytes {d b : Bytes} (hd : d.getLast? = some 39)
    (h : (newSegment 999 c!"HNVSD" 1 [some (.binary d (-1))]).marshal = .ok b) :
    b = b!"HNVSD:999:1+@" ++ itoa d.length ++ b!"@" ++ d ++ b!"'" := by
  have hid : Latin1 c!"HNVSD" := latin1_of_all (by decide)
  have he : headerBytes ⟨c!"HNVSD", 999, 1, none⟩ = b!"HNVSD:999:1" := by decide +kernel
  have hn : d ≠ [] := by rintro rfl; simp at hd
  unfold Seg.marshal newSegment newHeader at h
  rw [header_marshal _ hid] at h
  simp only [DE.marshalAll, DE.marshalOpt, DE.marshal, Outcome.bind, Outcome.map', join, Outcome.ok.injEq, marshalBinary] at h
  have hlast : ∀ y : Bytes, trimRight 43 (y ++ d) = y ++ d := fun y =>
    trimRight_of_last (by rw [List.getLast?_append_of_ne_nil _ hn, hd]; decide)
  have := hlast (b!"HNVSD:999:1+@" ++ itoa d.length ++ b!"@")
  have hi : itoa (d.length : Int) = natDec d.length := by
    unfold itoa
    rw [if_neg (by omega), Int.natAbs_natCast]
  rw [← h, he, ← this, hi]
  simp

/-- The segments of a message that was signed and encrypted: message header, encryption header, data
segment with signature header, contents and signature end, message end. -/
theorem pieces_of {segs : List (Option Seg)} {h : MsgHeader} {q : MsgEnd} {v : Version}
    {p : SignatureProvider} {c : CryptoProvider} {t t' : Time.Civil} {m m' : BasicMessage} {x : EncryptedMessage} {b : Bytes}
    (hp : p.key.pin = c.key.pin)
    (h1 : BasicMessage.sign ⟨h, q, none, none, some segs, v, []⟩ p t = .ok m)
    (h2 : m.encrypt c t' = .ok x) (h3 : x.msg.marshal = .ok (b, m')) :
    p.key.pin ≠ [] ∧ ∃ (b0 b1 hk ha b3 : Bytes) (l4 : List Bytes),
      m'.header.seg.marshal = .ok b0 ∧ (encryptionHeader m.version c.securityFn c.clientSystemId c.key.keyName t').marshal = .ok b1 ∧
      ((signatureHeader v p.securityFn p.controlRef p.clientSystemId p.key.keyName t).setPosition 2).marshal = .ok hk ∧
      ((m.content.getD []).filterMap id).map Seg.marshal = l4.map .ok ∧
      ((signatureEnd v p.controlRef p.key.pin).setPosition (((m.content.getD []).filterMap id).length + 3)).marshal = .ok ha ∧
      m.end_.seg.marshal = .ok b3 ∧
      b = b0 ++ b1 ++ (b!"HNVSD:999:1+@" ++ itoa (hk ++ l4.flatten ++ ha).length ++ b!"@" ++ (hk ++ l4.flatten ++ ha) ++ b!"'") ++ b3 ∧
      m'.header = { h with position := 1, size := m'.header.size } ∧ m.content = some (positionAll 2 segs).1 := by
  have hpin : p.key.pin ≠ [] := by
    have hc : ∃ s, m.content = some s := by
      cases hc : m.content with
      | none => unfold BasicMessage.encrypt at h2; rw [hc] at h2; cases h2
      | some s => exact ⟨s, rfl⟩
    obtain ⟨s, hc⟩ := hc
    rw [hp]
    exact ((encrypt_ok_iff m s hc c t').1 ⟨x, h2⟩).1
  obtain ⟨⟨bs, i1, i2⟩, _, i3, i4, i5, hv, i6, i7⟩ := C20_encrypt h2
  obtain ⟨cs, j1, j2, j3, j4⟩ := C19_transmitted i5 h3
  have hx : (transmitted m').head? = some m'.header.seg := rfl
  rw [i7] at j3
  have ht : transmitted m' = [m'.header.seg, hv, newSegment 999 c!"HNVSD" 1 [some (.binary x.data (-1))], m.end_.seg] := by
    cases hc : transmitted m' with
    | nil => rw [hc] at hx; cases hx
    | cons a r => rw [hc] at hx j3; simp only [List.head?_cons, Option.some.injEq, List.tail_cons] at hx j3; rw [hx, j3]
  rw [ht] at j1
  unfold BasicMessage.sign BasicMessage.setPositions at h1
  simp only [Outcome.ok.injEq, positionOpt] at h1
  have hs1 : m.sigBegin = some ((signatureHeader v p.securityFn p.controlRef p.clientSystemId p.key.keyName t).setPosition 2) := by
    rw [← h1]; rfl
  have hs2 : m.sigEnd = some ((signatureEnd v p.controlRef p.key.pin).setPosition (((m.content.getD []).filterMap id).length + 3)) := by
    rw [← h1]
    simp only [Option.getD_some, Option.some.injEq]
    rw [(positionAll_spec segs _).2, (positionAll_spec segs _).1, List.length_mapIdx]
    congr 1
    omega
  have hh : m.header = { h with position := 1 } := by rw [← h1]
  have hcon : m.content = some (positionAll 2 segs).1 := by rw [← h1]; rfl
  clear h1
  unfold inner at i1
  rw [hs1, hs2] at i1
  simp only [Option.toList_some, List.map_append, List.map_cons, List.map_nil] at i1
  generalize hcont : (m.content.getD []).filterMap id = content at *
  obtain ⟨l1, l2, rfl, k1, k2⟩ := List.append_eq_map_iff.1 i1
  obtain ⟨l3, l4, rfl, k3, k4⟩ := List.append_eq_map_iff.1 k1.symm
  obtain ⟨ha, rfl⟩ : ∃ y, l2 = [y] := by
    rcases l2 with _ | ⟨y, _ | ⟨z, r⟩⟩ <;> simp at k2
    exact ⟨y, rfl⟩
  obtain ⟨hk, rfl⟩ : ∃ y, l3 = [y] := by
    rcases l3 with _ | ⟨y, _ | ⟨z, r⟩⟩ <;> simp at k3
    exact ⟨y, rfl⟩
  simp only [List.map_cons, List.map_nil, List.cons.injEq, and_true] at k2 k3
  have k2 := k2.symm
  have k3 := k3.symm
  have k4 := k4.symm
  have hha := signatureEnd_bytes hpin k2
  have hve : hv = encryptionHeader m.version c.securityFn c.clientSystemId c.key.keyName t' := by
    obtain ⟨_, _, _, u1, u2, u3⟩ := encrypt_msg h2
    unfold transmitted at i7
    rw [u1, u2, u3] at i7
    simp only [Option.toList_none, List.append_nil, Option.getD_some, List.filterMap_cons, id, List.filterMap_nil, List.cons_append,
      List.nil_append, List.cons.injEq] at i7
    exact i7.2.1.symm
  rcases cs with _ | ⟨b0, _ | ⟨b1, _ | ⟨b2, _ | ⟨b3, _ | ⟨b4, r⟩⟩⟩⟩⟩ <;>
    simp only [List.map_cons, List.map_nil, List.cons.injEq, reduceCtorEq, and_false, and_true] at j1
  obtain ⟨g0, g1, g2, g3⟩ := j1
  have hlast : x.data.getLast? = some 39 := by
    obtain ⟨z, hz⟩ : ∃ z, ha = z ++ [39] := ⟨_, hha⟩
    obtain ⟨y, hy⟩ : ∃ y, x.data = y ++ [39] := ⟨([hk] ++ l4).flatten ++ z, by rw [i2, hz]; simp⟩
    rw [hy]
    simp
  have hb2 := encryptedData_bytes hlast g2
  have hd : x.data = hk ++ l4.flatten ++ ha := by rw [i2]; simp
  rw [hd] at hb2
  refine ⟨hpin, b0, b1, hk, ha, b3, l4, g0, by rw [← hve]; exact g1, k3, k4, k2, g3, ?_, ?_, hcon⟩
  · rw [j2, hb2]
    simp
  · rw [j4, i3, hh]

/-- The bytes of a message that was signed and encrypted. -/
theorem delivered_of {w : World σ α} {k : Kind} {segs : List (Option Seg)} {h : MsgHeader} {q : MsgEnd} {v : Version}
    {p : SignatureProvider} {c : CryptoProvider} {t t' : Time.Civil} {m m' : BasicMessage} {x : EncryptedMessage} {b : Bytes} {n : Nat}
    (hp : p.key.pin = c.key.pin)
    (h1 : BasicMessage.sign ⟨h, q, none, none, some segs, v, []⟩ p t = .ok m)
    (h2 : m.encrypt c t' = .ok x) (h3 : x.msg.marshal = .ok (b, m')) :
    Delivered w ⟨p.key.pin, p.controlRef, p.key.keyName⟩ n
      ⟨k, m, x.msg, b, receive w.decoders ((w.env n).transport b)⟩ := by
  obtain ⟨hpin, b0, b1, hk, ha, b3, l4, g0, g1, k3, k4, k2, g3, hb, hh, _⟩ := pieces_of hp h1 h2 h3
  obtain ⟨kb, hkb, hsuf⟩ := signatureHeader_ends k3
  have hha := signatureEnd_bytes hpin k2
  have hpre := seg_starts k3
  have hlen : ((m.content.getD []).filterMap id).length = l4.length := by
    have := congrArg List.length k4
    simpa using this
  have hx0 : ∀ id : Str, ∀ pos ver : Int, headerBytes ⟨id, pos, ver, none⟩ = enc (escape id) ++ (58 :: itoa pos ++ 58 :: itoa ver) := by
    intro id pos ver; simp [headerBytes]
  refine ⟨rfl, ⟨b0, b1, hk, l4, endVersion v, b3⟩, ?_, k4, ?_, ?_, ?_, ?_, ?_, kb, hkb, hsuf⟩
  · have hd : hk ++ l4.flatten ++ ha = Parts.data ⟨b0, b1, hk, l4, endVersion v, b3⟩ ⟨p.key.pin, p.controlRef, p.key.keyName⟩ := by
      rw [hha, hlen]
      simp [Parts.data]
    unfold Parts.bytes
    rw [← hd, hb]
  · cases v
    · exact Or.inl rfl
    · exact Or.inr rfl
  · have := seg_starts g0
    refine List.IsPrefix.trans ?_ this
    have hpos : m'.header.position = 1 := by rw [hh]
    simp only [MsgHeader.seg, newSegment, newHeader, hpos]
    exact ⟨[], rfl⟩
  · have := seg_starts g1
    refine List.IsPrefix.trans ?_ this
    cases m.version
    · show _ <+: headerBytes ⟨c!"HNVSK", 998, 2, none⟩
      exact ⟨b!"2", by decide +kernel⟩
    · show _ <+: headerBytes ⟨c!"HNVSK", 998, 3, none⟩
      exact ⟨b!"3", by decide +kernel⟩
  · refine List.IsPrefix.trans ?_ hpre
    cases v <;> exact ⟨_, rfl⟩
  · have := seg_starts g3
    refine List.IsPrefix.trans ?_ this
    simp only [MsgEnd.seg, newSegment, newHeader, hx0]
    exact ⟨itoa m.end_.position ++ 58 :: itoa 1, rfl⟩

end Verif.Dialog
