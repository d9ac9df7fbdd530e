import Verif.Bank.TypeProps
import Verif.Bank.UserProps
import Verif.Bank.TanProps
import Verif.Bank.StatementProps
import Verif.Bank.StatusProps

/-
C95: a whole answer of the bank, given by what it says, and what reading it yields.  The theorems are in
`Verif.Bank.AnswerProps`.
-/

namespace Verif.Bank

open GoLib Element Element.Spec Segment Segment.Spec Message Message.Spec Dialog Domain Client

/-! ## Specification: what a bank can say, and how it writes it -/

/-- `ID:position:version+field+...+field'`, with `:reference` behind the version if there is one. -/
def writtenSegment (id : Str) (position version : Int) (ref : Option Int) (fields : List Bytes) : Bytes :=
  match ref with
  | some r => segmentBytes id position version r fields
  | none => enc id ++ 58 :: itoa position ++ 58 :: itoa version ++ fields.flatMap (fun f => 43 :: f) ++ [39]

/-- An acknowledgement. -/
structure Ack where
  code : Nat
  reference : Str
  text : Str
  params : List Str

/-- A segment of an answer, by what it says.  Where a bank may leave out fields at the end, `out`
are the fields it writes. -/
inductive Item where
  /-- HIRMG: acknowledgements of the message. -/
  | overall (as : List Ack)
  /-- HIRMS: acknowledgements of a segment of the request. -/
  | about (as : List Ack)
  /-- HISYN: a client system ID. -/
  | system (v : Int) (id : Str) (ns : List Int)
  /-- HIBPA: the bank. -/
  | bank (v : Int) (d : AboutBank)
  /-- HIPINS: which transactions need a TAN. -/
  | pins (d : AboutPins)
  /-- HIUPA: the user. -/
  | user (v : Int) (d : AboutUser) (out : List Bytes)
  /-- HIUPD: an account. -/
  | account (v : Int) (d : AboutAccount) (out : List Bytes)
  /-- HITANS: the TAN procedures. -/
  | tans (d : AboutTans)
  /-- HIKAZ: booked and unbooked transactions. -/
  | statement (v : Int) (booked : Bytes) (unbooked : Option Bytes)
  /-- HISAL: a balance. -/
  | balance (v : Int) (r : Report AccountConnection) (out : List Bytes)
  /-- HISAL: a balance of a SEPA account, and the amount that cannot be seized. -/
  | sepaBalance (v : Int) (r : Report InternationalConnection) (seizable : Option Amount) (out : List Bytes)
  /-- HIPRO: an entry of the status protocol. -/
  | protocol (v : Int) (e : Protocol)
  /-- A segment that the client does not know. -/
  | unknown (id : Str) (v : Int) (fs : List Bytes)

/-- The ID of the segment. -/
def Item.id : Item → Str
  | .overall _ => c!"HIRMG"
  | .about _ => c!"HIRMS"
  | .system .. => c!"HISYN"
  | .bank .. => c!"HIBPA"
  | .pins _ => c!"HIPINS"
  | .user .. => c!"HIUPA"
  | .account .. => c!"HIUPD"
  | .tans _ => c!"HITANS"
  | .statement .. => c!"HIKAZ"
  | .balance .. => c!"HISAL"
  | .sepaBalance .. => c!"HISAL"
  | .protocol .. => c!"HIPRO"
  | .unknown id _ _ => id

/-- The version of the segment. -/
def Item.version : Item → Int
  | .overall _ => 2
  | .about _ => 2
  | .system v .. => v
  | .bank v _ => v
  | .pins _ => 1
  | .user v .. => v
  | .account v .. => v
  | .tans _ => 6
  | .statement v .. => v
  | .balance v .. => v
  | .sepaBalance v .. => v
  | .protocol v .. => v
  | .unknown _ v _ => v

/-- The fields of the segment. -/
def Item.fields : Item → List Bytes
  | .overall as => as.map fun a => writtenAck a.code a.reference a.text a.params
  | .about as => as.map fun a => writtenAck a.code a.reference a.text a.params
  | .system _ id ns => enc (escape id) :: ns.map itoa
  | .bank _ d => d.fields
  | .pins d => d.fields
  | .user _ _ out => out
  | .account _ _ out => out
  | .tans d => d.fields
  | .statement _ d u => binaryOf d :: (u.map binaryOf).toList
  | .balance _ _ out => out
  | .sepaBalance _ _ _ out => out
  | .protocol _ e => e.fields
  | .unknown _ _ fs => fs

/-- An acknowledgement that can be read: a code of four digits and texts that survive the wire. -/
def Ack.Good (a : Ack) : Prop :=
  a.code < 10000 ∧ ∀ s ∈ a.reference :: a.text :: a.params, Sendable s ∧ NoSep s

/-- The fields `out` are the elements `es`, of which those at the end that have no value may be left
out; no text of them is cut. -/
def Writes (es : List (Option DE)) (out : List Bytes) : Prop :=
  (∃ ps, es.map DE.marshalOpt = ps.map .ok ∧ DropTrailing ps out) ∧ (∀ e, some e ∈ es → Sound e) ∧ NotCut 43 es

/-- The elements of a SEPA balance. -/
def sepaElements (v : Int) (r : Report InternationalConnection) (s : Option Amount) : List (Option DE) :=
  r.elements internationalDE ++ if v = 8 then [s.map amountDE] else []

/-- The segment can be written so that it survives the wire, and says all that the client needs:
see C58, C83, C84 and C88 to C92 for what happens otherwise. -/
def Item.Good : Item → Prop
  | .overall as => ∀ a ∈ as, a.Good
  | .about as => ∀ a ∈ as, a.Good
  | .system v id ns => (v = 3 ∨ v = 4) ∧ Sendable id ∧ id ≠ [] ∧ (∀ n ∈ ns, IsInt n) ∧ ns.length ≤ 2
  | .bank v d => (v = 2 ∨ v = 3) ∧ d.Good v ∧ d.name ≠ []
  | .pins d => d.Good ∧ d.pinMin ≠ none ∧ d.pinMax ≠ none ∧ d.tanMax ≠ none ∧ d.jobs ≠ []
  | .user v d out => (v = 2 ∨ v = 3 ∨ v = 4) ∧ (IsInt d.version ∧ IsInt d.usage) ∧
      (∀ s ∈ [d.userId, d.name, d.extensions], Sendable s) ∧ DropTrailing (d.fields v) out ∧ d.userId ≠ []
  | .account v d out => (v = 4 ∨ v = 5 ∨ v = 6 ∨ v = 7) ∧ d.Good ∧ DropTrailing (d.fields v) out ∧ d.limit = none ∧
      (∀ t ∈ d.transactions, t.limit = none) ∧ d.userId ≠ [] ∧ d.name1 ≠ [] ∧
      (v = 4 → d.connection ≠ none ∧ d.currency ≠ [])
  | .tans d => d.Good ∧ d.procedures ≠ [] ∧ (∀ q ∈ d.procedures, q.Complete) ∧
      ∀ q ∈ d.procedures, ∀ c ∈ q.name, c.toNat < 128
  | .statement v d u => (v = 5 ∨ v = 6 ∨ v = 7) ∧ d.length ≤ 2 ^ 48 ∧ ∀ x, u = some x → x.length ≤ 2 ^ 48
  | .balance v r out => (v = 5 ∨ v = 6) ∧ r.Good GoodConnection ∧ Writes (r.elements accountConnectionDE) out ∧
      ¬ (r.time.isSome ∧ r.date = none)
  | .sepaBalance v r s out => (v = 7 ∨ v = 8) ∧ r.Good GoodInternational ∧ (∀ a, s = some a → GoodAmount a) ∧ (v = 7 → s = none) ∧
      Writes (sepaElements v r s) out ∧ ¬ (r.time.isSome ∧ r.date = none)
  | .protocol v e => (v = 3 ∨ v = 4) ∧ e.Good ∧ ∀ m, e.about ≠ some (m, none)
  | .unknown id v fs => Letters id ∧ id.length < 2 ^ 60 ∧ IsInt v ∧ (∀ f ∈ fs, Field f) ∧ fs.getLast? ≠ some [] ∧
      decoders id v = none ∧ id ≠ c!"HIRMG" ∧ id ≠ c!"HIRMS"

/-- A segment at its place in the answer; it may refer to a segment of the request. -/
structure Placed where
  item : Item
  position : Int
  ref : Option Int

/-- The bytes of a segment. -/
def Placed.bytes (p : Placed) : Bytes := writtenSegment p.item.id p.position p.item.version p.ref p.item.fields

/-- Its header. -/
def Placed.header (p : Placed) : Header := ⟨p.item.id, p.position, p.item.version, p.ref⟩

/-- The segment is good, and it refers to one of the request unless it is HIRMG or unknown. -/
structure Placed.Good (p : Placed) : Prop where
  item : p.item.Good
  position : IsInt p.position
  refInt : ∀ r, p.ref = some r → IsInt r
  size : (p.item.fields.flatMap fun f => 43 :: f).length ≤ 2 ^ 61
  ref : p.ref = none → (∃ as, p.item = .overall as) ∨ ∃ id v fs, p.item = .unknown id v fs

/-! ## Specification: what the client gets -/

/-- The client system ID, as sent. -/
def Item.systemId : Item → Option Str
  | .system _ id _ => some id
  | _ => none

/-- The parameters of the bank: as sent, but the bank ID with escape signs. -/
def Item.bankParameters : Item → Option BankParameters
  | .bank _ d => some ⟨d.version, ⟨d.country, escape d.bankID⟩, d.name, d.maxTransactions,
      (d.sizes[0]?).getD 0, (d.sizes[1]?).getD 0, (d.sizes[2]?).getD 0⟩
  | _ => none

/-- The transactions with their flags, in order. -/
def Item.transactions : Item → Option (List (Str × Bool))
  | .pins d => some (d.jobs.map fun j => (escape j.1, j.2))
  | _ => none

/-- The parameters of the user; name and extensions only in version 4. -/
def Item.userParameters : Item → Option UserParameters
  | .user v d _ => some (if v = 4 then ⟨d.userId, d.version, d.usage, d.name, d.extensions⟩
      else ⟨d.userId, d.version, d.usage, [], []⟩)
  | _ => none

/-- The account; in versions 6 and 7 only the first of its transactions. -/
def Item.accountInformation : Item → Option AccountInformation
  | .account v d _ => some ⟨(d.connection.map readConnection).getD ⟨[], [], 0, []⟩, d.userId, d.currency, d.name1, d.name2,
      d.product, (if v = 4 ∨ v = 5 then d.transactions else d.transactions.take 1).map fun t => ⟨t.id, t.signatures, none⟩⟩
  | _ => none

/-- The TAN procedures. -/
def Item.procedures : Item → Option (List (Str × Option Str))
  | .tans d => some (d.procedures.map fun q => (q.function, some (escape q.name)))
  | _ => none

/-- The booked transactions, byte for byte. -/
def Item.booked : Item → Option Bytes
  | .statement _ d _ => some d
  | _ => none

/-- The balance for a national account. -/
def Item.report : Item → Option (Report AccountConnection)
  | .balance _ r _ => some r
  | .sepaBalance _ r _ _ => some ⟨⟨r.account.accountID, r.account.sub, r.account.country, r.account.bankID⟩, r.product, r.currency,
      r.booked, r.earmarked, r.creditLimit, r.available, r.used, r.date, r.time, r.due⟩
  | _ => none

/-- The balance for a SEPA account, and the amount that cannot be seized. -/
def Item.sepaReport : Item → Option (Report InternationalConnection × Option Amount)
  | .sepaBalance _ r s _ => some (r, s)
  | _ => none

/-- How a balance is reported. -/
def Report.ReportedAs {κ : Type} (r : Report κ) (seizable : Option Amount) (b : AccountBalance κ) : Prop :=
  r.Shown r.account seizable b ∧ r.Booked b.bookingDate

/-- The entry of the status protocol. -/
def Item.entry : Item → Option Protocol
  | .protocol _ e => some e
  | _ => none

/-- How an entry of the status protocol is reported: always with the same time of day, 106751 days
too late. -/
def Protocol.ReportedAs (e : Protocol) (x : StatusAcknowledgement) : Prop :=
  ∃ t k d n, (e.about = none ∧ t = .message ∧ d = [] ∧ n = 0 ∧ k = 0 ∨
      ∃ d', e.about = some ((d', n), some k) ∧ t = .segment ∧ d = escape d') ∧
    OnDay e.date 106751 lastTime x.transmittedAt ∧
    x.acknowledgement = ⟨t, e.code, escape e.reference, escape e.text, e.params.map escape, ⟨d, n⟩, k⟩

/-- An acknowledgement as reported. -/
def Ack.reported (a : Ack) (type : AckType) (message : MessageReference) (segment : Int) : Acknowledgement :=
  ⟨type, a.code, escape a.reference, escape a.text, a.params.map escape, message, segment⟩

/-- The acknowledgements of a HIRMG, as reported. -/
def Placed.overall (message : MessageReference) (p : Placed) : Option (List Acknowledgement) :=
  match p.item with
  | .overall as => some (as.map fun a => a.reported .message message (if p.ref = some (-1) then 0 else p.ref.getD 0))
  | _ => none

/-- The acknowledgements of a HIRMS, as reported. -/
def Placed.about (p : Placed) : Option (List Acknowledgement) :=
  match p.item with
  | .about as => some (as.map fun a => a.reported .segment ⟨[], 0⟩ (p.ref.getD (-1)))
  | _ => none

/-- All acknowledgements: those of the first HIRMG, and those of every HIRMS. -/
def acknowledged (message : MessageReference) (ps : List Placed) : List Acknowledgement :=
  (ps.findSome? (Placed.overall message)).getD [] ++ (ps.filterMap Placed.about).flatten

/-! ## The bytes -/

theorem wire_written {id : Str} {p v : Int} {ref : Option Int} (hid : Letters id) (hp : IsInt p) (hv : IsInt v)
    (hr : ∀ r, ref = some r → IsInt r) (hl : id.length < 2 ^ 60) {fs : List Bytes} (hf : ∀ f ∈ fs, Field f)
    (hlast : fs.getLast? ≠ some []) (hs : (fs.flatMap (fun f => 43 :: f)).length ≤ 2 ^ 61) :
    Wire ⟨id, p, v, ref⟩ fs (writtenSegment id p v ref fs) := by
  cases ref with
  | some r => exact wire_of_fields hid hp hv (hr r rfl) hl hf hlast hs
  | none =>
    obtain ⟨h1, h2, h3, h4, h5⟩ := letters_plain hid
    refine ⟨⟨_, header_marshal _ h1, ?_⟩, ⟨h3, h4, h5⟩, hp, hv, hr, hf, hlast, ?_⟩
    · rw [join_flatMap]
      simp [writtenSegment, headerBytes, h2]
    · have e1 := itoa_length_le hp
      have e3 := itoa_length_le hv
      unfold writtenSegment
      have : (enc id).length = id.length := by simp [enc]
      simp only [List.length_append, List.length_cons, List.length_nil]
      omega

theorem ack_clean {a : Ack} (h : a.Good) :
    ∀ q ∈ zeroPad 4 a.code :: (a.reference :: a.text :: a.params).map (fun s => enc (escape s)), CleanPart q := by
  intro q hq
  simp only [List.mem_cons, List.mem_map] at hq
  rcases hq with rfl | ⟨s, hs, rfl⟩
  · exact clean_zeroPad 4 _
  · have := h.2 s (by simpa using hs)
    exact clean_text this.1 this.2

theorem ack_fields {as : List Ack} (h : ∀ a ∈ as, a.Good) :
    (∀ f ∈ as.map (fun a => writtenAck a.code a.reference a.text a.params), Field f) ∧
    (as.map (fun a => writtenAck a.code a.reference a.text a.params)).getLast? ≠ some [] := by
  constructor
  · intro f hf
    obtain ⟨a, ha, rfl⟩ := List.mem_map.1 hf
    exact field_group (ack_clean (h a ha))
  · intro hx
    obtain ⟨a, _, ha⟩ := List.mem_map.1 (List.mem_of_getLast? hx)
    unfold writtenAck at ha
    rw [List.map_cons, join_cons _ _ (by simp)] at ha
    simp at ha

theorem written_of {id : Str} {p v r : Int} (hid : Letters id) (hp : IsInt p) (hv : IsInt v) (hr : IsInt r)
    (hl : id.length < 2 ^ 60) {es : List (Option DE)} {out : List Bytes} (h : Writes es out)
    (hs : (out.flatMap (fun f => 43 :: f)).length ≤ 2 ^ 61) :
    Wire ⟨id, p, v, some r⟩ out (segmentBytes id p v r out) ∧ Written ⟨⟨id, p, v, some r⟩, es⟩ (segmentBytes id p v r out) := by
  obtain ⟨⟨ps, h1, h2⟩, h3, h4⟩ := h
  have hfs := fields_of_sound _ (soundAll_iff.2 h3) ps (marshalAll_ok.2 h1)
  have hw := wire_of_fields hid hp hv hr hl (fun f hf => hfs f (drop_mem h2 f hf)) h2.choose_spec.2 hs
  refine ⟨hw, ?_, hw.id, hp, hv, hw.ref, h3, h4, hw.size⟩
  obtain ⟨hb, q1, q2⟩ := hw.bytes
  unfold Seg.marshal
  simp only [q1, Outcome.bind, marshalAll_ok.2 h1, Outcome.map']
  rw [q2]
  congr 2
  obtain ⟨k, e1, e2⟩ := h2
  have hbe := header_marshal_eq q1
  rcases List.eq_nil_or_concat out with rfl | ⟨init, x, rfl⟩
  · rw [List.nil_append] at e1
    rw [e1, show hb :: List.replicate k [] = [] ++ [hb] ++ List.replicate k [] by simp]
    have hl : hb.getLast? ≠ some 43 := by rw [hbe]; exact (headerBytes_last _).1
    have hn : hb ≠ [] := by rw [hbe]; exact headerBytes_ne_nil _
    rw [trim_join (by rw [trimRight_of_last hl]; exact hn), trimRight_of_last hl]
    simp [pre, join]
  · have hx : x ≠ [] := by simpa using e2
    have hl : x.getLast? ≠ some 43 := h4 ps (init ++ [x]) x h1 ⟨k, by simpa using e1, by simpa using e2⟩ (by simp)
    rw [e1, show hb :: (init.concat x ++ List.replicate k []) = (hb :: init) ++ [x] ++ List.replicate k [] by simp]
    rw [trim_join (by rw [trimRight_of_last hl]; exact hx), trimRight_of_last hl]
    rw [show hb :: init.concat x = (hb :: init) ++ [x] by simp]
    exact (join_snoc 43 (hb :: init) x).symm

theorem Placed.Good.wire {p : Placed} (h : p.Good) : Wire p.header p.item.fields p.bytes := by
  obtain ⟨item, pos, ref⟩ := p
  obtain ⟨hg, hp, hri, hs, hr⟩ := h
  unfold Placed.header Placed.bytes
  dsimp only at hg hp hri hs hr ⊢
  have href : (¬ ∃ as, item = .overall as) → (¬ ∃ id v fs, item = .unknown id v fs) → ∃ r, ref = some r ∧ IsInt r := by
    intro h1 h2
    cases ref with
    | none => rcases hr rfl with h | h <;> contradiction
    | some r => exact ⟨r, rfl, hri r rfl⟩
  cases item with
  | overall as => exact wire_written (id := c!"HIRMG") (by decide) hp (show IsInt 2 by unfold IsInt; decide) hri (by decide) (ack_fields hg).1 (ack_fields hg).2 hs
  | about as => exact wire_written (id := c!"HIRMS") (by decide) hp (show IsInt 2 by unfold IsInt; decide) hri (by decide) (ack_fields hg).1 (ack_fields hg).2 hs
  | unknown id v fs =>
    obtain ⟨h1, h2, h3, h4, h5, _⟩ := hg
    exact wire_written h1 hp h3 hri h2 h4 h5 hs
  | system v id ns =>
    obtain ⟨r, rfl, hrr⟩ := href (by simp) (by simp)
    obtain ⟨h1, h2, h3, h4, h5⟩ := hg
    exact wire_sync hp hrr h1 h2 hs (fun h => absurd h h3)
  | bank v d =>
    obtain ⟨r, rfl, hrr⟩ := href (by simp) (by simp)
    exact hg.2.1.wire hp hrr hg.1
  | pins d =>
    obtain ⟨r, rfl, hrr⟩ := href (by simp) (by simp)
    exact hg.1.wire hp hrr
  | tans d =>
    obtain ⟨r, rfl, hrr⟩ := href (by simp) (by simp)
    exact hg.1.wire hp hrr
  | statement v d u =>
    obtain ⟨r, rfl, hrr⟩ := href (by simp) (by simp)
    exact wire_statement hp hrr hg.1 hg.2.1 hg.2.2
  | balance v b out =>
    obtain ⟨r, rfl, hrr⟩ := href (by simp) (by simp)
    have hvi : IsInt v := by have := hg.1; unfold IsInt; omega
    exact (written_of (id := c!"HISAL") (by decide) hp hvi hrr (by decide) hg.2.2.1 hs).1
  | sepaBalance v b s out =>
    obtain ⟨r, rfl, hrr⟩ := href (by simp) (by simp)
    have hvi : IsInt v := by have := hg.1; unfold IsInt; omega
    exact (written_of (id := c!"HISAL") (by decide) hp hvi hrr (by decide) hg.2.2.2.2.1 hs).1
  | protocol v e =>
    obtain ⟨r, rfl, hrr⟩ := href (by simp) (by simp)
    exact wire_protocol hg.2.1 hp hrr hg.1
  | user v d out =>
    obtain ⟨r, rfl, hrr⟩ := href (by simp) (by simp)
    obtain ⟨h1, h2, h3, h4, h5⟩ := hg
    have hvi : IsInt v := by unfold IsInt; omega
    exact wire_of_fields (id := c!"HIUPA") (by decide) hp hvi hrr (by decide) (fun f hf => userFields h3 f (drop_mem h4 f hf))
      h4.choose_spec.2 hs
  | account v d out =>
    obtain ⟨r, rfl, hrr⟩ := href (by simp) (by simp)
    obtain ⟨h1, h2, h4, _⟩ := hg
    have hvi : IsInt v := by unfold IsInt; omega
    exact wire_of_fields (id := c!"HIUPD") (by decide) hp hvi hrr (by decide) (fun f hf => accountFields h2 f (drop_mem h4 f hf))
      h4.choose_spec.2 hs

theorem Placed.Good.reads {p : Placed} (h : p.Good) : Reads p.bytes p.header := by
  obtain ⟨hb, _, h1, h2⟩ := generated_wire h.wire
  exact ⟨hb, _, h1, h2⟩

/-! ## What is decoded -/

/-- What a segment contributes to the segments with an ID. -/
def Placed.decoding (id : Str) (p : Placed) : Option (Outcome (Decoded BankSeg)) :=
  if p.item.id = id then (decoderFor decoders p.item.id p.item.version).map fun f => f p.bytes else none

theorem decoder_seen {β : Type} {view : BankSeg → Outcome β} {id : Str} {v : Int} {b : Bytes} {x : β} (h1 : id ≠ c!"HIRMG")
    (h2 : id ≠ c!"HIRMS") (h : seen view id v b = .ok x) :
    ∃ f d, decoderFor decoders id v = some f ∧ f b = .ok (.other d) ∧ view d = .ok x := by
  unfold seen at h
  cases hd : decoders id v with
  | none => rw [hd] at h; simp at h
  | some f =>
    rw [hd] at h
    change (f b).bind view = _ at h
    obtain ⟨d, h3, h4⟩ := bind_eq_ok.1 h
    refine ⟨fun b => (f b).map' .other, d, ?_, ?_, h4⟩
    · simp [decoderFor, h1, h2, hd]
    · simp [h3, Outcome.map']

theorem seen_of_decoder {β : Type} (view : BankSeg → Outcome β) {id : Str} {v : Int} {b : Bytes}
    {f : Bytes → Outcome (Decoded BankSeg)} {d : BankSeg} (h1 : id ≠ c!"HIRMG") (h2 : id ≠ c!"HIRMS")
    (h3 : decoderFor decoders id v = some f) (h4 : f b = .ok (.other d)) : seen view id v b = view d := by
  unfold decoderFor at h3
  rw [if_neg h1, if_neg h2] at h3
  obtain ⟨g, hg, rfl⟩ := Option.map_eq_some_iff.1 h3
  unfold seen
  rw [hg]
  change (g b).map' _ = _ at h4
  cases hx : g b with
  | err => rw [hx] at h4; cases h4
  | panic => rw [hx] at h4; cases h4
  | ok x =>
    rw [hx] at h4
    simp only [Outcome.map', Outcome.ok.injEq, Decoded.other.injEq] at h4
    subst h4
    show (g b).bind view = _
    rw [hx]
    rfl

theorem ack_read {a : Ack} (h : a.Good) (hl : (writtenAck a.code a.reference a.text a.params).length < 2 ^ 63) :
    unmarshalAck (writtenAck a.code a.reference a.text a.params) =
      .ok ⟨a.code, escape a.reference, escape a.text, a.params.map escape⟩ :=
  C61_wire h.1 (fun s hs => ⟨(h.2 s hs).1, (h.2 s hs).2⟩) hl

theorem acks_read {type : AckType} {as : List Ack} {h : Header} {b : Bytes} (hg : ∀ a ∈ as, a.Good)
    (hw : Wire h (as.map fun a => writtenAck a.code a.reference a.text a.params) b) :
    unmarshalAckSegment type b =
      .ok ⟨type, h, as.map fun a => ⟨a.code, escape a.reference, escape a.text, a.params.map escape⟩, ⟨[], 0⟩⟩ := by
  obtain ⟨hb, h1, h2, h3⟩ := generated_wire hw
  refine (unmarshalAckSegment_ok ⟨hb, _, h2, h3⟩ _).2 ⟨hb, _, _, h2, ?_, rfl⟩
  rw [List.forall₂_map_left_iff, List.forall₂_map_right_iff]
  refine List.forall₂_same.2 fun a ha => ack_read (hg a ha) ?_
  have := h1 _ (List.mem_map_of_mem ha)
  omega

theorem Report.Result.ok {κ μ : Type} {r : Report κ} {a : μ} {s : Option Amount} {o : Outcome (AccountBalance μ)}
    (h : r.Result a s o) (hn : ¬ (r.time.isSome ∧ r.date = none)) : ∃ b, o = .ok b ∧ r.Shown a s b ∧ r.Booked b.bookingDate := by
  rcases h with ⟨h1, h2, _⟩ | ⟨_, h⟩
  · exact absurd ⟨h1, h2⟩ hn
  · exact h

/-- Everything known about the decoding of a segment. -/
theorem Placed.Good.decodes {p : Placed} (h : p.Good) :
    (decoderFor decoders p.item.id p.item.version = none ∧ ∃ id v fs, p.item = .unknown id v fs) ∨
    ∃ f d, decoderFor decoders p.item.id p.item.version = some f ∧ f p.bytes = .ok d ∧
      match p.item with
      | .overall as => d = .ack ⟨.message, p.header, as.map fun a => ⟨a.code, escape a.reference, escape a.text, a.params.map escape⟩, ⟨[], 0⟩⟩
      | .about as => d = .ack ⟨.segment, p.header, as.map fun a => ⟨a.code, escape a.reference, escape a.text, a.params.map escape⟩, ⟨[], 0⟩⟩
      | .system .. => ∃ x, p.item.systemId = some x ∧ viewOf views.clientSystemId d = .ok x
      | .bank .. => ∃ x, p.item.bankParameters = some x ∧ viewOf views.bankParameters d = .ok x
      | .pins .. => ∃ x, p.item.transactions = some x ∧ viewOf views.pinTan d = .ok x
      | .user .. => ∃ x, p.item.userParameters = some x ∧ viewOf views.userParameters d = .ok x
      | .account .. => ∃ x, p.item.accountInformation = some x ∧ viewOf views.account d = .ok x
      | .tans .. => ∃ x, p.item.procedures = some x ∧ viewOf views.tanFunctions d = .ok x
      | .statement _ b _ => ∀ now, viewChecked (clientViews now).statement d = .ok b
      | .balance _ r _ => ∀ now, ∃ b, viewChecked (clientViews now).balance d = .ok b ∧ r.ReportedAs none b
      | .sepaBalance _ r s _ => ∀ now, (∃ b q, p.item.report = some q ∧ viewChecked (clientViews now).balance d = .ok b ∧
          q.ReportedAs none b) ∧ ∃ b, viewChecked (clientViews now).sepaBalance d = .ok b ∧ r.ReportedAs s b
      | .protocol _ e => ∀ now, Time.Exists now → 294 ≤ now.year →
          ∃ x, viewOf (clientViews now).status d = .ok x ∧ e.ReportedAs x
      | .unknown .. => False := by
  have hw := h.wire
  obtain ⟨item, pos, ref⟩ := p
  obtain ⟨hg, hp, hri, hs, hr⟩ := h
  unfold Placed.header Placed.bytes at *
  dsimp only at *
  have href : (¬ ∃ as, item = .overall as) → (¬ ∃ id v fs, item = .unknown id v fs) → ∃ r, ref = some r ∧ IsInt r := by
    intro h1 h2
    cases ref with
    | none => rcases hr rfl with h | h <;> contradiction
    | some r => exact ⟨r, rfl, hri r rfl⟩
  cases item with
  | overall as =>
    right
    exact ⟨fun b => (unmarshalAckSegment .message b).map' .ack, _, rfl, by dsimp only; rw [acks_read hg hw]; rfl, rfl⟩
  | about as =>
    right
    exact ⟨fun b => (unmarshalAckSegment .segment b).map' .ack, _, rfl, by dsimp only; rw [acks_read hg hw]; rfl, rfl⟩
  | unknown id v fs =>
    left
    obtain ⟨_, _, _, _, _, h6, h7, h8⟩ := hg
    exact ⟨by simp [decoderFor, Item.id, Item.version, h6, h7, h8], _, _, _, rfl⟩
  | system v id ns =>
    right
    obtain ⟨r, rfl, hrr⟩ := href (by simp) (by simp)
    obtain ⟨h1, h2, h3, h4, h5⟩ := hg
    have := C88_client_system hp hrr h1 h2 h4 h5 hs (fun h => absurd h h3)
    rw [if_neg h3] at this
    obtain ⟨f, d, e1, e2, e3⟩ := decoder_seen (by decide) (by decide) this
    exact ⟨f, _, e1, e2, _, rfl, e3⟩
  | bank v d =>
    right
    obtain ⟨r, rfl, hrr⟩ := href (by simp) (by simp)
    have := C89_bank hp hrr hg.1 hg.2.1
    rw [if_neg hg.2.2] at this
    obtain ⟨f, d, e1, e2, e3⟩ := decoder_seen (by decide) (by decide) this
    exact ⟨f, _, e1, e2, _, rfl, e3⟩
  | pins d =>
    right
    obtain ⟨r, rfl, hrr⟩ := href (by simp) (by simp)
    have := C90_pins hp hrr hg.1
    rw [if_neg (by simp [hg.2])] at this
    obtain ⟨f, d, e1, e2, e3⟩ := decoder_seen (by decide) (by decide) this
    exact ⟨f, _, e1, e2, _, rfl, e3⟩
  | user v d out =>
    right
    obtain ⟨r, rfl, hrr⟩ := href (by simp) (by simp)
    obtain ⟨h1, h2, h3, h4, h5⟩ := hg
    have := C91_user hp hrr h1 h2 h3 h4 hs
    rw [if_neg h5, ← apply_ite Outcome.ok] at this
    obtain ⟨f, d, e1, e2, e3⟩ := decoder_seen (by decide) (by decide) this
    exact ⟨f, _, e1, e2, _, rfl, e3⟩
  | account v d out =>
    right
    obtain ⟨r, rfl, hrr⟩ := href (by simp) (by simp)
    obtain ⟨h1, h2, h4, h5, h6, h7, h8, h9⟩ := hg
    have := C91_account hp hrr h1 h2 h4 hs
    rw [if_neg (by simpa using h5), withoutLimits, if_pos, Outcome.bind, if_neg (by simpa [h7, h8] using h9)] at this
    · obtain ⟨f, d, e1, e2, e3⟩ := decoder_seen (by decide) (by decide) this
      exact ⟨f, _, e1, e2, _, rfl, e3⟩
    · intro t ht
      split at ht
      · exact h6 t ht
      · exact h6 t (List.mem_of_mem_take ht)
  | tans d =>
    right
    obtain ⟨r, rfl, hrr⟩ := href (by simp) (by simp)
    have := C92_names hp hrr hg.1 hg.2.1 hg.2.2.1 hg.2.2.2
    obtain ⟨f, d, e1, e2, e3⟩ := decoder_seen (by decide) (by decide) this
    exact ⟨f, _, e1, e2, _, rfl, e3⟩
  | statement v b u =>
    right
    obtain ⟨r, rfl, hrr⟩ := href (by simp) (by simp)
    have := C84_booked hp hrr hg.1 hg.2.1 hg.2.2
    obtain ⟨f, d, e1, e2, e3⟩ := decoder_seen (by decide) (by decide) (this Time.zeroTime)
    refine ⟨f, _, e1, e2, fun now => ?_⟩
    have := this now
    rw [seen_of_decoder _ (by decide) (by decide) e1 e2] at this
    exact this
  | balance v b out =>
    right
    obtain ⟨r, rfl, hrr⟩ := href (by simp) (by simp)
    have hvi : IsInt v := by have := hg.1; unfold IsInt; omega
    have := fun now => C58_national now hg.1 (written_of (id := c!"HISAL") (by decide) hp hvi hrr (by decide) hg.2.2.1 hs).2 hg.2.1
    obtain ⟨x, hx, _⟩ := (this Time.zeroTime).ok hg.2.2.2
    obtain ⟨f, d, e1, e2, e3⟩ := decoder_seen (by decide) (by decide) hx
    refine ⟨f, _, e1, e2, fun now => ?_⟩
    have := (this now).ok hg.2.2.2
    rw [seen_of_decoder _ (by decide) (by decide) e1 e2] at this
    exact this
  | sepaBalance v b s out =>
    right
    obtain ⟨r, rfl, hrr⟩ := href (by simp) (by simp)
    have hvi : IsInt v := by have := hg.1; unfold IsInt; omega
    have hw := (written_of (id := c!"HISAL") (by decide) hp hvi hrr (by decide) hg.2.2.2.2.1 hs).2
    have key : ∀ now, b.Result (AccountConnection.mk b.account.accountID b.account.sub b.account.country b.account.bankID) none
          (seen (clientViews now).balance c!"HISAL" v (segmentBytes c!"HISAL" pos v r out)) ∧
        b.Result b.account s (seen (clientViews now).sepaBalance c!"HISAL" v (segmentBytes c!"HISAL" pos v r out)) := by
      intro now
      rcases hg.1 with rfl | rfl
      · obtain rfl := hg.2.2.2.1 rfl
        exact C58_international now (by simpa [sepaElements] using hw) hg.2.1
      · exact C58_seizable now (by simpa [sepaElements] using hw) hg.2.1 hg.2.2.1
    obtain ⟨x, hx, _⟩ := (key Time.zeroTime).1.ok hg.2.2.2.2.2
    obtain ⟨f, d, e1, e2, e3⟩ := decoder_seen (by decide) (by decide) hx
    refine ⟨f, _, e1, e2, fun now => ?_⟩
    obtain ⟨x1, k1, k2, k3⟩ := (key now).1.ok hg.2.2.2.2.2
    obtain ⟨x2, l1, l2⟩ := (key now).2.ok hg.2.2.2.2.2
    rw [seen_of_decoder _ (by decide) (by decide) e1 e2] at k1 l1
    exact ⟨⟨x1, _, rfl, k1, k2, k3⟩, x2, l1, l2⟩
  | protocol v e =>
    right
    obtain ⟨r, rfl, hrr⟩ := href (by simp) (by simp)
    have key : ∀ now, Time.Exists now → 294 ≤ now.year →
        ∃ x, seen (clientViews now).status c!"HIPRO" v (segmentBytes c!"HIPRO" pos v r e.fields) = .ok x ∧ e.ReportedAs x := by
      intro now h1 h2
      rcases C83_status hg.2.1 hp hrr hg.1 h1 h2 with ⟨⟨m, hm⟩, _⟩ | ⟨t, x, k, d, n, k1, k2, k3⟩
      · exact absurd hm (hg.2.2 m)
      · exact ⟨_, k3, t, k, d, n, k1, k2, rfl⟩
    obtain ⟨x, hx, _⟩ := key ⟨2024, 1, 1, 0, 0, 0, 0⟩ (by unfold Time.Exists; decide) (by decide)
    obtain ⟨f, d, e1, e2, e3⟩ := decoder_seen (by decide) (by decide) hx
    refine ⟨f, _, e1, e2, fun now h1 h2 => ?_⟩
    obtain ⟨x, hx, hr⟩ := key now h1 h2
    rw [seen_of_decoder _ (by decide) (by decide) e1 e2] at hx
    exact ⟨x, hx, hr⟩

/-! ## Reading the message -/

theorem all_ok {α : Type} {l : List (Outcome α)} (h : ∀ o ∈ l, ∃ a, o = .ok a) : ∃ as : List α, as.map .ok = l := by
  induction l with
  | nil => exact ⟨[], rfl⟩
  | cons o l ih =>
    obtain ⟨a, rfl⟩ := h o (by simp)
    obtain ⟨as, rfl⟩ := ih fun o ho => h o (by simp [ho])
    exact ⟨a :: as, rfl⟩

theorem zip_map_filterMap (ps : List Placed) (id : Str) :
    decodings decoders (ps.map Placed.bytes) (ps.map Placed.header) id = ps.filterMap (Placed.decoding id) := by
  unfold decodings
  induction ps with
  | nil => rfl
  | cons p ps ih =>
    simp only [List.map_cons, List.zip_cons_cons, List.filterMap_cons, ih]
    rfl

/-- A message of good segments is read, and its segments are those decoded from it. -/
theorem read_placed {ps : List Placed} (hg : ∀ p ∈ ps, p.Good) (hl : (ps.map Placed.bytes).flatten.length < 2 ^ 63) :
    ∃ m e, unmarshalMessage decoders (ps.map Placed.bytes).flatten = .ok (m, e) ∧
      ∀ id, (m id).map Outcome.ok = ps.filterMap (Placed.decoding id) := by
  have hx := C14_segments (ss := ps.map Placed.bytes) (by
    intro s hs
    obtain ⟨p, hp, rfl⟩ := List.mem_map.1 hs
    exact wire_segmentText (hg p hp).wire) hl
  have hr : List.Forall₂ Reads (ps.map Placed.bytes) (ps.map Placed.header) := by
    rw [List.forall₂_map_left_iff, List.forall₂_map_right_iff]
    exact List.forall₂_same.2 fun p hp => (hg p hp).reads
  have hok : ∀ id, ∃ ds : List (Decoded BankSeg), ds.map Outcome.ok = ps.filterMap (Placed.decoding id) := by
    intro id
    apply all_ok
    intro o ho
    obtain ⟨p, hp, hd⟩ := List.mem_filterMap.1 ho
    unfold Placed.decoding at hd
    split at hd
    · rcases (hg p hp).decodes with ⟨h1, _⟩ | ⟨f, d, h1, h2, _⟩
      · rw [h1] at hd; cases hd
      · rw [h1] at hd
        simp only [Option.map_some, Option.some.injEq] at hd
        exact ⟨d, by rw [← hd, h2]⟩
    · cases hd
  choose m hm using hok
  obtain ⟨e, he⟩ := (C65_reads decoders _ m).2 ⟨_, _, hx, hr, fun id => by rw [hm, zip_map_filterMap]⟩
  exact ⟨m, e, he, hm⟩

/-- What is seen of the segments with an ID, if every segment contributes what it says. -/
theorem view_placed {β : Type} {ps : List Placed} {ds : List (Decoded BankSeg)} {id : Str} {view : Decoded BankSeg → Outcome β}
    {told : Placed → Option β} (h : ds.map Outcome.ok = ps.filterMap (Placed.decoding id))
    (hp : ∀ p ∈ ps, (p.decoding id).map (fun o => o.bind view) = (told p).map .ok) :
    ds.map view = (ps.filterMap told).map .ok := by
  have h1 : ds.map view = (ds.map Outcome.ok).map fun o => o.bind view := by simp [Outcome.bind]
  rw [h1, h, List.map_filterMap, List.map_filterMap]
  exact List.filterMap_congr hp

/-- The acknowledgements of a decoded HIRMG. -/
def overallView (message : MessageReference) : Decoded BankSeg → Outcome (List Acknowledgement)
  | .ack a => .ok (a.setReferencingMessage message).acknowledgements
  | .other _ => .panic

/-- The acknowledgements of a decoded HIRMS. -/
def aboutView : Decoded BankSeg → Outcome (List Acknowledgement)
  | .ack a => .ok a.acknowledgements
  | .other _ => .panic

theorem Placed.Good.contributes {p : Placed} (h : p.Good) (message : MessageReference) :
    (p.decoding c!"HISYN").map (fun o => o.bind (viewOf views.clientSystemId)) = p.item.systemId.map .ok ∧
    (p.decoding c!"HIBPA").map (fun o => o.bind (viewOf views.bankParameters)) = p.item.bankParameters.map .ok ∧
    (p.decoding c!"HIPINS").map (fun o => o.bind (viewOf views.pinTan)) = p.item.transactions.map .ok ∧
    (p.decoding c!"HIUPA").map (fun o => o.bind (viewOf views.userParameters)) = p.item.userParameters.map .ok ∧
    (p.decoding c!"HIUPD").map (fun o => o.bind (viewOf views.account)) = p.item.accountInformation.map .ok ∧
    (p.decoding c!"HITANS").map (fun o => o.bind (viewOf views.tanFunctions)) = p.item.procedures.map .ok ∧
    (p.decoding c!"HIRMG").map (fun o => o.bind (overallView message)) = (p.overall message).map .ok ∧
    (p.decoding c!"HIRMS").map (fun o => o.bind aboutView) = p.about.map .ok ∧
    p.decoding c!"HIKIM" = none := by
  rcases h.decodes with ⟨h1, id, v, fs, h2⟩ | ⟨f, d, h1, h2, h3⟩
  · have hn : ∀ id, p.decoding id = none := by
      intro id
      unfold Placed.decoding
      rw [h1]
      simp
    simp only [hn, Placed.overall, Placed.about, h2]
    exact ⟨rfl, rfl, rfl, rfl, rfl, rfl, rfl, rfl, trivial⟩
  · have hd : ∀ id, p.decoding id = if p.item.id = id then some (.ok d) else none := by
      intro id
      unfold Placed.decoding
      rw [h1, Option.map_some, h2]
    simp only [hd, Placed.overall, Placed.about]
    obtain ⟨item, pos, ref⟩ := p
    dsimp only at h3 ⊢
    cases item <;> dsimp only at h3
    case inr.overall as =>
      subst h3
      refine ⟨rfl, rfl, rfl, rfl, rfl, rfl, ?_, rfl, rfl⟩
      show some (Outcome.ok _) = some (Outcome.ok _)
      simp only [AckSegment.acknowledgements, AckSegment.setReferencingMessage, AckSegment.segmentNumber, Placed.header,
        Header.referencing, List.map_map]
      congr 2
      refine List.map_congr_left fun a _ => ?_
      simp only [Function.comp, Ack.reported]
      congr 1
      exact message_number ref
    case inr.about as =>
      subst h3
      refine ⟨rfl, rfl, rfl, rfl, rfl, rfl, rfl, ?_, rfl⟩
      show some (Outcome.ok _) = some (Outcome.ok _)
      simp only [AckSegment.acknowledgements, AckSegment.segmentNumber, Placed.header, Header.referencing, List.map_map]
      rfl
    case inr.statement => exact ⟨rfl, rfl, rfl, rfl, rfl, rfl, rfl, rfl, rfl⟩
    case inr.balance => exact ⟨rfl, rfl, rfl, rfl, rfl, rfl, rfl, rfl, rfl⟩
    case inr.sepaBalance => exact ⟨rfl, rfl, rfl, rfl, rfl, rfl, rfl, rfl, rfl⟩
    case inr.protocol => exact ⟨rfl, rfl, rfl, rfl, rfl, rfl, rfl, rfl, rfl⟩
    all_goals
      obtain ⟨x, hx, hv⟩ := h3
      refine ⟨?_, ?_, ?_, ?_, ?_, ?_, rfl, rfl, rfl⟩ <;> first | rfl | (rw [hx]; show some (viewOf _ d) = some (Outcome.ok x); rw [hv])

/-- What a segment says to the views of the client. -/
theorem Placed.Good.tells {p : Placed} (h : p.Good) (now : Time.Civil) :
    (p.decoding c!"HIKAZ").map (fun o => o.bind (viewChecked (clientViews now).statement)) = p.item.booked.map .ok ∧
    Option.Rel (fun r o => ∃ b, o.bind (viewChecked (clientViews now).balance) = .ok b ∧ r.ReportedAs none b)
      p.item.report (p.decoding c!"HISAL") ∧
    (p.item.report.isSome = p.item.sepaReport.isSome →
      Option.Rel (fun r o => ∃ b, o.bind (viewChecked (clientViews now).sepaBalance) = .ok b ∧ r.1.ReportedAs r.2 b)
        p.item.sepaReport (p.decoding c!"HISAL")) ∧
    (Time.Exists now → 294 ≤ now.year →
      Option.Rel (fun e o => ∃ x, o.bind (viewOf (clientViews now).status) = .ok x ∧ e.ReportedAs x)
        p.item.entry (p.decoding c!"HIPRO")) := by
  rcases h.decodes with ⟨h1, id, v, fs, h2⟩ | ⟨f, d, h1, h2, h3⟩
  · have hn : ∀ id, p.decoding id = none := by
      intro id
      unfold Placed.decoding
      rw [h1]
      simp
    simp only [hn, h2]
    exact ⟨rfl, .none, fun _ => .none, fun _ _ => .none⟩
  · have hd : ∀ id, p.decoding id = if p.item.id = id then some (.ok d) else none := by
      intro id
      unfold Placed.decoding
      rw [h1, Option.map_some, h2]
    simp only [hd]
    obtain ⟨item, pos, ref⟩ := p
    dsimp only at h3 ⊢
    cases item <;> dsimp only at h3
    case inr.statement v b u => exact ⟨congrArg some (h3 now), .none, fun _ => .none, fun _ _ => .none⟩
    case inr.balance v r out =>
      refine ⟨rfl, .some (h3 now), fun h => absurd h (by simp [Item.report, Item.sepaReport]), fun _ _ => .none⟩
    case inr.sepaBalance v r s out =>
      obtain ⟨⟨b, q, k1, k2, k3⟩, k4⟩ := h3 now
      refine ⟨rfl, ?_, fun _ => .some k4, fun _ _ => .none⟩
      rw [k1]
      exact .some ⟨b, k2, k3⟩
    case inr.protocol v e => exact ⟨rfl, .none, fun _ => .none, fun h1 h2 => .some (h3 now h1 h2)⟩
    all_goals exact ⟨rfl, .none, fun _ => .none, fun _ _ => .none⟩

/-- What is seen of the segments with an ID, if every segment is reported as it says. -/
theorem view_related {β κ : Type} {ps : List Placed} {ds : List (Decoded BankSeg)} {id : Str} {view : Decoded BankSeg → Outcome β}
    {told : Placed → Option κ} {R : κ → β → Prop} (h : ds.map Outcome.ok = ps.filterMap (Placed.decoding id))
    (hp : ∀ p ∈ ps, Option.Rel (fun k o => ∃ x, o.bind view = .ok x ∧ R k x) (told p) (p.decoding id)) :
    List.Forall₂ (fun k d => ∃ x, view d = .ok x ∧ R k x) (ps.filterMap told) ds := by
  have key : List.Forall₂ (fun k o => ∃ x, Outcome.bind o view = .ok x ∧ R k x) (ps.filterMap told) (ds.map Outcome.ok) := by
    rw [h]
    clear h
    induction ps with
    | nil => exact .nil
    | cons p ps ih =>
      have h1 := hp p (by simp)
      have h2 := ih fun q hq => hp q (by simp [hq])
      simp only [List.filterMap_cons]
      generalize told p = a at h1
      generalize p.decoding id = b at h1
      cases h1 with
      | none => exact h2
      | some h1 => exact .cons h1 h2
  rw [List.forall₂_map_right_iff] at key
  exact key

theorem messageAcks_of {m : SegmentMap BankSeg} {message : MessageReference} {l : List (List Acknowledgement)}
    (h : (m c!"HIRMG").map (overallView message) = l.map .ok) : messageAcks m message = l.head?.getD [] := by
  unfold messageAcks
  cases hm : m c!"HIRMG" with
  | nil =>
    rw [hm] at h
    cases l with
    | nil => rfl
    | cons a l => simp at h
  | cons d ds =>
    rw [hm] at h
    cases l with
    | nil => simp at h
    | cons a l =>
      simp only [List.map_cons, List.cons.injEq] at h
      cases d with
      | ack s => simpa [overallView] using h.1
      | other s => simp [overallView] at h

theorem segmentAcks_of {ds : List (Decoded BankSeg)} {l : List (List Acknowledgement)} (h : ds.map aboutView = l.map .ok) :
    segmentAcks ds = .ok l.flatten := by
  induction ds generalizing l with
  | nil =>
    cases l with
    | nil => rfl
    | cons a l => simp at h
  | cons d ds ih =>
    cases l with
    | nil => simp at h
    | cons a l =>
      simp only [List.map_cons, List.cons.injEq] at h
      cases d with
      | ack s =>
        have h1 : s.acknowledgements = a := by simpa [aboutView] using h.1
        simp only [segmentAcks, ih h.2, Outcome.map', h1, List.flatten_cons]
      | other s => simp [aboutView] at h

/-- What the client sees of an answer. -/
structure Sees (header : ReadHeader) (ps : List Placed) (m : Decrypted BankSeg) : Prop where
  received : m.header = header
  acknowledgements : m.acknowledgements = acknowledged header.referencingMessage ps
  systemId : (m.segments c!"HISYN").map (viewOf views.clientSystemId) = (ps.filterMap (·.item.systemId)).map .ok
  bank : (m.segments c!"HIBPA").map (viewOf views.bankParameters) = (ps.filterMap (·.item.bankParameters)).map .ok
  transactions : (m.segments c!"HIPINS").map (viewOf views.pinTan) = (ps.filterMap (·.item.transactions)).map .ok
  user : (m.segments c!"HIUPA").map (viewOf views.userParameters) = (ps.filterMap (·.item.userParameters)).map .ok
  accounts : (m.segments c!"HIUPD").map (viewOf views.account) = (ps.filterMap (·.item.accountInformation)).map .ok
  procedures : (m.segments c!"HITANS").map (viewOf views.tanFunctions) = (ps.filterMap (·.item.procedures)).map .ok
  announcement : m.segments c!"HIKIM" = []
  statements : ∀ now, (m.segments c!"HIKAZ").map (viewChecked (clientViews now).statement) = (ps.filterMap (·.item.booked)).map .ok
  balances : ∀ now, List.Forall₂ (fun r d => ∃ b, viewChecked (clientViews now).balance d = .ok b ∧ r.ReportedAs none b)
    (ps.filterMap (·.item.report)) (m.segments c!"HISAL")
  sepaBalances : (∀ p ∈ ps, p.item.report.isSome = p.item.sepaReport.isSome) →
    ∀ now, List.Forall₂ (fun r d => ∃ b, viewChecked (clientViews now).sepaBalance d = .ok b ∧ r.1.ReportedAs r.2 b)
      (ps.filterMap (·.item.sepaReport)) (m.segments c!"HISAL")
  entries : ∀ now, Time.Exists now → 294 ≤ now.year →
    List.Forall₂ (fun e d => ∃ x, viewOf (clientViews now).status d = .ok x ∧ e.ReportedAs x)
      (ps.filterMap (·.item.entry)) (m.segments c!"HIPRO")
  supported : m.supportedSegments = .ok ((ps.filter fun p => decide (5 < utf8Length p.item.id)).map fun p => (p.item.id, p.item.version))

end Verif.Bank
