import Verif.Bank.AnswerSample

/-
C95: what the client makes of a whole answer of the bank.
-/

namespace Verif.Bank

open GoLib Element Element.Spec Segment Segment.Spec Message Message.Spec Dialog Domain Transport

/-- C95: an answer of the bank whose segments can be written and say what the client needs is read
completely, whatever their order and number, and whatever unknown segments stand between them: the
client gets the acknowledgements and everything that is said about client system, bank, user,
accounts and TAN procedures. -/
theorem C95_content {header : ReadHeader} (hv : header.hbciVersion = some 220 ∨ header.hbciVersion = some 300)
    {ps : List Placed} (hg : ∀ p ∈ ps, p.Good) (hl : (ps.map Placed.bytes).flatten.length < 2 ^ 63) :
    ∃ m, newDecrypted decoders header (ps.map Placed.bytes).flatten = .ok m ∧ Sees header ps m := by
  obtain ⟨u, e, h1, h2⟩ := read_placed hg hl
  obtain ⟨m, hm⟩ := ((C23_version h1 header).1).2 hv
  have hc := fun p hp => Placed.Good.contributes (hg p hp) header.referencingMessage
  have a1 := messageAcks_of (view_placed (h2 _) fun p hp => (hc p hp).2.2.2.2.2.2.1)
  have a2 := segmentAcks_of (view_placed (h2 _) fun p hp => (hc p hp).2.2.2.2.2.2.2.1)
  have hu : m.segments = u ∧ m.header = header ∧ m.extractor = e ∧
      m.acknowledgements = acknowledged header.referencingMessage ps := by
    unfold newDecrypted at hm
    rw [h1] at hm
    change (segmentAcks (u c!"HIRMS")).bind _ = _ at hm
    rw [a2] at hm
    simp only [Outcome.bind] at hm
    rw [a1] at hm
    unfold acknowledged
    rw [List.head?_filterMap] at hm
    rcases hv with hv | hv <;> rw [hv] at hm <;> cases hm <;> exact ⟨rfl, rfl, rfl, rfl⟩
  have ht := fun p hp => Placed.Good.tells (hg p hp)
  refine ⟨m, hm, hu.2.1, hu.2.2.2, ?_, ?_, ?_, ?_, ?_, ?_, ?_, ?_, ?_, ?_, ?_, ?_⟩
  · rw [hu.1]; exact view_placed (h2 _) fun p hp => (hc p hp).1
  · rw [hu.1]; exact view_placed (h2 _) fun p hp => (hc p hp).2.1
  · rw [hu.1]; exact view_placed (h2 _) fun p hp => (hc p hp).2.2.1
  · rw [hu.1]; exact view_placed (h2 _) fun p hp => (hc p hp).2.2.2.1
  · rw [hu.1]; exact view_placed (h2 _) fun p hp => (hc p hp).2.2.2.2.1
  · rw [hu.1]; exact view_placed (h2 _) fun p hp => (hc p hp).2.2.2.2.2.1
  · rw [hu.1]
    have := h2 c!"HIKIM"
    rw [List.filterMap_eq_nil_iff.2 fun p hp => (hc p hp).2.2.2.2.2.2.2.2] at this
    simpa using this
  · intro now; rw [hu.1]; exact view_placed (h2 _) fun p hp => (ht p hp now).1
  · intro now; rw [hu.1]; exact view_related (h2 _) fun p hp => (ht p hp now).2.1
  · intro h now; rw [hu.1]; exact view_related (h2 _) fun p hp => (ht p hp now).2.2.1 (h p hp)
  · intro now h3 h4; rw [hu.1]; exact view_related (h2 _) fun p hp => (ht p hp now).2.2.2 h3 h4
  · obtain ⟨ss, hs, q1, q2, q3⟩ := C67_supported hm
    rw [q3]
    have hx := C14_segments (ss := ps.map Placed.bytes) (by
      intro s hs
      obtain ⟨p, hp, rfl⟩ := List.mem_map.1 hs
      exact wire_segmentText (hg p hp).wire) hl
    rw [hx] at q1
    cases q1
    have : hs = ps.map Placed.header := by
      rw [List.forall₂_map_left_iff] at q2
      clear * - q2 hg
      induction q2 with
      | nil => rfl
      | cons h _ ih =>
        rw [List.map_cons, ← ih fun p hp => hg p (by simp [hp]), reads_unique h (hg _ (by simp)).reads]
    rw [this, List.filter_map, List.map_map]
    rfl

/-- C95: the client sees what the segments say also when they come as bytes inside a complete
answer. -/
theorem C95_answer {e : Envelope} (he : e.Good) {ps : List Placed} (hg : ∀ p ∈ ps, p.Good)
    (hl : (ps.map Placed.bytes).flatten.length ≤ 2 ^ 48) :
    ∃ m, receive decoders (.ok (e.bytes ps, true)) = .ok m ∧ Sees e.header ps m := by
  obtain ⟨m, h1, h2⟩ := C95_content (header := e.header) (by
    rcases he.version with h | h <;> simp [Envelope.header, h]) hg (by omega)
  refine ⟨m, ?_, h2⟩
  generalize hdata : (ps.map Placed.bytes).flatten = data at *
  obtain ⟨w1, w2, w3, w4⟩ := he.wires hl
  have hx := C14_segments (ss := e.segments data) (by
    intro s hs
    simp only [Envelope.segments, List.mem_cons, List.not_mem_nil, or_false] at hs
    rcases hs with rfl | rfl | rfl | rfl
    · exact wire_segmentText w1
    · exact wire_segmentText w2
    · exact wire_segmentText w3
    · exact wire_segmentText w4) (by
    exact he.total hl)
  unfold receive Envelope.bytes
  rw [hdata]
  simp only [Outcome.bind, readResponse, if_true]
  rw [hx, Transport.extract_segments hx]
  simp only [Outcome.map', Response.message, Response.readHeader, Response.isEncrypted, Response.readData, Extractor.findSegment]
  have hid : ∀ (id : Str) (q : Bytes) (p v : Int) (fs : List Bytes), q.length = id.length →
      q.isPrefixOf (writtenSegment id p v none fs) = decide (q = enc id) := by
    intro id q p v fs hq
    have : writtenSegment id p v none fs = enc id ++ (58 :: itoa p ++ 58 :: itoa v ++ fs.flatMap (fun f => 43 :: f) ++ [39]) := by
      simp [writtenSegment]
    rw [this]
    by_cases h : q = enc id
    · simp [h]
    · rw [decide_eq_false h, Bool.eq_false_iff, Ne, List.isPrefixOf_iff_prefix]
      intro hx
      exact h ((List.prefix_iff_eq_take.1 hx).trans (by rw [hq]; simp [enc]))
  have f1 : (e.segments data).find? (fun s => b!"HNHBK".isPrefixOf s) = some (writtenSegment c!"HNHBK" 1 3 none e.fields) := by
    unfold Envelope.segments
    rw [List.find?_cons_of_pos (by rw [hid _ _ _ _ _ rfl]; decide)]
  have f2 : (e.segments data).find? (fun s => b!"HNVSK".isPrefixOf s) =
      some (writtenSegment c!"HNVSK" e.securityPosition e.securityVersion none e.security) := by
    unfold Envelope.segments
    rw [List.find?_cons_of_neg (by rw [hid _ _ _ _ _ rfl]; decide), List.find?_cons_of_pos (by rw [hid _ _ _ _ _ rfl]; decide)]
  have f3 : (e.segments data).find? (fun s => b!"HNVSD".isPrefixOf s) =
      some (writtenSegment c!"HNVSD" e.dataPosition 1 none [binaryOf data]) := by
    unfold Envelope.segments
    rw [List.find?_cons_of_neg (by rw [hid _ _ _ _ _ rfl]; decide), List.find?_cons_of_neg (by rw [hid _ _ _ _ _ rfl]; decide),
      List.find?_cons_of_pos (by rw [hid _ _ _ _ _ rfl]; decide)]
  simp only [f1, f2, f3, Option.isSome_some, if_true, header_read he, data_read he hl, Outcome.bind, dataOf]
  exact h1

/-- Nine segments, one of them unknown, in an envelope. -/
example : Sample.envelope.Good ∧ (∀ p ∈ Sample.answer, p.Good) ∧ (Sample.answer.map Placed.bytes).flatten.length ≤ 2 ^ 48 ∧
    (Sample.answer.map Placed.bytes).take 4 = [b!"HIRMG:2:2+0010::ok'", b!"HIRMS:3:2:4+0010::ok+3920::TAN:902'", b!"HIXYZ:4:1+a+b:c'",
      b!"HIBPA:5:3:5+12+280:10000000+Bank?: A?+B+1+1:2+220:300+9999'"] ∧
    (Sample.envelope.bytes []) =
      b!"HNHBK:1:3+000000000480+300+dia?:1+1+dia0:1'HNVSK:998:3+PIN+998'HNVSD:999:1+@0@'HNHBS:11:1+1'" :=
  ⟨Sample.envelope_good, Sample.answer_good, by decide +kernel, by decide +kernel, by decide +kernel⟩

variable {w : World BankSeg AccountInformation}

/-- C95: what any history of calls learns from a message to which the bank answered with such
bytes: an initialisation takes over the parameters and the accounts; a synchronisation in addition
the client system ID. -/
theorem C95_learned (hd : w.decoders = decoders) (hv : w.views = views) {e : Envelope} (he : e.Good) {ps : List Placed}
    (hg : ∀ p ∈ ps, p.Good) (hl : (ps.map Placed.bytes).flatten.length ≤ 2 ^ 48) {g : Sent BankSeg}
    (hr : g.reply = receive w.decoders (.ok (e.bytes ps, true))) (k : Knowledge) :
    (g.kind = .init → learn w k g = knowing k ps ∧ gainedBy w g = allSaid Item.accountInformation ps) ∧
    (g.kind = .sync → Welcoming e ps → ∀ id, firstSaid Item.systemId ps = some id →
      learn w k g = { knowing k ps with systemId := id } ∧ gainedBy w g = allSaid Item.accountInformation ps) := by
  obtain ⟨m, h1, hs⟩ := C95_answer he hg hl
  rw [hd, h1] at hr
  obtain ⟨_, _, h2, h3, h4⟩ := readable_of_sees hv hs
  have hdia : m.header.dialogId ≠ none := by rw [hs.received]; simp [Envelope.header]
  constructor
  · intro hk
    constructor
    · simp only [learn, hk, hr, if_neg hdia, Knowledge.update, h2, h3]
      rfl
    · simp only [gainedBy, hk, hr, gainedByInit, (dialogIdOf_iff m).2 hdia, h4]
  · intro hk hw id hid
    have := (assigns_iff w m id).2 (assigned_of_sees hv hs hw hid)
    constructor
    · simp only [learn, hk, hr, this, Knowledge.update, h2, h3]
      rfl
    · simp only [gainedBy, hk, hr, gainedBySync, this, h4]

/-- C95: a synchronisation that the bank answers with such bytes: afterwards the dialog knows the
client system ID, the parameters and the accounts that the segments say, and which transactions
need a TAN. -/
theorem C95_synchronised (hd : w.decoders = decoders) (hv : w.views = views) {e : Envelope} (he : e.Good) {ps : List Placed}
    (hg : ∀ p ∈ ps, p.Good) (hl : (ps.map Placed.bytes).flatten.length ≤ 2 ^ 48) (hw : Welcoming e ps) {id : Str}
    (hid : firstSaid Item.systemId ps = some id) (s : St BankSeg AccountInformation) {g : Sent BankSeg} {F : List (Sent BankSeg)}
    (hsent : (run w .sync s).2.sent = s.sent ++ g :: F) (hr : g.reply = receive w.decoders (.ok (e.bytes ps, true))) :
    knows (run w .sync s).2.d = { knowing (knows s.d) ps with systemId := id } ∧
    (run w .sync s).2.d.accounts = s.d.accounts ++ allSaid Item.accountInformation ps ∧
    ∀ b ts, firstSaid Item.bankParameters ps = some b → firstSaid Item.transactions ps = some ts →
      (run w .sync s).2.d.supportedSegments =
        (ps.filter fun p => decide (5 < utf8Length p.item.id)).map (fun p => (p.item.id, p.item.version)) ∧
      ∃ f, (run w .sync s).2.d.bankParameterData.pinTan = some f ∧ ∀ t tan, f t = some tan ↔ LastEntry ts t tan := by
  obtain ⟨hk, hF⟩ : g.kind = .sync ∧ ∀ x ∈ F, x.kind = .end_ := by
    have h : (syncClientSystemId w s).2.sent = s.sent ++ g :: F := hsent
    rcases sync_spec w s with hu | ⟨x, hx, hu | ⟨m, hu⟩ | ⟨m, t, hu⟩⟩
    · rw [hu.state] at h
      simp at h
    · rw [hu.state] at h
      have := List.append_cancel_left (as := s.sent) (bs := [x]) (cs := g :: F) (by simpa [afterSync] using h)
      simp only [List.cons.injEq] at this
      obtain ⟨rfl, rfl⟩ := this
      exact ⟨hx.kind, by simp⟩
    · obtain ⟨o, ho⟩ := hu.state
      have hlg := ho.logs
      unfold logs at hlg
      simp only [Prod.mk.injEq] at hlg
      rw [hlg.1] at h
      have := List.append_cancel_left (as := s.sent) (bs := [x]) (cs := g :: F) (by simpa [afterSync] using h)
      simp only [List.cons.injEq] at this
      obtain ⟨rfl, rfl⟩ := this
      exact ⟨hx.kind, by simp⟩
    · rcases hu.end_ with ⟨_, _, h1⟩ | ⟨_, f, h1, h2, _⟩
      · rw [h1] at h
        have := List.append_cancel_left h
        simp only [List.cons.injEq] at this
        obtain ⟨rfl, rfl⟩ := this
        exact ⟨hx.kind, by simp⟩
      · rw [h1] at h
        have := List.append_cancel_left h
        simp only [List.cons.injEq] at this
        obtain ⟨rfl, rfl⟩ := this
        refine ⟨hx.kind, ?_⟩
        intro y hy
        rw [List.mem_singleton.1 hy]
        exact h2.kind
  have hrun : runAll w [.sync] s = (run w .sync s).2 := rfl
  rw [← hrun] at hsent ⊢
  have hend : ∀ k, F.foldl (learn w) k = k := by
    clear hsent
    intro k
    induction F with
    | nil => rfl
    | cons x F ih =>
      rw [List.foldl_cons, show learn w k x = k by simp [learn, hF x (by simp)]]
      exact ih fun y hy => hF y (by simp [hy])
  have hgain : F.flatMap (gainedBy w) = [] := by
    rw [List.flatMap_eq_nil_iff]
    intro x hx
    simp [gainedBy, hF x hx]
  have hlearn := fun k => (C95_learned hd hv he hg hl hr k).2 hk hw id hid
  refine ⟨?_, ?_, ?_⟩
  · rw [(C85_knowledge w [.sync] s _ hsent).2, List.foldl_cons, hend, (hlearn _).1]
  · obtain ⟨E, h1, h2⟩ := C29_accounts w [.sync] s
    rw [h1] at hsent
    rw [h2, List.append_cancel_left hsent, List.flatMap_cons, hgain, (hlearn (knows s.d)).2, List.append_nil]
  · intro b ts hb hts
    obtain ⟨m, h1, hs⟩ := C95_answer he hg hl
    rw [hd, h1] at hr
    have hbs : BankSays w m
        ((ps.filter fun p => decide (5 < utf8Length p.item.id)).map fun p => (p.item.id, p.item.version)) b ts := by
      refine ⟨hs.supported, ?_, ?_⟩
      · rcases find_said hs.bank with ⟨_, h⟩ | ⟨x, b', q1, q2, q3⟩
        · rw [h] at hb; cases hb
        · rw [q3] at hb; cases hb
          exact ⟨x, q1, by rw [hv]; exact q2⟩
      · rcases find_said hs.transactions with ⟨_, h⟩ | ⟨x, b', q1, q2, q3⟩
        · rw [h] at hts; cases hts
        · rw [q3] at hts; cases hts
          exact ⟨x, q1, by rw [hv]; exact q2⟩
    have := C86_bank_data w [.sync] s [] F g m _ b ts hsent ⟨hr, .inr ⟨hk, id, assigned_of_sees hv hs hw hid⟩⟩ hbs (by
      intro x hx y hy
      have := hF x hx
      rcases hy.2 with ⟨h, _⟩ | ⟨h, _⟩ <;> rw [this] at h <;> cases h)
    exact ⟨this.supported, this.transactions⟩

/-- A synchronisation that can be sent is sent, and answered by the transport. -/
theorem sync_sends (s : St BankSeg AccountInformation) (hc : CanSend (resetCrypto s.d) (syncSegments s.d)) :
    ∃ g F, (run w .sync s).2.sent = s.sent ++ g :: F ∧
      ∃ n, g.reply = receive w.decoders ((w.env n).transport g.bytes) := by
  show ∃ g F, (syncClientSystemId w s).2.sent = _ ∧ _
  rcases sync_spec w s with hu | ⟨x, hx, hu | ⟨m, hu⟩ | ⟨m, t, hu⟩⟩
  · exact absurd hc hu.cannot
  · exact ⟨x, [], by rw [hu.state]; rfl, hx.answered⟩
  · obtain ⟨o, ho⟩ := hu.state
    have hlg := ho.logs
    unfold logs at hlg
    simp only [Prod.mk.injEq] at hlg
    exact ⟨x, [], by rw [hlg.1]; rfl, hx.answered⟩
  · rcases hu.end_ with ⟨_, _, h1⟩ | ⟨_, f, h1, _⟩
    · exact ⟨x, [], h1, hx.answered⟩
    · exact ⟨x, [f], h1, hx.answered⟩

/-- The sample bank is welcoming and assigns a client system ID.  A synchronisation of a new dialog
sends a message, is answered with the bytes of the sample, and ends with what they say. -/
example : Sample.world.decoders = decoders ∧ Sample.world.views = views ∧ Welcoming Sample.envelope Sample.answer ∧
    firstSaid Item.systemId Sample.answer = some c!"sys+1" ∧ Sample.fresh.d.clientSystemId = c!"0" ∧
    (∃ g F, (run Sample.world .sync Sample.fresh).2.sent = Sample.fresh.sent ++ g :: F ∧
      g.reply = receive Sample.world.decoders (.ok (Sample.envelope.bytes Sample.answer, true))) ∧
    knows (run Sample.world .sync Sample.fresh).2.d =
      { knowing (knows Sample.fresh.d) Sample.answer with systemId := c!"sys+1" } := by
  have hid : firstSaid Item.systemId Sample.answer = some c!"sys+1" := by decide +kernel
  obtain ⟨g, F, h1, n, h2⟩ := sync_sends (w := Sample.world) Sample.fresh Sample.fresh_sends
  have h3 : (Sample.world.env n).transport g.bytes = .ok (Sample.envelope.bytes Sample.answer, true) := rfl
  rw [h3] at h2
  have hd : Sample.world.decoders = decoders := rfl
  have hv : Sample.world.views = views := rfl
  have hk := (C95_synchronised hd hv Sample.envelope_good Sample.answer_good Sample.answer_length Sample.welcoming hid
    Sample.fresh h1 h2).1
  have h0 : Sample.fresh.d.clientSystemId = c!"0" := rfl
  exact ⟨hd, hv, Sample.welcoming, hid, h0, ⟨g, F, h1, h2⟩, hk⟩

end Verif.Bank
