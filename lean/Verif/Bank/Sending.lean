import Verif.Bank.Jobs

/-
The messages a client sends are read without a panic.
-/

namespace Verif.Bank

open GoLib Element Segment Message Token Transport

/-! ## Extraction from a text with two binary values -/

theorem within_mono {a b : List Bytes} (h : a <+: b) {r : List Bytes × Outcome Unit} (hr : Within a r) : Within b r :=
  ⟨hr.1.trans h, hr.2⟩

theorem extract_two {a v b w c : Bytes} {d e : Byte} (ha : NoBare (· == 64) false a) (hca : Closed a) (hv : Token.Spec.Binary v)
    (hb : NoBare (· == 64) false (d :: b)) (hcb : Closed (d :: b)) (hd : Token.Spec.Delim d) (hw : Token.Spec.Binary w)
    (hc : NoBare (· == 64) false (e :: c)) (he : Token.Spec.Delim e) (hl : (a ++ v ++ d :: b ++ w ++ e :: c).length < 2 ^ 63)
    {cur1 cur2 cur3 : Bytes} {acc1 acc2 acc3 : List Bytes} (h1 : cut false a [] [] = (cur1, acc1))
    (h2 : cut false (d :: b) (cur1 ++ v) acc1 = (cur2, acc2)) (h3 : cut false (e :: c) (cur2 ++ w) acc2 = (cur3, acc3)) :
    (newExtractor (a ++ v ++ d :: b ++ w ++ e :: c)).extract.2 ≠ .panic ∧
      ∀ ss, (newExtractor (a ++ v ++ d :: b ++ w ++ e :: c)).extract.2 = .ok ss → ss <+: acc3 := by
  simp only [List.length_append, List.length_cons] at hl
  have p1 : acc1 <+: acc2 := by have := cut_prefix false (d :: b) (cur1 ++ v) acc1; rwa [h2] at this
  have p2 : acc2 <+: acc3 := by have := cut_prefix false (e :: c) (cur2 ++ w) acc2; rwa [h3] at this
  have e0 : a ++ v ++ d :: b ++ w ++ e :: c = a ++ (v ++ d :: (b ++ (w ++ e :: c))) := by simp
  have key : Within acc3 (extractDrain (scan 0 (a ++ v ++ d :: b ++ w ++ e :: c)) [] []) := by
    rw [e0]
    rcases extract_over (rest := v ++ d :: (b ++ (w ++ e :: c))) ha (Or.inr hca) 0 [] [] with k | k
    · rw [k, h1]
      simp only
      rw [extract_binary hv hd (by omega)]
      have e1 : d :: (b ++ (w ++ e :: c)) = (d :: b) ++ (w ++ e :: c) := rfl
      rw [e1]
      rcases extract_over (rest := w ++ e :: c) hb (Or.inr hcb) (0 + a.length + v.length) (cur1 ++ v) acc1 with k | k
      · rw [k, h2]
        simp only
        rw [extract_binary hw he (by simp only [List.length_cons]; omega)]
        have h := extract_over (rest := []) hc (Or.inl rfl) (0 + a.length + v.length + (d :: b).length + w.length) (cur2 ++ w) acc2
        rw [List.append_nil] at h
        rcases h with k | k
        · rw [k, h3]
          have : ∀ pos (cur : Bytes), extractDrain (scan pos []) cur acc3 = (acc3, .ok ()) := by
            intro pos cur
            rw [scan_eq]
            simp [lexOne, extractDrain, Message.extractLoop]
          rw [this]
          exact ⟨List.prefix_rfl, by simp⟩
        · rwa [h3] at k
      · rw [h2] at k
        exact within_mono p2 k
    · rw [h1] at k
      exact within_mono (p1.trans p2) k
  rw [extract_eq_drain, lex_eq_scan]
  refine ⟨map_safe key.2, fun ss hs => ?_⟩
  obtain ⟨_, _, rfl⟩ := Dialog.map_ok hs
  exact key.1

/-! ## Looking up segments -/

theorem find_first {e : Extractor} {id m : Bytes} {r : List Bytes} (he : e.segments = m :: r) (hm : id <+: m) : e.findSegment id = some m := by
  unfold Extractor.findSegment
  rw [he, List.find?_cons_of_pos (by simpa using hm)]

theorem find_none {e : Extractor} {id : Bytes} (h : ∀ s ∈ e.segments, ¬ id <+: s) : e.findSegment id = none := by
  unfold Extractor.findSegment
  rw [List.find?_eq_none]
  intro s hs
  simpa using h s hs

/-- Two texts that begin differently. -/
theorem not_prefix {a b s : Bytes} (h : a <+: s) (hl : a.length = b.length) (hne : a ≠ b) : ¬ b <+: s := by
  intro hb
  exact hne (List.prefix_of_prefix_length_le h hb hl.le |>.eq_of_length hl)

theorem JobLike.starts {s : Bytes} (h : JobLike s) : b!"HK" <+: s := by
  obtain ⟨hd, y, ⟨r, hr⟩, _, _, rfl, _⟩ := h
  have : enc (escape hd.id) = b!"HK" ++ enc (escape r) := by
    rw [← hr, Dialog.escape_append, Dialog.enc_append]
    rfl
  unfold headerBytes
  rw [this]
  simp

theorem JobLike.not_HN {s id : Bytes} (h : JobLike s) (hid : b!"HN" <+: id) : ¬ id <+: s := by
  intro hs
  have h1 := h.starts
  have h2 := hid.trans hs
  exact not_prefix (b := b!"HN") h1 rfl (by decide) h2

theorem msgHeader_starts {h : MsgHeader} {b : Bytes} (hm : h.seg.marshal = .ok b) : b!"HNHBK" <+: b := by
  refine List.IsPrefix.trans ?_ (Dialog.seg_starts hm)
  exact ⟨58 :: itoa h.position ++ 58 :: itoa 3, by simp [MsgHeader.seg, newSegment, newHeader, headerBytes]; rfl⟩

theorem msgEnd_starts {e : MsgEnd} {b : Bytes} (hm : e.seg.marshal = .ok b) : b!"HNHBS" <+: b := by
  refine List.IsPrefix.trans ?_ (Dialog.seg_starts hm)
  exact ⟨58 :: itoa e.position ++ 58 :: itoa 1, by simp [MsgEnd.seg, newSegment, newHeader, headerBytes]; rfl⟩

/-- The own message header is balanced. -/
theorem msgHeader_even {h : MsgHeader} (hr : h.ref = none) {b : Bytes} (hm : h.seg.marshal = .ok b) :
    ∃ t, b = t ++ [39] ∧ Even harsh t := by
  obtain ⟨hd, rfl⟩ := msgHeader_bytes hr hm
  refine ⟨_, rfl, ?_⟩
  have hid : Element.Spec.Latin1 h.seg.header.id := Dialog.latin1_of_all (by show (c!"HNHBK").all _ = true; decide)
  have c : ∀ {b : Bytes}, Even loud b → Even harsh (43 :: b) := fun h => .cons rfl (by decide) (h.mono loud_of_harsh)
  exact ((even_headerBytes hid).mono coarse_of_harsh).append ((((c (noBare_zeroPad 12 _)).append (c (noBare_itoa _))).append
    (c (noBare_enc hd))).append (c (noBare_itoa _)))

/-! ## Unsecured messages -/

theorem open_safe {h : MsgHeader} {e : MsgEnd} {m0 m3 : Bytes} {cs : List Bytes} (hr : h.ref = none) (g0 : h.seg.marshal = .ok m0)
    (hc : ∀ c ∈ cs, JobBytes c) (g3 : e.seg.marshal = .ok m3) (hl : (m0 ++ cs.flatten ++ m3).length < 2 ^ 63) :
    receive decoders (.ok (m0 ++ cs.flatten ++ m3, true)) ≠ .panic := by
  obtain ⟨t, ht, he⟩ := msgHeader_even hr g0
  obtain ⟨u, hu, _, hn⟩ := noBare_seg (wordy_msgEnd e) g3
  obtain ⟨x1, x2⟩ := extract_jobs he hc hn
  rw [← ht, ← hu] at x1 x2
  unfold receive readResponse
  refine bind_safe (by simp) fun b hb => ?_
  simp only [Outcome.ok.injEq] at hb
  subst hb
  simp only [if_true]
  refine bind_safe (map_safe x1) fun r hr' => ?_
  obtain ⟨ss, hs, rfl⟩ := Dialog.map_ok hr'
  have hseg := Message.extract_segments hs
  have hx := extracted hl hs
  have s0 := msgHeader_starts g0
  have s3 := msgEnd_starts g3
  unfold Response.message Response.readHeader
  rcases x2 ss hs with rfl | ⟨r, rfl, hj⟩
  · rw [find_none (by rw [hseg]; simp)]
    simp
  · rw [find_first hseg s0]
    obtain ⟨k1, k2, k3⟩ := msgHeader_read hr g0 (hx m0 (by simp)).1 (hx m0 (by simp)).2
    refine bind_safe k1 fun hd hhd => ?_
    have hne : Response.isEncrypted ⟨m0 ++ cs.flatten ++ m3, (newExtractor (m0 ++ cs.flatten ++ m3)).extract.1⟩ = false := by
      unfold Response.isEncrypted
      rw [find_none]
      · rfl
      · rw [hseg]
        intro s hs'
        rcases List.mem_cons.1 hs' with rfl | hs'
        · exact not_prefix s0 rfl (by decide)
        · rcases hj s hs' with rfl | hj'
          · exact not_prefix s3 rfl (by decide)
          · exact hj'.not_HN (by decide)
    rw [hne]
    simp only [Bool.false_eq_true, if_false]
    refine newDecrypted_safe (k2 hd hhd) x1 fun ss' hs' s hs'' => ?_
    rw [hs] at hs'
    simp only [Outcome.ok.injEq] at hs'
    subst hs'
    obtain ⟨y1, y2⟩ := hx s hs''
    rcases List.mem_cons.1 hs'' with rfl | hs''
    · exact k3
    · rcases hj s hs'' with rfl | hj'
      · exact harmless_msgEnd g3 y1 y2
      · exact hj'.harmless y1 y2

/-! ## Secured messages -/

theorem esc_itoa (x : Bytes) (d : Byte) (hd : d ≠ 63) (n : Int) : escAfter false (x ++ d :: itoa n) = false := by
  rw [escAfter_append]
  have h : escAfter false (itoa n) = false := (noBare_itoa n).2
  have hd' : (d == 63) = false := by simpa using hd
  cases escAfter false x
  · simp only [escAfter, hd', h]
  · simp only [escAfter, h]

/-- The signature header is balanced: it ends in a number. -/
theorem signatureHeader_even {v : Version} {fn ref id : Str} {k : KeyName} {now : Time.Civil} {b : Bytes}
    (h : ((signatureHeader v fn ref id k now).setPosition 2).marshal = .ok b) : ∃ t, b = t ++ [39] ∧ Even harsh t := by
  obtain ⟨t, rfl, _, hn⟩ := noBare_seg (wordy_signatureHeader v fn ref id k now 2) h
  refine ⟨t, rfl, hn, ?_⟩
  obtain ⟨kb, h1, x, h2⟩ := Dialog.signatureHeader_ends h
  have h2 : t = x ++ 43 :: kb := by
    have : (x ++ 43 :: kb) ++ [39] = t ++ [39] := by rw [← h2]; simp
    exact (List.append_inj' this rfl).1.symm
  obtain ⟨z, hz⟩ : ∃ z, kb = z ++ 58 :: itoa k.version := by
    have hl := (Dialog.keyName_last h1)
    unfold keyNameDE at h1
    rw [DE.marshal] at h1
    obtain ⟨ps, h3, h4⟩ := Dialog.map_ok h1
    rw [marshalAll_ok] at h3
    rcases ps with _ | ⟨a, _ | ⟨b, _ | ⟨c, _ | ⟨d, _ | ⟨e, _ | ⟨f, r⟩⟩⟩⟩⟩⟩
    all_goals simp only [List.map_cons, List.cons.injEq, DE.marshalOpt, DE.marshal, marshalNumber, Outcome.ok.injEq, List.map_nil,
      reduceCtorEq, and_false] at h3
    obtain ⟨_, _, _, _, rfl, _⟩ := h3
    refine ⟨join 58 [a, b, c, d], ?_⟩
    rw [← h4]
    have e1 : join 58 [a, b, c, d, itoa k.version] = join 58 [a, b, c, d] ++ 58 :: itoa k.version := by simp [join]
    rw [e1]
    apply trimRight_of_last
    have := (headerBytes_last ⟨[], 0, k.version, none⟩).2
    simp only [headerBytes, List.append_nil] at this
    have e2 : ∀ y : Bytes, y ++ 58 :: itoa k.version = (y ++ [58]) ++ itoa k.version := by simp
    rw [e2, List.getLast?_append_of_ne_nil _ (itoa_ne_nil _)] at this ⊢
    exact this
  rw [h2, hz]
  have : x ++ 43 :: (z ++ 58 :: itoa k.version) = (x ++ 43 :: z) ++ 58 :: itoa k.version := by simp
  rw [this]
  exact esc_itoa _ _ (by decide) _

theorem esc_sep (x : Bytes) {d : Byte} (hd : d ≠ 63) (y : Bytes) : escAfter false (x ++ d :: y) = escAfter false y := by
  have hd' : (d == 63) = false := by simpa using hd
  rw [escAfter_append]
  cases escAfter false x <;> simp only [escAfter, hd']

/-- The text around the key in the encryption header. -/
theorem encryptionHeader_bytes {v : Version} {fn id : Str} {k : KeyName} {now : Time.Civil} {b : Bytes}
    (h : (encryptionHeader v fn id k now).marshal = .ok b) :
    ∃ a c : Bytes, b = a ++ marshalBinary (List.replicate 8 0) ++ 58 :: c ++ [39] ∧ b!"HNVSK" <+: a ∧ NoBare harsh false a ∧ Closed a ∧
      Even harsh (58 :: c) := by
  obtain ⟨A, z, he, hA, hz⟩ : ∃ A z, (encryptionHeader v fn id k now).elements =
      A ++ [some pinTanEncryptionAlgorithm, some (keyNameDE k), some z, none] ∧ (∀ e, some e ∈ A → Wordy e) ∧ z.marshal = .ok b!"0" := by
    have w : ∀ {A : List (Option DE)}, (∀ e ∈ A.filterMap _root_.id, Wordy e) → ∀ e, some e ∈ A → Wordy e :=
      fun h e he => h e (List.mem_filterMap.2 ⟨_, he, rfl⟩)
    cases v
    · exact ⟨(encryptionHeader .hbci220 fn id k now).elements.take 4, .alnum c!"0" 3, rfl,
        w (by simp [encryptionHeader, newSegment, Wordy.alnum, wordy_securityId, wordy_securityDate]), by decide +kernel⟩
    · exact ⟨(encryptionHeader .fints300 fn id k now).elements.take 5,
        .code c!"0" 3 [c!"0", c!"1", c!"2", c!"3", c!"4", c!"5", c!"6", c!"7", c!"999"], rfl,
        w (by simp [encryptionHeader, newSegment, Wordy.code, wordy_profile, wordy_securityId, wordy_securityDate]), by decide +kernel⟩
  have hst : b!"HNVSK" <+: headerBytes (encryptionHeader v fn id k now).header := by
    cases v
    · show _ <+: headerBytes ⟨c!"HNVSK", 998, 2, none⟩
      exact ⟨b!":998:2", by decide +kernel⟩
    · show _ <+: headerBytes ⟨c!"HNVSK", 998, 3, none⟩
      exact ⟨b!":998:3", by decide +kernel⟩
  unfold Seg.marshal at h
  rw [he] at h
  obtain ⟨hb, h1, h2⟩ := Dialog.bind_ok h
  obtain ⟨ps, h3, rfl⟩ := Dialog.map_ok h2
  have hlat := header_latin1 h1
  rw [header_marshal_eq h1]
  rw [marshalAll_ok, List.map_append] at h3
  obtain ⟨qs, rs, rfl, h4, h5⟩ := List.append_eq_map_iff.1 h3
  have hal : pinTanEncryptionAlgorithm.marshal = .ok (b!"2:2:13:" ++ marshalBinary (List.replicate 8 0) ++ b!":5:1") := by decide +kernel
  rcases rs with _ | ⟨al, _ | ⟨kb, _ | ⟨z', _ | ⟨e, _ | ⟨f, r⟩⟩⟩⟩⟩
  all_goals simp only [List.map_cons, List.cons.injEq, DE.marshalOpt, Outcome.ok.injEq, List.map_nil, and_true, reduceCtorEq,
    and_false, hal, hz] at h5
  obtain ⟨rfl, h6, rfl, rfl⟩ := h5
  have hk : NoBare coarse false kb := noBare_marshal (wordy_keyName k) h6.symm
  have hqs : ∀ q ∈ qs, NoBare coarse false q :=
    noBare_all (es := A) (by rw [marshalAll_ok]; exact h4.symm) fun e he b hb => noBare_marshal (hA e he) hb
  set hd := headerBytes (encryptionHeader v fn id k now).header with hhd
  set bin := marshalBinary (List.replicate 8 0) with hbin
  refine ⟨pre 43 (hd :: qs) ++ b!"2:2:13:", b!"5:1" ++ 43 :: kb ++ b!"+0", ?_, ?_, ?_, ?_, ?_⟩
  · have e : hd :: (qs ++ [b!"2:2:13:" ++ bin ++ b!":5:1", kb, b!"0", []]) =
        (hd :: (qs ++ [b!"2:2:13:" ++ bin ++ b!":5:1", kb])) ++ [b!"0"] ++ List.replicate 1 [] := by simp
    rw [e, join_trailing, List.replicate_one, trimRight_append_single, trimRight_of_last (by simp)]
    simp [pre]
  · refine hst.trans ⟨43 :: (pre 43 qs ++ b!"2:2:13:"), ?_⟩
    simp [pre_cons, hhd]
  · rw [pre_eq_join _ (by simp), List.append_assoc]
    refine NoBare.sep (noBare_join rfl (by decide) fun q hq => ?_) (noBare_plain (by decide +kernel)).1 rfl (by decide)
    rcases List.mem_cons.1 hq with rfl | hq
    · exact (even_headerBytes hlat).1.mono coarse_of_harsh
    · exact (hqs q hq).mono coarse_of_harsh
  · refine Or.inr ⟨pre 43 (hd :: qs) ++ b!"2:2:13", 58, by simp, by simp [Token.Spec.Delim], ?_⟩
    rw [pre_eq_join _ (by simp), List.append_assoc]
    exact (esc_sep _ (by decide) _).trans (by decide)
  · have e : (58 : Byte) :: (b!"5:1" ++ 43 :: kb ++ b!"+0") = (b!":5:1+" ++ kb) ++ 43 :: b!"0" := by simp
    rw [e]
    refine ⟨NoBare.sep (NoBare.after (noBare_plain (by decide +kernel)) (hk.mono coarse_of_harsh)) (noBare_plain (by decide +kernel)).1 rfl (by decide), ?_⟩
    rw [esc_sep _ (by decide)]
    decide

theorem cut_quote {t : Bytes} (h : Even (· == 39) t) (r cur : Bytes) (acc : List Bytes) :
    cut false (t ++ 39 :: r) cur acc = cut false r [] (acc ++ [cur ++ t ++ [39]]) := by
  rw [cut_append, cut_noBare h.1, h.2]
  simp [cut]

/-- The encrypted data are read back. -/
theorem encryptedData_read {data : Bytes} (hd : data.length ≤ 2 ^ 48) :
    unmarshalEncryptedData (b!"HNVSD:999:1+@" ++ itoa data.length ++ b!"@" ++ data ++ b!"'") = .ok (⟨c!"HNVSD", 999, 1, none⟩, some data) := by
  have hi : itoa (data.length : Int) = natDec data.length := by
    unfold itoa
    rw [if_neg (by omega), Int.natAbs_natCast]
  have g : Envelope.Good ⟨0, 300, c!"A", 1, c!"A", 1, 998, 3, [], 999, 5⟩ :=
    ⟨by intro n hn
        simp only [List.mem_cons, List.not_mem_nil, or_false] at hn
        unfold Element.Spec.IsInt
        omega,
      Or.inr rfl, ⟨sendable_of (by decide) (by decide), by decide⟩, ⟨sendable_of (by decide) (by decide), by unfold NoSep; decide⟩,
      ⟨by simp, by simp⟩, by simp⟩
  have := data_read g hd
  have e : b!"HNVSD:999:1+@" ++ itoa data.length ++ b!"@" ++ data ++ b!"'" = writtenSegment c!"HNVSD" 999 1 none [binaryOf data] := by
    have e1 : enc c!"HNVSD" = b!"HNVSD" := rfl
    have e2 : itoa 999 = b!"999" := rfl
    have e3 : itoa 1 = b!"1" := rfl
    simp only [writtenSegment, binaryOf, hi, e1, e2, e3]
    simp
  rw [e]
  exact this

theorem secured_safe {h : MsgHeader} {e : MsgEnd} {v v' : Version} {fn fn' id id' ref pin : Str} {k k' : KeyName} {now now' : Time.Civil}
    {m0 m1 m2 m3 hk ha : Bytes} {cs : List Bytes} {pos : Int} (hr : h.ref = none) (hp : pin ≠ [])
    (g0 : h.seg.marshal = .ok m0) (g1 : (encryptionHeader v' fn' id' k' now').marshal = .ok m1)
    (k1 : ((signatureHeader v fn ref id k now).setPosition 2).marshal = .ok hk) (hc : ∀ c ∈ cs, JobBytes c)
    (k3 : ((signatureEnd v ref pin).setPosition pos).marshal = .ok ha)
    (g2 : m2 = b!"HNVSD:999:1+@" ++ itoa (hk ++ cs.flatten ++ ha).length ++ b!"@" ++ (hk ++ cs.flatten ++ ha) ++ b!"'")
    (g3 : e.seg.marshal = .ok m3) (hl : (m0 ++ m1 ++ m2 ++ m3).length ≤ 2 ^ 48) :
    receive decoders (.ok (m0 ++ m1 ++ m2 ++ m3, true)) ≠ .panic := by
  obtain ⟨t, ht, he⟩ := msgHeader_even hr g0
  obtain ⟨a, c, hm1, hs1, ha1, hca, hc1⟩ := encryptionHeader_bytes g1
  obtain ⟨u, hu, _, hn⟩ := noBare_seg (wordy_msgEnd e) g3
  generalize hdata : hk ++ cs.flatten ++ ha = data at *
  have hi : itoa (data.length : Int) = natDec data.length := by
    unfold itoa
    rw [if_neg (by omega), Int.natAbs_natCast]
  have hdl : data.length ≤ 2 ^ 48 := by
    rw [g2] at hl
    simp only [List.length_append] at hl
    omega
  have g2' : m2 = b!"HNVSD:999:1+" ++ marshalBinary data ++ b!"'" := by rw [g2, hi]; simp [marshalBinary]
  have hx : m0 ++ m1 ++ m2 ++ m3 = (m0 ++ a) ++ marshalBinary (List.replicate 8 0) ++ 58 :: (c ++ 39 :: b!"HNVSD:999:1+") ++ marshalBinary data ++ 39 :: m3 := by
    rw [hm1, g2']; simp
  have hbin : ∀ d : Bytes, Token.Spec.Binary (marshalBinary d) := fun d => ⟨natDec d.length, d, rfl, natDec_digits _, (value_natDec _).symm⟩
  have hq : Even (· == 64) m0 := by rw [ht]; exact noBare_quote (he.1.mono harsh64)
  have hc64 : Even (· == 64) ((58 :: c) ++ [39]) := noBare_quote (hc1.1.mono harsh64)
  obtain ⟨cur3, l, hl3, hl3'⟩ : ∃ cur3 l, cut false (39 :: m3) (b!"HNVSD:999:1+" ++ marshalBinary data) [m0, m1] = (cur3, [m0, m1, m2] ++ l) ∧
      l <+: [m3] := by
    have e1 : (39 : Byte) :: m3 = [] ++ 39 :: m3 := rfl
    rw [e1, cut_quote .nil, List.append_nil, hu, cut_append, cut_noBare (hn.mono harsh39), g2']
    cases escAfter false u
    · exact ⟨[], [u ++ [39]], by simp [cut], List.prefix_rfl⟩
    · exact ⟨u ++ [39], [], by simp [cut], List.nil_prefix⟩
  have e2 : ∀ r : Bytes, 58 :: (c ++ 39 :: r) = ((58 :: c) ++ [39]) ++ r := by simp
  obtain ⟨x1, x2⟩ := extract_two (a := m0 ++ a) (v := marshalBinary (List.replicate 8 0)) (d := 58) (b := c ++ 39 :: b!"HNVSD:999:1+") (w := marshalBinary data)
    (e := 39) (c := m3) (.after hq (ha1.mono harsh64))
    (by
      rcases hca with rfl | ⟨t', d, rfl, hd, hd'⟩
      · exact absurd hs1 (by decide)
      · exact Or.inr ⟨m0 ++ t', d, by simp, hd, by rw [escAfter_append, hq.2, hd']⟩)
    (hbin _) (by rw [e2]; exact .after hc64 (noBare_plain (by decide +kernel)).1)
    (Or.inr ⟨((58 :: c) ++ [39]) ++ b!"HNVSD:999:1", 43, by simp, by simp [Token.Spec.Delim], by rw [escAfter_append, hc64.2]; decide⟩)
    (by simp [Token.Spec.Delim]) (hbin _)
    (by
      have : (39 : Byte) :: m3 = [] ++ 39 :: m3 := rfl
      rw [hu]
      exact ((Even.nil.append (.cons rfl (by decide) .nil)).append (noBare_quote (hn.mono harsh64))).1) (by simp [Token.Spec.Delim])
    (by rw [← hx]; omega) (cur1 := a) (acc1 := [m0])
    (by
      rw [ht, List.append_assoc]
      exact (cut_quote (he.mono harsh39) a [] []).trans (by rw [cut_noBare (ha1.mono harsh39)]; simp))
    (cur2 := b!"HNVSD:999:1+") (acc2 := [m0, m1])
    (by
      have e3 : 58 :: (c ++ 39 :: b!"HNVSD:999:1+") = (58 :: c) ++ 39 :: b!"HNVSD:999:1+" := rfl
      rw [e3, cut_quote (hc1.mono harsh39), cut_noBare (noBare_plain (by decide +kernel)).1, hm1]
      simp) hl3
  rw [← hx] at x1 x2
  have hll : (m0 ++ m1 ++ m2 ++ m3).length < 2 ^ 63 := by omega
  unfold receive readResponse
  refine bind_safe (by simp) fun b hb => ?_
  simp only [Outcome.ok.injEq] at hb
  subst hb
  simp only [if_true]
  refine bind_safe (map_safe x1) fun r hr' => ?_
  obtain ⟨ss, hs, rfl⟩ := Dialog.map_ok hr'
  have hseg := Message.extract_segments hs
  have hxx := extracted hll hs
  have s0 := msgHeader_starts g0
  have s1 : b!"HNVSK" <+: m1 := by rw [hm1]; simp only [List.append_assoc]; exact hs1.trans (List.prefix_append _ _)
  have s2 : b!"HNVSD" <+: m2 := by rw [g2']; simp only [List.append_assoc]; exact List.IsPrefix.trans ⟨b!":999:1+", rfl⟩ (List.prefix_append _ _)
  have s3 := msgEnd_starts g3
  have hpre : ss <+: [m0, m1, m2, m3] := (x2 ss hs).trans (by
    obtain ⟨z, hz⟩ := hl3'
    exact ⟨z, by rw [List.append_assoc, hz]; rfl⟩)
  have inner : ∀ hd : ReadHeader, hd.hbciVersion ≠ none → newDecrypted decoders hd data ≠ .panic := by
    intro hd hv
    obtain ⟨t', ht', he'⟩ := signatureHeader_even k1
    obtain ⟨u', hu', _, hn'⟩ := noBare_seg (wordy_signatureEnd v ref pin pos) k3
    obtain ⟨y1, y2⟩ := extract_jobs he' hc hn'
    rw [← ht', ← hu', hdata] at y1 y2
    refine newDecrypted_safe hv y1 fun ss hs s hs' => ?_
    obtain ⟨z1, z2⟩ := extracted (by omega) hs s hs'
    rcases y2 ss hs with rfl | ⟨r, rfl, hj⟩
    · cases hs'
    · rcases List.mem_cons.1 hs' with rfl | hs'
      · exact harmless_signatureHeader k1 z1 z2
      · rcases hj s hs' with rfl | hj'
        · exact harmless_signatureEnd hp k3 z1 z2
        · exact hj'.harmless z1 z2
  unfold Response.message Response.readHeader
  rcases ss with _ | ⟨q0, ss⟩
  · rw [find_none (by rw [hseg]; simp)]
    simp
  obtain ⟨rfl, hpre1⟩ := List.cons_prefix_cons.1 hpre
  rw [find_first hseg s0]
  obtain ⟨j1, j2, j3⟩ := msgHeader_read hr g0 (hxx _ (by simp)).1 (hxx _ (by simp)).2
  refine bind_safe j1 fun hd hhd => ?_
  rcases ss with _ | ⟨q1, ss⟩
  · have hne : Response.isEncrypted ⟨q0 ++ m1 ++ m2 ++ m3, (newExtractor (q0 ++ m1 ++ m2 ++ m3)).extract.1⟩ = false := by
      unfold Response.isEncrypted
      rw [find_none]
      · rfl
      · rw [hseg]
        intro s hs'
        rw [List.mem_singleton.1 hs']
        exact not_prefix s0 rfl (by decide)
    rw [hne]
    simp only [Bool.false_eq_true, if_false]
    refine newDecrypted_safe (j2 hd hhd) x1 fun ss' hs' s hs'' => ?_
    rw [hs] at hs'
    simp only [Outcome.ok.injEq] at hs'
    subst hs'
    rw [List.mem_singleton.1 hs'']
    exact j3
  obtain ⟨rfl, hpre2⟩ := List.cons_prefix_cons.1 hpre1
  split
  · refine bind_safe ?_ fun d hd' => ?_
    all_goals unfold Response.readData at *
    all_goals rcases ss with _ | ⟨q2, ss⟩
    · rw [find_none (by
        rw [hseg]
        simp only [List.mem_cons, List.not_mem_nil, or_false, forall_eq_or_imp, forall_eq]
        exact ⟨not_prefix s0 rfl (by decide), not_prefix s1 rfl (by decide)⟩)]
      simp
    · obtain ⟨rfl, _⟩ := List.cons_prefix_cons.1 hpre2
      have : Extractor.findSegment (newExtractor (q0 ++ q1 ++ q2 ++ m3)).extract.1 b!"HNVSD" = some q2 := by
        unfold Extractor.findSegment
        rw [hseg, List.find?_cons_of_neg (by simpa using not_prefix (b := b!"HNVSD") s0 rfl (by decide)),
          List.find?_cons_of_neg (by simpa using not_prefix (b := b!"HNVSD") s1 rfl (by decide)), List.find?_cons_of_pos (by simpa using s2)]
      rw [this]
      simp only
      rw [g2, encryptedData_read hdl]
      simp [dataOf]
    · rw [find_none (by
        rw [hseg]
        simp only [List.mem_cons, List.not_mem_nil, or_false, forall_eq_or_imp, forall_eq]
        exact ⟨not_prefix s0 rfl (by decide), not_prefix s1 rfl (by decide)⟩)] at hd'
      cases hd'
    · obtain ⟨rfl, _⟩ := List.cons_prefix_cons.1 hpre2
      have : Extractor.findSegment (newExtractor (q0 ++ q1 ++ q2 ++ m3)).extract.1 b!"HNVSD" = some q2 := by
        unfold Extractor.findSegment
        rw [hseg, List.find?_cons_of_neg (by simpa using not_prefix (b := b!"HNVSD") s0 rfl (by decide)),
          List.find?_cons_of_neg (by simpa using not_prefix (b := b!"HNVSD") s1 rfl (by decide)), List.find?_cons_of_pos (by simpa using s2)]
      rw [this] at hd'
      simp only at hd'
      rw [g2, encryptedData_read hdl] at hd'
      simp only [Outcome.bind, dataOf, Outcome.ok.injEq] at hd'
      rw [← hd']
      exact inner hd (j2 hd hhd)
  · rename_i hne
    exfalso
    apply hne
    unfold Response.isEncrypted Extractor.findSegment
    rw [hseg, List.find?_cons_of_neg (by simpa using not_prefix (b := b!"HNVSK") s0 rfl (by decide)), List.find?_cons_of_pos (by simpa using s1)]
    rfl

end Verif.Bank
