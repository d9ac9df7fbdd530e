import Verif.Segment.Props
import Verif.Message.Extractor
import Verif.Message.Spec

/-
Lemmas about segment extraction.
-/

namespace Verif.Message

open GoLib Token Verif.Token.Spec Message.Spec Segment.Spec

theorem sep_delim {d : Byte} (h : Separator d) : Delim d := by
  rcases h with rfl | rfl <;> simp [Delim]

theorem sep_typ {d : Byte} (h : Separator d) : sepTyp d ≠ .segmentEndMarker ∧ sepTyp d ≠ .error := by
  rcases h with rfl | rfl <;> simp [sepTyp]

theorem typ_of_kind {pos : Nat} {t : Typ} {v : Bytes} (h : Kind pos t v) :
    t ≠ .segmentEndMarker ∧ t ≠ .error := by
  cases t <;> simp_all [Kind]

/-! ## The loop -/

/-- Tokens that neither end a segment nor are errors. -/
def Quiet (ts : List Token) : Prop := ∀ t ∈ ts, t.typ ≠ .segmentEndMarker ∧ t.typ ≠ .error

theorem extractLoop_quiet {ts : List Token} (h : Quiet ts) (more : List Token) (cur : Bytes) (acc : List Bytes) :
    extractLoop (ts ++ more) cur acc = extractLoop more (cur ++ values ts) acc := by
  induction ts generalizing cur with
  | nil => simp
  | cons t ts ih =>
    obtain ⟨h1, h2⟩ := h t (by simp)
    rw [List.cons_append, extractLoop, if_neg h2, if_neg h1, ih fun u hu => h u (by simp [hu])]
    simp

theorem extractLoop_end {t : Token} (h : t.typ = .segmentEndMarker) (more : List Token) (cur : Bytes) (acc : List Bytes) :
    extractLoop (t :: more) cur acc = extractLoop more [] (acc ++ [cur ++ t.val]) := by
  rw [extractLoop, if_neg (by simp [h]), if_pos h]

theorem extractLoop_acc (ts : List Token) : ∀ (cur : Bytes) (acc : List Bytes),
    extractLoop ts cur acc = (acc ++ (extractLoop ts cur []).1, (extractLoop ts cur []).2) := by
  induction ts with
  | nil => intro cur acc; simp [extractLoop]
  | cons t ts ih =>
    intro cur acc
    rw [extractLoop]
    conv => rhs; rw [extractLoop]
    split
    · simp
    · split
      · rw [ih [] (acc ++ _), ih [] ([] ++ _)]; simp
      · rw [ih]

/-! ## Forward -/

theorem clean_unfinished {u : Bytes} (h : Unfinished u) :
    ∀ {pos : Nat}, pos + u.length < 2 ^ 63 → ∃ ts, Clean pos u ts ∧ Quiet ts := by
  induction h with
  | nil => intro pos _; exact ⟨[], .nil _, by simp [Quiet]⟩
  | @sep d u hd _ ih =>
    intro pos hl
    simp only [List.length_cons] at hl
    obtain ⟨ts, h1, h2⟩ := ih (pos := pos + 1) (by omega)
    refine ⟨_, (clean_delim (sep_delim hd)).append h1, ?_⟩
    intro t ht
    simp only [List.mem_append, List.mem_singleton] at ht
    rcases ht with rfl | ht
    · exact sep_typ hd
    · exact h2 t ht
  | @value v d u hv hd _ ih =>
    intro pos hl
    simp only [List.length_append, List.length_cons] at hl
    obtain ⟨t, hk⟩ := kind_of_value hv (pos := pos) (by omega)
    obtain ⟨ts, h1, h2⟩ := ih (pos := pos + (v ++ [d]).length) (by simp; omega)
    refine ⟨_, by simpa using (clean_value hk (sep_delim hd)).append h1, ?_⟩
    intro t' ht
    simp only [List.mem_cons] at ht
    rcases ht with rfl | rfl | ht
    · exact typ_of_kind hk
    · exact sep_typ hd
    · exact h2 t' ht

theorem clean_segmentText {s : Bytes} (h : SegmentText s) {pos : Nat} (hl : pos + s.length < 2 ^ 63) :
    ∃ ts e, Clean pos s (ts ++ [e]) ∧ Quiet ts ∧ e.typ = .segmentEndMarker := by
  obtain ⟨u, v, rfl, hu, hv⟩ := h
  simp only [List.length_append, List.length_cons, List.length_nil] at hl
  obtain ⟨ts, h1, h2⟩ := clean_unfinished hu (pos := pos) (by omega)
  have hd : Delim 39 := Or.inr (Or.inl rfl)
  rcases hv with rfl | hv
  · refine ⟨ts, _, by simpa using h1.append (clean_delim hd), h2, by simp [sepTyp]⟩
  · obtain ⟨t, hk⟩ := kind_of_value hv (pos := pos + u.length) (by omega)
    refine ⟨ts ++ [⟨t, v, pos + u.length⟩], ⟨sepTyp 39, [39], pos + u.length + v.length⟩, ?_, ?_, by simp [sepTyp]⟩
    · have := h1.append (clean_value hk hd)
      simpa using this
    · intro t' ht
      simp only [List.mem_append, List.mem_singleton] at ht
      rcases ht with ht | rfl
      · exact h2 t' ht
      · exact typ_of_kind hk

theorem clean_segments {ss : List Bytes} (h : ∀ s ∈ ss, SegmentText s) :
    ∀ {pos : Nat}, pos + ss.flatten.length < 2 ^ 63 →
    ∃ ts, Clean pos ss.flatten ts ∧ ∀ more acc, extractLoop (ts ++ more) [] acc = extractLoop more [] (acc ++ ss) := by
  induction ss with
  | nil => intro pos _; exact ⟨[], .nil _, by simp⟩
  | cons s ss ih =>
    intro pos hl
    simp only [List.flatten_cons, List.length_append] at hl
    obtain ⟨ts, e, h1, h2, h3⟩ := clean_segmentText (h s (by simp)) (pos := pos) (by omega)
    obtain ⟨us, h4, h5⟩ := ih (fun s hs => h s (by simp [hs])) (pos := pos + s.length) (by omega)
    refine ⟨ts ++ [e] ++ us, by rw [List.flatten_cons]; exact h1.append h4, ?_⟩
    intro more acc
    have hv : values ts ++ e.val = s := by have := h1.values_eq; simpa using this
    rw [List.append_assoc, List.append_assoc, extractLoop_quiet h2, List.singleton_append, extractLoop_end h3, h5]
    simp [hv]

theorem lex_of_clean {a r : Bytes} {ts : List Token} (h : Clean 0 a ts) (hr : r = [] ∨ r.head? = some 0) :
    ∃ e, lex (a ++ r) = .done (ts ++ [e]) ∧ e.typ = .eof := by
  rw [lex_eq_scan, h.scan_append]
  rcases hr with rfl | hr
  · rw [scan_eq]
    simp only [lexOne]
    exact ⟨_, Drain.prepend_done _ _, rfl⟩
  · cases r with
    | nil => simp at hr
    | cons b r =>
      simp at hr
      subst hr
      rw [scan_eq]
      have : lexOne (0 + a.length) (0 :: r) = .stop 1 := by simp [lexOne]
      rw [this]
      exact ⟨_, Drain.prepend_done _ _, rfl⟩

theorem extract_of_text {ss : List Bytes} {u r : Bytes} (hs : ∀ s ∈ ss, SegmentText s) (hu : Unfinished u)
    (hr : r = [] ∨ r.head? = some 0) (hl : (ss.flatten ++ u).length < 2 ^ 63) (old : List Bytes) :
    Extractor.extract ⟨ss.flatten ++ u ++ r, old⟩ =
      (⟨ss.flatten ++ u ++ r, old ++ ss⟩, .ok (old ++ ss)) := by
  simp only [List.length_append] at hl
  obtain ⟨ts, h1, h2⟩ := clean_segments hs (pos := 0) (by omega)
  obtain ⟨us, h3, h4⟩ := clean_unfinished hu (pos := 0 + ss.flatten.length) (by omega)
  obtain ⟨e, h5, h6⟩ := lex_of_clean (h1.append h3) hr
  unfold Extractor.extract
  have hloop : extractLoop (ts ++ us ++ [e]) [] old = (old ++ ss, true) := by
    rw [List.append_assoc, h2, extractLoop_quiet h4, extractLoop, if_neg (by simp [h6]), if_neg (by simp [h6]), extractLoop]
  simp only [h5, hloop]
  simp

/-! ## Backward -/

theorem clean_cases {pos : Nat} {a : Bytes} {us : List Token} (h : Clean pos a us) :
    (a = [] ∧ us = []) ∨
    (∃ d r us', a = d :: r ∧ us = ⟨sepTyp d, [d], pos⟩ :: us' ∧ Delim d ∧ Clean (pos + 1) r us') ∨
    (∃ v d r t us', a = v ++ d :: r ∧ us = ⟨t, v, pos⟩ :: ⟨sepTyp d, [d], pos + v.length⟩ :: us' ∧ Delim d ∧
      Kind pos t v ∧ Clean (pos + v.length + 1) r us') := by
  cases h with
  | nil => exact Or.inl ⟨rfl, rfl⟩
  | cons h1 h2 =>
    right
    rcases kind_of_lexOne h1 with ⟨d, r, rfl, hd, rfl, rfl⟩ | ⟨v, d, r, rfl, hd, rfl, hk⟩
    · left
      exact ⟨d, r, _, rfl, rfl, hd, by simpa using h2⟩
    · right
      rw [List.drop_left] at h2
      cases h2 with
      | @cons _ _ _ _ ts' h3 h4 =>
        rw [lexOne_delim hd] at h3
        simp only [One.tok.injEq] at h3
        obtain ⟨rfl, rfl⟩ := h3
        exact ⟨v, d, r, _, ts', rfl, by simp, hd, hk, by simpa using h4⟩

theorem delim_cases {d : Byte} (h : Delim d) : d = 39 ∨ Separator d := by
  rcases h with rfl | rfl | rfl <;> simp [Separator]

theorem segmentText_sep {d : Byte} {s : Bytes} (hd : Separator d) (h : SegmentText s) : SegmentText (d :: s) := by
  obtain ⟨u, v, rfl, hu, hv⟩ := h
  exact ⟨d :: u, v, by simp, .sep hd hu, hv⟩

theorem segmentText_value {v : Bytes} {d : Byte} {s : Bytes} (hv : Value v) (hd : Separator d) (h : SegmentText s) :
    SegmentText (v ++ d :: s) := by
  obtain ⟨u, w, rfl, hu, hw⟩ := h
  exact ⟨v ++ d :: u, w, by simp, .value hv hd hu, hw⟩

/-- What the loop makes of cleanly scanned bytes. -/
theorem decompose (n : Nat) : ∀ {pos : Nat} {a : Bytes} {us : List Token}, us.length ≤ n → Clean pos a us →
    ∃ ss u, a = ss.flatten ++ u ∧ (∀ s ∈ ss, SegmentText s) ∧ Unfinished u ∧
      ∀ more cur acc, match ss with
        | [] => extractLoop (us ++ more) cur acc = extractLoop more (cur ++ u) acc
        | s :: ss' => extractLoop (us ++ more) cur acc = extractLoop more u (acc ++ (cur ++ s) :: ss') := by
  induction n with
  | zero =>
    intro pos a us hn h
    have : us = [] := by simpa using hn
    subst this
    cases h
    exact ⟨[], [], rfl, by simp, .nil, by simp⟩
  | succ n ih =>
    intro pos a us hn h
    rcases clean_cases h with ⟨rfl, rfl⟩ | ⟨d, r, us', rfl, rfl, hd, hc⟩ | ⟨v, d, r, t, us', rfl, rfl, hd, hk, hc⟩
    · exact ⟨[], [], rfl, by simp, .nil, by simp⟩
    · obtain ⟨ss, u, rfl, h1, h2, h3⟩ := ih (by simpa using hn) hc
      rcases delim_cases hd with rfl | hs
      · refine ⟨[39] :: ss, u, by simp, ?_, h2, ?_⟩
        · intro s hs
          rcases List.mem_cons.1 hs with rfl | hs
          · exact ⟨[], [], rfl, .nil, Or.inl rfl⟩
          · exact h1 s hs
        · intro more cur acc
          show extractLoop (⟨sepTyp 39, [39], pos⟩ :: (us' ++ more)) cur acc = _
          rw [extractLoop_end (by simp [sepTyp])]
          have := h3 more [] (acc ++ [cur ++ [39]])
          cases ss with
          | nil => simpa using this
          | cons s ss => simpa using this
      · have hstep : ∀ (more : List Token) (cur : Bytes) (acc : List Bytes),
            extractLoop (⟨sepTyp d, [d], pos⟩ :: us' ++ more) cur acc = extractLoop (us' ++ more) (cur ++ [d]) acc := by
          intro more cur acc
          rw [List.cons_append, extractLoop, if_neg (sep_typ hs).2, if_neg (sep_typ hs).1]
        cases ss with
        | nil =>
          refine ⟨[], d :: u, by simp, by simp, .sep hs h2, ?_⟩
          intro more cur acc
          show extractLoop (⟨sepTyp d, [d], pos⟩ :: us' ++ more) cur acc = _
          rw [hstep, h3 more (cur ++ [d]) acc]
          simp
        | cons s ss =>
          refine ⟨(d :: s) :: ss, u, by simp, ?_, h2, ?_⟩
          · intro x hx
            rcases List.mem_cons.1 hx with rfl | hx
            · exact segmentText_sep hs (h1 s (by simp))
            · exact h1 x (by simp [hx])
          · intro more cur acc
            show extractLoop (⟨sepTyp d, [d], pos⟩ :: us' ++ more) cur acc = _
            rw [hstep, h3 more (cur ++ [d]) acc]
            simp
    · obtain ⟨ss, u, rfl, h1, h2, h3⟩ := ih (by simp at hn; omega) hc
      have hv : Value v := value_of_kind hk
      have hstep0 : ∀ (more : List Token) (cur : Bytes) (acc : List Bytes),
          extractLoop ((⟨t, v, pos⟩ :: ⟨sepTyp d, [d], pos + v.length⟩ :: us') ++ more) cur acc =
          extractLoop (⟨sepTyp d, [d], pos + v.length⟩ :: (us' ++ more)) (cur ++ v) acc := by
        intro more cur acc
        rw [List.cons_append, List.cons_append, extractLoop, if_neg (typ_of_kind hk).2, if_neg (typ_of_kind hk).1]
      rcases delim_cases hd with rfl | hs
      · refine ⟨(v ++ [39]) :: ss, u, by simp, ?_, h2, ?_⟩
        · intro s hs
          rcases List.mem_cons.1 hs with rfl | hs
          · exact ⟨[], v, rfl, .nil, Or.inr hv⟩
          · exact h1 s hs
        · intro more cur acc
          show extractLoop _ cur acc = _
          rw [hstep0, extractLoop_end (by simp [sepTyp])]
          have := h3 more [] (acc ++ [cur ++ v ++ [39]])
          cases ss with
          | nil => simpa using this
          | cons s ss => simpa using this
      · have hstep : ∀ (more : List Token) (cur : Bytes) (acc : List Bytes),
            extractLoop ((⟨t, v, pos⟩ :: ⟨sepTyp d, [d], pos + v.length⟩ :: us') ++ more) cur acc =
            extractLoop (us' ++ more) (cur ++ v ++ [d]) acc := by
          intro more cur acc
          rw [hstep0, extractLoop, if_neg (sep_typ hs).2, if_neg (sep_typ hs).1]
        cases ss with
        | nil =>
          refine ⟨[], v ++ d :: u, by simp, by simp, .value hv hs h2, ?_⟩
          intro more cur acc
          show extractLoop _ cur acc = _
          rw [hstep, h3 more _ acc]
          simp
        | cons s ss =>
          refine ⟨(v ++ d :: s) :: ss, u, by simp, ?_, h2, ?_⟩
          · intro x hx
            rcases List.mem_cons.1 hx with rfl | hx
            · exact segmentText_value hv hs (h1 s (by simp))
            · exact h1 x (by simp [hx])
          · intro more cur acc
            show extractLoop _ cur acc = _
            rw [hstep, h3 more _ acc]
            simp

theorem decompose_loop {a : Bytes} {us : List Token} (h : Clean 0 a us) :
    ∃ ss u, a = ss.flatten ++ u ∧ (∀ s ∈ ss, SegmentText s) ∧ Unfinished u ∧
      ∀ more acc, extractLoop (us ++ more) [] acc = extractLoop more u (acc ++ ss) := by
  obtain ⟨ss, u, h1, h2, h3, h4⟩ := decompose us.length (Nat.le_refl _) h
  refine ⟨ss, u, h1, h2, h3, ?_⟩
  intro more acc
  have := h4 more [] acc
  cases ss with
  | nil => simpa using this
  | cons s ss => simpa using this

/-- Every run of `Extract`, whatever its outcome. -/
theorem extract_cases (raw : Bytes) (old : List Bytes) :
    ∃ ss u r, raw = ss.flatten ++ u ++ r ∧ (∀ s ∈ ss, SegmentText s) ∧ Unfinished u ∧
      (((r = [] ∨ r.head? = some 0) ∧ Extractor.extract ⟨raw, old⟩ = (⟨raw, old ++ ss⟩, .ok (old ++ ss))) ∨
       ((∃ m, lexOne (ss.flatten ++ u).length r = .err m) ∧
         Extractor.extract ⟨raw, old⟩ = (⟨raw, old ++ ss⟩, .err)) ∨
       (lexOne (ss.flatten ++ u).length r = .panic ∧
         Extractor.extract ⟨raw, old⟩ = (⟨raw, old ++ ss⟩, .panic))) := by
  rcases lex_done_or_panic raw with ⟨ts, h⟩ | ⟨ts, h⟩
  · obtain ⟨a, b, us, last, rfl, hc, rfl, hpos, hend⟩ := lex_done_inv h
    obtain ⟨ss, u, rfl, h1, h2, h3⟩ := decompose_loop hc
    refine ⟨ss, u, b, rfl, h1, h2, ?_⟩
    unfold Extractor.extract
    rw [h]
    simp only [h3]
    rcases hend with ⟨rfl, he, _⟩ | ⟨hb, he, _⟩ | ⟨he, hm⟩
    · left
      rw [extractLoop, if_neg (by simp [he]), if_neg (by simp [he]), extractLoop]
      simp
    · left
      rw [extractLoop, if_neg (by simp [he]), if_neg (by simp [he]), extractLoop]
      simp [hb]
    · right; left
      rw [extractLoop, if_pos he]
      exact ⟨⟨_, hm⟩, by simp⟩
  · obtain ⟨a, b, rfl, hc, hp⟩ := lex_panic_inv h
    obtain ⟨ss, u, rfl, h1, h2, h3⟩ := decompose_loop hc
    refine ⟨ss, u, b, rfl, h1, h2, Or.inr (Or.inr ⟨hp, ?_⟩)⟩
    unfold Extractor.extract
    rw [h]
    have := h3 [] old
    rw [List.append_nil] at this
    simp only [this, extractLoop]

end Verif.Message
