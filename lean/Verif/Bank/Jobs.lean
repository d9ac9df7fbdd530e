import Verif.Bank.Harmless

/-
What is extracted from the jobs a client writes.
-/

namespace Verif.Bank

open GoLib Element Segment Message Token Transport

theorem harsh39 (c : Byte) (h : (c == 39) = true) : harsh c = true := by
  simp only [beq_iff_eq] at h; subst h; rfl

theorem harsh64 (c : Byte) (h : (c == 64) = true) : harsh c = true := by
  simp only [beq_iff_eq] at h; subst h; rfl

/-- The bytes of a job: a segment of a client without binary data. -/
def JobBytes (c : Bytes) : Prop := ∃ s : Seg, c!"HK" <+: s.header.id ∧ WordySeg s ∧ s.marshal = .ok c

/-- A text that begins like a job and ends like a segment. -/
def JobLike (s : Bytes) : Prop :=
  ∃ (h : Header) (y : Bytes), c!"HK" <+: h.id ∧ Element.Spec.Latin1 h.id ∧ (y = [] ∨ ∃ z, y = 43 :: z) ∧ s = headerBytes h ++ y ++ [39] ∧
    NoBare (· == 64) false (headerBytes h ++ y)

theorem JobLike.harmless {s : Bytes} (h : JobLike s) (ht : Message.Spec.SegmentText s) (hl : s.length < 2 ^ 63) : Harmless s := by
  obtain ⟨h, y, h1, h2, h3, rfl, h5⟩ := h
  exact harmless_job h1 h2 h3 ht hl h5

/-- What is left over from jobs: nothing, or a job whose end is escaped. -/
def Pending (cur : Bytes) : Prop :=
  Even (· == 64) cur ∧ (cur = [] ∨ ∃ (h : Header) (z : Bytes), c!"HK" <+: h.id ∧ Element.Spec.Latin1 h.id ∧ cur = headerBytes h ++ 43 :: z)

theorem esc_quote {a : Bytes} : escAfter false (a ++ [39]) = false := by
  rw [escAfter_append]
  cases escAfter false a <;> rfl

theorem noBare_quote {a : Bytes} (h : NoBare (· == 64) false a) : Even (· == 64) (a ++ [39]) := by
  refine ⟨?_, esc_quote⟩
  rw [noBare_append]
  refine ⟨h, ?_⟩
  cases escAfter false a
  · exact ⟨rfl, trivial⟩
  · trivial

/-- A text closed by what follows the pending one. -/
theorem Pending.close {cur a : Bytes} (h : Pending cur) (hne : cur ≠ []) (ha : NoBare (· == 64) false a) : JobLike (cur ++ a ++ [39]) := by
  obtain ⟨h1, h2⟩ := h
  rcases h2 with h2 | ⟨hd, z, h2, h3, h4⟩
  · exact absurd h2 hne
  · refine ⟨hd, 43 :: z ++ a, h2, h3, Or.inr ⟨_, rfl⟩, by rw [h4]; simp, ?_⟩
    rw [← List.append_assoc, ← h4]
    exact ha.after h1

theorem cut_job {c : Bytes} (hc : JobBytes c) {cur : Bytes} (hp : Pending cur) (acc : List Bytes) :
    ∃ cur' l, cut false c cur acc = (cur', acc ++ l) ∧ Pending cur' ∧ (∀ s ∈ l, JobLike s) ∧ escAfter false c = false ∧ NoBare (· == 64) false c := by
  obtain ⟨s, h1, h2, h3⟩ := hc
  obtain ⟨y, rfl, hy, hn, hid⟩ := seg_shape h2 h3
  generalize ha : headerBytes s.header ++ y = a at *
  have h39 := hn.mono harsh39
  have h64 := hn.mono harsh64
  rw [cut_append, cut_noBare h39]
  cases he : escAfter false a with
  | false =>
    refine ⟨[], [cur ++ a ++ [39]], by simp [cut], ⟨.nil, Or.inl rfl⟩, ?_, esc_quote, (noBare_quote h64).1⟩
    intro x hx
    rw [List.mem_singleton] at hx
    subst hx
    by_cases hcur : cur = []
    · subst hcur
      exact ⟨s.header, y, h1, hid, hy, by rw [← ha]; rfl, ha ▸ h64⟩
    · exact hp.close hcur h64
  | true =>
    refine ⟨cur ++ a ++ [39], [], by simp [cut], ⟨?_, ?_⟩, by simp, esc_quote, (noBare_quote h64).1⟩
    · rw [List.append_assoc]; exact hp.1.append (noBare_quote h64)
    · right
      rcases hp.2 with rfl | ⟨hd, z, g1, g2, rfl⟩
      · rcases hy with rfl | ⟨z, rfl⟩
        · rw [List.append_nil] at ha
          rw [← ha, (even_headerBytes hid).2] at he
          cases he
        · exact ⟨s.header, z ++ [39], h1, hid, by rw [← ha]; simp⟩
      · exact ⟨hd, z ++ a ++ [39], g1, g2, by simp⟩

theorem cut_jobs {cs : List Bytes} (hc : ∀ c ∈ cs, JobBytes c) : ∀ {cur : Bytes} (_ : Pending cur) (acc : List Bytes),
    ∃ cur' l, cut false cs.flatten cur acc = (cur', acc ++ l) ∧ Pending cur' ∧ (∀ s ∈ l, JobLike s) ∧ Even (· == 64) cs.flatten := by
  induction cs with
  | nil => intro cur hp acc; exact ⟨cur, [], by simp [cut], hp, by simp, .nil⟩
  | cons c cs ih =>
    intro cur hp acc
    obtain ⟨cur', l, h1, h2, h3, h4, h5⟩ := cut_job (hc c (by simp)) hp acc
    obtain ⟨cur'', l', g1, g2, g3, g4⟩ := ih (fun x hx => hc x (by simp [hx])) h2 (acc ++ l)
    refine ⟨cur'', l ++ l', ?_, g2, ?_, ?_⟩
    · rw [List.flatten_cons, cut_append, h1, h4, g1, List.append_assoc]
    · intro s hs
      rcases List.mem_append.1 hs with hs | hs
      · exact h3 s hs
      · exact g3 s hs
    · exact Even.append ⟨h5, h4⟩ g4

/-- The segments extracted from jobs between two other segments. -/
theorem extract_jobs {t u : Bytes} {cs : List Bytes} (ht : Even harsh t) (hc : ∀ c ∈ cs, JobBytes c) (hu : NoBare harsh false u) :
    (newExtractor (t ++ [39] ++ cs.flatten ++ (u ++ [39]))).extract.2 ≠ .panic ∧
    ∀ ss, (newExtractor (t ++ [39] ++ cs.flatten ++ (u ++ [39]))).extract.2 = .ok ss →
      ss = [] ∨ ∃ r, ss = (t ++ [39]) :: r ∧ ∀ s ∈ r, s = u ++ [39] ∨ JobLike s := by
  have hu64 := hu.mono harsh64
  have hu39 := hu.mono harsh39
  obtain ⟨cur, l, h1, h2, h3, h4⟩ := cut_jobs hc (cur := []) ⟨.nil, Or.inl rfl⟩ [t ++ [39]]
  have hn : NoBare (· == 64) false (t ++ [39] ++ cs.flatten ++ (u ++ [39])) :=
    (noBare_quote hu64).1.after ((noBare_quote (ht.1.mono harsh64)).append h4)
  obtain ⟨e1, e2⟩ := extract_text hn
  refine ⟨e1, fun ss hs => ?_⟩
  have hp := e2 ss hs
  have hcut : cut false (t ++ [39] ++ cs.flatten ++ (u ++ [39])) [] [] =
      cut (escAfter false u) [39] (cur ++ u) ([t ++ [39]] ++ l) := by
    rw [cut_append, cut_append _ (t ++ [39]), cut_append _ t, cut_noBare (ht.1.mono harsh39), ht.2, escAfter_append, esc_quote, h4.2]
    have : cut false [39] ([] ++ t) [] = ([], [t ++ [39]]) := by simp [cut]
    simp only [this, h1]
    rw [cut_append, cut_noBare hu39]
  rw [hcut] at hp
  have hfin : ∃ r, (cut (escAfter false u) [39] (cur ++ u) ([t ++ [39]] ++ l)).2 = (t ++ [39]) :: r ∧ ∀ s ∈ r, s = u ++ [39] ∨ JobLike s := by
    cases escAfter false u
    · refine ⟨l ++ [cur ++ u ++ [39]], by simp [cut], ?_⟩
      intro s hs
      rcases List.mem_append.1 hs with hs | hs
      · exact Or.inr (h3 s hs)
      · rw [List.mem_singleton] at hs
        subst hs
        by_cases hcur : cur = []
        · subst hcur; exact Or.inl rfl
        · exact Or.inr (h2.close hcur hu64)
    · exact ⟨l, by simp [cut], fun s hs => Or.inr (h3 s hs)⟩
  obtain ⟨r, h5, h6⟩ := hfin
  rw [h5] at hp
  cases ss with
  | nil => exact Or.inl rfl
  | cons s ss =>
    obtain ⟨rfl, h7⟩ := List.cons_prefix_cons.1 hp
    exact Or.inr ⟨ss, rfl, fun x hx => h6 x (h7.subset hx)⟩

/-- What was extracted is made of segments and not longer than the text. -/
theorem extracted {raw : Bytes} (hl : raw.length < 2 ^ 63) {ss : List Bytes} (h : (newExtractor raw).extract.2 = .ok ss) :
    ∀ s ∈ ss, Message.Spec.SegmentText s ∧ s.length < 2 ^ 63 := by
  obtain ⟨u, r, h1, h2, _⟩ := (C14_extract_iff hl ss).1 h
  intro s hs
  refine ⟨h2 s hs, ?_⟩
  have : s.length ≤ ss.flatten.length := by
    obtain ⟨a, b, rfl⟩ := List.append_of_mem hs
    simp only [List.flatten_append, List.flatten_cons, List.length_append]
    omega
  rw [h1] at hl
  simp only [List.length_append] at hl
  omega

/-- Reading segments that are all harmless. -/
theorem newDecrypted_safe {h : ReadHeader} {raw : Bytes} (hv : h.hbciVersion ≠ none) (h1 : (newExtractor raw).extract.2 ≠ .panic)
    (h2 : ∀ ss, (newExtractor raw).extract.2 = .ok ss → ∀ s ∈ ss, Harmless s) : newDecrypted decoders h raw ≠ .panic := by
  unfold newDecrypted
  have hu : unmarshalMessage decoders raw ≠ .panic := by
    unfold unmarshalMessage
    exact bind_safe h1 fun ss hs => map_safe (readSegments_harmless (h2 ss hs) _).1
  refine bind_safe hu fun u hu' => ?_
  unfold unmarshalMessage at hu'
  obtain ⟨ss, hs, hu'⟩ := Dialog.bind_ok hu'
  obtain ⟨m, hm, rfl⟩ := Dialog.map_ok hu'
  have := (readSegments_harmless (h2 ss hs) _).2 m hm
  refine bind_safe (by show segmentAcks (m _) ≠ _; rw [this]; simp [segmentAcks]) fun _ _ => ?_
  cases hv' : h.hbciVersion with
  | none => exact absurd hv' hv
  | some n => simp only; split <;> simp

end Verif.Bank
