import Verif.Bank.Lists
import Verif.Element.GroupsProps

/-
C121: lists written by the library and read by it.
-/

namespace Verif.Bank

open GoLib Element Token.Spec Element.Spec

/-! ## Lemmas -/

theorem join_append {a b : List Bytes} (ha : a ≠ []) (hb : b ≠ []) :
    join 58 (a ++ b) = join 58 a ++ [58] ++ join 58 b := by
  induction a with
  | nil => exact absurd rfl ha
  | cons x a iha =>
    cases a with
    | nil => rw [List.singleton_append, join_cons _ _ hb]; simp [join]
    | cons y a =>
      rw [List.cons_append, join_cons 58 x (show y :: a ++ b ≠ [] by simp), iha (by simp),
        join_cons 58 x (show y :: a ≠ [] by simp)]
      simp

theorem join_flatten (qs : List (List Bytes)) (h : ∀ q ∈ qs, q ≠ []) :
    join 58 (qs.map (join 58)) = join 58 qs.flatten := by
  induction qs with
  | nil => rfl
  | cons q qs ih =>
    have ih := ih fun x hx => h x (List.mem_cons_of_mem _ hx)
    cases qs with
    | nil => simp [join]
    | cons r qs =>
      have hr : (r :: qs).flatten ≠ [] := by
        have := h r (by simp)
        cases r with
        | nil => exact absurd rfl this
        | cons a r => simp
      rw [List.map_cons, join_cons _ _ (by simp), ih, List.flatten_cons (L := r :: qs), join_append (h q (by simp)) hr]
      simp

/-- What a list of groups looks like on the wire, and what extraction makes of it. -/
theorem extract_list {min max : Nat} {es : List (Option DE)} {qs : List (List Bytes)} {init : List Bytes} {p m : Bytes}
    (hps : es.map DE.marshalOpt = (qs.map (join 58)).map .ok) (hq : ∀ q ∈ qs, q ≠ []) (hf : qs.flatten = init ++ [p])
    (hparts : ∀ x ∈ init, Part x) (hp : Part p) (hpn : p ≠ []) (hlast : p.getLast? ≠ some 58)
    (hm : (DE.array min max es).marshal = .ok m) (hl : m.length < 2 ^ 63) :
    m = pre 58 init ++ p ∧ Element.extractElements m = if 43 ∈ m ∨ 39 ∈ m then .err else .ok qs.flatten := by
  have hall := marshalAll_ok.2 hps
  have htr : trimRight 58 p = p := trimRight_of_last hlast
  have hmm : m = pre 58 init ++ p := by
    rw [DE.marshal, hall] at hm
    simp only [Outcome.map', Outcome.ok.injEq] at hm
    rw [← hm, join_flatten _ hq, hf, join_snoc, trimRight_prefix _ (by rw [htr]; exact hpn), htr]
  refine ⟨hmm, ?_⟩
  subst hmm
  rw [extract_parts hparts hp hl, if_neg hpn, hf]

theorem mem_pre {c : Byte} (hc : c ≠ 58) {ps : List Bytes} : c ∈ pre 58 ps ↔ ∃ p ∈ ps, c ∈ p := by
  unfold pre
  simp only [List.mem_flatMap, List.mem_append, List.mem_singleton, hc, or_false]

theorem itoa_plain (n : Int) : (43 : Byte) ∉ itoa n ∧ (39 : Byte) ∉ itoa n := by
  have key : ∀ c : Byte, ¬ Digit c → c ≠ 45 → c ∉ itoa n := by
    intro c hc h45 hm
    rcases Segment.itoa_mem hm with h | h
    · exact hc h
    · exact h45 h
  exact ⟨key 43 (by unfold Digit; decide) (by decide), key 39 (by unfold Digit; decide) (by decide)⟩

/-- Numbers on the wire. -/
theorem numbers_extract {ns : List Int} {m : Bytes} (hn : ns ≠ []) (hm : (numbersDE ns).marshal = .ok m)
    (hl : m.length < 2 ^ 63) : Element.extractElements m = .ok (ns.map itoa) := by
  have hfl : ∀ l : List Int, (l.map fun n => [itoa n]).flatten = l.map itoa := by
    intro l
    induction l with
    | nil => rfl
    | cons a l ih => simp [ih]
  obtain ⟨ini, z, rfl⟩ : ∃ ini z, ns = ini ++ [z] := by
    rcases List.eq_nil_or_concat ns with h | ⟨a, b, h⟩
    · exact absurd h hn
    · exact ⟨a, b, by simpa using h⟩
  have hx := extract_list (qs := (ini ++ [z]).map fun n => [itoa n]) (init := ini.map itoa) (p := itoa z)
    (by simp [DE.marshalOpt, DE.marshal, marshalNumber, join]) (by intro q hq; obtain ⟨n, -, rfl⟩ := List.mem_map.1 hq; simp)
    (by rw [hfl]; simp)
    (by intro x hx; obtain ⟨n, -, rfl⟩ := List.mem_map.1 hx; exact Or.inr (itoa_value _))
    (Or.inr (itoa_value _)) (Segment.itoa_ne_nil _) (Segment.itoa_not_colon _) hm hl
  rw [hx.2, hfl, if_neg]
  rw [hx.1]
  simp only [List.mem_append, mem_pre (show (43 : Byte) ≠ 58 by decide), mem_pre (show (39 : Byte) ≠ 58 by decide),
    List.mem_map]
  rintro ((⟨p, ⟨n, -, rfl⟩, h⟩ | h) | (⟨p, ⟨n, -, rfl⟩, h⟩ | h))
  · exact (itoa_plain _).1 h
  · exact (itoa_plain _).1 h
  · exact (itoa_plain _).2 h
  · exact (itoa_plain _).2 h

theorem atoi_itoa {n : Int} (h : IsInt n) : atoi (itoa n) = some n := by
  have := C09_number n h
  unfold unmarshalNumber marshalNumber at this
  cases hx : atoi (itoa n) with
  | none => rw [hx] at this; cases this
  | some k => rw [hx] at this; cases this; rfl

theorem unmarshalNumbers_itoa {bound : Int → Bool} {ns r : List Int} (h : ∀ n ∈ ns, IsInt n) :
    unmarshalNumbers bound (ns.map itoa) = .ok r ↔ r = ns ∧ ∀ n ∈ ns, bound n = true := by
  induction ns generalizing r with
  | nil =>
    simp only [List.map_nil, unmarshalNumbers, Outcome.ok.injEq, List.not_mem_nil, false_implies, implies_true, and_true]
    exact eq_comm
  | cons a ns ih =>
    have ih := fun r => @ih r fun n hn => h n (List.mem_cons_of_mem _ hn)
    rw [List.map_cons, unmarshalNumbers, atoi_itoa (h a (by simp))]
    simp only [Outcome.ofOption, Outcome.bind]
    by_cases hb : bound a = true
    · rw [if_pos hb]
      cases hx : unmarshalNumbers bound (ns.map itoa) with
      | err =>
        simp only [Outcome.map']
        constructor
        · intro h; cases h
        · rintro ⟨rfl, h⟩
          have := (ih ns).2 ⟨rfl, fun n hn => h n (List.mem_cons_of_mem _ hn)⟩
          rw [hx] at this; cases this
      | panic =>
        simp only [Outcome.map']
        constructor
        · intro h; cases h
        · rintro ⟨rfl, h⟩
          have := (ih ns).2 ⟨rfl, fun n hn => h n (List.mem_cons_of_mem _ hn)⟩
          rw [hx] at this; cases this
      | ok s =>
        obtain ⟨rfl, hs⟩ := (ih s).1 hx
        simp only [Outcome.map', Outcome.ok.injEq]
        constructor
        · rintro rfl
          refine ⟨rfl, ?_⟩
          simpa [hb] using hs
        · rintro ⟨rfl, -⟩; rfl
    · rw [if_neg hb]
      constructor
      · intro h; cases h
      · rintro ⟨-, h⟩; exact absurd (h a (by simp)) hb

/-! ## C121: numbers -/

/-- C121: the versions a bank supports are read back exactly if there are one to nine of them;
their sizes do not matter. -/
theorem C121_versions {ns r : List Int} {m : Bytes} (hi : ∀ n ∈ ns, IsInt n) (hm : (numbersDE ns).marshal = .ok m)
    (hl : m.length < 2 ^ 63) : unmarshalVersions m = .ok r ↔ r = ns ∧ 1 ≤ ns.length ∧ ns.length ≤ 9 := by
  unfold unmarshalVersions
  by_cases hn : ns = []
  · subst hn
    have : m = [] := by cases hm; rfl
    subst this
    have : (Element.extractElements []).bind (fun es => if es.length = 0 ∨ 9 < es.length then .err
      else unmarshalNumbers (fun _ => true) es) = .err := by decide
    rw [this]
    simp
  · rw [numbers_extract hn hm hl]
    have h1 : 1 ≤ ns.length := List.length_pos_iff.2 hn
    simp only [Outcome.bind, List.length_map]
    by_cases h9 : 9 < ns.length
    · rw [if_pos (Or.inr h9)]
      constructor
      · intro h; cases h
      · rintro ⟨-, -, h⟩; omega
    · rw [if_neg (by omega), unmarshalNumbers_itoa hi]
      simp only [implies_true, and_true]
      constructor
      · rintro rfl; exact ⟨rfl, h1, by omega⟩
      · exact fun h => h.1

/-- C121: the languages a bank supports are read back exactly if there are one to nine of them
and none is greater than 3; zero and negative numbers pass. -/
theorem C121_languages {ns r : List Int} {m : Bytes} (hi : ∀ n ∈ ns, IsInt n) (hm : (numbersDE ns).marshal = .ok m)
    (hl : m.length < 2 ^ 63) :
    unmarshalLanguages m = .ok r ↔ r = ns ∧ 1 ≤ ns.length ∧ ns.length ≤ 9 ∧ ∀ n ∈ ns, n ≤ 3 := by
  unfold unmarshalLanguages
  by_cases hn : ns = []
  · subst hn
    have : m = [] := by cases hm; rfl
    subst this
    have : (Element.extractElements []).bind (fun es => if es.length = 0 ∨ 9 < es.length then .err
      else unmarshalNumbers (fun n => decide (n ≤ 3)) es) = .err := by decide
    rw [this]
    simp
  · rw [numbers_extract hn hm hl]
    have h1 : 1 ≤ ns.length := List.length_pos_iff.2 hn
    simp only [Outcome.bind, List.length_map]
    by_cases h9 : 9 < ns.length
    · rw [if_pos (Or.inr h9)]
      constructor
      · intro h; cases h
      · rintro ⟨-, -, h, -⟩; omega
    · rw [if_neg (by omega), unmarshalNumbers_itoa hi]
      simp only [decide_eq_true_eq]
      constructor
      · rintro ⟨rfl, h⟩; exact ⟨rfl, h1, by omega, h⟩
      · exact fun h => ⟨h.1, h.2.2.2⟩

example : (numbersDE [210, 220, 300]).marshal = .ok b!"210:220:300" ∧
    unmarshalVersions b!"210:220:300" = .ok [210, 220, 300] ∧ unmarshalLanguages b!"1:-2" = .ok [1, -2] ∧
    unmarshalLanguages b!"1:4" = .err ∧ unmarshalVersions b!"" = .err :=
  ⟨rfl, by decide +kernel, by decide +kernel, by decide +kernel, by decide +kernel⟩

/-! ## C121: which jobs need a TAN -/

theorem marshalBool_value (v : Bool) : Value (marshalBool v) := by
  have := C12_leaf (e := .boolean v) (p := marshalBool v) trivial rfl
  rcases this with h | h
  · cases v <;> cases h
  · exact h

theorem marshalBool_plain (v : Bool) : (43 : Byte) ∉ marshalBool v ∧ (39 : Byte) ∉ marshalBool v ∧
    (marshalBool v).getLast? ≠ some 58 ∧ marshalBool v ≠ [] := by cases v <;> decide

/-- The parts of one job on the wire. -/
def jobParts (j : Str × Bool) : List Bytes := [enc (escape j.1), marshalBool j.2]

theorem job_marshal {j : Str × Bool} (h : Latin1 j.1) :
    DE.marshalOpt (some (.group 2 [some (.alnum j.1 6), some (.boolean j.2)])) = .ok (join 58 (jobParts j)) := by
  have hb := marshalBool_plain j.2
  simp only [DE.marshalOpt, DE.marshal, DE.marshalAll, marshalText_ok h, Outcome.bind, Outcome.map', Outcome.ok.injEq]
  have e : join 58 (jobParts j) = pre 58 [enc (escape j.1)] ++ marshalBool j.2 := by simp [jobParts, join, pre]
  have e' : join 58 [enc (escape j.1), marshalBool j.2] = pre 58 [enc (escape j.1)] ++ marshalBool j.2 := by
    simp [join, pre]
  have htr := trimRight_of_last hb.2.2.1
  rw [e, e', trimRight_prefix _ (by rw [htr]; exact hb.2.2.2), htr]

theorem unmarshalPinJob_parts {j : Str × Bool} (h : Sendable j.1) (hs : NoSep j.1)
    (hl : (pre 58 [enc (escape j.1)] ++ marshalBool j.2).length < 2 ^ 63) :
    unmarshalPinJob (join 58 (jobParts j)) = .ok (escape j.1, j.2) := by
  have hb := marshalBool_plain j.2
  have e : join 58 (jobParts j) = pre 58 [enc (escape j.1)] ++ marshalBool j.2 := by simp [jobParts, join, pre]
  have hx := extract_parts (init := [enc (escape j.1)]) (p := marshalBool j.2)
    (by intro q hq; rw [List.mem_singleton.1 hq]; exact part_of_sendable h) (Or.inr (marshalBool_value _)) hl
  have hw := (noSep_wire h.1).2 hs
  rw [if_neg] at hx
  · unfold unmarshalPinJob
    rw [e, hx]
    simp only [Outcome.bind, List.cons_append, List.nil_append, (C11_bool _ j.2).2 rfl, Outcome.map',
      toUTF8_enc (escape_latin1.2 h.1)]
  · simp only [List.mem_append, mem_pre (show (43 : Byte) ≠ 58 by decide), mem_pre (show (39 : Byte) ≠ 58 by decide),
      List.mem_singleton, exists_eq_left, hw.1, hw.2, hb.1, hb.2.1, or_self, not_false_eq_true]

theorem unmarshalPinJobList_parts {js : List (Str × Bool)} (h : ∀ j ∈ js, Sendable j.1 ∧ NoSep j.1)
    (hl : ∀ j ∈ js, (pre 58 [enc (escape j.1)] ++ marshalBool j.2).length < 2 ^ 63) :
    unmarshalPinJobList (js.map jobParts).flatten = .ok (js.map fun j => (escape j.1, j.2)) := by
  induction js with
  | nil => rfl
  | cons j js ih =>
    have ih := ih (fun x hx => h x (List.mem_cons_of_mem _ hx)) (fun x hx => hl x (List.mem_cons_of_mem _ hx))
    have hj := unmarshalPinJob_parts (h j (by simp)).1 (h j (by simp)).2 (hl j (by simp))
    rw [List.map_cons, List.flatten_cons]
    unfold jobParts at hj ⊢
    rw [List.cons_append, List.cons_append, List.nil_append, unmarshalPinJobList, hj]
    have ih' : unmarshalPinJobList (js.map fun j => [enc (escape j.1), marshalBool j.2]).flatten =
      .ok (js.map fun j => (escape j.1, j.2)) := ih
    simp only [Outcome.bind]
    rw [show (List.map (fun j : Str × Bool => [enc (escape j.1), marshalBool j.2]) js).flatten =
      (js.map fun j => [enc (escape j.1), marshalBool j.2]).flatten from rfl, ih']
    rfl

theorem job_flatten_snoc (ini : List (Str × Bool)) (z : Str × Bool) :
    ((ini ++ [z]).map jobParts).flatten = ((ini.map jobParts).flatten ++ [enc (escape z.1)]) ++ [marshalBool z.2] := by
  simp [jobParts]

/-- C121: of a list of jobs and whether they need a TAN, the IDs come back as they were escaped
for the transmission; the list must not be empty and no ID may contain `+` or `'`. -/
theorem C121_pin_jobs {js r : List (Str × Bool)} {m : Bytes} (hs : ∀ j ∈ js, Sendable j.1)
    (hm : (pinJobsDE js).marshal = .ok m) (hl : m.length < 2 ^ 63) :
    unmarshalPinJobs m = .ok r ↔ r = js.map (fun j => (escape j.1, j.2)) ∧ js ≠ [] ∧ ∀ j ∈ js, NoSep j.1 := by
  unfold unmarshalPinJobs
  by_cases hn : js = []
  · subst hn
    have : m = [] := by cases hm; rfl
    subst this
    have : (Element.extractElements []).bind (fun es => if es.length % 2 ≠ 0 then .err else unmarshalPinJobList es) = .err := by
      decide
    rw [this]
    simp
  · obtain ⟨ini, z, rfl⟩ : ∃ ini z, js = ini ++ [z] := by
      rcases List.eq_nil_or_concat js with h | ⟨a, b, h⟩
      · exact absurd h hn
      · exact ⟨a, b, by simpa using h⟩
    have hb := marshalBool_plain z.2
    have hx := extract_list (qs := (ini ++ [z]).map jobParts) (init := (ini.map jobParts).flatten ++ [enc (escape z.1)])
      (p := marshalBool z.2)
      (by
        rw [List.map_map, List.map_map, List.map_map]
        refine List.map_congr_left fun j hj => ?_
        exact job_marshal (hs j hj).1)
      (by intro q hq; obtain ⟨j, -, rfl⟩ := List.mem_map.1 hq; simp [jobParts])
      (job_flatten_snoc ini z)
      (by
        intro x hx
        simp only [List.mem_append, List.mem_flatten, List.mem_map, List.mem_singleton] at hx
        rcases hx with ⟨q, ⟨j, hj, rfl⟩, hx⟩ | rfl
        · simp only [jobParts, List.mem_cons, List.not_mem_nil, or_false] at hx
          rcases hx with rfl | rfl
          · exact part_of_sendable (hs j (by simp [hj]))
          · exact Or.inr (marshalBool_value _)
        · exact part_of_sendable (hs z (by simp)))
      (Or.inr (marshalBool_value _)) hb.2.2.2 hb.2.2.1 hm hl
    have hmem : ∀ c : Byte, c ≠ 58 → (∀ v, c ∉ marshalBool v) → (c ∈ m ↔ ∃ j ∈ ini ++ [z], c ∈ enc (escape j.1)) := by
      intro c hc hv
      rw [hx.1, List.mem_append, mem_pre hc]
      constructor
      · rintro (⟨q, hq, h⟩ | h)
        · simp only [List.mem_append, List.mem_flatten, List.mem_map, List.mem_singleton] at hq
          rcases hq with ⟨q', ⟨j, hj, rfl⟩, hq⟩ | rfl
          · simp only [jobParts, List.mem_cons, List.not_mem_nil, or_false] at hq
            rcases hq with rfl | rfl
            · exact ⟨j, by simp [hj], h⟩
            · exact absurd h (hv _)
          · exact ⟨z, by simp, h⟩
        · exact absurd h (hv _)
      · rintro ⟨j, hj, h⟩
        left
        refine ⟨_, ?_, h⟩
        simp only [List.mem_append, List.mem_flatten, List.mem_map, List.mem_singleton] at hj ⊢
        rcases hj with hj | rfl
        · exact Or.inl ⟨jobParts j, ⟨j, hj, rfl⟩, by simp [jobParts]⟩
        · exact Or.inr rfl
    have hsep : (43 ∈ m ∨ 39 ∈ m) ↔ ¬ ∀ j ∈ ini ++ [z], NoSep j.1 := by
      rw [hmem 43 (by decide) (fun v => (marshalBool_plain v).1), hmem 39 (by decide) (fun v => (marshalBool_plain v).2.1)]
      constructor
      · rintro (⟨j, hj, h⟩ | ⟨j, hj, h⟩) hall
        · exact ((noSep_wire (hs j hj).1).2 (hall j hj)).1 h
        · exact ((noSep_wire (hs j hj).1).2 (hall j hj)).2 h
      · intro h
        push Not at h
        obtain ⟨j, hj, h⟩ := h
        have := mt (noSep_wire (hs j hj).1).1 h
        by_cases h43 : (43 : Byte) ∈ enc (escape j.1)
        · exact Or.inl ⟨j, hj, h43⟩
        · exact Or.inr ⟨j, hj, by by_contra h39; exact this ⟨h43, h39⟩⟩
    rw [hx.2]
    by_cases hno : ∀ j ∈ ini ++ [z], NoSep j.1
    · rw [if_neg (fun h => hsep.1 h hno)]
      have hlen : ((ini ++ [z]).map jobParts).flatten.length % 2 = 0 := by
        have : ∀ l : List (Str × Bool), (l.map jobParts).flatten.length % 2 = 0 := by
          intro l
          induction l with
          | nil => rfl
          | cons j l ih =>
            rw [List.map_cons, List.flatten_cons, List.length_append]
            have : (jobParts j).length = 2 := rfl
            omega
        exact this _
      have hsz : ∀ j ∈ ini ++ [z], (pre 58 [enc (escape j.1)] ++ marshalBool j.2).length < 2 ^ 63 := by
        intro j hj
        refine lt_of_le_of_lt ?_ hl
        have e : ∀ l : List (Str × Bool), j ∈ l → (pre 58 [enc (escape j.1)] ++ marshalBool j.2).length + 1 ≤
            (pre 58 (l.map jobParts).flatten).length := by
          intro l hl
          induction l with
          | nil => cases hl
          | cons k l ih =>
            have hk : (pre 58 ((k :: l).map jobParts).flatten).length =
                (pre 58 (jobParts k)).length + (pre 58 (l.map jobParts).flatten).length := by
              rw [List.map_cons, List.flatten_cons, pre_append, List.length_append]
            rcases List.mem_cons.1 hl with rfl | hl
            · have : (pre 58 (jobParts j)).length = (pre 58 [enc (escape j.1)] ++ marshalBool j.2).length + 1 := by
                simp [jobParts, pre]
                omega
              omega
            · have := ih hl; omega
        have e1 := e _ hj
        have e2 : (pre 58 ((ini ++ [z]).map jobParts).flatten).length = m.length + 1 := by
          have : pre 58 [marshalBool z.2] = marshalBool z.2 ++ [58] := by simp [pre]
          rw [job_flatten_snoc, pre_append, hx.1, this, ← List.append_assoc, List.length_append]
          rfl
        omega
      simp only [Outcome.bind]
      rw [if_neg (by omega), unmarshalPinJobList_parts (fun j hj => ⟨hs j hj, hno j hj⟩) hsz]
      simp only [Outcome.ok.injEq]
      constructor
      · rintro rfl; exact ⟨rfl, by simp, hno⟩
      · exact fun h => h.1.symm
    · rw [if_pos (hsep.2 hno)]
      constructor
      · intro h; cases h
      · exact fun h => absurd h.2.2 hno

/-- C121: so the jobs come back as given exactly if there are any and no ID needs escaping. -/
theorem C121_pin_jobs_roundtrip {js : List (Str × Bool)} {m : Bytes} (hs : ∀ j ∈ js, Sendable j.1)
    (hm : (pinJobsDE js).marshal = .ok m) (hl : m.length < 2 ^ 63) :
    unmarshalPinJobs m = .ok js ↔ js ≠ [] ∧ ∀ j ∈ js, ∀ c ∈ j.1, ¬ Special c := by
  rw [C121_pin_jobs hs hm hl]
  constructor
  · rintro ⟨h, hn, -⟩
    refine ⟨hn, fun j hj => ?_⟩
    have h' : js.map (fun j => (escape j.1, j.2)) = js.map id := by rw [← h, List.map_id]
    have := (List.map_inj_left.1 h') j hj
    exact escape_eq_self.1 (congrArg Prod.fst this)
  · rintro ⟨hn, h⟩
    refine ⟨?_, hn, fun j hj => ⟨fun hx => h j hj _ hx (by decide), fun hx => h j hj _ hx (by decide)⟩⟩
    conv_lhs => rw [← List.map_id js]
    refine List.map_congr_left fun j hj => ?_
    rw [escape_eq_self.2 (h j hj)]
    rfl

example : (pinJobsDE [(c!"HKSAL", false), (c!"HKUEB", true)]).marshal = .ok b!"HKSAL:N:HKUEB:J" ∧
    unmarshalPinJobs b!"HKSAL:N:HKUEB:J" = .ok [(c!"HKSAL", false), (c!"HKUEB", true)] ∧
    (pinJobsDE [(c!"A:B", true)]).marshal = .ok b!"A?:B:J" ∧ unmarshalPinJobs b!"A?:B:J" = .ok [(c!"A?:B", true)] :=
  ⟨rfl, by decide +kernel, rfl, by decide +kernel⟩

/-! ## C121: permitted transactions -/

/-- The texts of a transaction can be sent and contain no separators, and its amount is a
number. -/
def Spec.Plain (t : BusinessTransaction) : Prop :=
  (Sendable t.id ∧ NoSep t.id) ∧ IsInt t.signatures ∧
    ∀ l, t.limit = some l → (Sendable l.kind ∧ NoSep l.kind) ∧ l.amount.amount.Canonical ∧
      (Sendable l.amount.currency ∧ NoSep l.amount.currency) ∧ l.amount.currency.getLast? ≠ some ':'

/-- The parts of a transaction: ID, signatures and, with a limit, an amount in fourth place. -/
theorem transaction_parts {t : BusinessTransaction} {b : Bytes} (h : Spec.Plain t)
    (hm : (businessTransactionDE t).marshal = .ok b) :
    ∃ init p, b = join 58 (init ++ [p]) ∧ (∀ q ∈ init, Part q) ∧ Part p ∧ p ≠ [] ∧ p.getLast? ≠ some 58 ∧
      (∀ q ∈ init ++ [p], 43 ∉ q ∧ 39 ∉ q) ∧
      ((t.limit = none ∧ init.length = 1) ∨ (t.limit ≠ none ∧ init.getD 3 [] ≠ [] ∧ init.getD 1 [] ≠ [])) := by
  obtain ⟨⟨h1, h1s⟩, hi, hlim⟩ := h
  cases hl : t.limit with
  | none =>
    refine ⟨[enc (escape t.id)], itoa t.signatures, ?_, ?_, Or.inr (itoa_value _), Segment.itoa_ne_nil _,
      Segment.itoa_not_colon _, ?_, Or.inl ⟨rfl, rfl⟩⟩
    · unfold businessTransactionDE at hm
      rw [hl] at hm
      simp only [List.cons_append, List.nil_append, DE.marshal, DE.marshalAll, DE.marshalOpt,
        marshalText_ok h1.1, Outcome.bind, Outcome.map', marshalNumber, Outcome.ok.injEq] at hm
      have htr : trimRight 58 (itoa t.signatures) = itoa t.signatures := trimRight_of_last (Segment.itoa_not_colon _)
      have := trim_join (c := 58) (out := [enc (escape t.id)]) (p := itoa t.signatures) (k := 3)
        (by rw [htr]; exact Segment.itoa_ne_nil _)
      rw [htr] at this
      rw [← hm, join_snoc]
      exact this
    · intro q hq; rw [List.mem_singleton.1 hq]; exact part_of_sendable h1
    · intro q hq
      simp only [List.mem_append, List.mem_singleton] at hq
      rcases hq with rfl | rfl
      · exact (noSep_wire h1.1).2 h1s
      · exact itoa_plain _
  | some l =>
    obtain ⟨⟨h2, h2s⟩, h3, ⟨h4, h4s⟩, h5⟩ := hlim l hl
    refine ⟨_, itoa l.days, ?_, limited_parts (t := t) h1 h2 h3 h4, Or.inr (itoa_value _), Segment.itoa_ne_nil _,
      Segment.itoa_not_colon _, ?_, Or.inr ⟨by simp, ?_, ?_⟩⟩
    · rw [join_snoc]; exact limited_wire hl h1 h2 h3 h4 h5 hm
    · intro q hq
      have hf : (43 : Byte) ∉ floatString l.amount.amount ∧ (39 : Byte) ∉ floatString l.amount.amount :=
        ⟨(floatString_clean h3).1, (floatString_clean h3).2⟩
      simp only [List.mem_append, List.mem_cons, List.not_mem_nil, or_false] at hq
      rcases hq with ((rfl | rfl | rfl | rfl) | hq) | rfl
      · exact (noSep_wire h1.1).2 h1s
      · exact itoa_plain _
      · exact (noSep_wire h2.1).2 h2s
      · exact hf
      · split at hq
        · cases hq
        · rw [List.mem_singleton.1 hq]; exact (noSep_wire h4.1).2 h4s
      · exact itoa_plain _
    · simpa using Token.value_ne_nil (floatString_value h3)
    · simpa using Segment.itoa_ne_nil _

theorem transaction_written {t : BusinessTransaction} (h : Spec.Plain t) : ∃ b, (businessTransactionDE t).marshal = .ok b := by
  obtain ⟨⟨h1, -⟩, -, hlim⟩ := h
  unfold businessTransactionDE
  cases hl : t.limit with
  | none => simp [DE.marshal, DE.marshalAll, DE.marshalOpt, marshalText_ok h1.1, Outcome.map']
  | some l =>
    obtain ⟨⟨h2, -⟩, -, ⟨h4, -⟩, -⟩ := hlim l hl
    simp [amountDE, DE.marshal, DE.marshalAll, DE.marshalOpt, marshalText_ok h1.1, marshalText_ok h2.1,
      marshalText_ok h4.1, Outcome.map']

/-- Parts that can be written one after the other. -/
def Row (q : List Bytes) : Prop :=
  ∃ init p, q = init ++ [p] ∧ (∀ x ∈ init, Part x) ∧ Part p ∧ p ≠ [] ∧ p.getLast? ≠ some 58 ∧
    ∀ x ∈ init ++ [p], 43 ∉ x ∧ 39 ∉ x

theorem row_flatten {qs : List (List Bytes)} (h : ∀ q ∈ qs, Row q) (hn : qs ≠ []) : Row qs.flatten := by
  induction qs with
  | nil => exact absurd rfl hn
  | cons q qs ih =>
    cases qs with
    | nil => simpa using h q (by simp)
    | cons r qs =>
      obtain ⟨i2, p2, e2, a1, a2, a3, a4, a5⟩ := ih (fun x hx => h x (List.mem_cons_of_mem _ hx)) (by simp)
      obtain ⟨i1, p1, rfl, b1, b2, b3, b4, b5⟩ := h q (by simp)
      refine ⟨i1 ++ [p1] ++ i2, p2, by rw [List.flatten_cons, e2]; simp, ?_, a2, a3, a4, ?_⟩
      · intro x hx
        simp only [List.mem_append, List.mem_singleton] at hx
        rcases hx with (hx | rfl) | hx
        · exact b1 x hx
        · exact b2
        · exact a1 x hx
      · intro x hx
        rw [List.append_assoc] at hx
        rcases List.mem_append.1 hx with hx | hx
        · exact b5 x hx
        · exact a5 x hx

theorem transaction_rows (ts : List BusinessTransaction) (h : ∀ t ∈ ts, Spec.Plain t) :
    ∃ qs : List (List Bytes), qs.length = ts.length ∧
      (ts.map fun t => some (businessTransactionDE t)).map DE.marshalOpt = (qs.map (join 58)).map .ok ∧
      ∀ q ∈ qs, Row q ∧ q.getD 1 [] ≠ [] ∧ (q.length = 2 ∨ q.getD 3 [] ≠ []) := by
  induction ts with
  | nil => exact ⟨[], rfl, rfl, by simp⟩
  | cons t ts ih =>
    obtain ⟨qs, h1, h2, h3⟩ := ih fun x hx => h x (List.mem_cons_of_mem _ hx)
    obtain ⟨b, hb⟩ := transaction_written (h t (by simp))
    obtain ⟨init, p, rfl, a1, a2, a3, a4, a5, a6⟩ := transaction_parts (h t (by simp)) hb
    refine ⟨(init ++ [p]) :: qs, by simp [h1], ?_, ?_⟩
    · simp only [List.map_cons, h2, DE.marshalOpt, hb]
    · intro q hq
      rcases List.mem_cons.1 hq with rfl | hq
      · refine ⟨⟨init, p, rfl, a1, a2, a3, a4, a5⟩, ?_⟩
        rcases a6 with ⟨-, hlen⟩ | ⟨-, h3, h1⟩
        · match init, hlen with
          | [x], _ => exact ⟨by simpa using a3, Or.inl rfl⟩
        · have aux : ∀ i, init.getD i [] ≠ [] → (init ++ [p]).getD i [] ≠ [] := by
            intro i hi
            rw [List.getD_eq_getElem?_getD] at hi ⊢
            cases hx : init[i]? with
            | none => rw [hx] at hi; exact absurd rfl hi
            | some y =>
              have hlt : i < init.length := (List.getElem?_eq_some_iff.1 hx).1
              rw [List.getElem?_append_left hlt, hx]
              rw [hx] at hi
              exact hi
          exact ⟨aux 1 h1, Or.inr (aux 3 h3)⟩
      · exact h3 q hq

theorem split_none {c : Byte} {b : Bytes} (h : c ∉ b) : split c b = [b] := by
  induction b with
  | nil => rfl
  | cons x b ih =>
    have hx : x ≠ c := fun e => h (by simp [e])
    have := ih fun hc => h (List.mem_cons_of_mem _ hc)
    simp [split, hx, this]

/-- C121: permitted transactions written together are not read back: a list is understood
exactly if it holds one transaction and that has no limit. -/
theorem C121_allowed {ts r : List BusinessTransaction} {m : Bytes} (hp : ∀ t ∈ ts, Spec.Plain t)
    (hm : (allowedDE ts).marshal = .ok m) (hl : m.length + 1 < 2 ^ 63) :
    unmarshalBusinessTransactions m = .ok r ↔ r = ts ∧ ∃ t, ts = [t] ∧ t.limit = none := by
  by_cases hn : ts = []
  · subst hn
    have : m = [] := by cases hm; rfl
    subst this
    have : unmarshalBusinessTransactions [] = .err := by decide
    rw [this]
    simp
  obtain ⟨qs, hlen, hmar, hrow⟩ := transaction_rows ts hp
  have hqn : qs ≠ [] := by
    rintro rfl
    exact hn (List.length_eq_zero_iff.1 hlen.symm)
  obtain ⟨init, p, hf, a1, a2, a3, a4, a5⟩ := row_flatten (fun q hq => (hrow q hq).1) hqn
  have hx := extract_list hmar
    (by intro q hq; obtain ⟨i, x, rfl, -⟩ := (hrow q hq).1; simp) hf a1 a2 a3 a4 hm (by omega)
  have hno : ∀ c : Byte, c ≠ 58 → (∀ x ∈ init ++ [p], c ∉ x) → c ∉ m := by
    intro c hc h hcm
    rw [hx.1, List.mem_append, mem_pre hc] at hcm
    rcases hcm with ⟨x, hx, h'⟩ | h'
    · exact h x (by simp [hx]) h'
    · exact h p (by simp) h'
  have h43 := hno 43 (by decide) fun x hx => (a5 x hx).1
  have h39 := hno 39 (by decide) fun x hx => (a5 x hx).2
  have hex : Element.extractElements m = .ok qs.flatten := by rw [hx.2, if_neg (by simp [h43, h39])]
  have hone : ∀ r, unmarshalBusinessTransactions m = .ok r ↔ ∃ t, r = [t] ∧ unmarshalBusinessTransaction m = .ok t := by
    intro r
    unfold unmarshalBusinessTransactions
    rw [split_none h43, unmarshalBusinessTransactionList]
    cases hu : unmarshalBusinessTransaction m with
    | err => simp [Outcome.bind]
    | panic => simp [Outcome.bind]
    | ok t =>
      simp only [Outcome.bind, unmarshalBusinessTransactionList, Outcome.map', Outcome.ok.injEq, exists_eq_right']
      exact eq_comm
  rw [hone]
  match ts, hn with
  | [t], _ =>
    have hpl := hp t (by simp)
    obtain ⟨b, hb⟩ := transaction_written hpl
    have hbm : m = b := by
      obtain ⟨i, q, hbq, c1, c2, c3, c4, -⟩ := transaction_parts hpl hb
      have htr : trimRight 58 q = q := trimRight_of_last c4
      unfold allowedDE at hm
      simp only [List.map_cons, List.map_nil, DE.marshal, DE.marshalAll, DE.marshalOpt, hb, Outcome.bind, Outcome.map',
        join, Outcome.ok.injEq] at hm
      rw [← hm, hbq, join_snoc, trimRight_prefix _ (by rw [htr]; exact c3), htr]
    subst hbm
    cases hlim : t.limit with
    | none =>
      have := fun r => C59_without (r := r) hlim hpl.1.1 hpl.2.1 hb (by omega)
      constructor
      · rintro ⟨u, rfl, hu⟩
        obtain ⟨rfl, -⟩ := (this u).1 hu
        exact ⟨rfl, u, rfl, hlim⟩
      · rintro ⟨rfl, -⟩
        exact ⟨t, rfl, (this t).2 ⟨rfl, hpl.1.2⟩⟩
    | some l =>
      obtain ⟨⟨h2, -⟩, h3, ⟨h4, -⟩, h5⟩ := hpl.2.2 l hlim
      rw [C59_limit hlim hpl.1.1 h2 h3 h4 h5 hb hl]
      constructor
      · rintro ⟨u, -, hu⟩; cases hu
      · rintro ⟨-, u, hu, hun⟩
        rw [List.singleton_inj] at hu
        rw [← hu, hlim] at hun
        cases hun
  | t :: u :: ts, _ =>
    match qs, hlen, hrow with
    | q1 :: q2 :: qs, _, hrow =>
      have h3 : (q1 :: q2 :: qs).flatten.getD 3 [] ≠ [] := by
        have r1 := hrow q1 (by simp)
        have r2 := hrow q2 (by simp)
        rw [List.flatten_cons, List.flatten_cons]
        rcases r1.2.2 with h | h
        · match q1, h with
          | [x, y], _ =>
            match q2, r2.2.1 with
            | [], h => exact absurd rfl h
            | [x], h => exact absurd rfl h
            | x :: y :: z, h => simpa using h
        · match q1, h with
          | [], h => exact absurd rfl h
          | [_], h => exact absurd rfl h
          | [_, _], h => exact absurd rfl h
          | [_, _, _], h => exact absurd rfl h
          | x :: y :: z :: w :: _, h => simpa using h
      rw [C59_amount hex h3 hl]
      constructor
      · rintro ⟨u, -, hu⟩; cases hu
      · rintro ⟨-, v, hv, -⟩; cases hv

example : (allowedDE [⟨c!"HKSAL", 1, none⟩]).marshal = .ok b!"HKSAL:1" ∧
    unmarshalBusinessTransactions b!"HKSAL:1" = .ok [⟨c!"HKSAL", 1, none⟩] ∧
    (allowedDE [⟨c!"HKSAL", 1, none⟩, ⟨c!"HKUEB", 1, none⟩]).marshal = .ok b!"HKSAL:1:HKUEB:1" ∧
    unmarshalBusinessTransactions b!"HKSAL:1:HKUEB:1" = .err ∧
    unmarshalBusinessTransactions b!"HKSAL:1+HKUEB:1" = .ok [⟨c!"HKSAL", 1, none⟩, ⟨c!"HKUEB", 1, none⟩] :=
  ⟨rfl, by decide +kernel, rfl, by decide +kernel, by decide +kernel⟩

end Verif.Bank
