import Verif.Bankinfo.Parser
import Verif.Bankinfo.Props
import Mathlib.Data.List.Basic
import Mathlib.Data.List.Forall2

/-
C107: from the files of the banks to the table a client looks into.
-/

namespace Verif.Bankinfo

/-! ## Specification -/

/-- The text without the white space around it. -/
def Trimmed (raw s : Str) : Prop :=
  ∃ pre post, raw = pre ++ s ++ post ∧ (∀ c ∈ pre, isSpace c = true) ∧ (∀ c ∈ post, isSpace c = true) ∧
    (∀ c, s.head? = some c → isSpace c = false) ∧ (∀ c, s.getLast? = some c → isSpace c = false)

/-- What a line says about a bank. -/
structure Tells (r : Record) (e : BankInfo) : Prop where
  bankID : Trimmed (r c!"BLZ") e.bankID
  bic : Trimmed (r c!"BIC") e.bic
  versionNumber : Trimmed (r c!"HBCI-Version") e.versionNumber
  url : Trimmed (r c!"PIN/TAN-Zugang URL") e.url
  versionName : Trimmed (r c!"Version") e.versionName
  institute : Trimmed (r c!"Institut") e.institute
  city : Trimmed (r c!"Ort") e.city
  lastChanged : Trimmed (r c!"Datum letzte Änderung") e.lastChanged

/-! ## Lemmas -/

theorem trimmed_trimSpace (s : Str) : Trimmed s (trimSpace s) := by
  unfold trimSpace
  have h1 : ∀ (l : Str), ∃ p, l = p ++ l.dropWhile isSpace ∧ ∀ c ∈ p, isSpace c = true := fun l =>
    ⟨l.takeWhile isSpace, (List.takeWhile_append_dropWhile).symm, fun c hc => by
      simpa using List.all_eq_true.1 (List.all_takeWhile (p := isSpace) (l := l)) c hc⟩
  have h2 : ∀ (l : Str) c, (l.dropWhile isSpace).head? = some c → isSpace c = false := by
    intro l c hc
    induction l with
    | nil => simp at hc
    | cons d l ih =>
      rw [List.dropWhile_cons] at hc
      split at hc
      · exact ih hc
      · simp at hc; subst hc; simp_all
  obtain ⟨p, hp, hps⟩ := h1 s
  obtain ⟨q, hq, hqs⟩ := h1 (s.dropWhile isSpace).reverse
  generalize ht : s.dropWhile isSpace = t at *
  have hq' : t = (t.reverse.dropWhile isSpace).reverse ++ q.reverse := by
    have := congrArg List.reverse hq
    rwa [List.reverse_reverse, List.reverse_append] at this
  refine ⟨p, q.reverse, by rw [List.append_assoc, ← hq', ← hp], hps, by simpa using hqs, fun c hc => ?_, fun c hc => ?_⟩
  · refine h2 s c ?_
    rw [ht, hq', List.head?_append, hc]
    rfl
  · rw [List.getLast?_reverse] at hc
    exact h2 _ c hc

theorem Trimmed.unique {raw s t : Str} (hs : Trimmed raw s) (ht : Trimmed raw t) : s = t := by
  have key : ∀ {raw s : Str}, Trimmed raw s → trimSpace raw = s := by
    rintro raw s ⟨pre, post, rfl, h1, h2, h3, h4⟩
    unfold trimSpace
    cases s with
    | nil =>
      have : (pre ++ [] ++ post).dropWhile isSpace = [] := by
        have := List.dropWhile_append_of_pos (l₂ := []) (p := isSpace) (l₁ := pre ++ [] ++ post) (by
          simp only [List.append_nil, List.mem_append]
          rintro c (h | h)
          · exact h1 c h
          · exact h2 c h)
        simpa using this
      rw [this]
      rfl
    | cons c s =>
      have e1 : (pre ++ (c :: s) ++ post).dropWhile isSpace = (c :: s) ++ post := by
        rw [List.append_assoc, List.dropWhile_append_of_pos h1, List.cons_append, List.dropWhile_cons_of_neg]
        simp [h3 c rfl]
      rw [e1, List.reverse_append, List.dropWhile_append_of_pos (by simpa using h2)]
      have e2 : (c :: s).reverse.dropWhile isSpace = (c :: s).reverse := by
        cases hr : (c :: s).reverse with
        | nil => rfl
        | cons d r =>
          refine List.dropWhile_cons_of_neg ?_
          have : (c :: s).getLast? = some d := by
            rw [← List.head?_reverse, hr]; rfl
          simp [h4 d this]
      rw [e2, List.reverse_reverse]
  rw [← key hs, key ht]

theorem infoOf_tells (r : Record) : Tells r (infoOf r) :=
  ⟨trimmed_trimSpace _, trimmed_trimSpace _, trimmed_trimSpace _, trimmed_trimSpace _, trimmed_trimSpace _, trimmed_trimSpace _,
    trimmed_trimSpace _, trimmed_trimSpace _⟩

theorem Tells.unique {r : Record} {e e' : BankInfo} (h : Tells r e) (h' : Tells r e') : e = e' := by
  rcases e with ⟨⟩
  rcases e' with ⟨⟩
  simp only [BankInfo.mk.injEq]
  exact ⟨h.1.unique h'.1, h.2.unique h'.2, h.3.unique h'.3, h.4.unique h'.4, h.5.unique h'.5, h.6.unique h'.6, h.7.unique h'.7,
    h.8.unique h'.8⟩

theorem foldl_keep {α β : Type} (p : α → Prop) [DecidablePred p] (f : α → β) (l : List α) (acc : List β) :
    l.foldl (fun acc a => if p a then acc else acc ++ [f a]) acc = acc ++ (l.filter fun a => decide (¬ p a)).map f := by
  induction l generalizing acc with
  | nil => simp
  | cons a l ih =>
    rw [List.foldl_cons, ih]
    by_cases h : p a <;> simp [h]

theorem parse_ok (l : List Record) :
    parseBankInfos (.ok l) = .ok ((l.filter fun r => decide (¬ r c!"BLZ" = [])).map infoOf) := by
  unfold parseBankInfos
  simp only [foldl_keep (fun r : Record => r c!"BLZ" = []), List.nil_append]

theorem forall₂_map {α β : Type} {R : α → β → Prop} {f : α → β} (h : ∀ a, R a (f a)) (l : List α) : List.Forall₂ R l (l.map f) := by
  induction l with
  | nil => exact .nil
  | cons a l ih => exact .cons (h a) ih

/-! ## Reading -/

/-- Every line with a bank number gives one entry, in the order of the file, with what the line tells
without white space around it; other lines give none, and nothing else goes wrong. -/
theorem C107_parse (lines : List Record) :
    (∃ infos, parseBankInfos (.ok lines) = .ok infos ∧
      List.Forall₂ Tells (lines.filter fun r => decide (r c!"BLZ" ≠ [])) infos) ∧
    (∃ bics, parseBicData (.ok lines) = .ok bics ∧
      List.Forall₂ (fun r b => Trimmed (r c!"Bank-leitzahl") b.bankID ∧ Trimmed (r c!"BIC") b.bic)
        (lines.filter fun r => decide (r c!"Bank-leitzahl" ≠ [])) bics) := by
  refine ⟨⟨_, parse_ok lines, forall₂_map infoOf_tells _⟩, ?_⟩
  unfold parseBicData
  simp only [foldl_keep (fun r : Record => r c!"Bank-leitzahl" = []), List.nil_append]
  exact ⟨_, rfl, forall₂_map (fun r => ⟨trimmed_trimSpace _, trimmed_trimSpace _⟩) _⟩

theorem readFiles_ok (files : List (List Record)) (infos : List BankInfo) :
    readFiles (files.map .ok) infos = .ok (infos ++ (files.flatten.filter fun r => decide (¬ r c!"BLZ" = [])).map infoOf) := by
  induction files generalizing infos with
  | nil => simp [readFiles]
  | cons f files ih =>
    rw [List.map_cons, readFiles, parse_ok]
    simp only [ih, List.flatten_cons, List.filter_append, List.map_append, List.append_assoc]

theorem readFiles_bad {files : List (Outcome (List Record))} {infos : List BankInfo} {r : List BankInfo}
    (h : readFiles files infos = .ok r) : ∃ fs : List (List Record), files = fs.map .ok := by
  induction files generalizing infos with
  | nil => exact ⟨[], rfl⟩
  | cons f files ih =>
    unfold readFiles at h
    cases f with
    | ok l =>
      rw [parse_ok] at h
      obtain ⟨fs, rfl⟩ := ih h
      exact ⟨l :: fs, rfl⟩
    | err => simp [parseBankInfos] at h
    | panic => simp [parseBankInfos] at h

/-- The tool reads all files or none: it goes on exactly if every file can be read, and then has one
entry for every line with a bank number of any file. -/
theorem C107_files (files : List (Outcome (List Record))) :
    (∃ infos, readFiles files [] = .ok infos) ↔ ∀ f ∈ files, ∃ lines, f = .ok lines := by
  constructor
  · rintro ⟨infos, h⟩
    obtain ⟨fs, rfl⟩ := readFiles_bad h
    simp
  · intro h
    have : ∃ fs : List (List Record), files = fs.map .ok := by
      induction files with
      | nil => exact ⟨[], rfl⟩
      | cons f files ih =>
        obtain ⟨fs, e⟩ := ih (fun g hg => h g (by simp [hg]))
        obtain ⟨l, rfl⟩ := h f (by simp)
        exact ⟨l :: fs, by rw [e]; rfl⟩
    obtain ⟨fs, rfl⟩ := this
    exact ⟨_, readFiles_ok fs []⟩

/-! ## Finding -/

/-- Every bank of the files is found by its number: what is found is what some line tells about this
number, and what the line tells if only one has the number.  A number that is in no line gives an
empty entry. -/
theorem C107_found {files : List (List Record)} {infos table : List BankInfo} (hr : readFiles (files.map .ok) [] = .ok infos)
    (ht : SortedFrom infos table) (id : Str) :
    ((∀ r ∈ files.flatten, r c!"BLZ" ≠ [] → ¬ Trimmed (r c!"BLZ") id) → findByBankID table id = {}) ∧
    (∀ r ∈ files.flatten, r c!"BLZ" ≠ [] → Trimmed (r c!"BLZ") id →
      ∃ r' ∈ files.flatten, r' c!"BLZ" ≠ [] ∧ Tells r' (findByBankID table id) ∧ (findByBankID table id).bankID = id) ∧
    (∀ r ∈ files.flatten, r c!"BLZ" ≠ [] → Trimmed (r c!"BLZ") id →
      (∀ r' ∈ files.flatten, r' c!"BLZ" ≠ [] → Trimmed (r' c!"BLZ") id → ∀ e, Tells r e → Tells r' e) →
      Tells r (findByBankID table id)) := by
  rw [readFiles_ok, List.nil_append] at hr
  injection hr with hr
  have hm : ∀ e, e ∈ table ↔ ∃ r ∈ files.flatten, r c!"BLZ" ≠ [] ∧ infoOf r = e := by
    intro e
    rw [ht.1.mem_iff, ← hr, List.mem_map]
    simp only [List.mem_filter, decide_eq_true_eq, and_assoc, ne_eq]
  have hf : ∀ r ∈ files.flatten, r c!"BLZ" ≠ [] → Trimmed (r c!"BLZ") id →
      ∃ r' ∈ files.flatten, r' c!"BLZ" ≠ [] ∧ Tells r' (findByBankID table id) ∧ (findByBankID table id).bankID = id := by
    intro r h1 h2 h3
    have hid : (infoOf r).bankID = id := (infoOf_tells r).bankID.unique h3
    rcases foldl_last table id {} with ⟨g1, _⟩ | ⟨pre, e, post, g1, g2, g3, g4⟩
    · exact absurd hid (g1 _ ((hm _).2 ⟨r, h1, h2, rfl⟩))
    · have : findByBankID table id = e := g4
      rw [this]
      obtain ⟨r', k1, k2, k3⟩ := (hm e).1 (by rw [g1]; simp)
      exact ⟨r', k1, k2, k3 ▸ infoOf_tells r', g2⟩
  refine ⟨fun h => C56_missing table id fun e he hid => ?_, hf, fun r h1 h2 h3 h4 => ?_⟩
  · obtain ⟨r, h1, h2, rfl⟩ := (hm e).1 he
    exact h r h1 h2 (hid ▸ (infoOf_tells r).bankID)
  · obtain ⟨r', k1, k2, k3, k4⟩ := hf r h1 h2 h3
    have := h4 r' k1 k2 (k4 ▸ k3.bankID) _ (infoOf_tells r)
    rw [k3.unique this]
    exact infoOf_tells r

/-- In fact which of several lines with the same number counts is left to the sorting: for each of
them the table may be such that it is found. -/
theorem C107_any {files : List (List Record)} {infos : List BankInfo} (hr : readFiles (files.map .ok) [] = .ok infos)
    {r : Record} (h1 : r ∈ files.flatten) (h2 : r c!"BLZ" ≠ []) {id : Str} (h3 : Trimmed (r c!"BLZ") id) :
    ∃ table, SortedFrom infos table ∧ Tells r (findByBankID table id) := by
  rw [readFiles_ok, List.nil_append] at hr
  injection hr with hr
  have hid : (infoOf r).bankID = id := (infoOf_tells r).bankID.unique h3
  have hm : infoOf r ∈ infos := by
    rw [← hr]
    exact List.mem_map_of_mem (List.mem_filter.2 ⟨h1, by simpa using h2⟩)
  let le : BankInfo → BankInfo → Bool := fun a b => decide (¬ b.bankID < a.bankID)
  let s := (infos.erase (infoOf r)).mergeSort le
  have htrans : ∀ a b c : BankInfo, le a b = true → le b c = true → le a c = true := by
    intro a b c hab hbc
    simp only [le, decide_eq_true_eq, List.not_lt] at *
    exact List.le_trans hab hbc
  have htotal : ∀ a b : BankInfo, (le a b || le b a) = true := by
    intro a b
    simp only [le, Bool.or_eq_true, decide_eq_true_eq, List.not_lt]
    exact List.le_total _ _
  have hs : s.Pairwise fun a b => le a b = true := List.pairwise_mergeSort htrans htotal _
  refine ⟨(s.filter fun e => decide (¬ id < e.bankID)) ++ infoOf r :: s.filter (fun e => decide (id < e.bankID)), ⟨?_, ?_⟩, ?_⟩
  · refine List.perm_middle.trans ?_
    refine List.Perm.trans ?_ (List.perm_cons_erase hm).symm
    refine List.Perm.cons _ ?_
    refine List.Perm.trans ?_ (List.mergeSort_perm _ le)
    refine List.perm_append_comm.trans ?_
    have := List.filter_append_perm (fun e : BankInfo => decide (id < e.bankID)) s
    simp only [decide_not]
    exact this
  · have hs' : s.Pairwise fun a b => ¬ less b a := hs.imp (by simp [le, less])
    rw [List.pairwise_append, List.pairwise_cons]
    refine ⟨hs'.filter _, ⟨?_, hs'.filter _⟩, ?_⟩
    · intro b hb
      have := (List.mem_filter.1 hb).2
      simp only [decide_eq_true_eq] at this
      unfold less
      rw [hid, List.not_lt]
      exact List.le_of_lt this
    · intro a ha b hb
      have ha := (List.mem_filter.1 ha).2
      simp only [decide_eq_true_eq, List.not_lt] at ha
      unfold less
      rw [List.not_lt]
      rcases List.mem_cons.1 hb with rfl | hb
      · rw [hid]; exact ha
      · have := (List.mem_filter.1 hb).2
        simp only [decide_eq_true_eq] at this
        exact List.le_trans ha (List.le_of_lt this)
  · rw [C56_found _ id _ _ (infoOf r) rfl hid]
    · exact infoOf_tells r
    · intro e he h
      have := (List.mem_filter.1 he).2
      simp only [decide_eq_true_eq, h] at this
      exact List.lt_irrefl _ this

/-! ## Cases -/

/-- Lines as a reader gives them: the values of the columns number, name, version and place. -/
def Sample.line (blz name version url : Str) : Record := fun column =>
  if column = c!"BLZ" then blz else if column = c!"Institut" then name else if column = c!"HBCI-Version" then version
  else if column = c!"PIN/TAN-Zugang URL" then url else []

def Sample.files : List (List Record) :=
  [[Sample.line c!"20000000 " c!"Bank B" c!"3.0" c!"https://b.example", Sample.line [] c!"Kopf" [] []],
   [Sample.line c!"10000000" c!" Bank A" c!"2.2" c!"https://a.example ", Sample.line c!"20000000" c!"Bank B neu" c!"3.0" []]]

example : ∃ infos, readFiles (Sample.files.map .ok) [] = .ok infos ∧ infos.map (·.bankID) = [c!"20000000", c!"10000000", c!"20000000"] ∧
    infos.map (·.institute) = [c!"Bank B", c!"Bank A", c!"Bank B neu"] := by
  refine ⟨_, readFiles_ok _ _, ?_, ?_⟩ <;> decide +kernel

/-- Two tables that the sorting may make of these files; they disagree about the second bank. -/
example : ∃ t1 t2 infos, readFiles (Sample.files.map .ok) [] = .ok infos ∧ SortedFrom infos t1 ∧ SortedFrom infos t2 ∧
    (findByBankID t1 c!"20000000").institute = c!"Bank B" ∧ (findByBankID t2 c!"20000000").institute = c!"Bank B neu" := by
  have h := readFiles_ok Sample.files []
  obtain ⟨t1, s1, f1⟩ := C107_any h (r := Sample.line c!"20000000 " c!"Bank B" c!"3.0" c!"https://b.example") (id := c!"20000000")
    (by simp [Sample.files]) (by decide) ⟨[], c!" ", by decide, by decide, by decide, by simp; decide, by simp; decide⟩
  obtain ⟨t2, s2, f2⟩ := C107_any h (r := Sample.line c!"20000000" c!"Bank B neu" c!"3.0" []) (id := c!"20000000")
    (by simp [Sample.files]) (by decide) ⟨[], [], by decide, by decide, by decide, by simp; decide, by simp; decide⟩
  refine ⟨t1, t2, _, h, s1, s2, ?_, ?_⟩
  · rw [f1.unique (infoOf_tells _)]; decide
  · rw [f2.unique (infoOf_tells _)]; decide

/-- A number of blanks only (in quotes, so that the reader keeps it) is not empty and gives an entry
with an empty number, which is then found for a client without a bank. -/
example : parseBankInfos (.ok [Sample.line c!"  " c!"Bank" c!"3.0" c!"https://x"]) =
    .ok [{ bankID := [], institute := c!"Bank", versionNumber := c!"3.0", url := c!"https://x" }] ∧
    findByBankID [{ bankID := [], institute := c!"Bank", versionNumber := c!"3.0", url := c!"https://x" }] [] ≠ {} := by
  decide +kernel

end Verif.Bankinfo
