import Verif.Bankinfo.Model

/-
C56: the bank table.
-/

namespace Verif.Bankinfo

theorem foldl_last (data : List BankInfo) (id : Str) (start : BankInfo) :
    (∀ e ∈ data, e.bankID ≠ id) ∧
        data.foldl (fun info entry => if entry.bankID = id then entry else info) start = start ∨
      ∃ pre e post, data = pre ++ e :: post ∧ e.bankID = id ∧ (∀ x ∈ post, x.bankID ≠ id) ∧
        data.foldl (fun info entry => if entry.bankID = id then entry else info) start = e := by
  induction data generalizing start with
  | nil => simp
  | cons a data ih =>
    rw [List.foldl_cons]
    rcases ih (if a.bankID = id then a else start) with ⟨h1, h2⟩ | ⟨pre, e, post, h1, h2, h3, h4⟩
    · by_cases ha : a.bankID = id
      · rw [if_pos ha] at h2
        right
        refine ⟨[], a, data, rfl, ha, h1, ?_⟩
        rw [if_pos ha]; exact h2
      · rw [if_neg ha] at h2
        left
        refine ⟨?_, ?_⟩
        · intro e he
          simp at he
          rcases he with rfl | he
          · exact ha
          · exact h1 e he
        · rw [if_neg ha]; exact h2
    · right
      exact ⟨a :: pre, e, post, by simp [h1], h2, h3, h4⟩

/-- C56: the last entry with the ID is found. -/
theorem C56_found (data : List BankInfo) (id : Str) (pre post : List BankInfo) (e : BankInfo)
    (h : data = pre ++ e :: post) (he : e.bankID = id) (hp : ∀ x ∈ post, x.bankID ≠ id) :
    findByBankID data id = e := by
  subst h
  unfold findByBankID
  rw [List.foldl_append, List.foldl_cons, if_pos he]
  rcases foldl_last post id e with ⟨_, h⟩ | ⟨p, x, q, h1, h2, _⟩
  · exact h
  · exact absurd h2 (hp x (by simp [h1]))

/-- C56: an unknown ID gives the entry with all fields empty. -/
theorem C56_missing (data : List BankInfo) (id : Str) (h : ∀ e ∈ data, e.bankID ≠ id) :
    findByBankID data id = ⟨[], [], [], [], [], [], [], []⟩ := by
  unfold findByBankID
  rcases foldl_last data id {} with ⟨_, h⟩ | ⟨p, x, q, h1, h2, _⟩
  · exact h
  · exact absurd h2 (h x (by simp [h1]))

/-- C56: every answer is the empty entry or an entry of the table with that ID. -/
theorem C56_sound (data : List BankInfo) (id : Str) :
    findByBankID data id = ⟨[], [], [], [], [], [], [], []⟩ ∨
      (findByBankID data id ∈ data ∧ (findByBankID data id).bankID = id) := by
  unfold findByBankID
  rcases foldl_last data id {} with ⟨_, h⟩ | ⟨p, x, q, h1, h2, h3, h4⟩
  · exact Or.inl h
  · right
    rw [h4]
    exact ⟨by simp [h1], h2⟩

/-- The version names of the table and what they stand for. -/
def nameTable : List (Str × Int) :=
  [(c!"", -1), (c!"HBCI 2.2 Erweiterung PIN/TAN V1.01", 220), (c!"FinTS V3.0", 300),
   (c!"FinTS V4.0", 400), (c!"FinTS V4.1", 410)]

/-- The version numbers of the table and what they stand for. -/
def numberTable : List (Str × Int) :=
  [(c!"", -1), (c!"2.1", 210), (c!"2.2", 220), (c!"3.0", 300), (c!"4.0", 400), (c!"4.1", 410)]

theorem name_iff (s : Str) (v : Int) : parseVersionName s = some v ↔ (s, v) ∈ nameTable := by
  unfold parseVersionName nameTable
  simp only [List.mem_cons, Prod.mk.injEq, List.not_mem_nil, or_false]
  split
  · rename_i h; subst h; simp; exact eq_comm
  · split
    · rename_i h; subst h; simp; exact eq_comm
    · split
      · rename_i h; subst h; simp; exact eq_comm
      · split
        · rename_i h; subst h; simp; exact eq_comm
        · split
          · rename_i h; subst h; simp; exact eq_comm
          · simp_all

theorem number_iff (s : Str) (v : Int) : parseVersionNumber s = some v ↔ (s, v) ∈ numberTable := by
  unfold parseVersionNumber numberTable
  simp only [List.mem_cons, Prod.mk.injEq, List.not_mem_nil, or_false]
  split
  · rename_i h; subst h; simp; exact eq_comm
  · split
    · rename_i h; subst h; simp; exact eq_comm
    · split
      · rename_i h; subst h; simp; exact eq_comm
      · split
        · rename_i h; subst h; simp; exact eq_comm
        · split
          · rename_i h; subst h; simp; exact eq_comm
          · split
            · rename_i h; subst h; simp; exact eq_comm
            · simp_all

/-- C56: the version is the larger of the two columns. -/
theorem C56_version (b : BankInfo) (v : Int) :
    b.hbciVersion = .ok v ↔
      ∃ x y, (b.versionName, x) ∈ nameTable ∧ (b.versionNumber, y) ∈ numberTable ∧ v = max x y := by
  unfold BankInfo.hbciVersion hbciVersion
  simp only [← name_iff, ← number_iff]
  cases parseVersionName b.versionName with
  | none => simp
  | some x =>
    cases parseVersionNumber b.versionNumber with
    | none => simp
    | some y => simp [Int.max_comm, eq_comm]

/-- C56: an unknown value in either column is a panic, and nothing else is. -/
theorem C56_version_panic (b : BankInfo) :
    b.hbciVersion = .panic ↔
      b.versionName ∉ nameTable.map Prod.fst ∨ b.versionNumber ∉ numberTable.map Prod.fst := by
  have h1 : b.versionName ∈ nameTable.map Prod.fst ↔ ∃ v, parseVersionName b.versionName = some v := by
    simp only [List.mem_map, Prod.exists, name_iff]
    constructor
    · rintro ⟨s, v, h, rfl⟩; exact ⟨v, h⟩
    · rintro ⟨v, h⟩; exact ⟨_, v, h, rfl⟩
  have h2 : b.versionNumber ∈ numberTable.map Prod.fst ↔ ∃ v, parseVersionNumber b.versionNumber = some v := by
    simp only [List.mem_map, Prod.exists, number_iff]
    constructor
    · rintro ⟨s, v, h, rfl⟩; exact ⟨v, h⟩
    · rintro ⟨v, h⟩; exact ⟨_, v, h, rfl⟩
  rw [h1, h2]
  unfold BankInfo.hbciVersion hbciVersion
  cases parseVersionName b.versionName with
  | none => simp
  | some x =>
    cases parseVersionNumber b.versionNumber with
    | none => simp
    | some y => simp

/-- C56: the entry for an unknown bank has version -1, which no version of the library is. -/
theorem C56_version_missing (data : List BankInfo) (id : Str) (h : ∀ e ∈ data, e.bankID ≠ id) :
    (findByBankID data id).hbciVersion = .ok (-1) := by
  rw [C56_missing data id h, C56_version]
  exact ⟨-1, -1, by simp [nameTable], by simp [numberTable], rfl⟩

example : findByBankID [{ bankID := c!"1", city := c!"A" }, { bankID := c!"2" }, { bankID := c!"1", city := c!"B" }]
    c!"1" = { bankID := c!"1", city := c!"B" } := by decide
example : (BankInfo.mk [] [] c!"3.0" [] c!"FinTS V4.0" [] [] []).hbciVersion = .ok 400 ∧
    (BankInfo.mk [] [] c!"3.0" [] c!"FinTS" [] [] []).hbciVersion = .panic := by decide

end Verif.Bankinfo
