import Verif.Bankinfo.Table
import Verif.Client.NewProps

/-
C98: what a client can do that only knows its bank ID, with the table of the program.
-/

namespace Verif.Client

open GoLib Element Segment Message Domain Transport Dialog Bankinfo

variable {σ α : Type}

/-! ## Specification -/

/-- The bank has an entry in the table. -/
def Listed (id : Str) : Prop := ∃ e ∈ table, e.bankID = id

/-- The banks for which a client is made that has no URL to talk to. -/
def unreachable : List Nat := [
  10033300, 10040000, 12040000, 13040000, 20133300, 25040066, 25940033, 26040030, 26240039, 26340056, 26341072, 26540070, 26640049, 26740044,
  26840032, 26941053, 27040080, 27240004, 28040046, 28042865, 28240023, 28440037, 28540034, 29040090, 29240024, 30040000, 31040015, 32040024,
  32440023, 33040001, 33440035, 34040049, 34240050, 35040038, 35640064, 36033300, 36040039, 36240045, 36540046, 37040044, 37540050, 38040007,
  38440016, 39040013, 39540052, 40040028, 40340030, 41040018, 41440018, 42040040, 42640048, 42840005, 43040036, 44040037, 44340037, 44540022,
  45040042, 45240056, 45840026, 45841031, 46040033, 46240016, 46441003, 46640018, 47240047, 47640051, 47840065, 48040035, 49040043, 49240096,
  49440043, 50033300, 50040000, 50040033, 50220900, 50540028, 50640015, 50840005, 51040038, 51140029, 51340013, 51343224, 51540037, 51640043,
  52040021, 52240006, 53040012, 53240048, 53340024, 54040042, 54240032, 54540033, 54640035, 55033300, 55040022, 55340041, 56240050, 57040044,
  58540035, 59040000, 60040071, 60133300, 60241074, 60340071, 60440073, 61040014, 61140071, 61340079, 61440086, 62040060, 63040053, 63240016,
  64040033, 64040045, 64140036, 64240071, 65040073, 65140072, 65340004, 65341204, 65440087, 66040018, 66240002, 66340018, 66440084, 66640035,
  67040031, 67240039, 68040007, 68340058, 69040045, 69240075, 69440007, 70040041, 70050000, 70133300, 71140041, 71141041, 71142041, 72040046,
  72140052, 73140046, 73340046, 74040082, 74240062, 74340077, 75040062, 75240000, 75340090, 76040061, 76240011, 76340061, 77040080, 77140061,
  77340076, 78040081, 78340091, 79040047, 79340054, 79540049, 80040000, 81040000, 82040000, 83040000, 84040000, 85040000, 86033300, 86040000,
  87040000]

/-- A configuration that gives neither URL nor version. -/
structure Bare (config : Config) : Prop where
  url : config.url = []
  version : config.hbciVersion ≤ 0

/-! ## The table -/

/-- Entries in the order of the bank IDs; those of one bank are the same, except for one bank. -/
def Near (a b : Row) : Prop := a = b ∨ a.id < b.id ∨ a.id = 23051030 ∧ b.id = 23051030

instance (a b : Row) : Decidable (Near a b) := inferInstanceAs (Decidable (_ ∨ _))

set_option maxRecDepth 100000 in
theorem rows_near : rows.IsChain Near := by decide +kernel

set_option maxRecDepth 100000 in
theorem rows_urls : rows.all (fun r => Nat.beq r.id 23051030 || Nat.beq r.id 60050000 ||
    (Nat.beq r.url 5 == unreachable.any (Nat.beq r.id))) = true := by decide +kernel

set_option maxRecDepth 100000 in
theorem rows_kinds : ∀ r ∈ rows, r.id < 100000000 ∧ r.url < 87 ∧ r.kind < 7 ∧
    (r.kind = 4 ↔ r.id = 30020500) ∧ (r.kind = 5 ↔ r.id = 60050000) ∧ (r.kind = 6 ↔ r.id = 70050000) ∧
    (r.kind = 3 → r.id = 23051030) ∧ (r.url = 30 ↔ r.id = 30010444) := by decide +kernel

theorem rows_facts : ∀ r ∈ rows, r.id < 100000000 ∧ r.url < 87 ∧ r.kind < 7 ∧
    (r.kind = 4 ↔ r.id = 30020500) ∧ (r.kind = 5 ↔ r.id = 60050000) ∧ (r.kind = 6 ↔ r.id = 70050000) ∧
    (r.kind = 3 → r.id = 23051030) ∧ (r.url = 30 ↔ r.id = 30010444) ∧
    (r.id ≠ 23051030 → r.id ≠ 60050000 → (r.url = 5 ↔ r.id ∈ unreachable)) := by
  intro r hr
  obtain ⟨h1, h2, h3, h4, h5, h6, h7, h8⟩ := rows_kinds r hr
  refine ⟨h1, h2, h3, h4, h5, h6, h7, h8, fun g1 g2 => ?_⟩
  have h := List.all_eq_true.1 rows_urls r hr
  have e : ∀ a b : Nat, Nat.beq a b = true ↔ a = b := fun a b => ⟨Nat.eq_of_beq_eq_true, fun h => h ▸ Nat.beq_refl a⟩
  simp only [Bool.or_eq_true, e, g1, g2, false_or, beq_iff_eq] at h
  rw [← e, h, List.any_eq_true]
  simp [e]

theorem urls_facts : ∀ n < 87, (urls.getD n [] = [] ↔ n = 5) ∧ (n ≠ 5 → c!"https://" <+: urls.getD n []) ∧
    (' ' ∈ urls.getD n [] ↔ n = 30) := by decide +kernel

theorem rows_pairwise : rows.Pairwise Near := by
  have : IsTrans Row Near := ⟨by
    rintro a b c (rfl | h | ⟨h1, h2⟩) (rfl | h' | ⟨h1', h2'⟩)
    · exact .inl rfl
    · exact .inr (.inl h')
    · exact .inr (.inr ⟨h1', h2'⟩)
    · exact .inr (.inl h)
    · exact .inr (.inl (h.trans h'))
    · exact .inr (.inl (by omega))
    · exact .inr (.inr ⟨h1, h2⟩)
    · exact .inr (.inl (by omega))
    · exact .inr (.inr ⟨h1, h2'⟩)⟩
  exact List.isChain_iff_pairwise.1 rows_near

theorem pairwise_or {β : Type} {R : β → β → Prop} {l : List β} (h : l.Pairwise R) : ∀ a ∈ l, ∀ b ∈ l, a = b ∨ R a b ∨ R b a := by
  induction h with
  | nil => simp
  | cons h1 _ ih =>
    intro a ha b hb
    rcases List.mem_cons.1 ha with ha' | ha' <;> rcases List.mem_cons.1 hb with hb' | hb'
    · exact .inl (ha'.trans hb'.symm)
    · exact .inr (.inl (ha' ▸ h1 b hb'))
    · exact .inr (.inr (hb' ▸ h1 a ha'))
    · exact ih a ha' b hb'

/-- The entries of a bank are the same, except for one bank. -/
theorem rows_agree {a b : Row} (ha : a ∈ rows) (hb : b ∈ rows) (h : a.id = b.id) (hx : a.id ≠ 23051030) : a = b := by
  rcases pairwise_or rows_pairwise a ha b hb with h1 | (h1 | h1 | h1) | (h1 | h1 | h1)
  · exact h1
  · exact h1
  · omega
  · omega
  · exact h1.symm
  · omega
  · omega

theorem digits_inj {a b : Nat} (ha : a < 100000000) (hb : b < 100000000) (h : digits a = digits b) : a = b := by
  have key : ∀ x < 10, ∀ y < 10, Char.ofNat (48 + x) = Char.ofNat (48 + y) → x = y := by decide +kernel
  have k : ∀ x y : Nat, Char.ofNat (48 + x % 10) = Char.ofNat (48 + y % 10) → x % 10 = y % 10 :=
    fun x y => key _ (Nat.mod_lt _ (by decide)) _ (Nat.mod_lt _ (by decide))
  simp only [digits, List.map_cons, List.map_nil, List.cons.injEq, and_true] at h
  obtain ⟨h1, h2, h3, h4, h5, h6, h7, h8⟩ := h
  have := k _ _ h1; have := k _ _ h2; have := k _ _ h3; have := k _ _ h4
  have := k _ _ h5; have := k _ _ h6; have := k _ _ h7; have := k _ _ h8
  omega

theorem mem_of_split {β : Type} {l pre post : List β} {x : β} (h : l = pre ++ x :: post) : x ∈ l := by simp [h]

/-- The entry that is found. -/
theorem found_row {id : Str} (h : Listed id) : ∃ r ∈ rows, digits r.id = id ∧ EntryFor table id r.info := by
  rcases entry_exists table id with ⟨h1, _⟩ | ⟨pre, post, h1, h2, h3⟩
  · obtain ⟨e, he, h4⟩ := h
    exact absurd h4 (h1 e he)
  · have hm : findByBankID table id ∈ table := mem_of_split h1
    obtain ⟨r, hr, h4⟩ := List.mem_map.1 hm
    refine ⟨r, hr, ?_, ?_⟩
    · have : r.info.bankID = id := by rw [h4]; exact h2
      exact this
    · rw [h4]; exact .inr ⟨pre, post, h1, h2, h3⟩

set_option maxRecDepth 100000 in
/-- The last entry of the bank whose entries differ. -/
theorem found_exception : findByBankID table (digits 23051030) = (⟨23051030, 5, 3⟩ : Row).info := by decide +kernel

theorem kinds_versions : ∀ k < 7, ∀ u, (⟨0, u, k⟩ : Row).info.hbciVersion =
    .ok (if k = 3 then -1 else if k = 4 then 400 else if k = 5 then 210 else if k = 6 then 220 else 300) := by
  intro k hk u
  have : ∀ k < 7, hbciVersion (kinds.getD k ([], [])).2 (kinds.getD k ([], [])).1 =
      some (if k = 3 then -1 else if k = 4 then 400 else if k = 5 then 210 else if k = 6 then 220 else 300) := by decide +kernel
  unfold BankInfo.hbciVersion Row.info
  simp only [this k hk]

theorem row_version {r : Row} (hk : r.kind < 7) : r.info.hbciVersion =
    .ok (if r.kind = 3 then -1 else if r.kind = 4 then 400 else if r.kind = 5 then 210 else if r.kind = 6 then 220 else 300) :=
  kinds_versions r.kind hk r.url

/-- What is known about the entry that is found. -/
theorem found_facts {id : Str} (h : Listed id) : ∃ r ∈ rows, digits r.id = id ∧ EntryFor table id r.info ∧
    (r.kind = 3 ↔ id = c!"23051030") ∧ (r.kind = 4 ↔ id = c!"30020500") ∧ (r.kind = 5 ↔ id = c!"60050000") ∧ (r.kind = 6 ↔ id = c!"70050000") ∧
    (r.url = 30 ↔ id = c!"30010444") ∧ (id ≠ c!"23051030" → id ≠ c!"60050000" → (r.url = 5 ↔ id ∈ unreachable.map digits)) := by
  obtain ⟨r, hr, h1, h2⟩ := found_row h
  obtain ⟨f1, f2, f3, f4, f5, f6, f7, f8, f9⟩ := rows_facts r hr
  have e : ∀ n, n < 100000000 → (r.id = n ↔ id = digits n) := by
    intro n hn
    constructor
    · rintro rfl; exact h1.symm
    · intro h'; exact digits_inj f1 hn (h1.trans h')
  have d1 : c!"23051030" = digits 23051030 := by decide +kernel
  have d2 : c!"30020500" = digits 30020500 := by decide +kernel
  have d3 : c!"60050000" = digits 60050000 := by decide +kernel
  have d4 : c!"70050000" = digits 70050000 := by decide +kernel
  have d5 : c!"30010444" = digits 30010444 := by decide +kernel
  have hb : ∀ n ∈ unreachable, n < 100000000 := by decide +kernel
  refine ⟨r, hr, h1, h2, ?_, ?_, ?_, ?_, ?_, ?_⟩
  · rw [d1, ← e _ (by decide)]
    refine ⟨f7, fun hid => ?_⟩
    have hi : id = digits 23051030 := (e _ (by decide)).1 hid
    have h3 := entry_unique h2
    rw [hi, found_exception] at h3
    have h4 := congrArg BankInfo.hbciVersion h3
    rw [row_version f3, row_version (by decide)] at h4
    simp only [Outcome.ok.injEq] at h4
    by_contra hk
    rw [if_neg hk] at h4
    simp only [if_true] at h4
    revert h4
    split
    · simp
    · split
      · simp
      · split <;> simp
  · rw [d2, ← e _ (by decide)]; exact f4
  · rw [d3, ← e _ (by decide)]; exact f5
  · rw [d4, ← e _ (by decide)]; exact f6
  · rw [d5, ← e _ (by decide)]; exact f8
  · intro g1 g2
    rw [d1, Ne, ← e _ (by decide)] at g1
    rw [d3, Ne, ← e _ (by decide)] at g2
    rw [f9 g1 g2, List.mem_map]
    constructor
    · intro h'; exact ⟨r.id, h', h1⟩
    · rintro ⟨n, hn, h'⟩
      rw [← h1] at h'
      rw [← digits_inj (hb n hn) f1 h']
      exact hn

theorem created_bare {w : World σ α} {config : Config} (hb : Bare config) {info : BankInfo} (h : EntryFor table config.bankId info)
    (url : Str) (v : Version) : (∃ s : Dialog.St σ α, new w table config = .ok (url, v, s)) ↔ url = info.url ∧ info.hbciVersion = .ok v.number := by
  have hv : ¬ 0 < config.hbciVersion := by have := hb.version; omega
  rw [C79_created w table config info h url v]
  simp [hb.url, hb.version, hv]

/-! ## The property -/

/-- C98: with the table of the program, no configuration makes `New` panic. -/
theorem C98_no_panic (w : World σ α) (config : Config) : new w table config ≠ .panic := by
  by_cases hv : config.hbciVersion ≤ 0
  · obtain ⟨_, h2⟩ := C79_unknown w table config hv
    by_cases hl : Listed config.bankId
    · obtain ⟨r, hr, _, h3⟩ := found_row hl
      rw [Ne, h2 _ h3, row_version (rows_facts r hr).2.2.1]
      simp
    · have : ∀ e ∈ table, e.bankID ≠ config.bankId := fun e he h => hl ⟨e, he, h⟩
      rw [(C79_unknown w table config hv).1 this]
      simp
  · unfold new settings
    rw [if_pos (by omega)]
    cases supportedVersion config.hbciVersion <;> simp

/-- C98: a bank ID is enough to make a client exactly if the bank is listed and is none of three banks: one
whose last entry is empty, and two with versions that are not supported. -/
theorem C98_enough (w : World σ α) {config : Config} (hb : Bare config) :
    (∃ r, new w table config = .ok r) ↔ Listed config.bankId ∧ config.bankId ∉ [c!"23051030", c!"30020500", c!"60050000"] := by
  by_cases hl : Listed config.bankId
  · obtain ⟨r, hr, _, h2, k3, k4, k5, k6, _⟩ := found_facts hl
    have hk := (rows_facts r hr).2.2.1
    have e : (∃ x, new w table config = .ok x) ↔ ∃ v : Version, r.info.hbciVersion = .ok v.number := by
      constructor
      · rintro ⟨⟨url, v, s⟩, h⟩
        exact ⟨v, ((created_bare hb h2 url v).1 ⟨s, h⟩).2⟩
      · rintro ⟨v, h⟩
        obtain ⟨s, hs⟩ := (created_bare (w := w) hb h2 _ v).2 ⟨rfl, h⟩
        exact ⟨_, hs⟩
    rw [e, row_version hk]
    simp only [hl, true_and, List.mem_cons, List.not_mem_nil, or_false, ← k3, ← k4, ← k5, Outcome.ok.injEq]
    constructor
    · rintro ⟨v, h⟩ (h' | h' | h') <;> simp only [h'] at h <;> cases v <;> simp [Version.number] at h
    · intro h
      simp only [not_or] at h
      simp only [h.1, h.2.1, h.2.2, if_false]
      by_cases h6 : r.kind = 6
      · exact ⟨.hbci220, by simp [h6, Version.number]⟩
      · exact ⟨.fints300, by simp [h6, Version.number]⟩
  · have : ∀ e ∈ table, e.bankID ≠ config.bankId := fun e he h => hl ⟨e, he, h⟩
    rw [(C79_unknown w table config hb.version).1 this]
    simp [hl]

/-- C98: the URL of such a client is that of the table.  It is empty for the banks of the list, and otherwise
begins with `https://`; one has a space in it.  All but one of the clients speak version 300. -/
theorem C98_url (w : World σ α) {config : Config} (hb : Bare config) {url : Str} {v : Version} {s : Dialog.St σ α}
    (h : new w table config = .ok (url, v, s)) :
    (url = [] ↔ config.bankId ∈ unreachable.map digits) ∧ (url = [] ∨ c!"https://" <+: url) ∧
    (' ' ∈ url ↔ config.bankId = c!"30010444") ∧ (v = .hbci220 ↔ config.bankId = c!"70050000") := by
  obtain ⟨hl, hn⟩ := (C98_enough w hb).1 ⟨_, h⟩
  simp only [List.mem_cons, List.not_mem_nil, or_false, not_or] at hn
  obtain ⟨r, hr, _, h2, k3, k4, k5, k6, k7, k8⟩ := found_facts hl
  obtain ⟨_, f2, hk, _⟩ := rows_facts r hr
  obtain ⟨rfl, hv⟩ := (created_bare hb h2 url v).1 ⟨s, h⟩
  rw [row_version hk, if_neg (mt k3.1 hn.1), if_neg (mt k4.1 hn.2.1), if_neg (mt k5.1 hn.2.2)] at hv
  have hu : r.info.url = urls.getD r.url [] := rfl
  obtain ⟨u1, u2, u3⟩ := urls_facts r.url f2
  refine ⟨?_, ?_, ?_, ?_⟩
  · rw [hu, u1, k8 hn.1 hn.2.2]
  · rw [hu]
    by_cases h5 : r.url = 5
    · exact .inl (u1.2 h5)
    · exact .inr (u2 h5)
  · rw [hu, u3, k7]
  · rw [← k6]
    cases v
    · by_cases h6 : r.kind = 6
      · simp [h6]
      · simp [h6, Version.number] at hv
    · by_cases h6 : r.kind = 6
      · simp [h6, Version.number] at hv
      · simp [h6]

/-- C98: which entry of a bank is found does not matter, except for one bank: all entries have the URL and the
versions of the one that is found. -/
theorem C98_agree {e : BankInfo} (he : e ∈ table) (hx : e.bankID ≠ c!"23051030") :
    e.url = (findByBankID table e.bankID).url ∧ e.versionNumber = (findByBankID table e.bankID).versionNumber ∧
      e.versionName = (findByBankID table e.bankID).versionName := by
  obtain ⟨r, hr, h1, h2⟩ := found_row ⟨e, he, rfl⟩
  obtain ⟨q, hq, rfl⟩ := List.mem_map.1 he
  have hid : q.id = r.id := digits_inj (rows_facts q hq).1 (rows_facts r hr).1 h1.symm
  have : q = r := by
    refine rows_agree hq hr hid fun h => hx ?_
    show digits q.id = _
    rw [h]
    decide +kernel
  subst this
  rw [entry_unique h2]
  exact ⟨rfl, rfl, rfl⟩

/-- C98: that one bank has an entry with a URL and a supported version, but an empty one after it, so that no
client can be made from its ID. -/
theorem C98_hidden (w : World σ α) {config : Config} (hb : Bare config) (hid : config.bankId = c!"23051030") :
    new w table config = .err ∧ ∃ e ∈ table, e.bankID = config.bankId ∧ c!"https://" <+: e.url ∧ e.hbciVersion = .ok 300 := by
  have hm : (⟨23051030, 21, 0⟩ : Row) ∈ rows := by
    set_option maxRecDepth 100000 in decide +kernel
  constructor
  · cases h : new w table config with
    | err => rfl
    | panic => exact absurd h (C98_no_panic w config)
    | ok r =>
      have := ((C98_enough w hb).1 ⟨r, h⟩).2
      simp [hid] at this
  · refine ⟨_, List.mem_map_of_mem hm, ?_, ?_, ?_⟩
    · rw [hid]; decide +kernel
    · decide +kernel
    · exact row_version (r := ⟨23051030, 21, 0⟩) (by decide)

/-! ## Samples -/

example : Bare ⟨c!"10010010", c!"user", c!"pin", [], 0, [], []⟩ := ⟨rfl, by decide⟩

set_option maxRecDepth 100000 in
example : (settings table ⟨c!"10010010", c!"user", c!"pin", [], 0, [], []⟩) =
      .ok (c!"https://hbci.postbank.de/banking/hbci.do", .fints300) ∧
    (settings table ⟨c!"10040000", c!"user", c!"pin", [], 0, [], []⟩) = .ok ([], .fints300) ∧
    (settings table ⟨c!"30010444", c!"user", c!"pin", [], 0, [], []⟩) = .ok (c!"https:// banking.ikb.de/eBankingFinTS/", .fints300) ∧
    (settings table ⟨c!"23051030", c!"user", c!"pin", [], 0, [], []⟩) = .err ∧
    (settings table ⟨c!"10010011", c!"user", c!"pin", [], 0, [], []⟩) = .err := by decide +kernel

end Verif.Client
