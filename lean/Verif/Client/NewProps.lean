import Verif.Client.Props
import Verif.Bankinfo.Props

/-
C79: what a new client is made of.
-/

namespace Verif.Client

open GoLib Element Segment Message Domain Transport Dialog

variable {σ α : Type}

/-- The entry of the bank table that counts for an ID: the last one, or an empty one if there
is none. -/
def EntryFor (data : List Bankinfo.BankInfo) (id : Str) (info : Bankinfo.BankInfo) : Prop :=
  ((∀ e ∈ data, e.bankID ≠ id) ∧ info = ⟨[], [], [], [], [], [], [], []⟩) ∨
  ∃ before after, data = before ++ info :: after ∧ info.bankID = id ∧ ∀ e ∈ after, e.bankID ≠ id

/-- A dialog nothing happened in, for a bank in Germany and a user; both providers have the
PIN. -/
structure FreshFor (config : Config) (v : Version) (d : Dialog σ α) : Prop where
  bank : d.bankId = ⟨280, config.bankId⟩
  user : d.userId = config.accountId ∧ d.clientId = config.accountId
  pins : d.sig.key.pin = config.pin ∧ d.crypto.key.pin = config.pin
  version : d.version = v
  product : d.productName = config.productName ∧ d.productVersion = config.productVersion
  system : d.clientSystemId = c!"0" ∧ d.sig.clientSystemId = c!"0" ∧ d.crypto.clientSystemId = c!"0"
  empty : d.accounts = [] ∧ d.supportedSegments = [] ∧ d.bankParameterData.parameters.version = 0

theorem entry_exists (data : List Bankinfo.BankInfo) (id : Str) : EntryFor data id (Bankinfo.findByBankID data id) := by
  rcases Bankinfo.foldl_last data id {} with ⟨h1, h2⟩ | ⟨pre, e, post, h1, h2, h3, h4⟩
  · exact .inl ⟨h1, h2⟩
  · have : Bankinfo.findByBankID data id = e := h4
    rw [this]
    exact .inr ⟨pre, post, h1, h2, h3⟩

theorem entry_unique {data : List Bankinfo.BankInfo} {id : Str} {info : Bankinfo.BankInfo} (h : EntryFor data id info) :
    Bankinfo.findByBankID data id = info := by
  rcases h with ⟨h1, rfl⟩ | ⟨pre, post, h1, h2, h3⟩
  · exact Bankinfo.C56_missing data id h1
  · exact Bankinfo.C56_found data id pre post info h1 h2 h3

theorem supported_number {n : Int} {v : Version} : supportedVersion n = some v ↔ v.number = n := by
  unfold supportedVersion
  cases v
  · simp only [Version.number]
    constructor
    · intro h
      split at h
      · omega
      · split at h <;> simp at h
    · rintro rfl
      rfl
  · simp only [Version.number]
    constructor
    · intro h
      split at h
      · simp at h
      · split at h
        · omega
        · simp at h
    · rintro rfl
      rfl

theorem fresh_new (w : World σ α) (config : Config) (v : Version) :
    FreshFor config v (setPin w config.pin ⟨newPinTanDialog w ⟨280, config.bankId⟩ config.accountId v config.productName
      config.productVersion, 0, []⟩).2.d :=
  ⟨rfl, ⟨rfl, rfl⟩, ⟨rfl, rfl⟩, rfl, ⟨rfl, rfl⟩, ⟨rfl, rfl, rfl⟩, ⟨rfl, rfl, rfl⟩⟩

/-- C79: a client is created exactly if the version in force is 220 or 300.  The version in
force is the configured one if it is positive, and otherwise that of the bank table.  The URL is
the configured one unless it is empty, and otherwise that of the bank table.  Nothing is sent. -/
theorem C79_created (w : World σ α) (data : List Bankinfo.BankInfo) (config : Config) (info : Bankinfo.BankInfo)
    (h : EntryFor data config.bankId info) (url : Str) (v : Version) :
    (∃ s : Dialog.St σ α, new w data config = .ok (url, v, s)) ↔
      (config.url ≠ [] ∧ url = config.url ∨ config.url = [] ∧ url = info.url) ∧
      (0 < config.hbciVersion ∧ v.number = config.hbciVersion ∨
       config.hbciVersion ≤ 0 ∧ info.hbciVersion = .ok v.number) := by
  unfold new settings
  rw [entry_unique h]
  have hurl : (if config.url = [] then info.url else config.url) = url ↔
      (config.url ≠ [] ∧ url = config.url ∨ config.url = [] ∧ url = info.url) := by
    split
    · rename_i h; simp [h, eq_comm]
    · rename_i h; simp [h, eq_comm]
  by_cases hv : 0 < config.hbciVersion
  · have hn : ¬ config.hbciVersion ≤ 0 := by omega
    simp only [hv, true_and, hn, false_and, or_false, ← hurl,
      ← supported_number]
    cases supportedVersion config.hbciVersion with
    | none => simp
    | some v' => simp
  · have hn : config.hbciVersion ≤ 0 := by omega
    simp only [hv, false_and, hn, true_and, false_or, ← hurl]
    cases hi : info.hbciVersion with
    | err => simp
    | panic => simp
    | ok n =>
      simp only [Outcome.bind, Outcome.ok.injEq]
      have : n = v.number ↔ supportedVersion n = some v := by rw [supported_number, eq_comm]
      rw [this]
      cases supportedVersion n with
      | none => simp
      | some v' => simp

/-- C79: the dialog of a new client is fresh, and both providers have the PIN of the
configuration. -/
theorem C79_fresh (w : World σ α) (data : List Bankinfo.BankInfo) (config : Config) (url : Str) (v : Version)
    (s : Dialog.St σ α) (h : new w data config = .ok (url, v, s)) : FreshFor config v s.d ∧ s.sent = [] := by
  unfold new at h
  obtain ⟨⟨u', v'⟩, _, h2⟩ := map_ok h
  simp only [Prod.mk.injEq] at h2
  obtain ⟨_, rfl, rfl⟩ := h2
  exact ⟨fresh_new w config v', rfl⟩

/-- C79: without a configured version, a bank that is not in the table is an error, and a bank
whose version in the table is unknown to the program is a panic. -/
theorem C79_unknown (w : World σ α) (data : List Bankinfo.BankInfo) (config : Config) (h : config.hbciVersion ≤ 0) :
    ((∀ e ∈ data, e.bankID ≠ config.bankId) → new w data config = .err) ∧
    (∀ info, EntryFor data config.bankId info → (new w data config = .panic ↔ info.hbciVersion = .panic)) := by
  have hn : ¬ config.hbciVersion > 0 := by omega
  constructor
  · intro hd
    unfold new settings
    rw [Bankinfo.C56_missing data _ hd]
    simp only [if_neg hn]
    rfl
  · intro info hi
    unfold new settings
    rw [entry_unique hi]
    simp only [if_neg hn]
    cases info.hbciVersion with
    | err => simp
    | panic => simp
    | ok n =>
      simp only [Outcome.bind]
      cases supportedVersion n <;> simp

/-- A bank. -/
def sampleEntry : Bankinfo.BankInfo :=
  { bankID := c!"1000", versionNumber := c!"3.0", url := c!"https://bank/", versionName := c!"FinTS V3.0" }

/-- A table with that bank and another one. -/
def sampleTable : List Bankinfo.BankInfo := [sampleEntry, { bankID := c!"2000", versionNumber := c!"5.0" }]

/-- A configuration without version and URL. -/
def sampleConfig (bank : Str) : Config := ⟨bank, c!"user", c!"12345", [], 0, [], []⟩

example : EntryFor sampleTable c!"1000" sampleEntry ∧
    (settings sampleTable (sampleConfig c!"1000")) = .ok (c!"https://bank/", .fints300) ∧
    (settings sampleTable (sampleConfig c!"2000")) = .panic ∧ (settings sampleTable (sampleConfig c!"3000")) = .err ∧
    (settings sampleTable { sampleConfig c!"3000" with hbciVersion := 220, url := c!"x" }) = .ok (c!"x", .hbci220) := by
  refine ⟨.inr ⟨[], [{ bankID := c!"2000", versionNumber := c!"5.0" }], rfl, rfl, by decide⟩, ?_, ?_, ?_, ?_⟩ <;> rfl

end Verif.Client
