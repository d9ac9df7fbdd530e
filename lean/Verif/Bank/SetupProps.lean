import Verif.Bank.GroupWire
import Verif.Bank.BalanceProps

/-
C88 to C90: what a client learns from the segments of the bank's first answers: its client system
ID (HISYN), the parameters of the bank (HIBPA) and the transactions that need a TAN (HIPINS).
-/

namespace Verif.Bank

open GoLib Charset Element Element.Spec Segment Segment.Spec Message Dialog Verif.Token.Spec

/-! ## C88: the client system ID -/

theorem seen_sync {v : Int} (hv : v = 3 ∨ v = 4) (m : Bytes) :
    seen views.clientSystemId c!"HISYN" v m = ((unmarshalSync m).map' BankSeg.sync).bind views.clientSystemId := by
  rcases hv with rfl | rfl <;> rfl

/-- The numbers after the first field. -/
theorem sync_numbers {hb x : Bytes} {ns : List Int} (h : ∀ n ∈ ns, IsInt n) (hl : ns.length ≤ 2) :
    (∃ a, field (hb :: x :: ns.map itoa) 2 unmarshalNumber = .ok a) ∧
    ∃ a, lastField (hb :: x :: ns.map itoa) 3 unmarshalNumber = .ok a := by
  match ns with
  | [] => exact ⟨⟨none, (field_nil _ (.inl rfl)).1⟩, ⟨none, (field_nil _ (.inl rfl)).2⟩⟩
  | [a] =>
    exact ⟨⟨some a, field_at rfl (itoa_ne_nil a) (C09_number a (h a (by simp)))⟩, ⟨none, (field_nil _ (.inl rfl)).2⟩⟩
  | [a, c] =>
    exact ⟨⟨some a, field_at rfl (itoa_ne_nil a) (C09_number a (h a (by simp)))⟩,
      ⟨some c, lastField_at rfl (itoa_ne_nil c) (C09_number c (h c (by simp)))⟩⟩
  | _ :: _ :: _ :: _ => simp at hl

/-- The segment is well formed. -/
theorem wire_sync {id : Str} {ns : List Int} {p v r : Int} (hp : IsInt p) (hr : IsInt r) (hv : v = 3 ∨ v = 4)
    (hid : Sendable id) (hs : ((enc (escape id) :: ns.map itoa).flatMap (fun f => 43 :: f)).length ≤ 2 ^ 61)
    (hlast : id = [] → ns ≠ []) :
    Wire ⟨c!"HISYN", p, v, some r⟩ (enc (escape id) :: ns.map itoa)
      (segmentBytes c!"HISYN" p v r (enc (escape id) :: ns.map itoa)) := by
  have hvi : IsInt v := by unfold IsInt; omega
  refine wire_of_fields (id := c!"HISYN") (by decide) hp hvi hr (by decide) ?_ ?_ hs
  · intro f hf
    simp only [List.mem_cons, List.mem_map] at hf
    rcases hf with rfl | ⟨n, _, rfl⟩
    · exact field_of_part (part_of_sendable hid)
    · exact .one (itoa_value n)
  · rcases List.eq_nil_or_concat ns with rfl | ⟨i, x, rfl⟩
    · have : id ≠ [] := fun h => hlast h rfl
      simpa [enc_escape_nil] using this
    · rw [List.concat_eq_append, List.map_append, List.map_singleton, ← List.cons_append, List.getLast?_concat]
      simpa using itoa_ne_nil x

/-- C88: the client system ID the bank assigns is the one the dialog gets, whatever characters it
holds and whether or not a message number and a signature ID follow.  If the bank sends none, the
dialog panics. -/
theorem C88_client_system {id : Str} {ns : List Int} {p v r : Int} (hp : IsInt p) (hr : IsInt r) (hv : v = 3 ∨ v = 4)
    (hid : Sendable id) (hns : ∀ n ∈ ns, IsInt n) (hl : ns.length ≤ 2)
    (hs : ((enc (escape id) :: ns.map itoa).flatMap (fun f => 43 :: f)).length ≤ 2 ^ 61)
    (hlast : id = [] → ns ≠ []) :
    seen views.clientSystemId c!"HISYN" v (segmentBytes c!"HISYN" p v r (enc (escape id) :: ns.map itoa)) =
      if id = [] then .panic else .ok id := by
  have hw := wire_sync hp hr hv hid hs hlast
  · obtain ⟨hb, _, h2⟩ := generated_of_wire hw
    obtain ⟨⟨a, ha⟩, c, hc⟩ := sync_numbers (hb := hb) (x := enc (escape id)) hns hl
    rw [seen_sync hv]
    unfold unmarshalSync
    rw [h2]
    by_cases he : id = []
    · rw [if_pos he, (field_nil _ (.inr (by simp [enc_escape_nil.2 he]))).1, ha]
      simp only [Outcome.bind]
      rw [hc]
      rfl
    · rw [if_neg he, field_at rfl (fun h => he (enc_escape_nil.1 h)) (by unfold text; rw [unmarshalText_enc hid.1]), ha]
      simp only [Outcome.bind]
      rw [hc]
      rfl

/-- A client system ID with signs that have a meaning in HBCI, and an answer without one. -/
example :
    Sendable c!"a+b:c'?@1@" ∧
    segmentBytes c!"HISYN" 5 3 4 (enc (escape c!"a+b:c'?@1@") :: [7].map itoa) = b!"HISYN:5:3:4+a?+b?:c?'???@1?@+7'" ∧
    seen views.clientSystemId c!"HISYN" 3 b!"HISYN:5:3:4+a?+b?:c?'???@1?@+7'" = .ok c!"a+b:c'?@1@" ∧
    seen views.clientSystemId c!"HISYN" 3 b!"HISYN:5:3:4++7'" = .panic :=
  ⟨sendable_of (by decide) (by decide), by decide +kernel, by decide +kernel, by decide +kernel⟩

/-! ## C89: the parameters of the bank -/

/-- What a bank says about itself.  `sizes` are the optional fields at the end: the size of a
message and, in version 3, the shortest and the longest timeout. -/
structure AboutBank where
  version : Int
  country : Int
  bankID : Str
  name : Str
  maxTransactions : Int
  languages : List Int
  hbciVersions : List Int
  sizes : List Int

/-- The fields of the segment. -/
def AboutBank.fields (d : AboutBank) : List Bytes :=
  [itoa d.version, join 58 [zeroPad 3 d.country, enc (escape d.bankID)], enc (escape d.name), itoa d.maxTransactions,
   join 58 (d.languages.map itoa), join 58 (d.hbciVersions.map itoa)] ++ d.sizes.map itoa

/-- Numbers that are numbers, one to nine languages (1 to 3) and one to nine HBCI versions, texts
that survive the wire. -/
structure AboutBank.Good (d : AboutBank) (v : Int) : Prop where
  version : IsInt d.version
  country : IsInt d.country
  bankID : Sendable d.bankID ∧ NoSep d.bankID
  name : Sendable d.name
  maxTransactions : IsInt d.maxTransactions
  languages : d.languages ≠ [] ∧ d.languages.length ≤ 9 ∧ ∀ n ∈ d.languages, 1 ≤ n ∧ n ≤ 3
  hbciVersions : d.hbciVersions ≠ [] ∧ d.hbciVersions.length ≤ 9 ∧ ∀ n ∈ d.hbciVersions, IsInt n
  sizes : (∀ n ∈ d.sizes, IsInt n) ∧ d.sizes.length ≤ (if v = 2 then 1 else 3)
  size : (d.fields.flatMap (fun f => 43 :: f)).length ≤ 2 ^ 61

theorem seen_bank {v : Int} (hv : v = 2 ∨ v = 3) (m : Bytes) :
    seen views.bankParameters c!"HIBPA" v m =
      ((if v = 2 then unmarshalBankParamsV2 m else unmarshalBankParamsV3 m).map' BankSeg.bankParams).bind
        views.bankParameters := by
  rcases hv with rfl | rfl <;> rfl

theorem languages_read {ns : List Int} (hne : ns ≠ []) (hl : ns.length ≤ 9) (h : ∀ n ∈ ns, 1 ≤ n ∧ n ≤ 3)
    (hs : (join 58 (ns.map itoa)).length < 2 ^ 62) : unmarshalLanguages (join 58 (ns.map itoa)) = .ok ns := by
  unfold unmarshalLanguages
  rw [extract_join (by simpa using hne) (by simp [clean_number]) hs]
  show (if _ then _ else _) = _
  rw [if_neg (by
    rw [List.length_map]
    have := List.length_pos_iff.2 hne
    omega)]
  exact numbers_read fun n hn => ⟨by have := h n hn; unfold IsInt; omega, by simpa using (h n hn).2⟩

theorem versions_read {ns : List Int} (hne : ns ≠ []) (hl : ns.length ≤ 9) (h : ∀ n ∈ ns, IsInt n)
    (hs : (join 58 (ns.map itoa)).length < 2 ^ 62) : unmarshalVersions (join 58 (ns.map itoa)) = .ok ns := by
  unfold unmarshalVersions
  rw [extract_join (by simpa using hne) (by simp [clean_number]) hs]
  show (if _ then _ else _) = _
  rw [if_neg (by
    rw [List.length_map]
    have := List.length_pos_iff.2 hne
    omega)]
  exact numbers_read fun n hn => ⟨h n hn, rfl⟩

theorem join_numbers_ne {ns : List Int} (hne : ns ≠ []) : join 58 (ns.map itoa) ≠ [] := by
  match ns with
  | [] => exact absurd rfl hne
  | [a] => simpa [join] using itoa_ne_nil a
  | a :: b :: l =>
    rw [List.map_cons, join_cons _ _ (by simp)]
    simp

theorem number_at {l : List Bytes} {i : Nat} {o : Option Int} (h : ∀ n, o = some n → IsInt n)
    (hi : l[i]? = o.map itoa) : field l i unmarshalNumber = .ok o := by
  cases o with
  | none => exact (field_nil _ (.inl hi)).1
  | some n => exact field_at hi (itoa_ne_nil n) (C09_number n (h n rfl))

theorem number_last {l : List Bytes} {i : Nat} {o : Option Int} (h : ∀ n, o = some n → IsInt n)
    (hi : l[i]? = o.map itoa) (hl : l.length ≤ i + 1) : lastField l i unmarshalNumber = .ok o := by
  cases o with
  | none => exact (field_nil _ (.inl hi)).2
  | some n =>
    refine lastField_at hi (itoa_ne_nil n) ?_
    have h2 : i < l.length := (List.getElem?_eq_some_iff.1 hi).1
    have h3 : l.drop i = [itoa n] := by
      rw [List.drop_eq_getElem_cons h2, (List.getElem?_eq_some_iff.1 hi).2, List.drop_eq_nil_of_le (by omega)]
    rw [h3]
    exact C09_number n (h n rfl)

theorem AboutBank.Good.wire {d : AboutBank} {p v r : Int} (hp : IsInt p) (hr : IsInt r) (hv : v = 2 ∨ v = 3) (hg : d.Good v) :
    Wire ⟨c!"HIBPA", p, v, some r⟩ d.fields (segmentBytes c!"HIBPA" p v r d.fields) := by
  have hvi : IsInt v := by unfold IsInt; omega
  refine wire_of_fields (id := c!"HIBPA") (by decide) hp hvi hr (by decide) ?_ ?_ hg.size
  · intro f hf
    simp only [AboutBank.fields, List.mem_append, List.mem_cons, List.not_mem_nil, or_false, List.mem_map] at hf
    rcases hf with (rfl | rfl | rfl | rfl | rfl | rfl) | ⟨n, _, rfl⟩
    · exact .one (itoa_value _)
    · exact field_group (by simp [clean_zeroPad, clean_text hg.bankID.1 hg.bankID.2])
    · exact field_of_part (part_of_sendable hg.name)
    · exact .one (itoa_value _)
    · exact field_group (by simp [clean_number])
    · exact field_group (by simp [clean_number])
    · exact .one (itoa_value _)
  · unfold AboutBank.fields
    rcases List.eq_nil_or_concat d.sizes with hs | ⟨i, x, hs⟩
    · rw [hs]
      simpa using join_numbers_ne hg.hbciVersions.1
    · rw [hs, List.concat_eq_append, List.map_append, List.map_singleton, ← List.append_assoc, List.getLast?_concat]
      simpa using itoa_ne_nil x

/-- C89: the dialog gets the parameters of the bank as the bank has sent them, except that the
bank ID keeps its escape signs and that fields left out at the end count as 0.  If the bank's name
is empty, the dialog panics. -/
theorem C89_bank {d : AboutBank} {p v r : Int} (hp : IsInt p) (hr : IsInt r) (hv : v = 2 ∨ v = 3) (hg : d.Good v) :
    seen views.bankParameters c!"HIBPA" v (segmentBytes c!"HIBPA" p v r d.fields) =
      if d.name = [] then .panic
      else .ok ⟨d.version, ⟨d.country, escape d.bankID⟩, d.name, d.maxTransactions,
        (d.sizes[0]?).getD 0, (d.sizes[1]?).getD 0, (d.sizes[2]?).getD 0⟩ := by
  have hw := hg.wire hp hr hv
  · obtain ⟨hb, h1, h2⟩ := generated_of_wire hw
    have f1 : field (hb :: d.fields) 1 unmarshalNumber = .ok (some d.version) :=
      field_at rfl (itoa_ne_nil _) (C09_number _ hg.version)
    have f2 : field (hb :: d.fields) 2 unmarshalBankIdentification = .ok (some (some d.country, escape d.bankID)) :=
      field_at rfl (by simp [join]) (bank_read hg.country hg.bankID.1 hg.bankID.2 (h1 _ (by simp [AboutBank.fields])))
    have f3 : field (hb :: d.fields) 3 text = .ok (if d.name = [] then none else some d.name) := by
      by_cases hn : d.name = []
      · rw [if_pos hn]
        exact (field_nil _ (.inr (by simp [AboutBank.fields, enc_escape_nil.2 hn]))).1
      · rw [if_neg hn]
        exact field_at rfl (fun h => hn (enc_escape_nil.1 h)) (by unfold text; rw [unmarshalText_enc hg.name.1])
    have f4 : field (hb :: d.fields) 4 unmarshalNumber = .ok (some d.maxTransactions) :=
      field_at rfl (itoa_ne_nil _) (C09_number _ hg.maxTransactions)
    have f5 : field (hb :: d.fields) 5 unmarshalLanguages = .ok (some d.languages) :=
      field_at rfl (join_numbers_ne hg.languages.1)
        (languages_read hg.languages.1 hg.languages.2.1 hg.languages.2.2 (h1 _ (by simp [AboutBank.fields])))
    have f6 : field (hb :: d.fields) 6 unmarshalVersions = .ok (some d.hbciVersions) :=
      field_at rfl (join_numbers_ne hg.hbciVersions.1)
        (versions_read hg.hbciVersions.1 hg.hbciVersions.2.1 hg.hbciVersions.2.2 (h1 _ (by simp [AboutBank.fields])))
    obtain ⟨hsi, hsl⟩ := hg.sizes
    have hat : ∀ i, (hb :: d.fields)[7 + i]? = (d.sizes[i]?).map itoa := by
      intro i
      simp [AboutBank.fields, show 7 + i = i + 6 + 1 by omega]
    have hint : ∀ i n, d.sizes[i]? = some n → IsInt n := fun i n h => hsi n (List.mem_of_getElem? h)
    have hlen : (hb :: d.fields).length = 7 + d.sizes.length := by simp [AboutBank.fields]; omega
    rw [seen_bank hv]
    rcases hv with rfl | rfl
    · rw [if_pos rfl] at hsl ⊢
      have g7 := number_last (hint 0) (hat 0) (by omega)
      have e1 : d.sizes[1]? = none := List.getElem?_eq_none (by omega)
      have e2 : d.sizes[2]? = none := List.getElem?_eq_none (by omega)
      unfold unmarshalBankParamsV2 bankParamsHead
      rw [h2, f1, f2, f3, f4, f5, f6]
      simp only [Outcome.bind]
      rw [g7, e1, e2]
      by_cases hn : d.name = []
      · rw [if_pos hn, if_pos hn]; rfl
      · rw [if_neg hn, if_neg hn]; rfl
    · rw [if_neg (by decide)] at hsl ⊢
      have g7 := number_at (hint 0) (hat 0)
      have g8 := number_at (hint 1) (hat 1)
      have g9 := number_last (hint 2) (hat 2) (by omega)
      unfold unmarshalBankParamsV3 bankParamsHead
      rw [h2, f1, f2, f3, f4, f5, f6]
      simp only [Outcome.bind]
      rw [g7, g8, g9]
      by_cases hn : d.name = []
      · rw [if_pos hn, if_pos hn]; rfl
      · rw [if_neg hn, if_neg hn]; rfl

/-- A usual bank, version 3 without timeouts, and one without a name. -/
example :
    (AboutBank.mk 12 280 c!"10000000" c!"Bank: A+B" 1 [1, 2] [220, 300] [9999]).Good 3 ∧
    segmentBytes c!"HIBPA" 5 3 4 (AboutBank.mk 12 280 c!"10000000" c!"Bank: A+B" 1 [1, 2] [220, 300] [9999]).fields =
      b!"HIBPA:5:3:4+12+280:10000000+Bank?: A?+B+1+1:2+220:300+9999'" ∧
    seen views.bankParameters c!"HIBPA" 3 b!"HIBPA:5:3:4+12+280:10000000+Bank?: A?+B+1+1:2+220:300+9999'" =
      .ok ⟨12, ⟨280, c!"10000000"⟩, c!"Bank: A+B", 1, 9999, 0, 0⟩ ∧
    seen views.bankParameters c!"HIBPA" 3 b!"HIBPA:5:3:4+12+280:10000000++1+1:2+220:300+9999'" = .panic := by
  refine ⟨⟨by unfold IsInt; decide, by unfold IsInt; decide, ⟨sendable_of (by decide) (by decide), by unfold NoSep; decide⟩,
    sendable_of (by decide) (by decide), by unfold IsInt; decide, by decide, ⟨by decide, by decide, ?_⟩, ⟨?_, by decide⟩,
    by decide⟩, by decide +kernel, by decide +kernel, by decide +kernel⟩
  · unfold IsInt; decide
  · unfold IsInt; decide

/-! ## C90: the transactions that need a TAN -/

/-- The PIN/TAN parameters of a bank: the lengths of PIN and TAN, the names of user and customer
ID, and for each transaction whether it needs a TAN. -/
structure AboutPins where
  maxJobs : Int
  minSignatures : Int
  third : Int
  pinMin : Option Int
  pinMax : Option Int
  tanMax : Option Int
  userText : Str
  customerText : Str
  jobs : List (Str × Bool)

/-- A number, or nothing. -/
def optional (o : Option Int) : Bytes := (o.map itoa).getD []

/-- The last field: a group. -/
def AboutPins.group (d : AboutPins) : List Bytes :=
  [optional d.pinMin, optional d.pinMax, optional d.tanMax, enc (escape d.userText), enc (escape d.customerText)] ++
    d.jobs.flatMap fun j => [enc (escape j.1), marshalBool j.2]

/-- The fields of the segment. -/
def AboutPins.fields (d : AboutPins) : List Bytes :=
  [itoa d.maxJobs, itoa d.minSignatures, itoa d.third, join 58 d.group]

/-- Numbers that are numbers, texts that survive the wire. -/
structure AboutPins.Good (d : AboutPins) : Prop where
  numbers : IsInt d.maxJobs ∧ IsInt d.minSignatures ∧ IsInt d.third
  lengths : ∀ o ∈ [d.pinMin, d.pinMax, d.tanMax], ∀ n, o = some n → IsInt n
  texts : ∀ s ∈ d.userText :: d.customerText :: d.jobs.map (·.1), Sendable s ∧ NoSep s
  size : (d.fields.flatMap (fun f => 43 :: f)).length ≤ 2 ^ 61

theorem seen_pins (m : Bytes) :
    seen views.pinTan c!"HIPINS" 1 m = ((unmarshalPinParamsSeg m).map' BankSeg.pinParams).bind views.pinTan := rfl

theorem clean_optional (o : Option Int) : CleanPart (optional o) := by
  cases o with
  | none => exact ⟨.inl rfl, by simp [optional], by simp [optional]⟩
  | some n => exact clean_number n

theorem optional_read {o : Option Int} (h : ∀ n, o = some n → IsInt n) : unmarshalNumber (optional o) = .ofOption o := by
  cases o with
  | none => rfl
  | some n => exact C09_number n (h n rfl)

theorem AboutPins.Good.clean {d : AboutPins} (hg : d.Good) : ∀ q ∈ d.group, CleanPart q := by
  intro q hq
  simp only [AboutPins.group, List.mem_append, List.mem_cons, List.not_mem_nil, or_false, List.mem_flatMap] at hq
  rcases hq with (rfl | rfl | rfl | rfl | rfl) | ⟨j, hj, rfl | rfl⟩
  · exact clean_optional _
  · exact clean_optional _
  · exact clean_optional _
  · exact clean_text (hg.texts _ (by simp)).1 (hg.texts _ (by simp)).2
  · exact clean_text (hg.texts _ (by simp)).1 (hg.texts _ (by simp)).2
  · have := hg.texts j.1 (by simp only [List.mem_cons, List.mem_map]; exact .inr (.inr ⟨j, hj, rfl⟩))
    exact clean_text this.1 this.2
  · exact clean_bool _

/-- The list of transactions. -/
theorem jobs_list {js : List (Str × Bool)} (h : ∀ j ∈ js, Sendable j.1 ∧ NoSep j.1)
    (hl : (join 58 (js.flatMap fun j => [enc (escape j.1), marshalBool j.2])).length < 2 ^ 62) :
    unmarshalPinJobList (js.flatMap fun j => [enc (escape j.1), marshalBool j.2]) =
      .ok (js.map fun j => (escape j.1, j.2)) := by
  induction js with
  | nil => rfl
  | cons j js ih =>
    obtain ⟨h1, h2⟩ := h j (by simp)
    have hl1 := join_length_left [enc (escape j.1), marshalBool j.2] (js.flatMap fun j => [enc (escape j.1), marshalBool j.2])
    have hl2 := join_length_le [enc (escape j.1), marshalBool j.2] (js.flatMap fun j => [enc (escape j.1), marshalBool j.2])
    rw [List.flatMap_cons] at hl ⊢
    have hj : unmarshalPinJob (join 58 [enc (escape j.1), marshalBool j.2]) = .ok (escape j.1, j.2) := by
      unfold unmarshalPinJob
      rw [extract_join (by simp) (by simp [clean_text h1 h2, clean_bool]) (by omega)]
      show (unmarshalBool (marshalBool j.2)).map' _ = _
      rw [(C11_bool _ _).2 rfl, toUTF8_enc (escape_latin1.2 h1.1)]
      rfl
    have := ih (fun j hj => h j (by simp [hj])) (by omega)
    show (unmarshalPinJob _).bind (fun x => (unmarshalPinJobList (js.flatMap _)).map' _) = _
    rw [hj, this]
    rfl

theorem jobs_read {js : List (Str × Bool)} (h : ∀ j ∈ js, Sendable j.1 ∧ NoSep j.1)
    (hl : (join 58 (js.flatMap fun j => [enc (escape j.1), marshalBool j.2])).length < 2 ^ 62) :
    unmarshalPinJobs (join 58 (js.flatMap fun j => [enc (escape j.1), marshalBool j.2])) =
      if js = [] then .err else .ok (js.map fun j => (escape j.1, j.2)) := by
  by_cases hn : js = []
  · subst hn
    decide +kernel
  · rw [if_neg hn]
    unfold unmarshalPinJobs
    rw [extract_join ?_ ?_ hl]
    · show (if _ then _ else _) = _
      rw [if_neg, jobs_list h hl]
      have : ∀ l : List (Str × Bool), (l.flatMap fun j => [enc (escape j.1), marshalBool j.2]).length = 2 * l.length := by
        intro l
        induction l with
        | nil => rfl
        | cons a l ih => simp only [List.flatMap_cons, List.length_append, ih, List.length_cons, List.length_nil]; omega
      rw [this]
      omega
    · cases js with
      | nil => exact absurd rfl hn
      | cons a l => simp
    · intro q hq
      simp only [List.mem_flatMap, List.mem_cons, List.not_mem_nil, or_false] at hq
      obtain ⟨j, hj, rfl | rfl⟩ := hq
      · exact clean_text (h j hj).1 (h j hj).2
      · exact clean_bool _

theorem AboutPins.Good.wire {d : AboutPins} {p r : Int} (hp : IsInt p) (hr : IsInt r) (hg : d.Good) :
    Wire ⟨c!"HIPINS", p, 1, some r⟩ d.fields (segmentBytes c!"HIPINS" p 1 r d.fields) := by
  have hne : join 58 d.group ≠ [] := by
    unfold AboutPins.group
    rw [List.cons_append, join_cons _ _ (by simp)]
    simp
  refine wire_of_fields (id := c!"HIPINS") (by decide) hp (by unfold IsInt; omega) hr (by decide) ?_ ?_ hg.size
  · intro f hf
    simp only [AboutPins.fields, List.mem_cons, List.not_mem_nil, or_false] at hf
    rcases hf with rfl | rfl | rfl | rfl
    · exact .one (itoa_value _)
    · exact .one (itoa_value _)
    · exact .one (itoa_value _)
    · exact field_group hg.clean
  · simp [AboutPins.fields, hne]

/-- C90: the dialog gets every transaction with the bank's answer whether it needs a TAN, in the
order of the bank.  The segment is rejected if the bank leaves out one of the three lengths, all of
which are optional, or names no transaction. -/
theorem C90_pins {d : AboutPins} {p r : Int} (hp : IsInt p) (hr : IsInt r) (hg : d.Good) :
    seen views.pinTan c!"HIPINS" 1 (segmentBytes c!"HIPINS" p 1 r d.fields) =
      if d.pinMin = none ∨ d.pinMax = none ∨ d.tanMax = none ∨ d.jobs = [] then .err
      else .ok (d.jobs.map fun j => (escape j.1, j.2)) := by
  obtain ⟨n1, n2, n3⟩ := hg.numbers
  have hne : join 58 d.group ≠ [] := by
    unfold AboutPins.group
    rw [List.cons_append, join_cons _ _ (by simp)]
    simp
  have hw := hg.wire hp hr
  · obtain ⟨hb, h1, h2⟩ := generated_of_wire hw
    have hlen := h1 (join 58 d.group) (by simp [AboutPins.fields])
    have hc : checkFields (hb :: d.fields)
        [(1, check unmarshalNumber), (2, check unmarshalNumber), (3, check unmarshalNumber)] = .ok () := by
      unfold checkFields checkFields checkFields checkFields
      rw [field_at (a := ()) rfl (itoa_ne_nil d.maxJobs) (check_number n1),
        field_at (a := ()) rfl (itoa_ne_nil d.minSignatures) (check_number n2),
        field_at (a := ()) rfl (itoa_ne_nil d.third) (check_number n3)]
      rfl
    have hlast : ∀ x, unmarshalPinParams (join 58 d.group) = x →
        lastField (hb :: d.fields) 4 unmarshalPinParams = x.map' some := by
      rintro x rfl
      show (if join 58 d.group = [] then _ else _) = _
      rw [if_neg hne]
      rfl
    have hread : unmarshalPinParams (join 58 d.group) =
        (Outcome.ofOption d.pinMin).bind fun a => (Outcome.ofOption d.pinMax).bind fun c =>
          (Outcome.ofOption d.tanMax).bind fun t =>
            (if d.jobs = [] then Outcome.err else .ok (d.jobs.map fun j => (escape j.1, j.2))).map' fun js =>
              ⟨a, c, t, d.userText, d.customerText, js⟩ := by
      unfold unmarshalPinParams
      rw [extract_join (by simp [AboutPins.group]) hg.clean hlen]
      have hl5 := join_length_le
        [optional d.pinMin, optional d.pinMax, optional d.tanMax, enc (escape d.userText), enc (escape d.customerText)]
        (d.jobs.flatMap fun j => [enc (escape j.1), marshalBool j.2])
      have hjobs := jobs_read (js := d.jobs)
        (fun j hj => hg.texts j.1 (by simp only [List.mem_cons, List.mem_map]; exact .inr (.inr ⟨j, hj, rfl⟩)))
        (by unfold AboutPins.group at hlen; omega)
      show (unmarshalNumber (optional d.pinMin)).bind _ = _
      rw [optional_read (hg.lengths _ (by simp))]
      congr 1
      funext a
      show (unmarshalNumber (optional d.pinMax)).bind _ = _
      rw [optional_read (hg.lengths _ (by simp))]
      congr 1
      funext c
      show (unmarshalNumber (optional d.tanMax)).bind _ = _
      rw [optional_read (hg.lengths _ (by simp))]
      congr 1
      funext t
      show (unmarshalPinJobs (join 58 (d.jobs.flatMap fun j => [enc (escape j.1), marshalBool j.2]))).map'
        (fun jobs => PinParams.mk a c t (unmarshalText (enc (escape d.userText))) (unmarshalText (enc (escape d.customerText))) jobs) = _
      rw [hjobs, unmarshalText_enc (hg.texts d.userText (by simp)).1.1,
        unmarshalText_enc (hg.texts d.customerText (by simp)).1.1]
    rw [seen_pins]
    unfold unmarshalPinParamsSeg
    rw [h2, hc]
    simp only [Outcome.bind]
    rw [hlast _ hread]
    cases d.pinMin with
    | none => exact (if_pos (.inl rfl)).symm
    | some a =>
      cases d.pinMax with
      | none => exact (if_pos (.inr (.inl rfl))).symm
      | some c =>
        cases d.tanMax with
        | none => exact (if_pos (.inr (.inr (.inl rfl)))).symm
        | some t =>
          by_cases hj : d.jobs = []
          · rw [if_pos hj, if_pos (by simp [hj])]; rfl
          · rw [if_neg hj, if_neg (by simp [hj])]; rfl

/-- Usual parameters; the same without the length of the TAN are rejected. -/
example :
    (AboutPins.mk 1 1 0 (some 5) (some 20) (some 6) c!"VR-Kennung" [] [(c!"HKCCS", true), (c!"HKKAZ", false)]).Good ∧
    segmentBytes c!"HIPINS" 9 1 4
      (AboutPins.mk 1 1 0 (some 5) (some 20) (some 6) c!"VR-Kennung" [] [(c!"HKCCS", true), (c!"HKKAZ", false)]).fields =
      b!"HIPINS:9:1:4+1+1+0+5:20:6:VR-Kennung::HKCCS:J:HKKAZ:N'" ∧
    seen views.pinTan c!"HIPINS" 1 b!"HIPINS:9:1:4+1+1+0+5:20:6:VR-Kennung::HKCCS:J:HKKAZ:N'" =
      .ok [(c!"HKCCS", true), (c!"HKKAZ", false)] ∧
    seen views.pinTan c!"HIPINS" 1 b!"HIPINS:9:1:4+1+1+0+5:20::VR-Kennung::HKCCS:J:HKKAZ:N'" = .err := by
  refine ⟨⟨⟨by unfold IsInt; decide, by unfold IsInt; decide, by unfold IsInt; decide⟩, ?_, ?_, by decide⟩,
    by decide +kernel, by decide +kernel, by decide +kernel⟩
  · intro o ho n hn
    subst hn
    simp at ho
    rcases ho with rfl | rfl | rfl <;> (unfold IsInt; decide)
  · intro s hs
    simp only [List.map_cons, List.map_nil, List.mem_cons, List.not_mem_nil, or_false] at hs
    rcases hs with rfl | rfl | rfl | rfl
    all_goals exact ⟨sendable_of (by decide) (by decide), by unfold NoSep; decide⟩

end Verif.Bank
