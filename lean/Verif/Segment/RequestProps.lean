import Verif.Segment.Requests
import Verif.Element.GroupsProps
import Verif.Message.ReaderProps

/-
Properties of the request builders (C32, C33, C34, C69, C72, C73).
-/

namespace Verif.Segment

open GoLib Element Time Domain Element.Spec

/-- `v` is the highest of the offered versions among the implemented ones. -/
def Highest (implemented offered : List Int) (v : Int) : Prop :=
  v ∈ offered ∧ v ∈ implemented ∧ ∀ w ∈ offered, w ∈ implemented → w ≤ v

theorem descending_perm (vs : List Int) : (descending vs).Perm vs := List.mergeSort_perm _ _

theorem descending_sorted (vs : List Int) : (descending vs).Pairwise fun a b => b ≤ a := by
  have := List.pairwise_mergeSort (le := fun a b : Int => decide (b ≤ a))
    (fun a b c h1 h2 => by simp only [decide_eq_true_eq] at *; omega)
    (fun a b => by simp only [Bool.or_eq_true, decide_eq_true_eq]; omega) vs
  exact this.imp fun h => by simpa using h

/-- The common loop finds the constructor of the highest implemented version, and fails
exactly if there is none. -/
theorem firstImplemented_spec {α : Type} {table : Int → Option α} {implemented : List Int}
    (ht : ∀ v, (∃ a, table v = some a) ↔ v ∈ implemented) (vs : List Int) :
    (∀ a, firstImplemented table vs = .ok a ↔ ∃ v, Highest implemented vs v ∧ table v = some a) ∧
    (firstImplemented table vs = .err ↔ ∀ v ∈ vs, v ∉ implemented) ∧ firstImplemented table vs ≠ .panic := by
  have hp := descending_perm vs
  have hs := descending_sorted vs
  have key : ∀ l : List Int, l.Pairwise (fun a b => b ≤ a) → ∀ a,
      l.findSome? table = some a ↔ ∃ v, Highest implemented l v ∧ table v = some a := by
    intro l
    induction l with
    | nil => intro _ a; simp [Highest]
    | cons x l ih =>
      intro hl a
      rw [List.pairwise_cons] at hl
      rw [List.findSome?_cons]
      cases hx : table x with
      | some b =>
        simp only [Option.some.injEq]
        constructor
        · rintro rfl
          refine ⟨x, ⟨by simp, (ht x).1 ⟨b, hx⟩, ?_⟩, hx⟩
          intro w hw _
          simp only [List.mem_cons] at hw
          rcases hw with rfl | hw
          · exact le_refl w
          · exact hl.1 w hw
        · rintro ⟨v, ⟨h1, _, h3⟩, h4⟩
          have h5 := h3 x (by simp) ((ht x).1 ⟨b, hx⟩)
          simp only [List.mem_cons] at h1
          rcases h1 with rfl | h1
          · rw [hx] at h4; exact Option.some.inj h4
          · have : v = x := by have := hl.1 v h1; omega
            subst this
            rw [hx] at h4; exact Option.some.inj h4
      | none =>
        have hnx : x ∉ implemented := fun h => by
          obtain ⟨b, hb⟩ := (ht x).2 h
          rw [hx] at hb
          simp at hb
        simp only
        rw [ih hl.2]
        constructor
        · rintro ⟨v, ⟨h1, h2, h3⟩, h4⟩
          refine ⟨v, ⟨by simp [h1], h2, ?_⟩, h4⟩
          intro w hw hwi
          simp only [List.mem_cons] at hw
          rcases hw with rfl | hw
          · exact absurd hwi hnx
          · exact h3 w hw hwi
        · rintro ⟨v, ⟨h1, h2, h3⟩, h4⟩
          simp only [List.mem_cons] at h1
          rcases h1 with rfl | h1
          · exact absurd h2 hnx
          · exact ⟨v, ⟨h1, h2, fun w hw hwi => h3 w (by simp [hw]) hwi⟩, h4⟩
  have hmem : ∀ v, v ∈ descending vs ↔ v ∈ vs := fun v => hp.mem_iff
  have hhigh : ∀ v, Highest implemented (descending vs) v ↔ Highest implemented vs v := by
    intro v
    unfold Highest
    simp only [hmem]
  have hok : ∀ a, firstImplemented table vs = .ok a ↔ ∃ v, Highest implemented vs v ∧ table v = some a := by
    intro a
    have := key _ hs a
    simp only [hhigh] at this
    rw [← this]
    unfold firstImplemented
    cases (descending vs).findSome? table <;> simp [Outcome.ofOption]
  refine ⟨hok, ?_, ?_⟩
  · have hnone : (descending vs).findSome? table = none ↔ ∀ v ∈ vs, v ∉ implemented := by
      rw [List.findSome?_eq_none_iff]
      constructor
      · intro h v hv hi
        obtain ⟨a, ha⟩ := (ht v).2 hi
        rw [h v ((hmem v).2 hv)] at ha
        simp at ha
      · intro h v hv
        cases hx : table v with
        | none => rfl
        | some a => exact absurd ((ht v).1 ⟨a, hx⟩) (h v ((hmem v).1 hv))
    rw [← hnone]
    unfold firstImplemented
    cases (descending vs).findSome? table <;> simp [Outcome.ofOption]
  · unfold firstImplemented
    cases (descending vs).findSome? table <;> simp [Outcome.ofOption]

/-- The versions offered for an ID. -/
def offeredFor (supported : List (Str × Int)) (id : Str) : List Int :=
  (supported.filter fun s => decide (s.1 = id)).map (·.2)

theorem newBuilder_eq (supported : List (Str × Int)) (id : Str) :
    newBuilder supported id = if offeredFor supported id = [] then none else some (offeredFor supported id) := by
  have key : ∀ (l : List (Str × Int)) (b : Builder), (l.foldl Builder.add b) id =
      if offeredFor l id = [] then b id else some ((b id).getD [] ++ offeredFor l id) := by
    intro l
    induction l with
    | nil => intro b; simp [offeredFor]
    | cons s l ih =>
      intro b
      rw [List.foldl_cons, ih]
      by_cases h : s.1 = id
      · have e : offeredFor (s :: l) id = s.2 :: offeredFor l id := by simp [offeredFor, h]
        rw [e]
        simp only [Builder.add, h, if_true, reduceCtorEq, if_false]
        split
        · rename_i hn; simp [hn]
        · simp
      · have e : offeredFor (s :: l) id = offeredFor l id := by simp [offeredFor, h]
        rw [e]
        have : (b.add s) id = b id := by simp [Builder.add, Ne.symm h]
        rw [this]
  unfold newBuilder
  rw [key]
  simp

theorem choose_eq {α : Type} {table : Int → Option α} (supported : List (Str × Int)) (id : Str) :
    (newBuilder supported).choose id (firstImplemented table) = firstImplemented table (offeredFor supported id) := by
  unfold Builder.choose
  rw [newBuilder_eq]
  split
  · rename_i h
    split at h
    · rename_i hn
      rw [hn]
      simp [firstImplemented, descending, Outcome.ofOption]
    · simp at h
  · rename_i h
    split at h
    · simp at h
    · cases h; rfl

/-- The specification of a builder method: with a highest implemented offered version
it builds the request of that version, without one it fails. -/
theorem builder_spec {α β : Type} {table : Int → Option α} {implemented : List Int}
    (ht : ∀ v, (∃ a, table v = some a) ↔ v ∈ implemented) (supported : List (Str × Int)) (id : Str) (g : α → β) :
    (∀ r, ((newBuilder supported).choose id (firstImplemented table)).map' g = .ok r ↔
      ∃ v a, Highest implemented (offeredFor supported id) v ∧ table v = some a ∧ r = g a) ∧
    (((newBuilder supported).choose id (firstImplemented table)).map' g = .err ↔
      ∀ v ∈ implemented, (id, v) ∉ supported) := by
  rw [choose_eq]
  obtain ⟨h1, h2, h3⟩ := firstImplemented_spec ht (offeredFor supported id)
  have hoff : ∀ v, v ∈ offeredFor supported id ↔ (id, v) ∈ supported := by
    intro v
    simp only [offeredFor, List.mem_map, List.mem_filter, decide_eq_true_eq, Prod.exists]
    constructor
    · rintro ⟨a, b, ⟨h, rfl⟩, rfl⟩; exact h
    · intro h; exact ⟨id, v, ⟨h, rfl⟩, rfl⟩
  constructor
  · intro r
    constructor
    · intro h
      cases hx : firstImplemented table (offeredFor supported id) with
      | err => rw [hx] at h; simp [Outcome.map'] at h
      | panic => rw [hx] at h; simp [Outcome.map'] at h
      | ok a =>
        rw [hx] at h
        obtain ⟨v, hv, ha⟩ := (h1 a).1 hx
        exact ⟨v, a, hv, ha, by simpa [Outcome.map', eq_comm] using h⟩
    · rintro ⟨v, a, hv, ha, rfl⟩
      rw [(h1 a).2 ⟨v, hv, ha⟩]
      rfl
  · have : (∀ v ∈ implemented, (id, v) ∉ supported) ↔ ∀ v ∈ offeredFor supported id, v ∉ implemented := by
      simp only [hoff]
      exact ⟨fun h v hv hi => h v hi hv, fun h v hi hv => h v hv hi⟩
    rw [this, ← h2]
    cases hx : firstImplemented table (offeredFor supported id) <;> simp [Outcome.map']

/-! ## C32: versions -/

theorem balanceTable_iff (v : Int) : (∃ a, balanceTable v = some a) ↔ v ∈ ([5, 6] : List Int) := by
  unfold balanceTable
  split <;> simp_all

theorem sepaBalanceTable_iff (v : Int) : (∃ a, sepaBalanceTable v = some a) ↔ v ∈ ([7, 8] : List Int) := by
  unfold sepaBalanceTable
  split <;> simp_all

theorem transactionTable_iff (v : Int) : (∃ a, transactionTable v = some a) ↔ v ∈ ([5, 6] : List Int) := by
  unfold transactionTable
  split <;> simp_all

theorem statusTable_iff (v : Int) : (∃ a, statusTable v = some a) ↔ v ∈ ([3, 4] : List Int) := by
  unfold statusTable
  split <;> simp_all

theorem tanTable_iff (v : Int) : (∃ a, tanTable v = some a) ↔ v ∈ ([1, 6] : List Int) := by
  unfold tanTable
  split <;> simp_all

/-- C32: the balance request has the highest version among 5 and 6 the bank supports,
asks for the given account, and fails exactly if the bank supports neither. -/
theorem C32_balance (supported : List (Str × Int)) (account : AccountConnection) (all : Bool) :
    (∀ r, (newBuilder supported).balance account all = .ok r ↔
      ∃ v, Highest [5, 6] (offeredFor supported c!"HISALS") v ∧ r = ⟨v, accountConnectionDE account, all, none⟩) ∧
    ((newBuilder supported).balance account all = .err ↔
      (c!"HISALS", (5 : Int)) ∉ supported ∧ (c!"HISALS", (6 : Int)) ∉ supported) := by
  obtain ⟨h1, h2⟩ := builder_spec balanceTable_iff supported c!"HISALS" fun f => f account all
  constructor
  · intro r
    refine (h1 r).trans ?_
    constructor
    · rintro ⟨v, a, hv, ha, rfl⟩
      refine ⟨v, hv, ?_⟩
      have := hv.2.1
      simp only [List.mem_cons, List.not_mem_nil, or_false] at this
      rcases this with rfl | rfl <;> cases ha <;> rfl
    · rintro ⟨v, hv, rfl⟩
      have := hv.2.1
      simp only [List.mem_cons, List.not_mem_nil, or_false] at this
      rcases this with rfl | rfl <;> exact ⟨_, _, hv, rfl, rfl⟩
  · refine h2.trans ?_
    simp

/-- C32: the SEPA balance request has the highest version among 7 and 8 the bank
supports, and fails exactly if the bank supports neither. -/
theorem C32_sepaBalance (supported : List (Str × Int)) (account : InternationalConnection) (all : Bool) :
    (∀ r, (newBuilder supported).sepaBalance account all = .ok r ↔
      ∃ v, Highest [7, 8] (offeredFor supported c!"HISALS") v ∧ r = ⟨v, internationalDE account, all, none⟩) ∧
    ((newBuilder supported).sepaBalance account all = .err ↔
      (c!"HISALS", (7 : Int)) ∉ supported ∧ (c!"HISALS", (8 : Int)) ∉ supported) := by
  obtain ⟨h1, h2⟩ := builder_spec sepaBalanceTable_iff supported c!"HISALS" fun f => f account all
  constructor
  · intro r
    refine (h1 r).trans ?_
    constructor
    · rintro ⟨v, a, hv, ha, rfl⟩
      refine ⟨v, hv, ?_⟩
      have := hv.2.1
      simp only [List.mem_cons, List.not_mem_nil, or_false] at this
      rcases this with rfl | rfl <;> cases ha <;> rfl
    · rintro ⟨v, hv, rfl⟩
      have := hv.2.1
      simp only [List.mem_cons, List.not_mem_nil, or_false] at this
      rcases this with rfl | rfl <;> exact ⟨_, _, hv, rfl, rfl⟩
  · refine h2.trans ?_
    simp

/-- C32: the transaction request has the highest version among 5 and 6 the bank
supports, and fails exactly if the bank supports neither. -/
theorem C32_transactions (supported : List (Str × Int)) (account : AccountConnection) (all : Bool) :
    (∀ r, (newBuilder supported).transactions account all = .ok r ↔
      ∃ v, Highest [5, 6] (offeredFor supported c!"HIKAZS") v ∧
        r = ⟨v, accountConnectionDE account, all, none, none, none⟩) ∧
    ((newBuilder supported).transactions account all = .err ↔
      (c!"HIKAZS", (5 : Int)) ∉ supported ∧ (c!"HIKAZS", (6 : Int)) ∉ supported) := by
  obtain ⟨h1, h2⟩ := builder_spec transactionTable_iff supported c!"HIKAZS" fun f => f account all
  constructor
  · intro r
    refine (h1 r).trans ?_
    constructor
    · rintro ⟨v, a, hv, ha, rfl⟩
      refine ⟨v, hv, ?_⟩
      have := hv.2.1
      simp only [List.mem_cons, List.not_mem_nil, or_false] at this
      rcases this with rfl | rfl <;> cases ha <;> rfl
    · rintro ⟨v, hv, rfl⟩
      have := hv.2.1
      simp only [List.mem_cons, List.not_mem_nil, or_false] at this
      rcases this with rfl | rfl <;> exact ⟨_, _, hv, rfl, rfl⟩
  · refine h2.trans ?_
    simp

/-- C32: `TanProcess4RequestBuilder` chooses the highest of the offered versions 1 and
6; the request built has that version and says process 4. -/
theorem C32_tan (versions : List Int) (referencing : Str) :
    (∀ s, (tanBuilder versions).map' (· referencing) = .ok s →
      Highest [1, 6] versions s.header.version ∧ s.header.id = c!"HKTAN" ∧
        s.elements.head? = some (some (.alnum c!"4" 1))) ∧
    ((tanBuilder versions).map' (· referencing) = .err ↔ 1 ∉ versions ∧ 6 ∉ versions) ∧
    (tanBuilder versions).map' (· referencing) ≠ .panic := by
  obtain ⟨h1, h2, h3⟩ := firstImplemented_spec tanTable_iff versions
  refine ⟨fun s hs => ?_, ?_, ?_⟩
  · unfold tanBuilder at hs
    cases hx : firstImplemented tanTable versions with
    | err => rw [hx] at hs; simp [Outcome.map'] at hs
    | panic => exact absurd hx h3
    | ok a =>
      rw [hx] at hs
      simp only [Outcome.map', Outcome.ok.injEq] at hs
      obtain ⟨v, hv, ha⟩ := (h1 a).1 hx
      have := hv.2.1
      simp only [List.mem_cons, List.not_mem_nil, or_false] at this
      rcases this with rfl | rfl <;> cases ha <;> subst hs <;> exact ⟨hv, rfl, rfl⟩
  · have : (1 ∉ versions ∧ 6 ∉ versions) ↔ ∀ v ∈ versions, v ∉ ([1, 6] : List Int) := by
      constructor
      · rintro ⟨h, h'⟩ v hv hm
        simp only [List.mem_cons, List.not_mem_nil, or_false] at hm
        rcases hm with rfl | rfl
        · exact h hv
        · exact h' hv
      · intro h
        exact ⟨fun hm => h _ hm (by simp), fun hm => h _ hm (by simp)⟩
    rw [this, ← h2]
    unfold tanBuilder
    cases firstImplemented tanTable versions <;> simp [Outcome.map']
  · unfold tanBuilder
    cases hx : firstImplemented tanTable versions <;> simp_all [Outcome.map']

theorem header_prefix {s : Seg} {w : Bytes} (h : s.marshal = .ok w) (hl : Latin1 s.header.id) :
    headerBytes s.header <+: w := by
  unfold Seg.marshal at h
  rw [header_marshal _ hl] at h
  simp only [Outcome.bind] at h
  cases hm : DE.marshalAll s.elements with
  | err => rw [hm] at h; simp [Outcome.map'] at h
  | panic => rw [hm] at h; simp [Outcome.map'] at h
  | ok ps =>
    rw [hm] at h
    simp only [Outcome.map', Outcome.ok.injEq] at h
    subst h
    have hj : ∃ x, join 43 (headerBytes s.header :: ps) = headerBytes s.header ++ x := by
      cases ps with
      | nil => exact ⟨[], by simp [join]⟩
      | cons p ps => exact ⟨_, rfl⟩
    obtain ⟨x, hx⟩ := hj
    rw [hx]
    by_cases ht : trimRight 43 x = []
    · obtain ⟨k, hk⟩ := trimRight_spec 43 x
      rw [ht, List.nil_append] at hk
      rw [hk, trimRight_replicate, trimRight_of_last (headerBytes_last _).1]
      exact List.prefix_append _ _
    · rw [trimRight_prefix _ ht, List.append_assoc]
      exact List.prefix_append _ _

/-- C32: what is sent carries the chosen version: the bytes of the request begin with
segment ID, position and version. -/
theorem C32_wire (r : BalanceRequest) (t : TransactionRequest) (w : Bytes) :
    (r.seg.marshal = .ok w → b!"HKSAL:1:" ++ itoa r.version <+: w) ∧
    (t.seg.marshal = .ok w → b!"HKKAZ:1:" ++ itoa t.version <+: w) := by
  constructor
  · intro h
    have hh : headerBytes r.seg.header = b!"HKSAL:1:" ++ itoa r.version := by
      have e1 : enc (escape c!"HKSAL") = b!"HKSAL" := by decide
      have e2 : itoa 1 = b!"1" := by decide
      simp [headerBytes, BalanceRequest.seg, newSegment, newHeader, e1, e2]
    rw [← hh]
    refine header_prefix h ?_
    show Latin1 c!"HKSAL"
    unfold Latin1
    decide
  · intro h
    have hh : headerBytes t.seg.header = b!"HKKAZ:1:" ++ itoa t.version := by
      have e1 : enc (escape c!"HKKAZ") = b!"HKKAZ" := by decide
      have e2 : itoa 1 = b!"1" := by decide
      simp [headerBytes, TransactionRequest.seg, newSegment, newHeader, e1, e2]
    rw [← hh]
    refine header_prefix h ?_
    show Latin1 c!"HKKAZ"
    unfold Latin1
    decide

/-- Non-vacuity: the bank offers 5, 7 and 6, then a version nobody implements. -/
example : Highest [5, 6] (offeredFor [(c!"HISALS", 5), (c!"HIKAZS", 4), (c!"HISALS", 7), (c!"HISALS", 6), (c!"HISALS", 9)]
    c!"HISALS") 6 := by
  unfold Highest offeredFor; decide

/-! ## C33: SEPA transactions -/

/-- C33: no list of supported segments lets the builder produce a SEPA transaction
request: the only implemented version is skipped. -/
theorem C33_never (supported : List (Str × Int)) (account : InternationalConnection) (all : Bool) :
    (newBuilder supported).sepaTransactions account all = .err := by
  have ht : ∀ v : Int, (∃ a, sepaTransactionTable v = some a) ↔ v ∈ ([] : List Int) := by
    intro v
    unfold sepaTransactionTable
    split
    · simp
    · rename_i h
      split
      · omega
      · simp
  exact (builder_spec ht supported c!"HIKAZS" fun f => f account all).2.2 (by simp)

/-- C33: the same for the builder function on its own, for every list of versions, one
with version 7 included. -/
theorem C33_builder (versions : List Int) : sepaTransactionBuilder versions = .err := by
  have ht : ∀ v : Int, (∃ a, sepaTransactionTable v = some a) ↔ v ∈ ([] : List Int) := by
    intro v
    unfold sepaTransactionTable
    split
    · simp
    · rename_i h
      split
      · omega
      · simp
  exact (firstImplemented_spec ht versions).2.1.2 (by simp)

/-! ## C34: status protocol -/

/-- C34: with 4 offered the request built has version 3, with 3 but not 4 offered it has
version 4; with neither it fails. -/
theorem C34_swapped (versions : List Int) (start stop : Civil) (maxEntries : Int) (mark : Str) :
    (4 ∈ versions → (statusBuilder versions).map' (fun f => (f start stop maxEntries mark).header) =
      .ok ⟨c!"HKPRO", 1, 3, none⟩) ∧
    (4 ∉ versions → 3 ∈ versions → (statusBuilder versions).map' (fun f => (f start stop maxEntries mark).header) =
      .ok ⟨c!"HKPRO", 1, 4, none⟩) ∧
    (4 ∉ versions → 3 ∉ versions → (statusBuilder versions).map' (fun f => (f start stop maxEntries mark).header) =
      .err) := by
  obtain ⟨h1, h2, _⟩ := firstImplemented_spec statusTable_iff versions
  refine ⟨fun h4 => ?_, fun h4 h3 => ?_, fun h4 h3 => ?_⟩
  · have : statusBuilder versions = .ok (newStatusRequest 3) := by
      refine (h1 _).2 ⟨4, ⟨h4, by simp, ?_⟩, rfl⟩
      intro w _ hw
      simp only [List.mem_cons, List.not_mem_nil, or_false] at hw
      omega
    rw [this]
    rfl
  · have : statusBuilder versions = .ok (newStatusRequest 4) := by
      refine (h1 _).2 ⟨3, ⟨h3, by simp, ?_⟩, rfl⟩
      intro w hw' hw
      simp only [List.mem_cons, List.not_mem_nil, or_false] at hw
      rcases hw with rfl | rfl
      · omega
      · exact absurd hw' h4
    rw [this]
    rfl
  · have : statusBuilder versions = .err := by
      refine h2.2 ?_
      intro v hv hm
      simp only [List.mem_cons, List.not_mem_nil, or_false] at hm
      rcases hm with rfl | rfl
      · exact h3 hv
      · exact h4 hv
    rw [this]
    rfl

/-- C34: so a bank that offers exactly one of the two versions is always sent the other
one, which it does not offer. -/
theorem C34_not_offered (versions : List Int) (h : ¬ (3 ∈ versions ∧ 4 ∈ versions)) (start stop : Civil)
    (maxEntries : Int) (mark : Str) (f : Civil → Civil → Int → Str → Seg) (hf : statusBuilder versions = .ok f) :
    (f start stop maxEntries mark).header.version ∉ versions := by
  obtain ⟨h1, h2, h3⟩ := C34_swapped versions start stop maxEntries mark
  rw [hf] at h1 h2 h3
  simp only [Outcome.map', Outcome.ok.injEq, reduceCtorEq] at h1 h2 h3
  by_cases h4 : 4 ∈ versions
  · rw [h1 h4]
    exact fun h5 => h ⟨h5, h4⟩
  · by_cases h5 : 3 ∈ versions
    · rw [h2 h4 h5]
      exact h4
    · exact absurd (h3 h4 h5) id

/-- Non-vacuity of `C34_not_offered`. -/
example : ∃ f, statusBuilder [4, 2] = .ok f := by
  obtain ⟨h1, _⟩ := firstImplemented_spec statusTable_iff [4, 2]
  exact ⟨_, (h1 _).2 ⟨4, ⟨by simp, by simp, by simp⟩, rfl⟩⟩

/-! ## C69: the status protocol is out of reach -/

/-- C69: the supported segments a response reports never let the builder produce a
status request: the builder looks for an ID of five bytes, the report drops those. -/
theorem C69_unreachable {σ : Type} {other : Message.Decoders σ} {header : Message.ReadHeader} {raw : Bytes}
    {d : Message.Decrypted σ} (h : Message.newDecrypted other header raw = .ok d) :
    ∃ supported, d.supportedSegments = .ok supported ∧ ∀ (start stop : Civil) (maxEntries : Int) (mark : Str),
      (newBuilder supported).status start stop maxEntries mark = .err := by
  obtain ⟨ss, hs, _, _, h3⟩ := Message.C67_supported h
  refine ⟨_, h3, fun start stop maxEntries mark => ?_⟩
  refine (builder_spec statusTable_iff _ c!"HIPRO" fun f => f start stop maxEntries mark).2.2 ?_
  intro v _ hm
  simp only [List.mem_map, List.mem_filter, decide_eq_true_eq, Prod.mk.injEq] at hm
  obtain ⟨x, ⟨_, h5⟩, h6, _⟩ := hm
  rw [h6] at h5
  exact absurd h5 (by decide)

/-- Non-vacuity of `C69_unreachable`: the bank offers HIPROS and even HIPRO. -/
example : ((Message.newDecrypted (σ := Unit) (fun _ _ => none) Message.sampleReadHeader
      b!"HIPROS:3:4+1'HIPRO:4:4+1'").map' fun d => d.supportedSegments) = .ok (.ok [(c!"HIPROS", 4)]) := by
  decide +kernel

/-! ## C72: the continuation mark -/

/-- C72: the parameter `p` of the acknowledgement, set as continuation mark of a balance
request, is written back exactly as it was received if and only if it has none of the
characters that are escaped.  In every case the mark the bank reads is the text of `p`
with its escape signs. -/
theorem C72_balance (r : BalanceRequest) (p : Bytes) :
    ∃ e b, (r.setContinuationMark (Charset.toUTF8 p)).seg.elements.getLast? = some (some e) ∧ e.marshal = .ok b ∧
      unmarshalText b = Charset.toUTF8 p ∧ (b = p ↔ ∀ c ∈ Charset.toUTF8 p, ¬ Special c) := by
  have hl := latin1_toUTF8 p
  refine ⟨.alnum (Charset.toUTF8 p) 35, enc (escape (Charset.toUTF8 p)), rfl, marshalText_ok hl, unmarshalText_enc hl, ?_⟩
  rw [← escape_eq_self]
  constructor
  · intro h
    have h2 := congrArg Charset.toUTF8 h
    rwa [toUTF8_enc (escape_latin1.2 hl)] at h2
  · intro h
    rw [h, enc_toUTF8]

/-- C72: the same for transaction requests. -/
theorem C72_transactions (r : TransactionRequest) (p : Bytes) :
    ∃ e b, (r.setContinuationReference (Charset.toUTF8 p)).seg.elements.getLast? = some (some e) ∧
      e.marshal = .ok b ∧ unmarshalText b = Charset.toUTF8 p ∧ (b = p ↔ ∀ c ∈ Charset.toUTF8 p, ¬ Special c) := by
  have hl := latin1_toUTF8 p
  refine ⟨.alnum (Charset.toUTF8 p) (strLen (Charset.toUTF8 p)), enc (escape (Charset.toUTF8 p)), rfl,
    marshalText_ok hl, unmarshalText_enc hl, ?_⟩
  rw [← escape_eq_self]
  constructor
  · intro h
    have h2 := congrArg Charset.toUTF8 h
    rwa [toUTF8_enc (escape_latin1.2 hl)] at h2
  · intro h
    rw [h, enc_toUTF8]

/-- C72: a bank that wrote the mark `s` therefore gets `s` back exactly if `s` has no
special character. -/
theorem C72_bank (r : BalanceRequest) {s : Str} (hs : Latin1 s) :
    ∃ e b, (r.setContinuationMark (Charset.toUTF8 (enc (escape s)))).seg.elements.getLast? = some (some e) ∧
      e.marshal = .ok b ∧ (unmarshalText b = s ↔ ∀ c ∈ s, ¬ Special c) := by
  obtain ⟨e, b, h1, h2, h3, _⟩ := C72_balance r (enc (escape s))
  refine ⟨e, b, h1, h2, ?_⟩
  rw [h3, toUTF8_enc (escape_latin1.2 hs), escape_eq_self]

/-- Witness for C72: the mark `1:2` comes back as `1?:2`. -/
example : (DE.alnum (Charset.toUTF8 b!"1?:2") 35).marshal = .ok b!"1???:2" ∧ unmarshalText b!"1???:2" = c!"1?:2" ∧
    unmarshalText b!"1?:2" = c!"1:2" := by
  decide

/-! ## C73: the range of transactions -/

/-- The order of calendar days. -/
def DayBefore (a b : Civil) : Prop :=
  a.year < b.year ∨ a.year = b.year ∧ (a.month < b.month ∨ a.month = b.month ∧ a.day < b.day)

/-- A day of the calendar. -/
def CalendarDay (t : Civil) : Prop := 1 ≤ t.month ∧ t.month ≤ 12 ∧ 1 ≤ t.day ∧ t.day ≤ daysIn t.month t.year

/-- C73: a timeframe with both ends set is asked for as it is, whatever the clock says. -/
theorem C73_given (r : TransactionRequest) (now start stop : Civil) (h1 : start ≠ ⟨1, 1, 1, 0, 0, 0, 0⟩)
    (h2 : stop ≠ ⟨1, 1, 1, 0, 0, 0, 0⟩) :
    (r.setTransactionRange now ⟨start, stop⟩).seg.elements =
      [some r.account, some (.boolean r.allAccounts), some (.date start), some (.date stop), none,
        r.mark.map fun m => .alnum m (strLen m)] := by
  have e1 : isZero start = false := by simpa [isZero] using h1
  have e2 : isZero stop = false := by simpa [isZero] using h2
  simp [TransactionRequest.setTransactionRange, TransactionRequest.seg, newSegment, e1, e2]

/-- C73: without an end the range ends today; without a start it starts at the same day
of the month before, or, if that month is too short, by so many days later. -/
theorem C73_default (r : TransactionRequest) (now : Civil) (hn : CalendarDay now) (tf : Timeframe) :
    ∃ start stop, (r.setTransactionRange now tf).start = some start ∧ (r.setTransactionRange now tf).stop = some stop ∧
      (tf.startDate ≠ zeroTime → start = tf.startDate) ∧ (tf.endDate ≠ zeroTime → stop = tf.endDate) ∧
      (tf.endDate = zeroTime → stop = ⟨now.year, now.month, now.day, 0, 0, 0, 0⟩) ∧
      (tf.startDate = zeroTime → now.month = 1 → start = ⟨now.year - 1, 12, now.day, 0, 0, 0, 0⟩) ∧
      (tf.startDate = zeroTime → now.month ≠ 1 → now.day ≤ daysIn (now.month - 1) now.year →
        start = ⟨now.year, now.month - 1, now.day, 0, 0, 0, 0⟩) ∧
      (tf.startDate = zeroTime → now.month ≠ 1 → daysIn (now.month - 1) now.year < now.day →
        start = ⟨now.year, now.month, now.day - daysIn (now.month - 1) now.year, 0, 0, 0, 0⟩) := by
  obtain ⟨h1, h2, h3, h4⟩ := hn
  have hz : ∀ t : Civil, isZero t = true ↔ t = zeroTime := fun t => by simp [isZero, zeroTime]
  refine ⟨_, _, rfl, rfl, fun h => ?_, fun h => ?_, fun h => ?_, fun h hm => ?_, fun h hm hd => ?_, fun h hm hd => ?_⟩
  · simp only [hz, h, if_false]
  · simp only [hz, h, if_false]
  · simp only [hz, h, if_true, newShortDate]
  · have hd : daysIn 12 (now.year - 1) = 31 := by simp [daysIn]
    have hd' : daysIn now.month now.year = 31 := by simp [daysIn, hm]
    rw [hd'] at h4
    simp only [hz, h, if_true, newShortDate, monthBefore, hm]
    simp [hd, Nat.not_lt.2 h4]
  · have : ¬ now.month ≤ 1 := by omega
    simp only [hz, h, if_true, newShortDate, monthBefore, this, if_false]
    rw [if_neg (Nat.not_lt.2 hd)]
  · have : ¬ now.month ≤ 1 := by omega
    simp only [hz, h, if_true, newShortDate, monthBefore, this, if_false]
    rw [if_pos hd]

/-- C73: the default range is one of calendar days, begins before it ends, and ends
today. -/
theorem C73_order (r : TransactionRequest) (now : Civil) (hn : CalendarDay now) :
    ∃ start stop, (r.setTransactionRange now ⟨zeroTime, zeroTime⟩).start = some start ∧
      (r.setTransactionRange now ⟨zeroTime, zeroTime⟩).stop = some stop ∧
      CalendarDay start ∧ CalendarDay stop ∧ DayBefore start stop := by
  obtain ⟨start, stop, h1, h2, _, _, h3, h4, h5, h6⟩ := C73_default r now hn ⟨zeroTime, zeroTime⟩
  refine ⟨start, stop, h1, h2, ?_⟩
  rw [h3 rfl]
  obtain ⟨g1, g2, g3, g4⟩ := hn
  by_cases hm : now.month = 1
  · rw [h4 rfl hm]
    have hd' : daysIn now.month now.year = 31 := by simp [daysIn, hm]
    rw [hd'] at g4
    refine ⟨⟨by simp, by simp, g3, by simpa [daysIn] using g4⟩, ⟨g1, g2, g3, by simpa [hd'] using g4⟩, Or.inl ?_⟩
    simp only
    omega
  · by_cases hd : now.day ≤ daysIn (now.month - 1) now.year
    · rw [h5 rfl hm hd]
      refine ⟨⟨?_, ?_, g3, hd⟩, ⟨g1, g2, g3, g4⟩, Or.inr ⟨rfl, Or.inl ?_⟩⟩ <;> simp only <;> omega
    · have hpos : 0 < daysIn (now.month - 1) now.year := by unfold daysIn; split <;> split <;> omega
      rw [h6 rfl hm (Nat.not_le.1 hd)]
      refine ⟨⟨g1, g2, ?_, ?_⟩, ⟨g1, g2, g3, g4⟩, Or.inr ⟨rfl, Or.inr ⟨rfl, ?_⟩⟩⟩ <;> simp only <;> omega

/-- C73: the default start does not look at the end: with only an end in the past the
range asked for begins after it ends. -/
theorem C73_inverted (r : TransactionRequest) : ∃ now stop, CalendarDay now ∧ CalendarDay stop ∧ DayBefore stop now ∧
    ∃ start, (r.setTransactionRange now ⟨zeroTime, stop⟩).start = some start ∧
      (r.setTransactionRange now ⟨zeroTime, stop⟩).stop = some stop ∧ DayBefore stop start := by
  refine ⟨⟨2020, 3, 31, 12, 0, 0, 0⟩, ⟨2020, 1, 15, 0, 0, 0, 0⟩, by unfold CalendarDay; decide,
    by unfold CalendarDay; decide, Or.inr ⟨rfl, Or.inl (by decide)⟩, ⟨2020, 3, 2, 0, 0, 0, 0⟩, by simp [TransactionRequest.setTransactionRange, isZero, zeroTime, monthBefore, daysIn, newShortDate, isLeap],
    by simp [TransactionRequest.setTransactionRange, isZero, zeroTime, newShortDate], Or.inr ⟨rfl, Or.inl (by decide)⟩⟩

end Verif.Segment
