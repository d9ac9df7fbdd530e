import Verif.Domain.Report
import Verif.Dialog.Props

/-
C106: what the caller is told about the errors a bank reports.
-/

namespace Verif.Domain

open GoLib

/-! ## Specification -/

/-- The acknowledgements that are errors. -/
def errors (acks : List Acknowledgement) : List Acknowledgement := acks.filter fun a => decide (9000 ≤ a.code)

/-- An acknowledgement whose parts cannot be taken for the text around them. -/
structure Plain (a : Acknowledgement) : Prop where
  dialog : ')' ∉ a.referencingMessage.dialogID
  reference : '\'' ∉ a.referenceDataElement ∧ a.referenceDataElement ≠ c!"none"
  text : '\'' ∉ a.text
  oneLine : '\n' ∉ a.referencingMessage.dialogID ∧ '\n' ∉ a.referenceDataElement ∧ '\n' ∉ a.text

/-- `%q`: different texts are quoted differently, and the result is one line. -/
structure Quotes (quote : Str → Str) : Prop where
  injective : ∀ x y, quote x = quote y → x = y
  oneLine : ∀ x, '\n' ∉ quote x

/-- Two acknowledgements that say the same: all is the same except that the parameters may be divided
differently and that a segment number that is not positive is not told. -/
def SameReport (a b : Acknowledgement) : Prop :=
  a.type = b.type ∧ a.code = b.code ∧ a.referenceDataElement = b.referenceDataElement ∧ a.text = b.text ∧
  a.referencingMessage = b.referencingMessage ∧ max a.referencingSegmentNumber 0 = max b.referencingSegmentNumber 0 ∧
  (a.params = [] ↔ b.params = []) ∧ joinWith c!", " a.params = joinWith c!", " b.params

/-! ## Lemmas -/

theorem split_at {c : Char} {a b x y : Str} (ha : c ∉ a) (hb : c ∉ b) (h : a ++ c :: x = b ++ c :: y) : a = b ∧ x = y := by
  induction a generalizing b with
  | nil =>
    cases b with
    | nil => simpa using h
    | cons d b => simp at h; simp [h.1] at hb
  | cons d a ih =>
    cases b with
    | nil => simp at h; simp [h.1] at ha
    | cons e b =>
      simp only [List.cons_append, List.cons.injEq] at h
      simp only [List.mem_cons, not_or] at ha hb
      obtain ⟨h1, h2⟩ := ih ha.2 hb.2 h.2
      exact ⟨by rw [h.1, h1], h2⟩

theorem itoa_injective {m n : Int} (h : itoa m = itoa n) : m = n := by
  have hd : ∀ (k : Nat) (t : Bytes), natDec k ≠ 45 :: t := by
    intro k t hk
    have := (natDec_digits k).2 45 (by rw [hk]; simp)
    revert this
    unfold Token.Spec.Digit
    decide
  have key : ∀ a b : Nat, natDec a = natDec b → a = b := by
    intro a b hab
    have := congrArg digitsVal hab
    rwa [digitsVal_natDec, digitsVal_natDec] at this
  unfold itoa at h
  split at h <;> split at h
  · simp only [List.cons.injEq, true_and] at h
    have := key _ _ h
    omega
  · exact absurd h.symm (hd _ _)
  · exact absurd h (hd _ _)
  · have := key _ _ h
    omega

theorem decimal_injective {m n : Int} (h : decimal m = decimal n) : m = n := by
  refine itoa_injective ?_
  unfold decimal at h
  refine (List.map_injective_iff.2 ?_) h
  intro a b hab
  have key : ∀ a : UInt8, (Char.ofNat a.toNat).toNat = a.toNat := by decide +kernel
  have := congrArg Char.toNat hab
  rw [key, key] at this
  exact UInt8.toNat_inj.1 this

theorem decimal_chars (n : Int) : ∀ c ∈ decimal n, c = '-' ∨ ('0' ≤ c ∧ c ≤ '9') := by
  intro c hc
  unfold decimal at hc
  obtain ⟨b, hb, rfl⟩ := List.mem_map.1 hc
  have : b = 45 ∨ Token.Spec.Digit b := by
    unfold itoa at hb
    split at hb
    · rcases List.mem_cons.1 hb with rfl | hb
      · exact .inl rfl
      · exact .inr ((natDec_digits _).2 b hb)
    · exact .inr ((natDec_digits _).2 b hb)
  have key : ∀ b : UInt8, b = 45 ∨ (48 ≤ b.toNat ∧ b.toNat ≤ 57) →
      Char.ofNat b.toNat = '-' ∨ ('0' ≤ Char.ofNat b.toNat ∧ Char.ofNat b.toNat ≤ '9') := by decide +kernel
  exact key b this

theorem decimal_not_mem (n : Int) {c : Char} (h : c ≠ '-' ∧ ¬ ('0' ≤ c ∧ c ≤ '9')) : c ∉ decimal n := fun hc =>
  (decimal_chars n c hc).elim h.1 h.2

theorem joinWith_line {xs ys : List Str} (hx : ∀ x ∈ xs, '\n' ∉ x) (hy : ∀ y ∈ ys, '\n' ∉ y) (hnx : xs ≠ []) (hny : ys ≠ [])
    (h : joinWith c!"\n" xs = joinWith c!"\n" ys) : xs = ys := by
  induction xs generalizing ys with
  | nil => exact absurd rfl hnx
  | cons x xs ih =>
    cases ys with
    | nil => exact absurd rfl hny
    | cons y ys =>
      cases xs with
      | nil =>
        cases ys with
        | nil => simpa [joinWith] using h
        | cons z zs =>
          simp only [joinWith] at h
          exact absurd (by rw [h]; simp) (hx x (by simp))
      | cons x' xs =>
        cases ys with
        | nil =>
          simp only [joinWith] at h
          exact absurd (by rw [← h]; simp) (hy y (by simp))
        | cons y' ys =>
          simp only [joinWith, List.append_assoc, List.cons_append, List.nil_append] at h
          obtain ⟨h1, h2⟩ := split_at (hx x (by simp)) (hy y (by simp)) h
          rw [h1, ih (fun z hz => hx z (by simp [hz])) (fun z hz => hy z (by simp [hz])) (by simp) (by simp) h2]

theorem refusal_eq (quote : Str → Str) (title : Str) (acks : List Acknowledgement) :
    refusal quote title acks =
      if errors acks = [] then none else some (title ++ c!"\n" ++ joinWith c!"\n" ((errors acks).map (·.string quote))) := by
  have key : ∀ (es : List Str) (l : List Acknowledgement),
      l.foldl (fun es a => if a.isError then es ++ [a.string quote] else es) es = es ++ (errors l).map (·.string quote) := by
    intro es l
    induction l generalizing es with
    | nil => simp [errors]
    | cons a l ih =>
      rw [List.foldl_cons, ih]
      by_cases h : 9000 ≤ a.code <;> simp [errors, Acknowledgement.isError, h]
  unfold refusal
  simp only [key, List.nil_append, List.length_map]
  by_cases h : errors acks = []
  · simp [h]
  · rw [if_pos (List.length_pos_iff.2 h), if_neg h]

/-! ## The texts -/

/-- A call is refused with a text exactly if an acknowledgement has a code from 9000 on, which is
when the dialog returns an error because of them. -/
theorem C106_refused {σ : Type} (quote : Str → Str) (title : Str) (m : Message.Decrypted σ) :
    (refusal quote title m.acknowledgements ≠ none ↔ ∃ a ∈ m.acknowledgements, 9000 ≤ a.code) ∧
    (refusal quote title m.acknowledgements ≠ none ↔ Dialog.checkAcks m = .err) := by
  have h1 : refusal quote title m.acknowledgements ≠ none ↔ ∃ a ∈ m.acknowledgements, 9000 ≤ a.code := by
    rw [refusal_eq]
    by_cases h : errors m.acknowledgements = []
    · rw [if_pos h]
      unfold errors at h
      simp only [List.filter_eq_nil_iff, decide_eq_true_eq] at h
      simpa using h
    · rw [if_neg h]
      simp only [ne_eq, reduceCtorEq, not_false_eq_true, true_iff]
      unfold errors at h
      simpa [List.filter_eq_nil_iff] using h
  refine ⟨h1, h1.trans ?_⟩
  unfold Dialog.checkAcks
  simp only [List.any_eq_true, Acknowledgement.isError, decide_eq_true_eq, ge_iff_le]
  split <;> simp_all

/-- The position as it is told. -/
def position (a : Acknowledgement) : Str := if a.referenceDataElement ≠ [] then a.referenceDataElement else c!"none"

/-- The parameters as they are told. -/
def parameters (quote : Str → Str) (a : Acknowledgement) : Str :=
  if a.params ≠ [] then c!", Parameters: " ++ quote (joinWith c!", " a.params) else []

theorem details_eq (quote : Str → Str) (a : Acknowledgement) :
    a.details quote = c!"Code: " ++ (decimal a.code ++ ',' :: (c!" Position: " ++ ((position a ++ c!", Text: ") ++
      '\'' :: (a.text ++ '\'' :: parameters quote a)))) := by
  unfold Acknowledgement.details position parameters
  split <;> simp

theorem heading_eq (a : Acknowledgement) (x : Str) :
    a.heading ++ x = (a.type.name ++ c!" for message ") ++ (decimal a.referencingMessage.messageNumber ++ ' ' :: '(' ::
      (a.referencingMessage.dialogID ++ ')' ::
        (if a.referencingSegmentNumber > 0 then c!", segment " ++ (decimal a.referencingSegmentNumber ++ ':' :: ' ' :: x) else c!": " ++ x))) := by
  unfold Acknowledgement.heading
  split <;> simp

/-- The code and the text of every error stand in what the caller is told. -/
theorem C106_told {quote : Str → Str} {title : Str} {acks : List Acknowledgement} {a : Acknowledgement} (ha : a ∈ acks) (hc : 9000 ≤ a.code) :
    ∃ t, refusal quote title acks = some t ∧ c!"Code: " ++ decimal a.code ++ c!", " <:+: t ∧ c!"Text: '" ++ a.text ++ c!"'" <:+: t := by
  have hm : a ∈ errors acks := List.mem_filter.2 ⟨ha, by simpa using hc⟩
  rw [refusal_eq, if_neg (List.ne_nil_of_mem hm)]
  refine ⟨_, rfl, ?_⟩
  have key : ∀ l : List Str, ∀ x ∈ l, x <:+: joinWith c!"\n" l := by
    intro l
    induction l with
    | nil => simp
    | cons y l ih =>
      intro x hx
      cases l with
      | nil => simp at hx; subst hx; exact List.infix_rfl
      | cons z l =>
        rcases List.mem_cons.1 hx with rfl | hx
        · simp only [joinWith, List.append_assoc]
          exact List.infix_append' [] x _
        · exact (ih x hx).trans (List.IsSuffix.isInfix ⟨_, rfl⟩)
  have hs : a.string quote <:+: title ++ c!"\n" ++ joinWith c!"\n" ((errors acks).map (·.string quote)) :=
    (key _ _ (List.mem_map_of_mem hm)).trans (List.IsSuffix.isInfix ⟨_, rfl⟩)
  constructor
  · refine List.IsInfix.trans ?_ hs
    refine ⟨a.heading, c!"Position: " ++ ((position a ++ c!", Text: ") ++ '\'' :: (a.text ++ '\'' :: parameters quote a)), ?_⟩
    unfold Acknowledgement.string
    rw [details_eq]
    simp
  · refine List.IsInfix.trans ?_ hs
    refine ⟨a.heading ++ c!"Code: " ++ decimal a.code ++ c!", Position: " ++ position a ++ c!", ", parameters quote a, ?_⟩
    unfold Acknowledgement.string
    rw [details_eq]
    simp

/-- So do those of a status acknowledgement, whenever it was transmitted. -/
theorem C106_status (at_ : Str) (a : Acknowledgement) :
    c!"Transmitted at: " ++ at_ ++ c!", Code: " ++ decimal a.code ++ c!", " <:+: a.statusString at_ ∧
    c!"Text: '" ++ a.text ++ c!"'" <:+: a.statusString at_ ∧
    (a.params ≠ [] → c!", Parameters: " ++ joinWith c!", " a.params <:+ a.statusString at_) := by
  unfold Acknowledgement.statusString
  rw [details_eq]
  refine ⟨⟨a.heading, c!"Position: " ++ ((position a ++ c!", Text: ") ++ '\'' :: (a.text ++ '\'' :: parameters id a)), by simp⟩,
    ⟨a.heading ++ c!"Transmitted at: " ++ at_ ++ c!", Code: " ++ decimal a.code ++ c!", Position: " ++ position a ++ c!", ", parameters id a, by simp⟩, ?_⟩
  intro h
  refine ⟨a.heading ++ c!"Transmitted at: " ++ at_ ++ c!", Code: " ++ decimal a.code ++ c!", Position: " ++ position a ++ c!", Text: '" ++ a.text ++ c!"'", ?_⟩
  simp [parameters, h]

theorem Plain.position {a : Acknowledgement} (h : Plain a) : '\'' ∉ position a ++ c!", Text: " := by
  unfold Domain.position
  have := h.reference.1
  split <;> simp [this]

theorem position_injective {a b : Acknowledgement} (ha : Plain a) (hb : Plain b) (h : position a = position b) :
    a.referenceDataElement = b.referenceDataElement := by
  unfold position at h
  have h1 := ha.reference.2
  have h2 := hb.reference.2
  by_cases ea : a.referenceDataElement = [] <;> by_cases eb : b.referenceDataElement = []
  · rw [ea, eb]
  · rw [if_neg (by simpa using ea), if_pos eb] at h
    exact absurd h.symm h2
  · rw [if_pos ea, if_neg (by simpa using eb)] at h
    exact absurd h h1
  · rwa [if_pos ea, if_pos eb] at h

theorem parameters_injective {quote : Str → Str} (hq : Quotes quote) {a b : Acknowledgement} (h : parameters quote a = parameters quote b) :
    (a.params = [] ↔ b.params = []) ∧ joinWith c!", " a.params = joinWith c!", " b.params := by
  unfold parameters at h
  by_cases ea : a.params = [] <;> by_cases eb : b.params = []
  · simp [ea, eb]
  · rw [if_neg (by simpa using ea), if_pos eb] at h
    simp at h
  · rw [if_pos ea, if_neg (by simpa using eb)] at h
    simp at h
  · rw [if_pos ea, if_pos eb] at h
    refine ⟨by simp [ea, eb], hq.injective _ _ ?_⟩
    simpa using h

theorem details_injective {quote : Str → Str} (hq : Quotes quote) {a b : Acknowledgement} (ha : Plain a) (hb : Plain b)
    (h : a.details quote = b.details quote) :
    a.code = b.code ∧ a.referenceDataElement = b.referenceDataElement ∧ a.text = b.text ∧
      (a.params = [] ↔ b.params = []) ∧ joinWith c!", " a.params = joinWith c!", " b.params := by
  rw [details_eq, details_eq] at h
  obtain ⟨h1, h⟩ := split_at (decimal_not_mem _ (by decide)) (decimal_not_mem _ (by decide)) (List.append_cancel_left h)
  obtain ⟨h2, h⟩ := split_at ha.position hb.position (List.append_cancel_left h)
  obtain ⟨h3, h⟩ := split_at ha.text hb.text h
  exact ⟨decimal_injective h1, position_injective ha hb (List.append_cancel_right h2), h3, parameters_injective hq h⟩

theorem string_injective {quote : Str → Str} (hq : Quotes quote) {a b : Acknowledgement} (ha : Plain a) (hb : Plain b)
    (h : a.string quote = b.string quote) : SameReport a b := by
  unfold Acknowledgement.string at h
  rw [heading_eq, heading_eq] at h
  have ht : a.type = b.type := by
    cases e1 : a.type <;> cases e2 : b.type <;> first | rfl | (rw [e1, e2] at h; simp [AckType.name] at h)
  rw [ht] at h
  obtain ⟨h1, h⟩ := split_at (decimal_not_mem _ (by decide)) (decimal_not_mem _ (by decide)) (List.append_cancel_left h)
  rw [List.cons.injEq] at h
  obtain ⟨h2, h⟩ := split_at ha.dialog hb.dialog h.2
  have key : max a.referencingSegmentNumber 0 = max b.referencingSegmentNumber 0 ∧ a.details quote = b.details quote := by
    split at h <;> split at h
    · obtain ⟨h3, h⟩ := split_at (decimal_not_mem _ (by decide)) (decimal_not_mem _ (by decide)) (List.append_cancel_left h)
      exact ⟨by rw [decimal_injective h3], by simpa using h⟩
    · simp at h
    · simp at h
    · exact ⟨by omega, by simpa using h⟩
  obtain ⟨h4, h5, h6, h7, h8⟩ := details_injective hq ha hb key.2
  refine ⟨ht, h4, h5, h6, ?_, key.1, h7, h8⟩
  have h9 := decimal_injective h1
  revert h2 h9
  generalize a.referencingMessage = x
  generalize b.referencingMessage = y
  rcases x with ⟨d, n⟩
  rcases y with ⟨d', n'⟩
  rintro rfl rfl
  rfl

theorem string_line {quote : Str → Str} (hq : Quotes quote) {a : Acknowledgement} (ha : Plain a) : '\n' ∉ a.string quote := by
  have hd : ∀ n, '\n' ∉ decimal n := fun n => decimal_not_mem n (by decide)
  unfold Acknowledgement.string
  rw [heading_eq, details_eq]
  have h1 : '\n' ∉ a.type.name := by cases a.type <;> decide
  have h2 : '\n' ∉ position a := by
    unfold position
    split
    · exact ha.oneLine.2.1
    · decide
  have h3 : '\n' ∉ parameters quote a := by
    unfold parameters
    split
    · simp [hq.oneLine]
    · simp
  split <;> simp [hd, h1, h2, h3, ha.oneLine.1, ha.oneLine.2.2]

/-- What the caller is told determines the errors of the bank, their order, and all that was said
with them: answers that are told alike report the same errors. -/
theorem C106_unambiguous {quote : Str → Str} (hq : Quotes quote) (title : Str) {acks acks' : List Acknowledgement}
    (h1 : ∀ a ∈ acks, 9000 ≤ a.code → Plain a) (h2 : ∀ a ∈ acks', 9000 ≤ a.code → Plain a)
    (h : refusal quote title acks = refusal quote title acks') : List.Forall₂ SameReport (errors acks) (errors acks') := by
  have g : ∀ {l : List Acknowledgement}, (∀ a ∈ l, 9000 ≤ a.code → Plain a) → ∀ a ∈ errors l, Plain a := by
    intro l hl a ha
    obtain ⟨ha, hc⟩ := List.mem_filter.1 ha
    exact hl a ha (by simpa using hc)
  replace h1 := g h1
  replace h2 := g h2
  rw [refusal_eq, refusal_eq] at h
  generalize errors acks = es at *
  generalize errors acks' = es' at *
  by_cases e1 : es = [] <;> by_cases e2 : es' = []
  · subst e1 e2; exact .nil
  · simp [e1, e2] at h
  · simp [e1, e2] at h
  · rw [if_neg e1, if_neg e2, Option.some.injEq] at h
    have h := joinWith_line (by simpa using fun a ha => string_line hq (h1 a ha)) (by simpa using fun a ha => string_line hq (h2 a ha))
      (by simpa using e1) (by simpa using e2) (List.append_cancel_left h)
    rename_i h0
    clear e1 e2 h0
    induction es generalizing es' with
    | nil =>
      cases es' with
      | nil => exact .nil
      | cons _ _ => simp at h
    | cons a es ih =>
      cases es' with
      | nil => simp at h
      | cons b es' =>
        simp only [List.map_cons, List.cons.injEq] at h
        exact .cons (string_injective hq (h1 a (by simp)) (h2 b (by simp)) h.1)
          (ih (fun x hx => h1 x (by simp [hx])) _ (fun x hx => h2 x (by simp [hx])) h.2)

/-! ## Cases -/

/-- A wrong PIN, told for the message and for its second segment, beside a warning. -/
def Sample.wrongPin : List Acknowledgement :=
  [⟨.message, 9050, [], c!"Teilweise fehlerhaft", [], ⟨c!"abc", 2⟩, 0⟩,
   ⟨.message, 3060, [], c!"Bitte beachten", [], ⟨c!"abc", 2⟩, 0⟩,
   ⟨.segment, 9340, c!"3,1", c!"PIN falsch", [c!"1", c!"3"], ⟨c!"abc", 2⟩, 4⟩]

/-- A way to quote texts without line breaks in them. -/
def Sample.quote (x : Str) : Str := c!"\"" ++ x.flatMap (fun c => if c = '\n' then ['\\', 'n'] else if c = '\\' then ['\\', '\\'] else [c]) ++ c!"\""

example : refusal Sample.quote c!"institute returned errors:" Sample.wrongPin =
    some c!"institute returned errors:\nMessageAcknowledgement for message 2 (abc): Code: 9050, Position: none, Text: 'Teilweise fehlerhaft'\nSegmentAcknowledgement for message 2 (abc), segment 4: Code: 9340, Position: 3,1, Text: 'PIN falsch', Parameters: \"1, 3\"" := by
  decide +kernel

example : ∀ a ∈ Sample.wrongPin, 9000 ≤ a.code → Plain a := by
  intro a ha _
  simp only [Sample.wrongPin, List.mem_cons, List.not_mem_nil, or_false] at ha
  rcases ha with rfl | rfl | rfl <;> exact ⟨by decide, by decide, by decide, by decide⟩

example : Quotes Sample.quote := by
  refine ⟨fun x y h => ?_, fun x => ?_⟩
  · replace h := List.append_cancel_right h
    replace h := List.append_cancel_left h
    induction x generalizing y with
    | nil =>
      cases y with
      | nil => rfl
      | cons c y =>
        rw [List.flatMap_cons] at h
        split at h
        · simp at h
        · split at h <;> simp at h
    | cons d x ih =>
      cases y with
      | nil =>
        rw [List.flatMap_cons] at h
        split at h
        · simp at h
        · split at h <;> simp at h
      | cons c y =>
        rw [List.flatMap_cons, List.flatMap_cons] at h
        have : d = c ∧ x.flatMap (fun c => if c = '\n' then ['\\', 'n'] else if c = '\\' then ['\\', '\\'] else [c]) =
            y.flatMap (fun c => if c = '\n' then ['\\', 'n'] else if c = '\\' then ['\\', '\\'] else [c]) := by
          by_cases h1 : d = '\n' <;> by_cases h2 : d = '\\' <;> by_cases h3 : c = '\n' <;> by_cases h4 : c = '\\' <;>
            simp_all <;> exact absurd h.1.symm h4
        rw [this.1, ih _ this.2]
  · unfold Sample.quote
    simp only [List.mem_append, List.mem_flatMap, not_or, not_exists, not_and]
    refine ⟨⟨by decide, fun c _ => ?_⟩, by decide⟩
    by_cases h1 : c = '\n' <;> by_cases h2 : c = '\\' <;> simp_all [eq_comm (a := '\n')]

/-- The texts of the bank are put in as they are: an acknowledgement whose text goes on with a line
of its own is told like two errors. -/
example : refusal id c!"institute returned errors:"
      [⟨.message, 9050, [], c!"x'\nMessageAcknowledgement for message 2 (abc): Code: 9340, Position: none, Text: 'y", [], ⟨c!"abc", 2⟩, 0⟩] =
    refusal id c!"institute returned errors:"
      [⟨.message, 9050, [], c!"x", [], ⟨c!"abc", 2⟩, 0⟩, ⟨.message, 9340, [], c!"y", [], ⟨c!"abc", 2⟩, 0⟩] := by
  decide +kernel

/-- How the parameters are divided is not told. -/
example : refusal id c!"t" [⟨.message, 9050, [], c!"x", [c!"a, b"], ⟨c!"abc", 2⟩, 0⟩] =
    refusal id c!"t" [⟨.message, 9050, [], c!"x", [c!"a", c!"b"], ⟨c!"abc", 2⟩, 0⟩] := by
  decide +kernel

end Verif.Domain
