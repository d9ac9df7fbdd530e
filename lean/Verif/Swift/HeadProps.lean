import Verif.Swift.StatementProps

/-
C122: the head of a statement, and the tags of package swift that hold one value.
-/

namespace Verif.Swift

open GoLib Spec
open Element.Spec (IsInt)
open Token.Spec (value)

theorem kind_number {t : Bytes} : kindOf t = .number ↔ b!":28C:" <+: t := by
  constructor
  · intro h
    unfold kindOf at h
    repeat (split at h; first | (rename_i hp; exact prefix_bool.1 hp) | simp at h)
    simp at h
  · intro h
    unfold kindOf
    repeat (first | rw [if_pos (prefix_bool.2 h)] | rw [if_neg (fun hh => no_both (prefix_bool.1 hh) h (by decide))])

theorem kind_job {t : Bytes} : kindOf t = .job ↔ b!":20:" <+: t := by
  constructor
  · intro h
    unfold kindOf at h
    repeat (split at h; first | (rename_i hp; exact prefix_bool.1 hp) | simp at h)
    simp at h
  · intro h
    unfold kindOf
    rw [if_pos (prefix_bool.2 h)]

theorem kind_reference {t : Bytes} : kindOf t = .reference ↔ b!":21:" <+: t := by
  constructor
  · intro h
    unfold kindOf at h
    repeat (split at h; first | (rename_i hp; exact prefix_bool.1 hp) | simp at h)
    simp at h
  · intro h
    unfold kindOf
    repeat (first | rw [if_pos (prefix_bool.2 h)] | rw [if_neg (fun hh => no_both (prefix_bool.1 hh) h (by decide))])

/-- Two colons around an identifier, and a value. -/
theorem elements_of {id v : Bytes} (hid : 58 ∉ id) : tagElements (b!":" ++ id ++ b!":" ++ v) = .ok (b!":" ++ id ++ b!":", v) := by
  have hp : ∀ b ∈ id, (b != 58) = true := by
    intro b hb
    simp only [bne_iff_ne]
    rintro rfl
    exact hid hb
  have e : b!":" ++ id ++ b!":" ++ v = 58 :: (id ++ 58 :: v) := by simp
  rw [e]
  simp only [tagElements]
  rw [List.dropWhile_append_of_pos hp, List.takeWhile_append_of_pos hp]
  simp

/-! ## Single tags -/

/-- C122: the account tag is read exactly if its value has one slash; what is before it is the
bank, what is behind it the account. -/
theorem C122_account {id v : Bytes} (hid : 58 ∉ id) (a : AccountTag) :
    unmarshalAccount (b!":" ++ id ++ b!":" ++ v) = .ok a ↔
      v = a.bankID ++ b!"/" ++ a.accountID ∧ 47 ∉ a.bankID ∧ 47 ∉ a.accountID ∧ a.tag = b!":" ++ id ++ b!":" := by
  unfold unmarshalAccount
  rw [elements_of hid]
  simp only [Outcome.bind]
  obtain ⟨t, b, c⟩ := a
  constructor
  · intro h
    split at h
    · rename_i x y hs
      simp only [Outcome.ok.injEq, AccountTag.mk.injEq] at h
      obtain ⟨h1, rfl, rfl⟩ := h
      obtain ⟨e, h2, h3⟩ := Domain.split_two.1 hs
      exact ⟨by simp [e], h2, h3, h1.symm⟩
    · simp at h
  · rintro ⟨e, h2, h3, h4⟩
    have hs : split 47 v = [b, c] := Domain.split_two.2 ⟨by simpa using e, h2, h3⟩
    rw [hs]
    simp only at h4
    rw [h4]

/-- The number of a bank and an account; and an IBAN, which has no slash. -/
example : unmarshalAccount b!":25:10020030/1234567" = .ok ⟨b!":25:", b!"10020030", b!"1234567"⟩ ∧
    unmarshalAccount b!":25:DE02120300000000202051" = .err := by decide +kernel

/-- C122: the number of a statement is an integer, and the number of the sheet another one
behind a slash; without a slash the sheet is 0.  Nothing else is accepted. -/
theorem C122_number {id v : Bytes} (hid : 58 ∉ id) (a : StatementNumberTag) :
    unmarshalStatementNumber (b!":" ++ id ++ b!":" ++ v) = .ok a ↔
      a.tag = b!":" ++ id ++ b!":" ∧
      ((Element.Spec.Decimal v a.number ∧ IsInt a.number ∧ a.sheetNumber = 0) ∨
        ∃ x y, v = x ++ b!"/" ++ y ∧ Element.Spec.Decimal x a.number ∧ IsInt a.number ∧ Element.Spec.Decimal y a.sheetNumber ∧
          IsInt a.sheetNumber) := by
  have slash : ∀ {s : Bytes} {n : Int}, Element.Spec.Decimal s n → 47 ∉ s := by
    rintro s n ⟨ds, hd, h⟩ hm
    have hn : (47 : Byte) ∉ ds := fun h0 => (digit_neq (hd.2 47 h0)).2.2.2.1 rfl
    rcases h with ⟨rfl | rfl, _⟩ | ⟨rfl, _⟩
    · exact hn hm
    · simp only [List.mem_cons] at hm
      exact hm.elim (by decide) hn
    · simp only [List.mem_cons] at hm
      exact hm.elim (by decide) hn
  obtain ⟨t, n, k⟩ := a
  unfold unmarshalStatementNumber
  rw [elements_of hid]
  simp only [Outcome.bind]
  by_cases h47 : 47 ∈ v
  · rw [if_pos h47]
    obtain ⟨x, y, rfl, hx⟩ := List.eq_append_cons_of_mem h47
    have hp : ∀ b ∈ x, (b != 47) = true := by
      intro b hb
      simp only [bne_iff_ne]
      rintro rfl
      exact hx hb
    rw [List.dropWhile_append_of_pos hp, List.takeWhile_append_of_pos hp]
    simp only [List.dropWhile_cons, bne_self_eq_false, Bool.false_eq_true, if_false, List.tail_cons, List.takeWhile_cons, List.append_nil]
    constructor
    · intro h
      cases hy : atoi y with
      | none => simp [hy] at h
      | some k' =>
        cases hn : atoi x with
        | none => simp [hy, hn] at h
        | some n' =>
          simp only [hy, hn, Outcome.ofOption, Outcome.ok.injEq, StatementNumberTag.mk.injEq] at h
          obtain ⟨h1, rfl, rfl⟩ := h
          exact ⟨h1.symm, .inr ⟨x, y, by simp, (Element.decimal_iff.1 hn).1, (Element.decimal_iff.1 hn).2,
            (Element.decimal_iff.1 hy).1, (Element.decimal_iff.1 hy).2⟩⟩
    · rintro ⟨rfl, ⟨h1, _⟩ | ⟨x', y', e, h1, h2, h3, h4⟩⟩
      · exact absurd (List.mem_append_right _ (List.mem_cons_self ..)) (slash h1)
      · have es : split 47 (x' ++ 47 :: y') = [x', y'] := Domain.split_two.2 ⟨rfl, slash h1, slash h3⟩
        have e' : x ++ 47 :: y = x' ++ 47 :: y' := by simpa using e
        have hy : 47 ∉ y := by
          intro hm
          have l1 : (x ++ 47 :: y).count 47 = (x' ++ 47 :: y').count 47 := by rw [e']
          simp only [List.count_append, List.count_cons_self, List.count_eq_zero_of_not_mem hx,
            List.count_eq_zero_of_not_mem (slash h1), List.count_eq_zero_of_not_mem (slash h3)] at l1
          have := List.count_pos_iff.2 hm
          omega
        have es' : split 47 (x ++ 47 :: y) = [x, y] := Domain.split_two.2 ⟨rfl, hx, hy⟩
        rw [e', es] at es'
        simp only [List.cons.injEq, and_true] at es'
        obtain ⟨rfl, rfl⟩ := es'
        simp [Element.decimal_iff.2 ⟨h1, h2⟩, Element.decimal_iff.2 ⟨h3, h4⟩]
  · rw [if_neg h47]
    constructor
    · intro h
      cases hn : atoi v with
      | none => simp [hn] at h
      | some n' =>
        simp only [hn, Outcome.ofOption, Outcome.ok.injEq, StatementNumberTag.mk.injEq] at h
        obtain ⟨h1, rfl, rfl⟩ := h
        exact ⟨h1.symm, .inl ⟨(Element.decimal_iff.1 hn).1, (Element.decimal_iff.1 hn).2, rfl⟩⟩
    · rintro ⟨rfl, ⟨h1, h2, rfl⟩ | ⟨x', y', rfl, _⟩⟩
      · simp [Element.decimal_iff.2 ⟨h1, h2⟩]
      · simp at h47

/-- Number and sheet, a number alone, and one part too many. -/
example : unmarshalStatementNumber b!":28C:00012/003" = .ok ⟨b!":28C:", 12, 3⟩ ∧
    unmarshalStatementNumber b!":28C:12" = .ok ⟨b!":28C:", 12, 0⟩ ∧
    unmarshalStatementNumber b!":28C:1/2/3" = .err := by decide +kernel

/-- C122: a text tag holds the bytes behind the identifier as they are, a number tag holds the
integer they denote, and is refused if they denote none. -/
theorem C122_text_and_number {id v : Bytes} (hid : 58 ∉ id) :
    unmarshalTextTag (b!":" ++ id ++ b!":" ++ v) = .ok ⟨b!":" ++ id ++ b!":", v⟩ ∧
    (∀ i n, unmarshalNumberTag (b!":" ++ id ++ b!":" ++ v) = .ok (i, n) ↔
      i = b!":" ++ id ++ b!":" ∧ Element.Spec.Decimal v n ∧ IsInt n) := by
  constructor
  · unfold unmarshalTextTag
    rw [elements_of hid]
    rfl
  · intro i n
    unfold unmarshalNumberTag
    rw [elements_of hid]
    simp only [Outcome.bind]
    rw [← Element.decimal_iff]
    cases atoi v with
    | none => simp
    | some k => simp [eq_comm]

/-- C122: a float tag is read without replacing the comma, so no decimal number of a statement
is accepted, as the numbers `strconv.ParseFloat` reads have no comma. -/
theorem C122_float {L : Lib} (hL : ∀ w, 44 ∈ w → L.parseFloat w = none) {id v : Bytes} (hid : 58 ∉ id) (hv : Spec.Decimal v) :
    unmarshalFloatTag L (b!":" ++ id ++ b!":" ++ v) = .err := by
  obtain ⟨ds, es, rfl, _⟩ := hv
  unfold unmarshalFloatTag
  rw [elements_of hid]
  simp [hL (ds ++ 44 :: es) (by simp)]

/-- A library that reads no comma, and the number of a statement. -/
example : unmarshalFloatTag { sampleLib with parseFloat := fun w => if 44 ∈ w then none else some w } b!":90D:12,50" = .err :=
  C122_float (L := { sampleLib with parseFloat := fun w => if 44 ∈ w then none else some w }) (by intro w h; simp [h]) (id := b!"90D")
    (by decide) ⟨b!"12", b!"50", rfl, ⟨by decide, by unfold Token.Spec.Digit; decide +kernel⟩, by unfold Token.Spec.Digit; decide +kernel⟩

/-- Text and number. -/
example : unmarshalTextTag b!":20:STARTUMS:1" = .ok ⟨b!":20:", b!"STARTUMS:1"⟩ ∧
    unmarshalNumberTag b!":34:-5" = .ok (b!":34:", -5) ∧ unmarshalNumberTag b!":34:5,0" = .err := by decide +kernel

/-! ## Whole messages -/

/-- The head after reading some tags. -/
structure HeadInv (L : Lib) (ts : List Bytes) (m : MT940 L.F) : Prop where
  job : ∀ a, m.jobReference = some a ↔ ∃ t, LastOf b!":20:" ts t ∧ unmarshalTextTag t = .ok a
  reference : ∀ a, m.reference = some a ↔ ∃ t, LastOf b!":21:" ts t ∧ unmarshalTextTag t = .ok a
  number : ∀ a, m.statementNumber = some a ↔ ∃ t, LastOf b!":28C:" ts t ∧ unmarshalStatementNumber t = .ok a

theorem readTag_head {L : Lib} {m m' : MT940 L.F} {o o' : Bool} {t : Bytes} (h : readTag L m o t = .next m' o') :
    (m'.jobReference = m.jobReference ∨ kindOf t = .job) ∧ (m'.reference = m.reference ∨ kindOf t = .reference) ∧
    (m'.statementNumber = m.statementNumber ∨ kindOf t = .number) ∧
    (kindOf t = .job → ∃ a, unmarshalTextTag t = .ok a ∧ m'.jobReference = some a) ∧
    (kindOf t = .reference → ∃ a, unmarshalTextTag t = .ok a ∧ m'.reference = some a) ∧
    (kindOf t = .number → ∃ a, unmarshalStatementNumber t = .ok a ∧ m'.statementNumber = some a) := by
  unfold readTag at h
  split at h
  case h_9 hk =>
    rw [hk]
    split at h
    · simp at h
    · simp at h
    · split at h
      · split at h
        · simp at h
        · simp at h
        · simp only [TagRes.next.injEq] at h
          obtain ⟨rfl, rfl⟩ := h
          simp
      · simp only [TagRes.next.injEq] at h
        obtain ⟨rfl, rfl⟩ := h
        simp
  case h_11 => simp at h
  all_goals
    rename_i hk
    rw [hk]
    obtain ⟨a, h1, rfl, rfl⟩ := store_next h
    simp [h1]

theorem Reads.head {L : Lib} {ts : List Bytes} {m : MT940 L.F} {o : Bool} (h : Reads L ts m o) : HeadInv L ts m := by
  induction h with
  | nil => constructor <;> simp [LastOf]
  | snoc hr ht ih =>
    obtain ⟨k1, k2, k3, n1, n2, n3⟩ := readTag_head ht
    exact ⟨last_step kind_job ih.job k1 n1, last_step kind_reference ih.reference k2 n2, last_step kind_number ih.number k3 n3⟩

/-- C122: an accepted message holds the job reference, the reference, the number and the
account of the last tag of each kind, and none if there is no such tag. -/
theorem C122_last {L : Lib} {raw : Bytes} {tags : List Bytes} {m : MT940 L.F} (ht : extractTags raw = .ok tags)
    (h : unmarshalMessage L raw = .done m true) :
    (∀ a, m.jobReference = some a ↔ ∃ t, LastOf b!":20:" tags t ∧ unmarshalTextTag t = .ok a) ∧
    (∀ a, m.reference = some a ↔ ∃ t, LastOf b!":21:" tags t ∧ unmarshalTextTag t = .ok a) ∧
    (∀ a, m.statementNumber = some a ↔ ∃ t, LastOf b!":28C:" tags t ∧ unmarshalStatementNumber t = .ok a) ∧
    (∀ a, m.account = some a ↔ ∃ t, LastOf b!":25:" tags t ∧ unmarshalAccount t = .ok a) := by
  obtain ⟨o, hr⟩ := message_reads ht h
  exact ⟨hr.head.job, hr.head.reference, hr.head.number, hr.inv2.account⟩

/-- C122: a statement as banks write it is read with its references, number, sheet and
account as written. -/
theorem C122_head {L : Lib} (h1 : 1000 ≤ L.year) (h2 : L.year ≤ 9999) {s : Statement} (h : s.Ok (L.year / 100 * 100))
    (ha : Amounts L s) (hc : ∀ e ∈ s.entries, ¬ Crash e.rest) :
    ∃ m, unmarshalMessage L s.text = .done m true ∧
      m.jobReference = some ⟨b!":20:", s.reference⟩ ∧ m.reference = (s.related.map fun r => ⟨b!":21:", r⟩) ∧
      m.account = some ⟨b!":25:", s.bank, s.account⟩ ∧
      m.statementNumber = some ⟨b!":28C:", value s.number, (s.sheet.map fun x => (value x : Int)).getD 0⟩ := by
  obtain ⟨m, hm, hh⟩ := statement_read h1 h2 h ha hc
  exact ⟨m, hm, hh.head.job, hh.head.reference, hh.account, hh.head.number⟩

example : ∃ m, unmarshalMessage sampleLib sampleStatement.text = .done m true ∧
    m.jobReference = some ⟨b!":20:", b!"STARTUMS"⟩ ∧ m.reference = none ∧ m.account = some ⟨b!":25:", b!"10010010", b!"1234567890"⟩ ∧
    m.statementNumber = some ⟨b!":28C:", 1, 1⟩ :=
  C122_head (by decide) (by decide) sampleStatement_ok sampleStatement_amounts sampleStatement_lines

/-- The references and the number a message is read with. -/
def headOf (r : Read sampleLib.F) : Option TextTag × Option TextTag × Option StatementNumberTag × Bool :=
  match r with
  | .done m ok => (m.jobReference, m.reference, m.statementNumber, ok)
  | .panic => (none, none, none, false)

set_option maxRecDepth 20000 in
/-- Of two tags of a kind the last one counts. -/
example : headOf (unmarshalMessage sampleLib b!"\r\n:20:A\r\n:21:B\r\n:21:C\r\n:28C:7\r\n:28C:8/2\r\n-") =
    (some ⟨b!":20:", b!"A"⟩, some ⟨b!":21:", b!"C"⟩, some ⟨b!":28C:", 8, 2⟩, true) := by decide +kernel

theorem of_forall₂ {α β : Type} {R : α → β → Prop} {xs : List α} {ys : List β} (h : List.Forall₂ R xs ys) {x : α} (hx : x ∈ xs) :
    ∃ y, R x y := by
  induction h with
  | nil => simp at hx
  | cons hr _ ih =>
    rcases List.mem_cons.1 hx with rfl | hx
    · exact ⟨_, hr⟩
    · exact ih hx

/-- C122: one account tag without a slash, or with several, and no transaction of the whole
download is reported: neither of its own message nor of any other. -/
theorem C122_one_slash {L : Lib} {raw : Bytes} {ms : List Bytes} (h : extractMessages raw = .ok ms) {msg : Bytes} (hm : msg ∈ ms)
    {tags : List Bytes} (ht : extractTags msg = .ok tags) {v : Bytes} (hv : b!":25:" ++ v ∈ tags) (hs : v.count 47 ≠ 1)
    (txs : List (Transaction L.F)) : unmarshalMT940 L raw ≠ .ok txs := by
  intro hx
  obtain ⟨parts, hf, _⟩ := (C77_accepted h txs).1 hx
  obtain ⟨p, mt, hu, _⟩ := of_forall₂ hf hm
  obtain ⟨o, hr⟩ := message_reads ht hu
  obtain ⟨a, b, rfl⟩ := List.append_of_mem hv
  obtain ⟨m3, o3, m4, o4, h3, h4⟩ := hr.prefix rfl
  unfold readTag at h4
  rw [kind_account.2 (List.prefix_append _ _)] at h4
  obtain ⟨x, hx1, _⟩ := store_next h4
  obtain ⟨e, n1, n2, _⟩ := (C122_account (id := b!"25") (by decide) x).1 hx1
  rw [e] at hs
  simp [List.count_eq_zero_of_not_mem n1, List.count_eq_zero_of_not_mem n2] at hs

/-- Whether a download is read, refused or crashes the parser. -/
def verdict (o : Outcome (List (Transaction sampleLib.F))) : Nat × Nat :=
  match o with
  | .ok l => (0, l.length)
  | .err => (1, 0)
  | .panic => (2, 0)

set_option maxRecDepth 20000 in
/-- Two messages without entries, of which the second names its account by an IBAN. -/
example : verdict (unmarshalMT940 sampleLib b!"\r\n:20:A\r\n:25:10020030/1\r\n-\r\n:20:B\r\n:25:DE02120300000000202051\r\n-") = (1, 0) ∧
    verdict (unmarshalMT940 sampleLib b!"\r\n:20:A\r\n:25:10020030/1\r\n-\r\n:20:B\r\n:25:10020030/2\r\n-") = (0, 0) := by
  decide +kernel

set_option maxRecDepth 20000 in
example (txs : List (Transaction sampleLib.F)) :
    unmarshalMT940 sampleLib b!"\r\n:20:A\r\n:25:10020030/1\r\n-\r\n:20:B\r\n:25:DE02120300000000202051\r\n-" ≠ .ok txs :=
  C122_one_slash (ms := [b!"\r\n:20:A\r\n:25:10020030/1\r\n-", b!"\r\n:20:B\r\n:25:DE02120300000000202051\r\n-"])
    (by decide +kernel) (msg := b!"\r\n:20:B\r\n:25:DE02120300000000202051\r\n-") (by simp)
    (tags := [b!":20:B", b!":25:DE02120300000000202051"]) (by decide +kernel) (v := b!"DE02120300000000202051") (by simp) (by decide) txs

end Verif.Swift
