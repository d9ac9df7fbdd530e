import Verif.Token.Lemmas

/-
Properties of the HBCI lexer (C01, C02, C03).  `lex input` is the model of
draining `token.NewLexer(name, input)` with `HasNext`/`Next`.
-/

namespace Verif.Token

open Spec

/-- `a` is tokenised completely into `ts`: the lexer delivers `ts` and then the
empty EOF token that marks the end of the input. -/
def Tokenises (a : Bytes) (ts : List Token) : Prop := ∃ p, lex a = .done (ts ++ [⟨.eof, [], p⟩])

/-- C01: without an ERROR token, the last token and only it is EOF, every token
stands at the end of the previous values, and the values are the input; or the
EOF token is a NUL byte of the input and everything after it is dropped. -/
theorem C01_lossless {input : Bytes} {ts : List Token} (h : lex input = .done ts)
    (hok : ∀ t ∈ ts, t.typ ≠ .error) :
    ∃ body last, ts = body ++ [last] ∧ last.typ = .eof ∧ (∀ t ∈ body, t.typ ≠ .eof) ∧ Placed ts ∧
      ((last.val = [] ∧ values ts = input) ∨
       (last.val = [0] ∧ ∃ dropped, input = values ts ++ dropped)) := by
  obtain ⟨a, b, us, last, rfl, hc, rfl, hp, hend⟩ := lex_done_inv h
  have hplaced : Placed (us ++ [last]) := by
    intro before t after he
    rcases List.eq_nil_or_concat after with rfl | ⟨after', x, rfl⟩
    · have := List.append_inj' he rfl
      simp only [List.cons.injEq, and_true] at this
      obtain ⟨rfl, rfl⟩ := this
      rw [hp, hc.values_eq]
    · have he' : us ++ [last] = (before ++ t :: after') ++ [x] := by rw [he]; simp
      have := List.append_inj' he' rfl
      have := hc.placed before t after' this.1
      simpa using this
  have hnot : ∀ t ∈ us, t.typ ≠ .eof := fun t ht => (hc.not_end t ht).2
  rcases hend with ⟨rfl, h1, h2⟩ | ⟨hb, h1, h2⟩ | ⟨h1, _⟩
  · exact ⟨us, last, rfl, h1, hnot, hplaced, Or.inl ⟨h2, by simp [hc.values_eq, h2]⟩⟩
  · refine ⟨us, last, rfl, h1, hnot, hplaced, Or.inr ⟨h2, b.tail, ?_⟩⟩
    cases b with
    | nil => simp at hb
    | cons c b =>
      simp at hb
      simp [hc.values_eq, h2, hb]
  · exact absurd h1 (hok last (by simp))

/-- C01, for every input: whatever the end, the tokens before the last one are
consecutive pieces of the input, and an ERROR or EOF token can only come last. -/
theorem C01_prefix {input : Bytes} {ts : List Token} (h : lex input = .done ts) :
    ∃ body last, ts = body ++ [last] ∧ (∀ t ∈ body, t.typ ≠ .eof ∧ t.typ ≠ .error) ∧
      (last.typ = .eof ∨ last.typ = .error) ∧ values body <+: input ∧
      last.pos = (values body).length ∧ Placed body := by
  obtain ⟨a, b, us, last, rfl, hc, rfl, hp, hend⟩ := lex_done_inv h
  refine ⟨us, last, rfl, fun t ht => ⟨(hc.not_end t ht).2, (hc.not_end t ht).1⟩, ?_, ?_, ?_, ?_⟩
  · rcases hend with ⟨_, h1, _⟩ | ⟨_, h1, _⟩ | ⟨h1, _⟩ <;> simp [h1]
  · rw [hc.values_eq]; exact List.prefix_append _ _
  · rw [hp, hc.values_eq]
  · intro before t after he
    simpa using hc.placed before t after he

example : ∃ ts, lex b!"HNHBK:1:3+0,5+@3@a+b'" = .done ts ∧ (∀ t ∈ ts, t.typ ≠ .error) ∧
    values ts = b!"HNHBK:1:3+0,5+@3@a+b'" ∧ ts.length = 11 := ⟨_, rfl, by decide⟩

/-- The NUL case is real: everything after it is lost without an error. -/
theorem C01_nul_drops : lex b!"A'\x00B'" =
    .done [⟨.alphaNumeric, b!"A", 0⟩, ⟨.segmentEndMarker, b!"'", 1⟩, ⟨.eof, [0], 2⟩] := by decide

/-- C02: draining ends for every input, having delivered at most one token more
than there are bytes, or panics; it never blocks on the channel and never runs
for ever. -/
theorem C02_terminates (input : Bytes) :
    (∃ ts, lex input = .done ts ∧ ts.length ≤ input.length + 1) ∨ (∃ ts, lex input = .panic ts) := by
  rcases lex_done_or_panic input with ⟨ts, h⟩ | ⟨ts, h⟩
  · left
    refine ⟨ts, h, ?_⟩
    obtain ⟨a, b, us, last, rfl, hc, rfl, _, _⟩ := lex_done_inv h
    have := hc.length_le
    simp; omega
  · exact Or.inr ⟨ts, h⟩

example : lex b!"1+2" = .done [⟨.numeric, b!"1", 0⟩, ⟨.dataElementSeparator, b!"+", 1⟩,
    ⟨.error, b!"Unexpected end of input", 2⟩] := by decide

/-- C02, exact panics: draining panics iff some prefix is tokenised completely
and what follows is a single final `@`, or a binary length that fits an int but
reaches past the largest int from its offset. -/
theorem C02_panic_iff (input : Bytes) :
    (∃ ts, lex input = .panic ts) ↔
    ∃ a tail ts, input = a ++ tail ∧ Tokenises a ts ∧
      (tail = [64] ∨ ∃ ds rest, tail = 64 :: ds ++ 64 :: rest ∧ DigitString ds ∧
        value ds < 2 ^ 63 ∧ 2 ^ 63 ≤ a.length + 2 + ds.length + value ds) := by
  constructor
  · rintro ⟨ts, h⟩
    obtain ⟨a, b, rfl, hc, hp⟩ := lex_panic_inv h
    exact ⟨a, b, ts, rfl, clean_iff.1 hc, lexOne_panic_iff.1 hp⟩
  · rintro ⟨a, tail, ts, rfl, ht, h⟩
    have hc := clean_iff.2 ht
    refine ⟨ts, ?_⟩
    rw [lex_eq_scan, hc.scan_append, scan_eq, Nat.zero_add, lexOne_panic_iff.2 h]
    simp

example : Tokenises b!"A+'" [⟨.alphaNumeric, b!"A", 0⟩, ⟨.dataElementSeparator, b!"+", 1⟩,
    ⟨.segmentEndMarker, b!"'", 2⟩] := ⟨3, by decide⟩

example : lex b!"A'@" = .panic [⟨.alphaNumeric, b!"A", 0⟩, ⟨.segmentEndMarker, b!"'", 1⟩] := by decide

example : lex b!"@9223372036854775807@x'" = .panic [] := by decide

/-- What a token of each type looks like. -/
def Truthful (t : Token) : Prop :=
  match t.typ with
  | .numeric => Numeric t.val
  | .digit => LeadingZero t.val
  | .float => Spec.Float t.val
  | .binaryData => Spec.Binary t.val
  | .alphaNumeric => Alnum t.val ∧ ¬ MalformedFloat t.val ∧ ¬ HasLineBreak t.val
  | .text => Alnum t.val ∧ ¬ MalformedFloat t.val ∧ HasLineBreak t.val
  | .dataElementSeparator => t.val = [43]
  | .segmentEndMarker => t.val = [39]
  | .groupDataElementSeparator => t.val = [58]
  | .eof => t.val = [] ∨ t.val = [0]
  | .error => True
  | _ => False

theorem truthful_clean {pos : Nat} {a : Bytes} {ts : List Token} (h : Clean pos a ts) :
    ∀ t ∈ ts, Truthful t := by
  intro t ht
  rcases h.mem t ht with ⟨d, hd, hv, ht'⟩ | hk
  · rcases hd with rfl | rfl | rfl <;> simp [Truthful, ht', hv, sepTyp]
  · revert hk
    unfold Truthful
    cases t.typ <;> simp_all [Kind]

/-- C03: every token delivered, in a completed drain or before a panic, has the
shape its type promises. -/
theorem C03_kinds {input : Bytes} {ts : List Token} (h : lex input = .done ts ∨ lex input = .panic ts) :
    ∀ t ∈ ts, Truthful t := by
  rcases h with h | h
  · obtain ⟨a, b, us, last, rfl, hc, rfl, _, hend⟩ := lex_done_inv h
    intro t ht
    simp only [List.mem_append, List.mem_singleton] at ht
    rcases ht with ht | rfl
    · exact truthful_clean hc t ht
    · rcases hend with ⟨_, h1, h2⟩ | ⟨_, h1, h2⟩ | ⟨h1, _⟩
      · simp [Truthful, h1, h2]
      · simp [Truthful, h1, h2]
      · simp [Truthful, h1]
  · obtain ⟨a, b, rfl, hc, _⟩ := lex_panic_inv h
    exact truthful_clean hc

example : ∃ ts, lex b!"007:7:0,:12,5:@1@+:a?'b\n'" = .done ts ∧
    ts.map (·.typ) = [.digit, .groupDataElementSeparator, .numeric, .groupDataElementSeparator,
      .float, .groupDataElementSeparator, .float, .groupDataElementSeparator, .binaryData,
      .groupDataElementSeparator, .text, .segmentEndMarker, .eof] := ⟨_, rfl, by decide⟩

/-- C03: a token that is neither a delimiter nor the end is directly followed by
a delimiter token. -/
theorem C03_followed {input : Bytes} {ts before after : List Token} {t : Token}
    (h : lex input = .done ts) (hs : ts = before ++ t :: after) (h1 : t.isSyntaxSymbol = false)
    (h2 : t.typ ≠ .eof) (h3 : t.typ ≠ .error) :
    ∃ s after', after = s :: after' ∧ s.isSyntaxSymbol = true := by
  obtain ⟨a, b, us, last, rfl, hc, rfl, _, hend⟩ := lex_done_inv h
  rcases List.eq_nil_or_concat after with rfl | ⟨after', x, rfl⟩
  · have := List.append_inj' hs rfl
    simp only [List.cons.injEq, and_true] at this
    obtain ⟨_, rfl⟩ := this
    rcases hend with ⟨_, h, _⟩ | ⟨_, h, _⟩ | ⟨h, _⟩
    · exact absurd h h2
    · exact absurd h h2
    · exact absurd h h3
  · have he' : us ++ [last] = (before ++ t :: after') ++ [x] := by rw [hs]; simp
    have := List.append_inj' he' rfl
    obtain ⟨s, a', rfl, hs'⟩ := hc.followed before t after' this.1 h1
    exact ⟨s, a' ++ [x], by simp, hs'⟩

example : ∃ ts before after, lex b!"ab+" = .done ts ∧
    ts = before ++ ⟨.alphaNumeric, b!"ab", 0⟩ :: after := ⟨_, [], _, rfl, rfl⟩

/-- C03, completeness: after a completely tokenised prefix, a value of one of the
classes followed by a delimiter is read as exactly that token. -/
theorem C03_complete {a v : Bytes} {ts : List Token} {d : Byte} (ha : Tokenises a ts) (hd : Delim d)
    (typ : Typ) (hlen : (a ++ v).length < 2 ^ 63) (ht : Truthful ⟨typ, v, a.length⟩)
    (htyp : typ = .numeric ∨ typ = .digit ∨ typ = .float ∨ typ = .binaryData ∨ typ = .alphaNumeric ∨
      typ = .text) :
    ∃ sep, sep.isSyntaxSymbol = true ∧ sep.val = [d] ∧
      Tokenises (a ++ v ++ [d]) (ts ++ [⟨typ, v, a.length⟩, sep]) := by
  have hk : Kind a.length typ v := by
    rw [List.length_append] at hlen
    rcases htyp with rfl | rfl | rfl | rfl | rfl | rfl <;> simp_all [Truthful, Kind]
  have h1 := clean_iff.2 ha
  have h2 := clean_value (pos := a.length) hk hd
  have h3 := h1.append (by simpa using h2)
  refine ⟨⟨sepTyp d, [d], a.length + v.length⟩, ?_, rfl, ?_⟩
  · rcases hd with rfl | rfl | rfl <;> rfl
  · rw [List.append_assoc]; exact clean_iff.1 h3

example : Truthful ⟨.binaryData, b!"@4@a'+\x00", 7⟩ :=
  ⟨b!"4", b!"a'+\x00", rfl, ⟨by decide, by simp [Spec.Digit]⟩, rfl⟩

end Verif.Token
