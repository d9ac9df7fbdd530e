import Verif.Swift.Complete

/-
Properties C37 and C38: tokenising SWIFT statements, and splitting them into messages and tags.
-/

namespace Verif.Swift

open Token (Typ Token Drain isDig digits_cases takeWhile_all)
open Token.Spec (Digit DigitString values Placed)
open Spec

/-- C37: draining the SWIFT lexer ends for every input without a panic and without blocking,
having delivered at most one token more than there are bytes. -/
theorem C37_terminates (input : Bytes) : ∃ ts, lex input = .done ts ∧ ts.length ≤ input.length + 1 := by
  obtain ⟨ts, st', r, last, h, hr, _⟩ := lex_done input
  refine ⟨_, h, ?_⟩
  have := hr.length_le
  simp
  omega

/-- C37: without an ERROR token, the last token and only it is EOF, every token stands at the
end of the previous values, and the values are the input; or the EOF token is a NUL byte of
the input and everything after it is dropped. -/
theorem C37_lossless {input : Bytes} {ts : List Token} (h : lex input = .done ts) (hok : ∀ t ∈ ts, t.typ ≠ .error) :
    ∃ body last, ts = body ++ [last] ∧ last.typ = .eof ∧ (∀ t ∈ body, t.typ ≠ .eof) ∧ Placed ts ∧
      ((last.val = [] ∧ values ts = input) ∨ (last.val = [0] ∧ ∃ dropped, input = values ts ++ dropped)) := by
  obtain ⟨body, st', r, last, h', hr, hp, hend⟩ := lex_done input
  rw [h'] at h
  simp only [Drain.done.injEq] at h
  subst h
  rcases hend with ⟨h1, _⟩ | ⟨h1, _, h2⟩
  · exact absurd h1 (hok last (by simp))
  · refine ⟨body, last, rfl, h1, fun t ht => (kind_end (hr.kinds t ht)).1, ?_, ?_⟩
    · intro before t after he
      rcases List.eq_nil_or_concat after with rfl | ⟨after', x, rfl⟩
      · have := List.append_inj' he rfl
        simp only [List.cons.injEq, and_true] at this
        obtain ⟨rfl, rfl⟩ := this
        exact hp
      · have he' : body ++ [last] = (before ++ t :: after') ++ [x] := by rw [he]; simp
        have := List.append_inj' he' rfl
        have := (hr.not_end before t after' this.1).1
        simpa using this
    · have hv := hr.values_append
      rcases h2 with ⟨rfl, h2⟩ | ⟨d, rfl, h2⟩
      · exact Or.inl ⟨h2, by simp [values, h2] at hv ⊢; exact hv⟩
      · refine Or.inr ⟨h2, d, ?_⟩
        rw [← hv]
        simp [values, h2]

/-- C37, for every input: whatever the end, the tokens before the last one are consecutive
pieces of the input, and an ERROR or EOF token can only come last. -/
theorem C37_prefix {input : Bytes} {ts : List Token} (h : lex input = .done ts) :
    ∃ body last, ts = body ++ [last] ∧ (∀ t ∈ body, t.typ ≠ .eof ∧ t.typ ≠ .error) ∧
      (last.typ = .eof ∨ last.typ = .error) ∧ values body <+: input ∧ last.pos = (values body).length := by
  obtain ⟨body, st', r, last, h', hr, hp, hend⟩ := lex_done input
  rw [h'] at h
  simp only [Drain.done.injEq] at h
  subst h
  refine ⟨body, last, rfl, fun t ht => kind_end (hr.kinds t ht), ?_, ⟨r, hr.values_append⟩, hp⟩
  rcases hend with ⟨h1, _⟩ | ⟨h1, _⟩ <;> simp [h1]

/-- The shape each SWIFT token type promises. -/
def Truthful (t : Token) : Prop :=
  (t.typ = .swiftDatasetStart → t.val = b!"\r\n") ∧ (t.typ = .swiftTagSeparator → t.val = b!"\r\n") ∧
  (t.typ = .swiftMessageSeparator → t.val = b!"\r\n-") ∧ (t.typ = .swiftTag → TagId t.val) ∧
  (t.typ = .swiftAlpha → t.val ≠ [] ∧ ∀ b ∈ t.val, Upper b) ∧ (t.typ = .swiftCharacter → t.val ≠ [] ∧ Plain t.val) ∧
  (t.typ = .swiftNumeric → DigitString t.val) ∧ (t.typ = .swiftDecimal → Decimal t.val)

/-- C37: every token has the shape its type promises, and directly after a value comes a line
break. -/
theorem C37_kinds {input : Bytes} {ts : List Token} (h : lex input = .done ts) :
    (∀ t ∈ ts, Truthful t) ∧
    ∀ before t after, ts = before ++ t :: after →
      (t.typ = .swiftAlpha ∨ t.typ = .swiftCharacter ∨ t.typ = .swiftNumeric ∨ t.typ = .swiftDecimal ∨
        t.typ = .swiftAlphaNumeric) → ∃ rest, input = values (before ++ [t]) ++ 13 :: rest := by
  obtain ⟨body, st', r, last, h', hr, hp, hend⟩ := lex_done input
  rw [h'] at h
  simp only [Drain.done.injEq] at h
  subst h
  have hlast : last.typ = .eof ∨ last.typ = .error := by rcases hend with ⟨h1, _⟩ | ⟨h1, _⟩ <;> simp [h1]
  constructor
  · intro t ht
    rcases List.mem_append.1 ht with ht | ht
    · have := hr.kinds t ht
      unfold Truthful
      refine ⟨?_, ?_, ?_, ?_, ?_, ?_, ?_, ?_⟩ <;> intro he <;> rw [he] at this <;> exact this
    · simp only [List.mem_singleton] at ht
      subst ht
      unfold Truthful
      rcases hlast with h | h <;> simp [h]
  · intro before t after he ht
    rcases List.eq_nil_or_concat after with rfl | ⟨after', x, rfl⟩
    · have := List.append_inj' he rfl
      simp only [List.cons.injEq, and_true] at this
      obtain ⟨_, rfl⟩ := this
      rcases hlast with h | h <;> simp [h] at ht
    · have he' : body ++ [last] = (before ++ t :: after') ++ [x] := by rw [he]; simp
      have hb := (List.append_inj' he' rfl).1
      rw [hb, show before ++ t :: after' = (before ++ [t]) ++ after' from by simp] at hr
      obtain ⟨st1, y, g1, g2⟩ := hr.split
      obtain ⟨st2, z, g3, g4⟩ := g1.split
      obtain ⟨k, g5, g6, g7⟩ := g4.one
      have hy : y.head? = some 13 := by
        rw [g7]
        rcases (lexOne_kind g5).2 with ⟨g, _⟩ | ⟨g, _⟩ | ⟨g, _⟩ | ⟨g, _⟩ | ⟨_, _, g⟩
        · simp [g] at ht
        · simp [g] at ht
        · simp [g] at ht
        · simp [g] at ht
        · exact g
      cases y with
      | nil => simp at hy
      | cons c y =>
        simp at hy
        subst hy
        exact ⟨y, by rw [← g1.values_append]⟩

example : lex b!"\r\n:20:STARTUMS\r\n:28C:0\r\n:61:x\r\ny\r\n-" = .done
    [⟨.swiftDatasetStart, b!"\r\n", 0⟩, ⟨.swiftTag, b!":20:", 2⟩, ⟨.swiftAlpha, b!"STARTUMS", 6⟩,
     ⟨.swiftTagSeparator, b!"\r\n", 14⟩, ⟨.swiftTag, b!":28C:", 16⟩, ⟨.swiftNumeric, b!"0", 21⟩,
     ⟨.swiftTagSeparator, b!"\r\n", 22⟩, ⟨.swiftTag, b!":61:", 24⟩, ⟨.swiftAlphaNumeric, b!"x\r\ny", 28⟩,
     ⟨.swiftMessageSeparator, b!"\r\n-", 32⟩, ⟨.eof, [], 35⟩] := by decide +kernel

/-- The NUL case is real: everything after it is lost without an error. -/
theorem C37_nul_drops : lex b!"\r\n:20:A\r\n-\x00B" = .done
    [⟨.swiftDatasetStart, b!"\r\n", 0⟩, ⟨.swiftTag, b!":20:", 2⟩, ⟨.swiftAlpha, b!"A", 6⟩,
     ⟨.swiftMessageSeparator, b!"\r\n-", 7⟩, ⟨.eof, [0], 10⟩] := by decide +kernel

/-! ## C38 -/

theorem messageLoop_append {ts : List Token} : (∀ t ∈ ts, Kind t.typ t.val) → ∀ (cur : Bytes) (acc : List Bytes),
    ∃ cur' new, (∀ us, messageLoop (ts ++ us) cur acc = messageLoop us cur' (acc ++ new)) ∧
      new.flatten ++ cur' = cur ++ values ts ∧ ∀ m ∈ new, [13, 10, 45] <:+ m := by
  induction ts with
  | nil => intro _ cur acc; exact ⟨cur, [], by simp, by simp [values], by simp⟩
  | cons t ts ih =>
    intro h cur acc
    have ht := h t (by simp)
    have hne := (kind_end ht).2
    have ih := ih (fun t ht => h t (by simp [ht]))
    by_cases hs : t.typ = .swiftMessageSeparator
    · rw [hs] at ht
      obtain ⟨cur', new, h1, h2, h3⟩ := ih [] (acc ++ [cur ++ t.val])
      refine ⟨cur', (cur ++ t.val) :: new, ?_, ?_, ?_⟩
      · intro us
        simp only [List.cons_append, messageLoop]
        rw [if_neg hne, if_pos hs, h1]
        simp
      · simp only [List.flatten_cons, List.append_assoc, h2]
        simp [values]
      · intro m hm
        rcases List.mem_cons.1 hm with rfl | hm
        · rw [show t.val = [13, 10, 45] from ht]
          exact List.suffix_append _ _
        · exact h3 m hm
    · obtain ⟨cur', new, h1, h2, h3⟩ := ih (cur ++ t.val) acc
      refine ⟨cur', new, ?_, ?_, h3⟩
      · intro us
        simp only [List.cons_append, messageLoop]
        rw [if_neg hne, if_neg hs, h1]
      · rw [h2]
        simp [values]

/-- The lexer's result when the extractors succeed. -/
theorem ok_inv {input : Bytes} {f : List Token → Outcome (List Bytes)} {ms : List Bytes}
    (hf : ∀ ts t, (∀ x ∈ ts, Kind x.typ x.val) → t.typ = .error → f (ts ++ [t]) = .err)
    (h : (match lex input with | .done ts => f ts | _ => .panic) = .ok ms) :
    ∃ ts r last, f (ts ++ [last]) = .ok ms ∧ last.typ = .eof ∧ Run .entry 0 input ts .start r ∧
      ((r = [] ∧ last.val = []) ∨ (∃ dropped, r = 0 :: dropped ∧ last.val = [0])) := by
  obtain ⟨ts, st', r, last, h', hr, hp, hend⟩ := lex_done input
  rw [h'] at h
  simp only at h
  rcases hend with ⟨h1, _⟩ | ⟨h1, rfl, h2⟩
  · rw [hf ts last hr.kinds h1] at h
    simp at h
  · exact ⟨ts, r, last, h, h1, hr, h2⟩

/-- C38: the messages extracted from a statement, one after the other, are the statement up to
the last message separator, each ends with a separator, and what is left over is nothing, or
ends with the identifier of a tag without a value; everything from a NUL on may be missing. -/
theorem C38_messages {raw : Bytes} {ms : List Bytes} (h : extractMessages raw = .ok ms) :
    (∀ m ∈ ms, b!"\r\n-" <:+ m) ∧
    ∃ tail dropped, raw = ms.flatten ++ tail ++ dropped ∧ (dropped = [] ∨ dropped.head? = some 0) ∧
      (tail = [] ∨ ∃ x id, tail = x ++ b!"\r\n" ++ id ∧ TagId id) := by
  obtain ⟨ts, r, last, hl, htyp, hr, hend⟩ := ok_inv (f := fun ts => messageLoop ts [] []) (by
    intro ts t hk ht
    obtain ⟨cur, new, h1, _, _⟩ := messageLoop_append hk [] []
    rw [h1]
    simp [messageLoop, ht]) h
  have hval := hr.values_append
  have hhead : r.head? ≠ some 13 := by
    rcases hend with ⟨rfl, _⟩ | ⟨d, rfl, _⟩ <;> simp
  have hdrop : r = [] ∨ r.head? = some 0 := by
    rcases hend with ⟨rfl, _⟩ | ⟨d, rfl, _⟩ <;> simp
  rcases hr.ending hhead with ⟨x, t, rfl, ht⟩ | ⟨x, s, t, rfl, hs, ht⟩
  · have hk := hr.kinds
    obtain ⟨cur, new, h1, h2, h3⟩ := messageLoop_append (ts := x) (fun t ht => hk t (by simp [ht])) [] []
    have htv : t.val = [13, 10, 45] := by
      have := hk t (by simp)
      rw [ht] at this
      exact this
    rw [List.append_assoc, h1] at hl
    simp [messageLoop, ht, htyp] at hl
    subst hl
    refine ⟨?_, [], r, ?_, hdrop, Or.inl rfl⟩
    · intro m hm
      rcases List.mem_append.1 hm with hm | hm
      · exact h3 m hm
      · simp at hm
        rw [hm, htv]
        exact List.suffix_append _ _
    · rw [← hval]
      simp only [List.nil_append] at h2
      simp only [List.flatten_append, List.flatten_cons, List.flatten_nil, List.append_nil, ← List.append_assoc]
      rw [h2]
      simp [values]
  · have hk := hr.kinds
    obtain ⟨cur, new, h1, h2, h3⟩ := messageLoop_append (ts := x) (fun t ht => hk t (by simp [ht])) [] []
    have htv : TagId t.val := by
      have := hk t (by simp)
      rw [ht] at this
      exact this
    have hsv : s.val = [13, 10] := by
      have := hk s (by simp)
      rcases hs with hs | hs <;> rw [hs] at this <;> exact this
    rw [List.append_assoc, h1] at hl
    have : ms = new := by
      rcases hs with hs | hs <;> simp [messageLoop, hs, ht, htyp] at hl <;> exact hl.symm
    subst this
    refine ⟨h3, cur ++ s.val ++ t.val, r, ?_, hdrop, Or.inr ⟨cur, t.val, by rw [hsv], htv⟩⟩
    rw [← hval]
    simp only [List.nil_append] at h2
    have h2' : values (x ++ [s, t]) = ms.flatten ++ cur ++ s.val ++ t.val := by rw [h2]; simp [values]
    rw [h2']
    simp

/-- A tag and the separator after it, for each piece of a message. -/
structure Piece where
  tag : Bytes
  sep : Bytes

theorem tagLoop_append {ts : List Token} : (∀ t ∈ ts, Kind t.typ t.val ∧ t.typ ≠ .swiftDatasetStart) →
    ∀ (cur : Bytes) (acc : List Bytes),
    ∃ (cur' : Bytes) (pieces : List Piece), (∀ us, tagLoop (ts ++ us) cur acc = tagLoop us cur' (acc ++ pieces.map Piece.tag)) ∧
      (pieces.map (fun p => p.tag ++ p.sep)).flatten ++ cur' = cur ++ values ts ∧
      (∀ p ∈ pieces, p.sep = [13, 10] ∨ p.sep = [13, 10, 45]) := by
  induction ts with
  | nil => intro _ cur acc; exact ⟨cur, [], by simp, by simp [values], by simp⟩
  | cons t ts ih =>
    intro h cur acc
    obtain ⟨ht, hd⟩ := h t (by simp)
    have hne := (kind_end ht).2
    have ih := ih (fun t ht => h t (by simp [ht]))
    by_cases hs : t.typ = .swiftTagSeparator ∨ t.typ = .swiftMessageSeparator
    · obtain ⟨cur', pieces, h1, h2, h3⟩ := ih [] (acc ++ [cur])
      refine ⟨cur', ⟨cur, t.val⟩ :: pieces, ?_, ?_, ?_⟩
      · intro us
        simp only [List.cons_append, tagLoop]
        rw [if_neg hne, if_pos hs, h1]
        simp
      · simp only [List.map_cons, List.flatten_cons, List.append_assoc, h2]
        simp [values]
      · intro p hp
        rcases List.mem_cons.1 hp with rfl | hp
        · rcases hs with hs | hs <;> rw [hs] at ht
          · exact Or.inl ht
          · exact Or.inr ht
        · exact h3 p hp
    · obtain ⟨cur', pieces, h1, h2, h3⟩ := ih (cur ++ t.val) acc
      refine ⟨cur', pieces, ?_, ?_, h3⟩
      · intro us
        simp only [List.cons_append, tagLoop]
        rw [if_neg hne, if_neg hs, if_neg hd, h1]
      · rw [h2]
        simp [values]

theorem Run.noStart {st : St} {pos : Nat} {rest : Bytes} {ts : List Token} {st' : St} {r : Bytes}
    (h : Run st pos rest ts st' r) (hst : st ≠ .entry) : ∀ t ∈ ts, t.typ ≠ .swiftDatasetStart := by
  induction h with
  | nil => simp
  | @cons st pos rest typ k st1 ts st' r h1 h2 ih =>
    intro t ht
    rcases List.mem_cons.1 ht with rfl | ht
    · rcases (lexOne_kind h1).2 with ⟨_, h, _⟩ | ⟨h, _⟩ | ⟨h, _⟩ | ⟨h, _⟩ | ⟨h, _⟩
      · exact absurd h hst
      · simp [h]
      · simp [h]
      · simp [h]
      · rcases h with h | h | h | h | h <;> simp [h]
    · refine ih ?_ t ht
      rintro rfl
      have := (lexOne_tok h1).2.2.1
      simp at this

/-- C38: the tags extracted from a message are in order, each with every byte between the
separators around it; what is left over is nothing, or the identifier of a tag without a
value; everything from a NUL on may be missing. -/
theorem C38_tags {raw : Bytes} {tags : List Bytes} (h : extractTags raw = .ok tags) :
    ∃ (pieces : List Piece) (tail dropped : Bytes), tags = pieces.map Piece.tag ∧
      raw = b!"\r\n" ++ (pieces.map (fun p => p.tag ++ p.sep)).flatten ++ tail ++ dropped ∧
      (∀ p ∈ pieces, p.sep = b!"\r\n" ∨ p.sep = b!"\r\n-") ∧ (dropped = [] ∨ dropped.head? = some 0) ∧
      (tail = [] ∨ TagId tail) := by
  have split : ∀ {ts : List Token} {st : St} {r : Bytes}, Run .entry 0 raw ts st r → ts = [] ∨
      ∃ p body, ts = ⟨.swiftDatasetStart, [13, 10], p⟩ :: body ∧
        (∀ t ∈ body, Kind t.typ t.val ∧ t.typ ≠ .swiftDatasetStart) := by
    intro ts st r hr
    cases hr with
    | nil => exact Or.inl rfl
    | cons h1 h2 =>
      right
      have hk := lexOne_kind h1
      simp only [lexOne, scanEntry] at h1
      split at h1
      · simp only [One.tok.injEq] at h1
        obtain ⟨rfl, rfl, rfl⟩ := h1
        exact ⟨_, _, rfl, fun t ht => ⟨h2.kinds t ht, h2.noStart (by simp) t ht⟩⟩
      · simp at h1
  obtain ⟨ts, r, last, hl, htyp, hr, hend⟩ := ok_inv (f := fun ts => tagLoop ts [] []) (by
    intro ts t hk ht
    have : ∀ ts : List Token, (∀ x ∈ ts, Kind x.typ x.val) → ∀ cur acc, tagLoop (ts ++ [t]) cur acc = .err := by
      intro ts
      induction ts with
      | nil => intro _ cur acc; simp [tagLoop, ht]
      | cons u us ih =>
        intro hk cur acc
        have ih := ih (fun x hx => hk x (by simp [hx]))
        simp only [List.cons_append, tagLoop]
        rw [if_neg (kind_end (hk u (by simp))).2]
        split
        · exact ih _ _
        · split
          · exact ih _ _
          · exact ih _ _
    exact this ts hk [] []) h
  have hval := hr.values_append
  have hhead : r.head? ≠ some 13 := by
    rcases hend with ⟨rfl, _⟩ | ⟨d, rfl, _⟩ <;> simp
  have hdrop : r = [] ∨ r.head? = some 0 := by
    rcases hend with ⟨rfl, _⟩ | ⟨d, rfl, _⟩ <;> simp
  have hk := hr.kinds
  rcases split hr with rfl | ⟨p, body, rfl, hb⟩
  · cases hr
  have hending := hr.ending hhead
  have hl' : tagLoop (body ++ [last]) [] [] = .ok tags := by
    simpa [tagLoop] using hl
  have hval' : [13, 10] ++ values body ++ r = raw := by
    rw [← hval]; simp [values]
  rcases List.eq_nil_or_concat body with rfl | ⟨x, t, rfl⟩
  · rcases hending with ⟨x, t, he, ht⟩ | ⟨x, s, t, he, hs, ht⟩
    · have := congrArg List.getLast? he
      simp at this
      rw [← this] at ht
      simp at ht
    · have := congrArg List.length he
      simp at this
  · rw [List.concat_eq_append] at *
    have hkt : Kind t.typ t.val := (hb t (by simp)).1
    rcases hending with ⟨y, t', he, ht⟩ | ⟨y, s, t', he, hs, ht⟩
    · have h1 := congrArg List.getLast? he
      rw [List.getLast?_cons] at h1
      simp at h1
      subst h1
      obtain ⟨cur, pieces, g1, g2, g3⟩ := tagLoop_append (ts := x) (fun t ht => hb t (by simp [ht])) [] []
      rw [List.append_assoc, g1] at hl'
      simp [tagLoop, ht, htyp] at hl'
      refine ⟨pieces ++ [⟨cur, [13, 10, 45]⟩], [], r, by simp [← hl'], ?_, ?_, hdrop, Or.inl rfl⟩
      · rw [← hval']
        rw [ht] at hkt
        have hkt : t.val = [13, 10, 45] := hkt
        simp only [List.nil_append] at g2
        have : values (x ++ [t]) = ((pieces ++ [(⟨cur, [13, 10, 45]⟩ : Piece)]).map (fun p => p.tag ++ p.sep)).flatten := by
          simp only [List.map_append, List.flatten_append, List.map_cons, List.map_nil, List.flatten_cons, List.flatten_nil,
            List.append_nil, ← List.append_assoc]
          rw [g2]
          simp [values, hkt]
        rw [this]
        simp
      · intro q hq
        rcases List.mem_append.1 hq with hq | hq
        · exact g3 q hq
        · simp at hq; rw [hq]; exact Or.inr rfl
    · have h1 := congrArg List.getLast? he
      rw [List.getLast?_cons, show y ++ [s, t'] = (y ++ [s]) ++ [t'] from by simp] at h1
      simp at h1
      subst h1
      have htag : TagId t.val := by rw [ht] at hkt; exact hkt
      have he2 : (⟨.swiftDatasetStart, [13, 10], p⟩ : Token) :: x = y ++ [s] := by
        have : ((⟨.swiftDatasetStart, [13, 10], p⟩ : Token) :: x) ++ [t] = (y ++ [s]) ++ [t] := by simpa using he
        exact (List.append_inj' this rfl).1
      rcases List.eq_nil_or_concat x with rfl | ⟨x', s', rfl⟩
      · simp [tagLoop, ht, htyp] at hl'
        subst hl'
        refine ⟨[], t.val, r, rfl, ?_, by simp, hdrop, Or.inr htag⟩
        rw [← hval']
        simp [values]
      · rw [List.concat_eq_append] at *
        have h1 := congrArg List.getLast? he2
        rw [List.getLast?_cons] at h1
        simp at h1
        subst h1
        have hns := hb s' (by simp)
        have hs' : s'.typ = .swiftTagSeparator := by
          rcases hs with hs | hs
          · exact absurd hs hns.2
          · exact hs
        have hsv : s'.val = [13, 10] := by have := hns.1; rw [hs'] at this; exact this
        obtain ⟨cur, pieces, g1, g2, g3⟩ := tagLoop_append (ts := x') (fun t ht => hb t (by simp [ht])) [] []
        rw [List.append_assoc, List.append_assoc, g1] at hl'
        simp [tagLoop, hs', ht, htyp] at hl'
        refine ⟨pieces ++ [⟨cur, [13, 10]⟩], t.val, r, by simp [← hl'], ?_, ?_, hdrop, Or.inr htag⟩
        · rw [← hval']
          simp only [List.nil_append] at g2
          have : values (x' ++ [s'] ++ [t]) =
              ((pieces ++ [(⟨cur, [13, 10]⟩ : Piece)]).map (fun p => p.tag ++ p.sep)).flatten ++ t.val := by
            simp only [List.map_append, List.flatten_append, List.map_cons, List.map_nil, List.flatten_cons, List.flatten_nil,
              List.append_nil, ← List.append_assoc]
            rw [g2]
            simp [values, hsv]
          rw [this]
          simp
        · intro q hq
          rcases List.mem_append.1 hq with hq | hq
          · exact g3 q hq
          · simp at hq; rw [hq]; exact Or.inl rfl

/-- A statement of two messages. -/
example : extractMessages b!"\r\n:20:A\r\n:86:x\r\ny\r\n-\r\n:20:B\r\n-" =
      .ok [b!"\r\n:20:A\r\n:86:x\r\ny\r\n-", b!"\r\n:20:B\r\n-"] ∧
    extractTags b!"\r\n:20:A\r\n:86:x\r\ny\r\n-" = .ok [b!":20:A", b!":86:x\r\ny"] := by decide +kernel

/-- A tag without a value at the end is lost without an error. -/
theorem C38_unfinished : extractTags b!"\r\n:20:A\r\n:25:" = .ok [b!":20:A"] ∧
    extractMessages b!"\r\n:20:A\r\n-\r\n:25:" = .ok [b!"\r\n:20:A\r\n-"] := by decide +kernel

theorem run_err {st : St} {pos : Nat} {rest : Bytes} {ts : List Token} {st' : St} {r m : Bytes} (h : Run st pos rest ts st' r)
    (he : lexOne st' r = .err m) : ∃ p, scan st pos rest = .done (ts ++ [⟨.error, m, p⟩]) := by
  refine ⟨pos + (values ts).length, ?_⟩
  rw [run_scan h]
  rw [scan_eq, he]

theorem runs_lex {input : Bytes} {ts : List Token} (h : Run .entry 0 input ts .start []) :
    ∃ p, lex input = .done (ts ++ [⟨.eof, [], p⟩]) := by
  refine ⟨0 + (values ts).length, ?_⟩
  rw [lex_eq_scan, run_scan h, scan_eq]
  simp [lexOne, scanStart]

theorem start_run {pos : Nat} {z : Bytes} : Run .entry pos (13 :: 10 :: z) [⟨.swiftDatasetStart, [13, 10], pos⟩] .tagId z :=
  .cons (k := 2) rfl (.nil _ _ _)

/-- C38, completeness: a message written as its tags, with values that have no NUL, do not
begin with a carriage return, have no line break that looks like the end of the value, and, if
they have several lines, have a first line that is neither just capital letters and digits nor
a decimal number, is read as exactly these tags. -/
theorem C38_tags_complete {tags : List Tag} (hne : tags ≠ []) (hok : ∀ t ∈ tags, t.Ok) :
    extractTags (wire tags) = .ok (tags.map (fun t => t.id ++ t.value)) := by
  cases tags with
  | nil => exact absurd rfl hne
  | cons t ts =>
    obtain ⟨toks, h1, _, h3⟩ := tags_run (pos := 2) (more := []) (hok t (by simp)) (fun x hx => hok x (List.mem_cons_of_mem _ hx)) (Or.inl rfl)
    have r := (start_run (pos := 0) (z := t.id ++ t.value ++ wire ts ++ [])).append h1
    have hr : Run .entry 0 (wire (t :: ts)) ([⟨.swiftDatasetStart, [13, 10], 0⟩] ++ toks) .start [] := by
      rw [wire_cons]
      simpa using r
    obtain ⟨p, hl⟩ := runs_lex hr
    unfold extractTags
    rw [hl]
    simp only [List.cons_append, List.nil_append, tagLoop]
    rw [if_neg (by simp), if_neg (by simp), if_pos trivial, h3]
    simp [tagLoop]

/-- C38, completeness: a statement that consists of such messages is split into exactly these
messages. -/
theorem C38_messages_complete {msgs : List (List Tag)} (hne : msgs ≠ [])
    (hok : ∀ m ∈ msgs, m ≠ [] ∧ ∀ t ∈ m, t.Ok) :
    extractMessages (msgs.map wire).flatten = .ok (msgs.map wire) := by
  have more : ∀ msgs : List (List Tag), (msgs.map wire).flatten = [] ∨ ∃ m, (msgs.map wire).flatten = 13 :: 10 :: m := by
    intro msgs
    cases msgs with
    | nil => exact Or.inl rfl
    | cons m msgs =>
      obtain ⟨z, hz⟩ := wire_head m
      exact Or.inr ⟨z ++ (msgs.map wire).flatten, by simp [hz]⟩
  have later : ∀ msgs : List (List Tag), (∀ m ∈ msgs, m ≠ [] ∧ ∀ t ∈ m, t.Ok) → ∀ pos : Nat,
      ∃ toks, Run .start pos (msgs.map wire).flatten toks .start [] ∧
        ∀ acc us, messageLoop (toks ++ us) [] acc = messageLoop us [] (acc ++ msgs.map wire) := by
    intro msgs
    induction msgs with
    | nil => intro _ pos; exact ⟨[], .nil _ _ _, by simp⟩
    | cons m msgs ih =>
      intro hok pos
      obtain ⟨hm, hm'⟩ := hok m (by simp)
      cases m with
      | nil => exact absurd rfl hm
      | cons t ts =>
        obtain ⟨i, hi⟩ := id_head (hm' t (by simp))
        obtain ⟨toks, h1, h2, _⟩ := tags_run (pos := pos + 2) (more := (msgs.map wire).flatten) (hm' t (by simp))
          (fun x hx => hm' x (List.mem_cons_of_mem _ hx)) (more msgs)
        have hid : t.id ++ t.value ++ wire ts ++ (msgs.map wire).flatten =
            58 :: (i ++ t.value ++ wire ts ++ (msgs.map wire).flatten) := by rw [hi]; simp
        have r1 := sep_run (st := .start) (pos := pos) (c := 58) (z := i ++ t.value ++ wire ts ++ (msgs.map wire).flatten)
          (Or.inl rfl) (by decide) (by decide)
        rw [← hid] at r1
        have r2 := r1.append h1
        obtain ⟨toks', h3, h4⟩ := ih (fun m hm => hok m (by simp [hm]))
          (pos + (values ([⟨.swiftTagSeparator, [13, 10], pos⟩] ++ toks)).length)
        refine ⟨_, by simpa [wire_cons] using r2.append h3, ?_⟩
        intro acc us
        simp only [List.append_assoc, List.cons_append, List.nil_append, messageLoop]
        rw [if_neg (by simp), if_neg (by simp), h2, h4]
        simp [wire_cons]
  cases msgs with
  | nil => exact absurd rfl hne
  | cons m msgs =>
    obtain ⟨hm, hm'⟩ := hok m (by simp)
    cases m with
    | nil => exact absurd rfl hm
    | cons t ts =>
      obtain ⟨toks, h1, h2, _⟩ := tags_run (pos := 2) (more := (msgs.map wire).flatten) (hm' t (by simp))
        (fun x hx => hm' x (List.mem_cons_of_mem _ hx)) (more msgs)
      have r := (start_run (pos := 0) (z := t.id ++ t.value ++ wire ts ++ (msgs.map wire).flatten)).append h1
      obtain ⟨toks', h3, h4⟩ := later msgs (fun m hm => hok m (by simp [hm]))
        (0 + (values ([⟨.swiftDatasetStart, [13, 10], 0⟩] ++ toks)).length)
      have hr : Run .entry 0 (((t :: ts) :: msgs).map wire).flatten
          ([⟨.swiftDatasetStart, [13, 10], 0⟩] ++ toks ++ toks') .start [] := by
        have := r.append h3
        rw [List.map_cons, List.flatten_cons, wire_cons]
        simpa using this
      obtain ⟨p, hl⟩ := runs_lex hr
      unfold extractMessages
      rw [hl]
      simp only [List.append_assoc, List.cons_append, List.nil_append, messageLoop]
      rw [if_neg (by simp), if_neg (by simp), h2, h4]
      simp [messageLoop, wire_cons]

/-- The identifier and the value of a well-formed tag. -/
theorem C38_elements {t : Tag} (h : t.Ok) : tagElements (t.id ++ t.value) = .ok (t.id, t.value) := by
  obtain ⟨h1, ⟨colon, ds, letter, he, hc, hds, hl⟩, _⟩ := h
  obtain ⟨i, v⟩ := t
  simp only at *
  subst he
  have hcol : colon = [58] := by
    rcases hc with rfl | rfl
    · exfalso
      cases ds with
      | nil => exact hds.1 rfl
      | cons d ds =>
        simp at h1
        have := hds.2 d (by simp)
        rw [h1] at this
        revert this
        unfold Digit; decide
    · rfl
  subst hcol
  have hp : ∀ b ∈ ds ++ letter, (b != 58) = true := by
    intro b hb
    rcases List.mem_append.1 hb with hb | hb
    · have := hds.2 b hb
      simp only [bne_iff_ne]
      rintro rfl
      revert this
      unfold Digit; decide
    · rcases hl with rfl | ⟨c, rfl, hc⟩
      · simp at hb
      · simp at hb
        subst hb
        simp only [bne_iff_ne]
        rintro rfl
        revert hc
        unfold Upper; decide
  have e : [58] ++ ds ++ letter ++ [58] ++ v = 58 :: ((ds ++ letter) ++ 58 :: v) := by simp
  rw [e]
  simp only [tagElements]
  rw [List.dropWhile_append_of_pos hp, List.takeWhile_append_of_pos hp]
  simp

theorem Spec.Value.of_line {v : Bytes} (h0 : 0 ∉ v) (h : 13 ∉ v) : Value v where
  noNul := h0
  head := by
    cases v with
    | nil => simp
    | cons c v => simp; rintro rfl; simp at h
  inner := by
    rintro a b rfl hb ⟨r, hr, _⟩
    cases b with
    | nil => exact hb rfl
    | cons c b =>
      simp at hr
      rw [hr.1] at h
      simp at h
  lines := fun hm => absurd hm h

/-- A value with several lines that is read as it is. -/
theorem sample_value : Value b!"166?00?20SVWZ+x\r\n?32y" where
  noNul := by decide
  head := by decide
  inner := by
    intro a b hv hb h
    have h1 := (boundary_iff _).2 h
    have : b = (b!"166?00?20SVWZ+x\r\n?32y").drop a.length := by rw [hv]; simp
    have hl : a.length < (b!"166?00?20SVWZ+x\r\n?32y").length := by
      rw [hv]
      cases b with
      | nil => exact absurd rfl hb
      | cons c b => simp
    rw [this] at h1
    generalize a.length = n at *
    have : ∀ n, n < (b!"166?00?20SVWZ+x\r\n?32y").length →
        boundary ((b!"166?00?20SVWZ+x\r\n?32y").drop n ++ [13, 10]) = false := by decide
    rw [this n hl] at h1
    simp at h1
  lines := by
    intro _
    constructor
    · intro h
      have := h 63 (by decide)
      unfold Upper Digit at this
      revert this
      decide
    · rintro ⟨ds, es, he, _⟩
      have hm : (44 : UInt8) ∈ firstLine b!"166?00?20SVWZ+x\r\n?32y" := by rw [he]; simp
      revert hm
      decide

example : ∃ tags : List Tag, tags ≠ [] ∧ (∀ t ∈ tags, t.Ok) ∧ wire tags = b!"\r\n:20:A b\r\n:86:166?00?20SVWZ+x\r\n?32y\r\n-" := by
  refine ⟨[⟨b!":20:", b!"A b"⟩, ⟨b!":86:", b!"166?00?20SVWZ+x\r\n?32y"⟩], by simp, ?_, by decide⟩
  intro t ht
  have d : ∀ x y : Byte, Digit x → Digit y → TagId [58, x, y, 58] := fun x y hx hy =>
    ⟨[58], [x, y], [], rfl, Or.inr rfl, ⟨by simp, by simp [hx, hy]⟩, Or.inl rfl⟩
  simp only [List.mem_cons, List.not_mem_nil, or_false] at ht
  rcases ht with rfl | rfl
  · exact ⟨rfl, d 50 48 (by unfold Digit; decide) (by unfold Digit; decide), .of_line (by decide) (by decide)⟩
  · exact ⟨rfl, d 56 54 (by unfold Digit; decide) (by unfold Digit; decide), sample_value⟩

/-- The condition on the first line is needed: when the first line of the first tag's value is
just capital letters and digits, and the second line does not start with a colon, a digit or a
dash, then nothing at all can be extracted. -/
theorem C38_multiline_lost {i v more : Bytes} {c : Byte} (hi : i.head? = some 58) (hid : TagId i) (hv : v ≠ []) (hp : Plain v)
    (h1 : c ≠ 58) (h2 : c ≠ 45) (h3 : ¬ Digit c) :
    extractTags (b!"\r\n" ++ i ++ v ++ b!"\r\n" ++ c :: more) = .err ∧
    extractMessages (b!"\r\n" ++ i ++ v ++ b!"\r\n" ++ c :: more) = .err := by
  have hnb : boundary (13 :: 10 :: c :: more) = false := by
    rw [Bool.eq_false_iff]
    intro h
    obtain ⟨r, hr, h⟩ := (boundary_iff _).1 h
    simp at hr
    subst hr
    rcases h with ⟨d, x, y, h, _⟩ | ⟨x, h⟩ | ⟨x, h⟩ | h
    · simp at h; exact h1 h.1
    · simp at h; exact h2 h.1
    · simp at h; exact h2 h.1
    · simp at h; exact h2 h.1
  have hchar : ∀ (w : Bytes) (k : Nat), Plain w →
      scanCharacter k (w ++ 13 :: 10 :: c :: more) = .tok .swiftCharacter (k + w.length) .start := by
    intro w
    induction w with
    | nil => intro k _; simp [scanCharacter, isUpper, isNum]
    | cons d w ih =>
      intro k hw
      have ih' := ih (k + 1) (fun b hb => hw b (by simp [hb]))
      have e : k + 1 + w.length = k + (d :: w).length := by simp; omega
      rw [e] at ih'
      simp only [List.cons_append, scanCharacter, ih']
      rcases hw d (by simp) with hd | hd
      · simp [(isUpper_iff d).2 hd]
      · simp [(isNum_digit d).2 hd]
  have halpha : ∀ (w : Bytes) (k : Nat), Plain w →
      ∃ t, scanAlpha k (w ++ 13 :: 10 :: c :: more) = .tok t (k + w.length) .start := by
    intro w
    induction w with
    | nil => intro k _; simp [scanAlpha, isUpper, isNum]
    | cons d w ih =>
      intro k hw
      have hw' : Plain w := fun b hb => hw b (by simp [hb])
      have ih' := ih (k + 1) hw'
      have e : k + 1 + w.length = k + (d :: w).length := by simp; omega
      have hc' := hchar w (k + 1) hw'
      rw [e] at ih' hc'
      simp only [List.cons_append, scanAlpha]
      rcases hw d (by simp) with hd | hd
      · simpa [(isUpper_iff d).2 hd] using ih'
      · have : isUpper d = false := by
          rw [Bool.eq_false_iff]
          intro hu
          have := (isUpper_iff d).1 hu
          unfold Upper at this
          unfold Digit at hd
          omega
        simp [(isNum_digit d).2 hd, this, hc']
  have hval : ∃ t st', lexOne .start (v ++ 13 :: 10 :: c :: more) = .tok t v.length .start ∧ st' = St.start := by
    cases v with
    | nil => exact absurd rfl hv
    | cons d w =>
      have hw : Plain w := fun b hb => hp b (by simp [hb])
      simp only [lexOne, List.cons_append, scanStart]
      have e : (d :: w).length = 1 + w.length := by simp; omega
      rw [e]
      by_cases hd : isNum d = true
      · rw [if_pos hd]
        unfold scanDigit
        rw [(takeWhile_rest rfl).1, (takeWhile_rest rfl).2]
        rcases digits_cases w with ⟨g1, g2⟩ | ⟨x, w', g1, g2, g3⟩
        · rw [g1]
          simp only [List.nil_append]
          rw [if_neg (by decide)]
          unfold scanInteger
          rw [hnb]
          have := hchar [] (1 + (w.takeWhile isDig).length) (by intro b hb; simp at hb)
          simp only [List.nil_append] at this
          rw [if_neg (by simp), this]
          refine ⟨.swiftCharacter, .start, ?_, rfl⟩
          conv => rhs; rw [g2]
          simp
        · rw [g1]
          generalize w.takeWhile isDig = ds at *
          subst g3
          have hx : Plain (x :: w') := fun b hb => hw b (by simp at hb ⊢; tauto)
          have hx44 : x ≠ 44 := by
            rintro rfl
            have := hx 44 (by simp)
            revert this
            unfold Upper Digit; decide
          simp only [List.cons_append]
          rw [if_neg (by simpa using hx44)]
          unfold scanInteger
          have hnb' : boundary (x :: (w' ++ 13 :: 10 :: c :: more)) = false := by
            rw [Bool.eq_false_iff]
            intro h
            have := boundary_head h
            simp at this
            subst this
            have := hx 13 (by simp)
            revert this
            unfold Upper Digit; decide
          rw [hnb', if_neg (by simp)]
          have := hchar (x :: w') (1 + ds.length) hx
          simp only [List.cons_append] at this
          rw [this]
          exact ⟨.swiftCharacter, .start, by simp; omega, rfl⟩
      · rw [if_neg hd]
        have hu : isUpper d = true := by
          rcases hp d (by simp) with h | h
          · exact (isUpper_iff d).2 h
          · exact absurd ((isNum_digit d).2 h) hd
        rw [if_pos hu]
        obtain ⟨t, ht⟩ := halpha w 1 hw
        exact ⟨t, .start, ht, rfl⟩
  obtain ⟨t, _, hval, _⟩ := hval
  have r1 := (start_run (pos := 0) (z := i ++ (v ++ 13 :: 10 :: c :: more))).append
    (tag_run (pos := 0 + (values [(⟨.swiftDatasetStart, [13, 10], 0⟩ : Token)]).length) hi hid)
  have r2 := r1.append (.cons hval (.nil _ _ _))
  rw [List.take_left, List.drop_left] at r2
  have hk := r2.kinds
  have e : (13 :: 10 :: (i ++ (v ++ 13 :: 10 :: c :: more))) = b!"\r\n" ++ i ++ v ++ b!"\r\n" ++ c :: more := by
    show _ = ([13, 10] : Bytes) ++ i ++ v ++ ([13, 10] : Bytes) ++ c :: more
    simp
  rw [e] at r2
  have herr : ∃ us last, lex (b!"\r\n" ++ i ++ v ++ b!"\r\n" ++ c :: more) = .done (us ++ [last]) ∧ last.typ = .error ∧
      ∀ t ∈ us, Kind t.typ t.val := by
    rw [lex_eq_scan]
    by_cases h0 : c = 0
    · subst h0
      obtain ⟨p, hp⟩ := run_err r2 (m := unexpectedEOF) (by simp [lexOne, scanStart, scanSymbol, isNum, isUpper])
      exact ⟨_, _, hp, rfl, hk⟩
    · have r3 := r2.append (sep_run (z := more) (Or.inl rfl) h0 h2)
      have hd : isDig c = false := by
        rw [Bool.eq_false_iff]; exact fun h => h3 ((isDig_iff c).1 h)
      have htag : lexOne .tagId (c :: more) = .err tagNoDigit := by
        simp only [lexOne, scanTag]
        split
        · rename_i h; simp at h; exact absurd h.1 h1
        · simp [scanTagDigits, hd]
      obtain ⟨p, hp⟩ := run_err r3 htag
      exact ⟨_, _, hp, rfl, r3.kinds⟩
  obtain ⟨us, last, hl, hlast, hus⟩ := herr
  constructor
  · unfold extractTags
    rw [hl]
    simp only
    have : ∀ us : List Token, (∀ x ∈ us, Kind x.typ x.val) → ∀ cur acc, tagLoop (us ++ [last]) cur acc = .err := by
      intro us
      induction us with
      | nil => intro _ cur acc; simp [tagLoop, hlast]
      | cons u us ih =>
        intro hk cur acc
        have ih := ih (fun x hx => hk x (by simp [hx]))
        simp only [List.cons_append, tagLoop]
        rw [if_neg (kind_end (hk u (by simp))).2]
        split
        · exact ih _ _
        · split
          · exact ih _ _
          · exact ih _ _
    exact this us hus [] []
  · unfold extractMessages
    rw [hl]
    simp only
    obtain ⟨cur, new, g1, _, _⟩ := messageLoop_append hus [] []
    rw [g1]
    simp [messageLoop, hlast]

example : extractMessages b!"\r\n:20:A\r\n:86:OVERDRAFT\r\nFEE x\r\n-" = .err ∧
    extractTags b!"\r\n:86:OVERDRAFT\r\nFEE x\r\n-" = .err ∧
    extractTags b!"\r\n:86:Overdraft\r\nFEE x\r\n-" = .ok [b!":86:Overdraft\r\nFEE x"] := by decide +kernel

end Verif.Swift
