import Verif.Message.ReaderLemmas

/-
Bytes that stand unescaped in a text, and what the extraction of segments does with texts in which
no `@` stands unescaped.
-/

namespace Verif.Token

open GoLib Token.Spec

/-- No byte of the set stands unescaped in the text, read after an escape character (`true`) or not. -/
def NoBare (p : Byte → Bool) : Bool → Bytes → Prop
  | _, [] => True
  | true, _ :: r => NoBare p false r
  | false, c :: r => p c = false ∧ NoBare p (c == 63) r

/-- Whether the text leaves the reader after an escape character. -/
def escAfter : Bool → Bytes → Bool
  | e, [] => e
  | true, _ :: r => escAfter false r
  | false, c :: r => escAfter (c == 63) r

variable {p : Byte → Bool}

theorem noBare_append (e : Bool) (a b : Bytes) : NoBare p e (a ++ b) ↔ NoBare p e a ∧ NoBare p (escAfter e a) b := by
  induction a generalizing e with
  | nil => cases e <;> simp [NoBare, escAfter]
  | cons c a ih =>
    cases e
    · simp only [List.cons_append, NoBare, escAfter]; rw [ih]; tauto
    · simp only [List.cons_append, NoBare, escAfter]; rw [ih]

theorem escAfter_append (e : Bool) (a b : Bytes) : escAfter e (a ++ b) = escAfter (escAfter e a) b := by
  induction a generalizing e with
  | nil => cases e <;> simp [escAfter]
  | cons c a ih => cases e <;> simp only [List.cons_append, escAfter] <;> rw [ih]

theorem NoBare.mono {q : Byte → Bool} (h : ∀ c, q c = true → p c = true) {e : Bool} {b : Bytes} (hb : NoBare p e b) :
    NoBare q e b := by
  induction b generalizing e with
  | nil => cases e <;> trivial
  | cons c b ih =>
    cases e
    · refine ⟨?_, ih hb.2⟩
      cases hq : q c with
      | false => rfl
      | true => exact absurd (hb.1.symm.trans (h c hq)) (by simp)
    · exact ih (e := false) hb

/-- Text all of whose special characters are escaped. -/
theorem noBare_escaped {v : Bytes} (h : Escaped v) (hp : ∀ c, p c = true → Delim c) : NoBare p false v ∧ escAfter false v = false := by
  induction h with
  | nil => exact ⟨trivial, rfl⟩
  | @plain c v h1 h2 _ _ ih =>
    have hc : (c == 63) = false := by simpa using h2
    refine ⟨⟨?_, by rw [hc]; exact ih.1⟩, by simp only [escAfter, hc]; exact ih.2⟩
    cases hq : p c with
    | false => rfl
    | true => exact absurd (hp c hq) h1
  | @esc c v h1 _ ih =>
    refine ⟨⟨?_, by simpa [NoBare] using ih.1⟩, by simpa [escAfter] using ih.2⟩
    cases hq : p 63 with
    | false => rfl
    | true => exact absurd (hp 63 hq) (by simp [Delim])

/-- What stands after an escaped text is not escaped. -/
theorem escaped_bare {t w : Bytes} {x : Byte} (h : Escaped (t ++ x :: w)) (ht : escAfter false t = false) : ¬ Delim x := by
  intro hx
  have := (noBare_escaped (p := fun c => c == x) h (by intro c hc; simp at hc; exact hc ▸ hx)).1
  rw [noBare_append, ht] at this
  exact absurd this.2.1 (by simp)

/-- The segments a text is cut into at its unescaped `'`: what is unfinished, and the finished ones. -/
def cut : Bool → Bytes → Bytes → List Bytes → Bytes × List Bytes
  | _, [], cur, acc => (cur, acc)
  | true, c :: r, cur, acc => cut false r (cur ++ [c]) acc
  | false, c :: r, cur, acc =>
    if c = 39 then cut false r [] (acc ++ [cur ++ [39]]) else cut (c == 63) r (cur ++ [c]) acc

theorem cut_append (e : Bool) (a b cur : Bytes) (acc : List Bytes) :
    cut e (a ++ b) cur acc = cut (escAfter e a) b (cut e a cur acc).1 (cut e a cur acc).2 := by
  induction a generalizing e cur acc with
  | nil => cases e <;> simp [cut, escAfter]
  | cons c a ih =>
    cases e
    · simp only [List.cons_append, cut, escAfter]
      split
      · rename_i h; subst h; rw [ih]; simp
      · rw [ih]
    · simp only [List.cons_append, cut, escAfter]; rw [ih]

/-- Text without an unescaped `'` finishes no segment. -/
theorem cut_noBare {e : Bool} {a : Bytes} (h : NoBare (· == 39) e a) (cur : Bytes) (acc : List Bytes) :
    cut e a cur acc = (cur ++ a, acc) := by
  induction a generalizing e cur with
  | nil => cases e <;> simp [cut]
  | cons c a ih =>
    cases e
    · have hc : c ≠ 39 := by simpa using h.1
      simp only [cut, if_neg hc]
      rw [ih h.2]; simp
    · simp only [cut]; rw [ih (e := false) h]; simp

/-- Segments are only ever added. -/
theorem cut_prefix (e : Bool) (a cur : Bytes) (acc : List Bytes) : acc <+: (cut e a cur acc).2 := by
  induction a generalizing e cur acc with
  | nil => cases e <;> simp [cut]
  | cons c a ih =>
    cases e
    · simp only [cut]
      split
      · exact (List.prefix_append acc _).trans (ih _ _ _)
      · exact ih _ _ _
    · exact ih _ _ _

end Verif.Token

namespace Verif.Message

open GoLib Token Verif.Token.Spec Message.Spec Segment.Spec

/-- What the extractor of segments makes of the tokens. -/
def extractDrain (d : Drain) (cur : Bytes) (acc : List Bytes) : List Bytes × Outcome Unit :=
  match d with
  | .done ts => ((extractLoop ts cur acc).1, if (extractLoop ts cur acc).2 then .ok () else .err)
  | .panic ts | .blocked ts | .timeout ts => ((extractLoop ts cur acc).1, .panic)

theorem extractDrain_cons {t : Token} (ht : t.typ ≠ .error) (d : Drain) (cur : Bytes) (acc : List Bytes) :
    extractDrain (d.cons t) cur acc =
      if t.typ = .segmentEndMarker then extractDrain d [] (acc ++ [cur ++ t.val]) else extractDrain d (cur ++ t.val) acc := by
  cases d <;> by_cases h : t.typ = .segmentEndMarker <;>
    simp [extractDrain, Drain.cons, extractLoop, ht, h]

/-- Unfolding along one token. -/
theorem extractDrain_scan {pos k : Nat} {t : Typ} {b : Bytes} (h : lexOne pos b = .tok t k) (ht : t ≠ .error) (cur : Bytes)
    (acc : List Bytes) :
    extractDrain (scan pos b) cur acc =
      if t = .segmentEndMarker then extractDrain (scan (pos + k) (b.drop k)) [] (acc ++ [cur ++ b.take k])
      else extractDrain (scan (pos + k) (b.drop k)) (cur ++ b.take k) acc := by
  rw [scan_eq, h]
  exact extractDrain_cons ht _ _ _

/-- The extraction of the segments of `b` at `pos` neither panics nor finds other segments than those in
`all`, of which those in `acc` are already found. -/
def Within (all : List Bytes) (r : List Bytes × Outcome Unit) : Prop := r.1 <+: all ∧ r.2 ≠ .panic

/-- A text is closed if it is empty or ends in an unescaped delimiter. -/
def Closed (t : Bytes) : Prop := t = [] ∨ ∃ t' d, t = t' ++ [d] ∧ Delim d ∧ escAfter false t' = false

theorem kind_escaped {pos : Nat} {t : Typ} {v : Bytes} (h : Kind pos t v) (h64 : v.head? ≠ some 64) : Escaped v ∧ v ≠ [] := by
  have hd : ∀ {v : Bytes}, DigitString v → Escaped v ∧ v ≠ [] := fun {v} h =>
    ⟨by simpa using escaped_prepend (a := v) (v := []) (fun c hc => Or.inl (h.2 c hc)) .nil, h.1⟩
  cases t <;> simp only [Kind] at h
  case numeric => exact hd h.1
  case digit =>
    obtain ⟨ds, rfl, h⟩ := h
    exact hd ⟨by simp, fun b hb => by
      rcases List.mem_cons.1 hb with rfl | hb
      · simp [Spec.Digit]
      · exact h.2 b hb⟩
  case float =>
    obtain ⟨n, ds, rfl, h1, h2⟩ := h
    refine ⟨?_, by simp⟩
    have := escaped_prepend (a := n ++ 44 :: ds) (v := []) (fun c hc => by
      rcases List.mem_append.1 hc with hc | hc
      · exact Or.inl (h1.1.2 c hc)
      · rcases List.mem_cons.1 hc with rfl | hc
        · exact Or.inr rfl
        · exact Or.inl (h2 c hc)) .nil
    simpa using this
  case binaryData =>
    obtain ⟨⟨ds, pl, rfl, _⟩, _⟩ := h
    exact absurd rfl h64
  case alphaNumeric => exact ⟨h.1.2.1, h.1.1⟩
  case text => exact ⟨h.1.2.1, h.1.1⟩

/-- Reading over a text without unescaped `@`: the extraction goes on behind it, or it ends within it
without a panic. -/
theorem extract_over {t rest : Bytes} (ht : NoBare (· == 64) false t) (hc : rest = [] ∨ Closed t) :
    ∀ (pos : Nat) (cur : Bytes) (acc : List Bytes),
      extractDrain (scan pos (t ++ rest)) cur acc =
          extractDrain (scan (pos + t.length) rest) (cut false t cur acc).1 (cut false t cur acc).2 ∨
        Within (cut false t cur acc).2 (extractDrain (scan pos (t ++ rest)) cur acc) := by
  induction hn : t.length using Nat.strongRecOn generalizing t with
  | ind n ih =>
    intro pos cur acc
    cases t with
    | nil => left; simp only [List.length_nil] at hn; subst hn; simp [cut]
    | cons c t =>
      have hc64 : c ≠ 64 := by have := ht.1; simpa using this
      cases hl : lexOne pos (c :: t ++ rest) with
      | stop k =>
        right
        rw [scan_eq, hl]
        exact ⟨by simpa [extractDrain, extractLoop] using cut_prefix _ _ _ _, by simp [extractDrain, extractLoop]⟩
      | err m =>
        right
        rw [scan_eq, hl]
        exact ⟨by simpa [extractDrain, extractLoop] using cut_prefix _ _ _ _, by simp [extractDrain, extractLoop]⟩
      | panic =>
        exfalso
        rw [lexOne_panic_iff] at hl
        rcases hl with hl | ⟨ds, r, hl, _⟩ <;> simp at hl <;> exact hc64 hl.1
      | tok ty k =>
        have hk := kind_of_lexOne hl
        rcases hk with ⟨d, r, h1, h2, rfl, rfl⟩ | ⟨v, d, r, h1, h2, rfl, h3⟩
        · simp only [List.cons_append, List.cons.injEq] at h1
          obtain ⟨rfl, rfl⟩ := h1
          have h63 : c ≠ 63 := by rintro rfl; simp [Delim] at h2
          have hb : (c == 63) = false := by simpa using h63
          have ht' : NoBare (· == 64) false t := by have := ht.2; rwa [hb] at this
          have hc' : rest = [] ∨ Closed t := by
            rcases hc with hc | hc | ⟨t', d, h3, h4, h5⟩
            · exact Or.inl hc
            · simp at hc
            · right
              cases t' with
              | nil => left; simpa using (List.cons.inj h3).2
              | cons c' t' =>
                simp only [List.cons_append, List.cons.injEq] at h3
                obtain ⟨rfl, rfl⟩ := h3
                exact Or.inr ⟨t', d, rfl, h4, by simpa [escAfter, hb] using h5⟩
          simp only [List.length_cons] at hn
          have key := ih t.length (by omega) ht' hc' rfl (pos + 1)
          rw [show pos + 1 + t.length = pos + n by omega] at key
          rw [extractDrain_scan hl (sepTyp_ne c).1]
          simp only [List.cons_append, List.drop_succ_cons, List.drop_zero, List.take_succ_cons, List.take_zero, cut, hb]
          by_cases h39 : c = 39
          · subst h39
            simp only [sepTyp, if_true]
            exact key [] (acc ++ [cur ++ [39]])
          · have hne : sepTyp c ≠ .segmentEndMarker := by
              rcases h2 with rfl | rfl | rfl <;> simp_all [sepTyp]
            rw [if_neg hne, if_neg h39]
            exact key (cur ++ [c]) acc
        · have h64 : v.head? ≠ some 64 := by
            cases v with
            | nil => simp
            | cons a v =>
              simp only [List.cons_append, List.cons.injEq] at h1
              rw [← h1.1]; simpa using hc64
          obtain ⟨he, hv0⟩ := kind_escaped h3 h64
          -- the value ends within the text
          obtain ⟨t'', hh⟩ : ∃ t'', c :: t = v ++ t'' ∧ t'' ++ rest = d :: r := by
            rcases hc with rfl | hc | ⟨t', x, h4, h5, h6⟩
            · exact ⟨d :: r, by simpa using h1, by simp⟩
            · simp at hc
            · rw [List.append_eq_append_iff] at h1
              rcases h1 with ⟨a, h7, h8⟩ | ⟨a, h7, h8⟩
              · exfalso
                rw [h7, h4, List.append_assoc] at he
                exact escaped_bare he h6 h5
              · exact ⟨a, h7, h8.symm⟩
          obtain ⟨h4, h5⟩ := hh
          have hlen : t''.length < n := by
            have := congrArg List.length h4
            have : 0 < v.length := List.length_pos_iff.2 hv0
            simp at *; omega
          have hce := (noBare_escaped (p := fun c => c == 39) he (by intro c hc; simp at hc; subst hc; simp [Delim]))
          rw [h4] at ht hc hn ⊢
          rw [noBare_append, hce.2] at ht
          have hc' : rest = [] ∨ Closed t'' := by
            rcases hc with hc | hc | ⟨t', x, h6, h7, h8⟩
            · exact Or.inl hc
            · exact absurd hc (by simp [hv0])
            · right
              rcases List.eq_nil_or_concat t'' with h9 | ⟨y, z, h9⟩
              · exact Or.inl h9
              · right
                rw [List.concat_eq_append] at h9
                rw [h9, ← List.append_assoc] at h6
                obtain ⟨h6, h10⟩ := List.append_inj' h6 rfl
                rw [← h6, escAfter_append, hce.2] at h8
                exact ⟨y, z, h9, by rw [(List.cons.inj h10).1]; exact h7, h8⟩
          have key := ih t''.length hlen ht.2 hc' rfl (pos + v.length) (cur ++ v) acc
          have hty := typ_of_kind h3
          rw [h4] at hl
          rw [extractDrain_scan hl hty.2, if_neg hty.1, cut_append, hce.2, cut_noBare hce.1]
          simp only [List.append_assoc, List.drop_left, List.take_left, List.length_append] at *
          simpa [Nat.add_assoc, ← hn] using key

/-- Reading over a binary value. -/
theorem extract_binary {v : Bytes} {d : Byte} (hv : Binary v) (hd : Delim d) {pos : Nat} (hl : pos + v.length < 2 ^ 63) (rest cur : Bytes)
    (acc : List Bytes) :
    extractDrain (scan pos (v ++ d :: rest)) cur acc = extractDrain (scan (pos + v.length) (d :: rest)) (cur ++ v) acc := by
  rw [extractDrain_scan (lexOne_of_kind (t := .binaryData) ⟨hv, hl⟩ hd rest) (by simp), if_neg (by simp)]
  simp

theorem extract_eq_drain (raw : Bytes) :
    (newExtractor raw).extract.2 = (extractDrain (lex raw) [] []).2.map' fun _ => (extractDrain (lex raw) [] []).1 := by
  unfold Extractor.extract newExtractor extractDrain
  cases lex raw with
  | done ts => simp only; split <;> rfl
  | _ => rfl

/-- A text without unescaped `@` is cut at its unescaped `'`, possibly not to the end. -/
theorem extract_text {t : Bytes} (ht : NoBare (· == 64) false t) :
    (newExtractor t).extract.2 ≠ .panic ∧ ∀ ss, (newExtractor t).extract.2 = .ok ss → ss <+: (cut false t [] []).2 := by
  have h := extract_over (rest := []) ht (Or.inl rfl) 0 [] []
  rw [extract_eq_drain, lex_eq_scan]
  rw [List.append_nil] at h
  have hw : Within (cut false t [] []).2 (extractDrain (scan 0 t) [] []) := by
    rcases h with h | h
    · rw [h, scan_eq]
      simp [Within, lexOne, extractDrain, extractLoop]
    · exact h
  generalize extractDrain (scan 0 t) [] [] = r at hw
  obtain ⟨a, o⟩ := r
  obtain ⟨h1, h2⟩ := hw
  cases o <;> simp_all [Outcome.map']
