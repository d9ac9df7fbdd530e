import Verif.Bankinfo.Written
import Verif.Bankinfo.GoText
import Verif.Bankinfo.ParserProps

/-!
C132: the file with the table of the banks compiles to the table exactly if the fields that
are not escaped need no escape.
-/

namespace Verif.Bankinfo.GoText

/-- A text that may stand in a Go string literal as it is. -/
def Plain (s : Str) : Prop := ∀ c ∈ s, c ≠ '"' ∧ c ≠ '\\' ∧ c ≠ '\n' ∧ ¬ Forbidden c

instance (s : Str) : Decidable (Plain s) := inferInstanceAs (Decidable (∀ c ∈ s, _))

/-- The fields of an entry that the template does not escape. -/
def PlainEntry (e : BankInfo) : Prop :=
  Plain e.bankID ∧ Plain e.bic ∧ Plain e.versionNumber ∧ Plain e.url ∧ Plain e.versionName ∧ Plain e.city
    ∧ Plain e.lastChanged

instance (e : BankInfo) : Decidable (PlainEntry e) := inferInstanceAs (Decidable (_ ∧ _))

/-- What is assumed about `strconv.IsPrint`: control characters and the byte order mark
are not printable. -/
def Sane (isPrint : Char → Bool) : Prop := ∀ c, isPrint c = true → 32 ≤ c.toNat ∧ c.toNat ≠ 0xFEFF

/-! ### Reading -/

theorem run_append (m : Mode) (s t : Str) :
    run m (s ++ t) = (run m s).bind fun p => (run p.2 t).map fun q => (p.1 ++ q.1, q.2) := by
  induction s generalizing m with
  | nil => simp [run]
  | cons c r ih =>
    simp only [List.cons_append, run]
    cases step m c with
    | none => rfl
    | some p =>
      simp only [ih]
      cases run p.2 r with
      | none => rfl
      | some q =>
        simp only [Option.map_some, Option.bind_some]
        cases run q.2 t <;> simp [List.append_assoc]

theorem run_pre {m m' : Mode} {s : Str} {ts : List Tok} (h : run m s = some (ts, m')) (t : Str) :
    run m (s ++ t) = (run m' t).map fun q => (ts ++ q.1, q.2) := by
  rw [run_append, h]; rfl

theorem run_plain {s : Str} (h : Plain s) (acc : Str) :
    run (.text acc) s = some ([], .text (s.reverse ++ acc)) := by
  induction s generalizing acc with
  | nil => rfl
  | cons c r ih =>
    obtain ⟨h1, h2, h3, h4⟩ := h c (by simp)
    have := ih (fun d hd => h d (by simp [hd])) (c :: acc)
    simp [run, step, h1, h2, h3, h4, this]

theorem hexValue_lowerhex : ∀ n < 16, hexValue (lowerhex n) = some n ∧ ¬ Forbidden (lowerhex n) := by
  decide

theorem step_hex (acc : Str) (left limit value n : Nat) :
    step (.hex acc left limit value) (lowerhex (n % 16)) =
      if 1 < left then some ([], .hex acc (left - 1) limit (16 * value + n % 16))
      else if 16 * value + n % 16 < limit ∧ (16 * value + n % 16).isValidChar
        then some ([], .text (Char.ofNat (16 * value + n % 16) :: acc)) else none := by
  obtain ⟨h1, h2⟩ := hexValue_lowerhex (n % 16) (Nat.mod_lt _ (by omega))
  simp only [step, h1, if_neg h2]

theorem run_step {m m' : Mode} {c : Char} (h : step m c = some ([], m')) (r : Str) : run m (c :: r) = run m' r := by
  simp only [run, h, List.nil_append]
  cases run m' r <;> rfl

theorem run_hex (acc : Str) (left limit value n : Nat) (r : Str) :
    run (.hex acc (left + 2) limit value) (lowerhex (n % 16) :: r)
      = run (.hex acc (left + 1) limit (16 * value + n % 16)) r :=
  run_step (by rw [step_hex, if_pos (by omega)]; rfl) r

theorem run_last (acc : Str) (limit value n : Nat) (c : Char) (h : 16 * value + n % 16 = c.toNat)
    (hl : c.toNat < limit) : run (.hex acc 1 limit value) [lowerhex (n % 16)] = some ([], .text (c :: acc)) := by
  rw [run_step (m' := .text (c :: acc))]
  · rfl
  · have hv : c.toNat.isValidChar := c.valid
    rw [step_hex, if_neg (by omega), h, if_pos ⟨hl, hv⟩]
    simp

theorem run_escaped {isPrint : Char → Bool} (hs : Sane isPrint) (c : Char) (acc : Str) :
    run (.text acc) (escapedRune isPrint c) = some ([], .text (c :: acc)) := by
  have hc : c = Char.ofNat c.toNat := by simp
  have key : ∀ n, c.toNat = n → c = Char.ofNat n := fun n h => by rw [← h]; exact hc
  unfold escapedRune
  simp only
  by_cases h1 : c = '"' ∨ c = '\\'
  · rw [if_pos h1]
    rcases h1 with rfl | rfl <;> rfl
  rw [if_neg h1]
  simp only [not_or] at h1
  by_cases h2 : isPrint c = true
  · rw [if_pos h2]
    obtain ⟨h32, hb⟩ := hs c h2
    have hn : c ≠ '\n' := by rintro rfl; simp at h32
    have hf : ¬ Forbidden c := by unfold Forbidden; omega
    simp [run, step, h1.1, h1.2, hn, hf]
  rw [if_neg h2]
  by_cases h : c.toNat = 7
  · rw [if_pos h, key _ h]; rfl
  rw [if_neg h]; clear h
  by_cases h : c.toNat = 8
  · rw [if_pos h, key _ h]; rfl
  rw [if_neg h]; clear h
  by_cases h : c.toNat = 12
  · rw [if_pos h, key _ h]; rfl
  rw [if_neg h]; clear h
  by_cases h : c.toNat = 10
  · rw [if_pos h, key _ h]; rfl
  rw [if_neg h]; clear h
  by_cases h : c.toNat = 13
  · rw [if_pos h, key _ h]; rfl
  rw [if_neg h]; clear h
  by_cases h : c.toNat = 9
  · rw [if_pos h, key _ h]; rfl
  rw [if_neg h]; clear h
  by_cases h : c.toNat = 11
  · rw [if_pos h, key _ h]; rfl
  rw [if_neg h]; clear h
  have s1 : step (.text acc) '\\' = some ([], .escape acc) := rfl
  have sx : step (.escape acc) 'x' = some ([], .hex acc 2 128 0) := rfl
  have su : step (.escape acc) 'u' = some ([], .hex acc 4 0x110000 0) := rfl
  have sU : step (.escape acc) 'U' = some ([], .hex acc 8 0x110000 0) := rfl
  have hmax : c.toNat < 0x110000 := by
    have hv : c.toNat.isValidChar := c.valid
    rcases hv with h | h <;> omega
  by_cases h : c.toNat < 32 ∨ c.toNat = 127
  · rw [if_pos h, run_step s1, run_step sx, run_hex acc 0, run_last (c := c)] <;> omega
  rw [if_neg h]
  by_cases h' : c.toNat < 65536
  · rw [if_pos h', run_step s1, run_step su]
    simp only [List.map_cons, List.map_nil]
    rw [run_hex acc 2, run_hex acc 1, run_hex acc 0, run_last (c := c)] <;> omega
  · rw [if_neg h', run_step s1, run_step sU]
    simp only [List.map_cons, List.map_nil]
    rw [run_hex acc 6, run_hex acc 5, run_hex acc 4, run_hex acc 3, run_hex acc 2, run_hex acc 1, run_hex acc 0,
      run_last (c := c)] <;> omega

theorem run_flat {isPrint : Char → Bool} (hs : Sane isPrint) (s acc : Str) :
    run (.text acc) (s.flatMap (escapedRune isPrint)) = some ([], .text (s.reverse ++ acc)) := by
  induction s generalizing acc with
  | nil => rfl
  | cons c r ih =>
    rw [List.flatMap_cons, run_pre (run_escaped hs c acc), ih]
    simp

theorem run_close (s : Str) (r : Str) :
    run (.text s.reverse) ('"' :: r) = (run (.code true) r).map fun q => (.text s :: q.1, q.2) := by
  have : step (.text s.reverse) '"' = some ([.text s], .code true) := by
    have hf : ¬ Forbidden '"' := by decide
    simp [step, hf]
  simp only [run, this]
  rfl

/-- A quoted text is read as the text. -/
theorem run_quote {isPrint : Char → Bool} (hs : Sane isPrint) (s r : Str) :
    run (.code false) (quote isPrint s ++ r) = (run (.code true) r).map fun q => (.text s :: q.1, q.2) := by
  have h0 : run (.code false) ['"'] = some ([], .text []) := rfl
  rw [quote, show '"' :: (s.flatMap (escapedRune isPrint) ++ ['"']) ++ r
    = ['"'] ++ (s.flatMap (escapedRune isPrint) ++ ('"' :: r)) by simp, run_pre h0, run_pre (run_flat hs s []),
    List.append_nil, run_close]
  cases run (.code true) r <;> rfl

/-- A plain text is read as it is. -/
theorem run_raw {s : Str} (h : Plain s) (r : Str) :
    run (.text []) (s ++ ('"' :: r)) = (run (.code true) r).map fun q => (.text s :: q.1, q.2) := by
  rw [run_pre (run_plain h []), List.append_nil, run_close]
  cases run (.code true) r <;> rfl

/-! ### Texts that are not plain -/

/-- What a reader within a literal has read. -/
def accOf : Mode → Str
  | .text acc => acc
  | .escape acc => acc
  | .hex acc _ _ _ => acc
  | _ => []

def Inside : Mode → Prop
  | .text _ => True
  | .escape _ => True
  | .hex _ _ _ _ => True
  | _ => False

/-- A literal has at most as many characters as were written. -/
theorem run_length {m : Mode} (hm : Inside m) (f r : Str) {ts : List Tok} {m' : Mode}
    (h : run m (f ++ ('"' :: ',' :: '\n' :: r)) = some (ts, m')) :
    ∃ t ts', ts = .text t :: ts' ∧ t.length ≤ (accOf m).length + f.length := by
  induction f generalizing m ts with
  | nil =>
    cases m with
    | text acc =>
      rw [List.nil_append, ← List.reverse_reverse acc, run_close] at h
      cases hr : run (.code true) (',' :: '\n' :: r) with
      | none => rw [hr] at h; simp at h
      | some q =>
        rw [hr] at h
        simp only [Option.map_some, Option.some.injEq, Prod.mk.injEq] at h
        exact ⟨acc.reverse, q.1, h.1.symm, by simp [accOf]⟩
    | escape acc =>
      rw [List.nil_append, run_step (show step (.escape acc) '"' = some ([], .text ('"' :: acc)) from rfl),
        run_step (show step (.text ('"' :: acc)) ',' = some ([], .text (',' :: '"' :: acc)) from rfl)] at h
      have : step (.text (',' :: '"' :: acc)) '\n' = none := rfl
      simp [run, this] at h
    | hex acc l lim v =>
      have : step (.hex acc l lim v) '"' = none := rfl
      simp [run, this] at h
    | _ => exact hm.elim
  | cons c f ih =>
    rw [List.cons_append] at h
    have hstep : ∀ m1, step m c = some ([], m1) → Inside m1 → (accOf m1).length ≤ (accOf m).length + 1 →
        ∃ t ts', ts = .text t :: ts' ∧ t.length ≤ (accOf m).length + (c :: f).length := by
      intro m1 h1 hi hl
      rw [run_step h1] at h
      obtain ⟨t, ts', e, hlen⟩ := ih hi h
      exact ⟨t, ts', e, by simp only [List.length_cons]; omega⟩
    have hnone : step m c ≠ none := by
      intro hn
      simp [run, hn] at h
    by_cases hf : Forbidden c
    · exact absurd (by simp [step, hf]) hnone
    cases m with
    | text acc =>
      by_cases h1 : c = '"'
      · subst h1
        rw [← List.reverse_reverse acc, run_close] at h
        cases hr : run (.code true) (f ++ '"' :: ',' :: '\n' :: r) with
        | none => rw [hr] at h; simp at h
        | some q =>
          rw [hr] at h
          simp only [Option.map_some, Option.some.injEq, Prod.mk.injEq] at h
          exact ⟨acc.reverse, q.1, h.1.symm, by simp [accOf]⟩
      by_cases h2 : c = '\\'
      · exact hstep (.escape acc) (by simp [step, h2, show ¬ Forbidden '\\' by decide]) trivial (by simp [accOf])
      by_cases h3 : c = '\n'
      · exact absurd (by simp [step, h3]) hnone
      · exact hstep (.text (c :: acc)) (by simp [step, hf, h1, h2, h3]) trivial (by simp [accOf])
    | escape acc =>
      by_cases h1 : c = 'x'
      · subst h1; exact hstep (.hex acc 2 128 0) rfl trivial (by simp [accOf])
      by_cases h2 : c = 'u'
      · subst h2; exact hstep (.hex acc 4 0x110000 0) rfl trivial (by simp [accOf])
      by_cases h3 : c = 'U'
      · subst h3; exact hstep (.hex acc 8 0x110000 0) rfl trivial (by simp [accOf])
      cases hl : simpleEscapes.lookup c with
      | none => exact absurd (by simp [step, hf, h1, h2, h3, hl]) hnone
      | some d => exact hstep (.text (d :: acc)) (by simp [step, hf, h1, h2, h3, hl]) trivial (by simp [accOf])
    | hex acc l lim v =>
      cases hd : hexValue c with
      | none => exact absurd (by simp [step, hf, hd]) hnone
      | some d =>
        by_cases h1 : 1 < l
        · exact hstep (.hex acc (l - 1) lim (16 * v + d)) (by simp [step, hf, hd, h1]) trivial (by simp [accOf])
        by_cases h2 : 16 * v + d < lim ∧ (16 * v + d).isValidChar
        · exact hstep (.text (Char.ofNat (16 * v + d) :: acc)) (by simp only [step, if_neg hf, hd, if_neg h1, if_pos h2]) trivial (by simp [accOf])
        · exact absurd (by simp only [step, if_neg hf, hd, if_neg h1, if_neg h2]) hnone
    | _ => exact hm.elim

/-- A literal that is read as it was written is plain. -/
theorem run_same (f r acc : Str) {ts : List Tok} {m' : Mode}
    (h : run (.text acc) (f ++ ('"' :: ',' :: '\n' :: r)) = some (ts, m')) :
    ∃ t ts', ts = .text t :: ts' ∧ (t = acc.reverse ++ f → Plain f) := by
  induction f generalizing acc ts with
  | nil =>
    obtain ⟨t, ts', e, -⟩ := run_length (m := .text acc) trivial [] r h
    exact ⟨t, ts', e, fun _ c hc => by simp at hc⟩
  | cons c f ih =>
    by_cases hf : Forbidden c
    · simp [run, step, hf] at h
    by_cases h1 : c = '"'
    · subst h1
      rw [List.cons_append, ← List.reverse_reverse acc, run_close] at h
      cases hr : run (.code true) (f ++ '"' :: ',' :: '\n' :: r) with
      | none => rw [hr] at h; simp at h
      | some q =>
        rw [hr] at h
        simp only [Option.map_some, Option.some.injEq, Prod.mk.injEq] at h
        exact ⟨acc.reverse, q.1, h.1.symm, fun e => by simp at e⟩
    by_cases h2 : c = '\\'
    · subst h2
      rw [List.cons_append, run_step (show step (.text acc) '\\' = some ([], .escape acc) from rfl)] at h
      obtain ⟨t, ts', e, hl⟩ := run_length (m := .escape acc) trivial f r h
      refine ⟨t, ts', e, fun e => ?_⟩
      rw [e] at hl
      simp [accOf] at hl
      omega
    by_cases h3 : c = '\n'
    · subst h3
      have : step (.text acc) '\n' = none := rfl
      simp [run, this] at h
    · rw [List.cons_append, run_step (show step (.text acc) c = some ([], .text (c :: acc)) by
        simp [step, hf, h1, h2, h3])] at h
      obtain ⟨t, ts', e, hp⟩ := ih (c :: acc) h
      refine ⟨t, ts', e, fun e => ?_⟩
      have := hp (by rw [e]; simp)
      intro d hd
      rcases List.mem_cons.1 hd with rfl | hd
      · exact ⟨h1, h2, h3, hf⟩
      · exact this d hd

/-! ### The literal -/

/-- The fields an element has so far. -/
def given : Place → Option (List (Str × Str))
  | .key fs => some fs
  | .colon fs _ => some fs
  | .value fs _ => some fs
  | .afterValue fs => some fs
  | _ => none

/-- The element that is being read comes next, and keeps the fields it has. -/
theorem elements_given {p : Place} {fs : List (Str × Str)} (hp : given p = some fs) {ts : List Tok}
    {x : List BankInfo} (h : elements p ts = some x) : ∃ fs2 es, x = valueOf (fs ++ fs2) :: es := by
  induction ts generalizing p fs x with
  | nil =>
    cases p <;> simp [elements, given] at h hp
  | cons t ts ih =>
    unfold elements at h
    split at h
    · simp at h
    · rename_i es p' ht
      cases hr : elements p' ts with
      | none => rw [hr] at h; simp at h
      | some y =>
        rw [hr] at h
        simp only [Option.map_some, Option.some.injEq] at h
        subst h
        unfold take at ht
        split at ht <;> simp only [given, Option.some.injEq, reduceCtorEq, Prod.mk.injEq] at hp ht
        all_goals first
          | (obtain ⟨rfl, rfl⟩ := ht
             subst hp
             first
               | exact ih rfl hr
               | exact ⟨[], y, by simp⟩)
          | (split at ht
             · simp only [Option.some.injEq, Prod.mk.injEq] at ht
               obtain ⟨rfl, rfl⟩ := ht
               subst hp
               obtain ⟨fs2, es, e⟩ := ih rfl hr
               exact ⟨_, es, by rw [List.nil_append, e, List.append_assoc]⟩
             · simp at ht)

theorem lookup_at {fs fs2 : List (Str × Str)} {k t : Str} (h : k ∉ fs.map Prod.fst) :
    (fs ++ (k, t) :: fs2).lookup k = some t := by
  induction fs with
  | nil => simp
  | cons p fs ih =>
    simp only [List.map_cons, List.mem_cons, not_or] at h
    simp only [List.cons_append, List.lookup]
    have : (k == p.1) = false := by simpa using h.1
    rw [this]
    exact ih h.2

/-- A field that is found again in the element that was read was plain. -/
theorem field_plain {f r k : Str} {fs : List (Str × Str)} {ts : List Tok} {m' : Mode} {e : BankInfo}
    {es : List BankInfo} (proj : BankInfo → Str) (hproj : ∀ fs, proj (valueOf fs) = (fs.lookup k).getD [])
    (hk : k ∉ fs.map Prod.fst)
    (h : run (.text []) (f ++ ('"' :: ',' :: '\n' :: r)) = some (ts, m'))
    (he : elements (.value fs k) ts = some (e :: es)) (hf : proj e = f) : Plain f := by
  obtain ⟨t, ts', rfl, hp⟩ := run_same f r [] h
  refine hp ?_
  unfold elements at he
  split at he
  · simp at he
  · rename_i es0 p' ht
    simp only [take] at ht
    split at ht
    · simp only [Option.some.injEq, Prod.mk.injEq] at ht
      obtain ⟨rfl, rfl⟩ := ht
      cases hr : elements (.afterValue (fs ++ [(k, t)])) ts' with
      | none => rw [hr] at he; simp at he
      | some y =>
        rw [hr] at he
        simp only [Option.map_some, Option.some.injEq, List.nil_append] at he
        obtain ⟨fs2, es2, e2⟩ := elements_given rfl hr
        rw [he] at e2
        simp only [List.cons.injEq] at e2
        rw [← hf, e2.1, hproj, List.append_assoc, List.singleton_append, lookup_at hk]
        rfl
    · simp at ht

/-- The tokens of an element as they should be. -/
def entryTokens (e : BankInfo) : List Tok :=
  [.punct '{', .word c!"BankID", .punct ':', .text e.bankID, .punct ',',
   .word c!"BIC", .punct ':', .text e.bic, .punct ',',
   .word c!"VersionNumber", .punct ':', .text e.versionNumber, .punct ',',
   .word c!"URL", .punct ':', .text e.url, .punct ',',
   .word c!"VersionName", .punct ':', .text e.versionName, .punct ',',
   .word c!"Institute", .punct ':', .text e.institute, .punct ',',
   .word c!"City", .punct ':', .text e.city, .punct ',',
   .word c!"LastChanged", .punct ':', .text e.lastChanged, .punct ',', .punct '}', .punct ',']

theorem run_entry {isPrint : Char → Bool} (hs : Sane isPrint) {e : BankInfo} (h : PlainEntry e) (r : Str) :
    run (.code false) (writeEntry isPrint e ++ r)
      = (run (.code false) r).map fun q => (entryTokens e ++ q.1, q.2) := by
  obtain ⟨h1, h2, h3, h4, h5, h6, h7⟩ := h
  have c0 : run (.code false) c!"{\n\t\tBankID: \"" = some ([.punct '{', .word c!"BankID", .punct ':'], .text []) := by decide
  have c1 : run (.code true) c!",\n\t\tBIC: \"" = some ([.punct ',', .word c!"BIC", .punct ':'], .text []) := by decide
  have c2 : run (.code true) c!",\n\t\tVersionNumber: \"" = some ([.punct ',', .word c!"VersionNumber", .punct ':'], .text []) := by decide
  have c3 : run (.code true) c!",\n\t\tURL: \"" = some ([.punct ',', .word c!"URL", .punct ':'], .text []) := by decide
  have c4 : run (.code true) c!",\n\t\tVersionName: \"" = some ([.punct ',', .word c!"VersionName", .punct ':'], .text []) := by decide
  have c5 : run (.code true) c!",\n\t\tInstitute: " = some ([.punct ',', .word c!"Institute", .punct ':'], .code false) := by decide
  have c6 : run (.code true) c!",\n\t\tCity: \"" = some ([.punct ',', .word c!"City", .punct ':'], .text []) := by decide
  have c7 : run (.code true) c!",\n\t\tLastChanged: \"" = some ([.punct ',', .word c!"LastChanged", .punct ':'], .text []) := by decide
  have c8 : run (.code true) c!",\n\t},\n\t" = some ([.punct ',', .punct '}', .punct ','], .code false) := by decide
  have e : writeEntry isPrint e ++ r =
      c!"{\n\t\tBankID: \"" ++ (e.bankID ++ ('"' :: (c!",\n\t\tBIC: \"" ++ (e.bic ++ ('"' ::
      (c!",\n\t\tVersionNumber: \"" ++ (e.versionNumber ++ ('"' :: (c!",\n\t\tURL: \"" ++ (e.url ++ ('"' ::
      (c!",\n\t\tVersionName: \"" ++ (e.versionName ++ ('"' :: (c!",\n\t\tInstitute: " ++
      (quote isPrint e.institute ++ (c!",\n\t\tCity: \"" ++ (e.city ++ ('"' :: (c!",\n\t\tLastChanged: \"" ++
      (e.lastChanged ++ ('"' :: (c!",\n\t},\n\t" ++ r))))))))))))))))))))))) := by
    simp [writeEntry, List.append_assoc]
  rw [e, run_pre c0, run_raw h1, run_pre c1, run_raw h2, run_pre c2, run_raw h3, run_pre c3, run_raw h4, run_pre c4,
    run_raw h5, run_pre c5, run_quote hs, run_pre c6, run_raw h6, run_pre c7, run_raw h7, run_pre c8]
  cases run (.code false) r <;> rfl

theorem elements_entry (e : BankInfo) (ts : List Tok) :
    elements .element (entryTokens e ++ ts) = (elements .element ts).map (e :: ·) := by
  have : ∀ x : Option (List BankInfo), x.map (fun a => [] ++ a) = x := fun x => by cases x <;> rfl
  simp only [entryTokens, List.cons_append, List.nil_append, elements, take, fieldNames, List.map_nil, List.map_cons]
  simp [valueOf, List.lookup, Function.comp_def]

/-- One field that is not escaped. -/
theorem raw_field {m m' : Mode} {p : Place} {pre f r k : Str} {toks ts : List Tok} {fs : List (Str × Str)}
    {e : BankInfo} {es : List BankInfo} (hc : run m pre = some (toks, .text []))
    (hp : ∀ ts, elements p (toks ++ ts) = elements (.value fs k) ts)
    (proj : BankInfo → Str) (hproj : ∀ fs, proj (valueOf fs) = (fs.lookup k).getD [])
    (hk : k ∈ fieldNames ∧ k ∉ fs.map Prod.fst)
    (h : run m (pre ++ (f ++ ('"' :: ',' :: '\n' :: r))) = some (ts, m'))
    (he : elements p ts = some (e :: es)) (hf : proj e = f) :
    Plain f ∧ ∃ ts1, run (.code true) (',' :: '\n' :: r) = some (ts1, m')
      ∧ elements (.afterValue (fs ++ [(k, f)])) ts1 = some (e :: es) := by
  rw [run_pre hc] at h
  cases hr : run (.text []) (f ++ ('"' :: ',' :: '\n' :: r)) with
  | none => rw [hr] at h; simp at h
  | some q =>
    obtain ⟨ts0, m0⟩ := q
    rw [hr] at h
    simp only [Option.map_some, Option.some.injEq, Prod.mk.injEq] at h
    obtain ⟨rfl, rfl⟩ := h
    rw [hp] at he
    have hpl : Plain f := field_plain proj hproj hk.2 hr he hf
    refine ⟨hpl, ?_⟩
    rw [run_raw hpl] at hr
    cases hq : run (.code true) (',' :: '\n' :: r) with
    | none => rw [hq] at hr; simp at hr
    | some q =>
      rw [hq] at hr
      simp only [Option.map_some, Option.some.injEq, Prod.mk.injEq] at hr
      obtain ⟨rfl, rfl⟩ := hr
      refine ⟨q.1, rfl, ?_⟩
      simp only [elements, take, if_pos hk] at he
      cases hy : elements (.afterValue (fs ++ [(k, f)])) q.1 with
      | none => rw [hy] at he; simp at he
      | some y =>
        rw [hy] at he
        simpa using he

/-- The tokens between two values. -/
theorem elements_next (fs : List (Str × Str)) (k : Str) (ts : List Tok) :
    elements (.afterValue fs) ([.punct ',', .word k, .punct ':'] ++ ts) = elements (.value fs k) ts := by
  simp [elements, take, Function.comp_def]

theorem run_entry_inv {isPrint : Char → Bool} (hs : Sane isPrint) {e : BankInfo} {r : Str} {ts : List Tok} {m' : Mode}
    {es : List BankInfo} (h : run (.code false) (writeEntry isPrint e ++ r) = some (ts, m'))
    (he : elements .element ts = some (e :: es)) : PlainEntry e := by
  have c0 : run (.code false) c!"{\n\t\tBankID: \"" = some ([.punct '{', .word c!"BankID", .punct ':'], .text []) := by decide
  have c1 : run (.code true) c!",\n\t\tBIC: \"" = some ([.punct ',', .word c!"BIC", .punct ':'], .text []) := by decide
  have c2 : run (.code true) c!",\n\t\tVersionNumber: \"" = some ([.punct ',', .word c!"VersionNumber", .punct ':'], .text []) := by decide
  have c3 : run (.code true) c!",\n\t\tURL: \"" = some ([.punct ',', .word c!"URL", .punct ':'], .text []) := by decide
  have c4 : run (.code true) c!",\n\t\tVersionName: \"" = some ([.punct ',', .word c!"VersionName", .punct ':'], .text []) := by decide
  have c5 : run (.code true) c!",\n\t\tInstitute: " = some ([.punct ',', .word c!"Institute", .punct ':'], .code false) := by decide
  have c6 : run (.code true) c!",\n\t\tCity: \"" = some ([.punct ',', .word c!"City", .punct ':'], .text []) := by decide
  have c7 : run (.code true) c!",\n\t\tLastChanged: \"" = some ([.punct ',', .word c!"LastChanged", .punct ':'], .text []) := by decide
  have hw : writeEntry isPrint e ++ r =
      c!"{\n\t\tBankID: \"" ++ (e.bankID ++ ('"' :: (c!",\n\t\tBIC: \"" ++ (e.bic ++ ('"' ::
      (c!",\n\t\tVersionNumber: \"" ++ (e.versionNumber ++ ('"' :: (c!",\n\t\tURL: \"" ++ (e.url ++ ('"' ::
      (c!",\n\t\tVersionName: \"" ++ (e.versionName ++ ('"' :: (c!",\n\t\tInstitute: " ++
      (quote isPrint e.institute ++ (c!",\n\t\tCity: \"" ++ (e.city ++ ('"' :: (c!",\n\t\tLastChanged: \"" ++
      (e.lastChanged ++ ('"' :: (c!",\n\t},\n\t" ++ r))))))))))))))))))))))) := by
    simp [writeEntry, List.append_assoc]
  rw [hw] at h
  obtain ⟨p1, ts1, h, he⟩ := raw_field (k := c!"BankID") (fs := []) c0
    (fun ts => by simp [elements, take, Function.comp_def]) BankInfo.bankID (fun _ => rfl) (by decide) h he rfl
  obtain ⟨p2, ts2, h, he⟩ := raw_field c1 (elements_next _ _) BankInfo.bic (fun _ => rfl) (by simp [fieldNames]) h he rfl
  obtain ⟨p3, ts3, h, he⟩ := raw_field c2 (elements_next _ _) BankInfo.versionNumber (fun _ => rfl) (by simp [fieldNames]) h he rfl
  obtain ⟨p4, ts4, h, he⟩ := raw_field c3 (elements_next _ _) BankInfo.url (fun _ => rfl) (by simp [fieldNames]) h he rfl
  obtain ⟨p5, ts5, h, he⟩ := raw_field c4 (elements_next _ _) BankInfo.versionName (fun _ => rfl) (by simp [fieldNames]) h he rfl
  have h' : run (.code true) (c!",\n\t\tInstitute: " ++ (quote isPrint e.institute ++ (c!",\n\t\tCity: \"" ++
      (e.city ++ ('"' :: (c!",\n\t\tLastChanged: \"" ++ (e.lastChanged ++ ('"' :: (c!",\n\t},\n\t" ++ r))))))))) = some (ts5, m') := h
  rw [run_pre c5, run_quote hs] at h'
  cases hq : run (.code true) (c!",\n\t\tCity: \"" ++
      (e.city ++ ('"' :: (c!",\n\t\tLastChanged: \"" ++ (e.lastChanged ++ ('"' :: (c!",\n\t},\n\t" ++ r))))))) with
  | none => rw [hq] at h'; simp at h'
  | some q =>
    rw [hq] at h'
    simp only [Option.map_some, Option.some.injEq, Prod.mk.injEq] at h'
    obtain ⟨rfl, rfl⟩ := h'
    rw [elements_next] at he
    have hk : c!"Institute" ∈ fieldNames ∧ c!"Institute" ∉ List.map Prod.fst ((([] ++ [(c!"BankID", e.bankID)] ++ [(c!"BIC", e.bic)]
      ++ [(c!"VersionNumber", e.versionNumber)] ++ [(c!"URL", e.url)] ++ [(c!"VersionName", e.versionName)]) : List (Str × Str))) := by simp [fieldNames]
    simp only [elements, take, if_pos hk] at he
    generalize hy : elements (.afterValue _) q.1 = y at he
    cases y with
    | none => simp at he
    | some y =>
      simp only [Option.map_some, List.nil_append, Option.some.injEq] at he
      rw [he] at hy
      obtain ⟨p6, ts6, h, hy⟩ := raw_field c6 (elements_next _ _) BankInfo.city (fun _ => rfl) (by simp [fieldNames]) hq hy rfl
      obtain ⟨p7, ts7, h, hy⟩ := raw_field c7 (elements_next _ _) BankInfo.lastChanged (fun _ => rfl) (by simp [fieldNames]) h hy rfl
      exact ⟨p1, p2, p3, p4, p5, p6, p7⟩

/-- What follows the header. -/
def body (file : Str) : Option (List BankInfo) :=
  match run (.code false) file with
  | some (ts, .code _) => elements .element ts
  | _ => none

theorem compile_body (s : Str) :
    compile (c!"// Code generated by cmd/bankdata_parser DO NOT EDIT.\n\npackage bankinfo\n\nvar data = []BankInfo{\n\t" ++ s)
      = body s := by
  have hd : run (.code false)
      c!"// Code generated by cmd/bankdata_parser DO NOT EDIT.\n\npackage bankinfo\n\nvar data = []BankInfo{\n\t"
      = some (header, .code false) := by decide +kernel
  unfold compile tokens body
  rw [run_pre hd]
  cases run (.code false) s with
  | none => rfl
  | some q =>
    obtain ⟨ts, m⟩ := q
    cases m <;> simp

theorem body_iff {isPrint : Char → Bool} (hs : Sane isPrint) (data : List BankInfo) :
    body (data.flatMap (writeEntry isPrint) ++ c!"\n}") = some data ↔ ∀ e ∈ data, PlainEntry e := by
  induction data with
  | nil => simp; decide
  | cons e es ih =>
    rw [List.flatMap_cons, List.append_assoc]
    constructor
    · intro h
      have hp : PlainEntry e := by
        unfold body at h
        split at h
        · rename_i ts b hr
          exact run_entry_inv hs hr h
        · simp at h
      unfold body at h
      rw [run_entry hs hp] at h
      have : body (es.flatMap (writeEntry isPrint) ++ c!"\n}") = some es := by
        unfold body
        cases hr : run (.code false) (es.flatMap (writeEntry isPrint) ++ c!"\n}") with
        | none => rw [hr] at h; simp at h
        | some q =>
          obtain ⟨ts, m⟩ := q
          rw [hr] at h
          cases m <;> simp only [Option.map_some, reduceCtorEq] at h ⊢
          rw [elements_entry] at h
          cases hq : elements .element ts with
          | none => rw [hq] at h; simp at h
          | some y => rw [hq] at h; simpa using h
      intro d hd
      rcases List.mem_cons.1 hd with rfl | hd
      · exact hp
      · exact ih.1 this d hd
    · intro h
      have := ih.2 fun d hd => h d (List.mem_cons_of_mem _ hd)
      unfold body at this ⊢
      rw [run_entry hs (h e List.mem_cons_self)]
      split at this
      · rename_i ts b hr
        rw [hr]
        simp only [Option.map_some]
        rw [elements_entry, this]
        rfl
      · simp at this

/-! ### Properties -/

/-- **C132 (the file)**: the file compiles to the table it was made from exactly if no entry
has a quote, a backslash, a line end or a character Go forbids in a field other than the
institute. -/
theorem C132_file {isPrint : Char → Bool} (hs : Sane isPrint) (data : List BankInfo) :
    compile (writeData isPrint data) = some data ↔ ∀ e ∈ data, PlainEntry e := by
  rw [writeData, compile_body, body_iff hs]

/-- **C132 (the institute)**: the name of the institute is kept whatever it is. -/
theorem C132_institute {isPrint : Char → Bool} (hs : Sane isPrint) (name : Str) :
    tokens (quote isPrint name) = some [.text name] := by
  have := run_quote hs name []
  rw [List.append_nil] at this
  rw [tokens, this]
  rfl

/-- **C132 (from the lists to the program)**: whatever order the sorting leaves, the program has the
table made of the lists exactly if every line with a bank number tells plain texts. -/
theorem C132_program {isPrint : Char → Bool} (hs : Sane isPrint) {files : List (List Record)} {infos table : List BankInfo}
    (hr : readFiles (files.map .ok) [] = .ok infos) (ht : SortedFrom infos table) :
    compile (writeData isPrint table) = some table ↔
      ∀ r ∈ files.flatten, r c!"BLZ" ≠ [] → ∀ e, Tells r e → PlainEntry e := by
  rw [C132_file hs]
  rw [readFiles_ok, List.nil_append] at hr
  injection hr with hr
  have hm : ∀ e, e ∈ table ↔ ∃ r ∈ files.flatten, r c!"BLZ" ≠ [] ∧ infoOf r = e := by
    intro e
    rw [ht.1.mem_iff, ← hr, List.mem_map]
    simp only [List.mem_filter, decide_eq_true_eq, and_assoc, ne_eq]
  constructor
  · intro h r h1 h2 e he
    rw [he.unique (infoOf_tells r)]
    exact h _ ((hm _).2 ⟨r, h1, h2, rfl⟩)
  · intro h e he
    obtain ⟨r, h1, h2, rfl⟩ := (hm e).1 he
    exact h r h1 h2 _ (infoOf_tells r)

/-! ### Cases -/

namespace WrittenSample

/- The lists of C107 tell plain texts. -/
example : ∀ r ∈ Sample.files.flatten, r c!"BLZ" ≠ [] → ∀ e, Tells r e → PlainEntry e := by
  have key : ∀ r ∈ Sample.files.flatten, PlainEntry (infoOf r) := by decide +kernel
  intro r hr _ e he
  rw [he.unique (infoOf_tells r)]
  exact key r hr

/-- Printable ASCII and Latin letters. -/
def isPrint (c : Char) : Bool := 32 ≤ c.toNat && c.toNat < 127 || 161 ≤ c.toNat && c.toNat < 256

theorem sane : Sane isPrint := by
  intro c h
  simp only [isPrint, Bool.or_eq_true, Bool.and_eq_true, decide_eq_true_eq] at h
  omega

/-- Two banks of the table in the repository, with a line end and a control character. -/
def banks : List BankInfo :=
  [{ bankID := c!"28020050", institute := c!"Oldenburgische Landesbank AG \n(vormals W. Fortmann & Söhne)", city := c!"Oldenburg" },
   { bankID := c!"45451555", institute := c!"Sparkasse Schwelm \u0096 Sprockhövel", city := c!"Schwelm" }]

set_option maxRecDepth 20000 in
example : ∀ e ∈ banks, PlainEntry e := by decide +kernel

set_option maxRecDepth 20000 in
example : quote isPrint c!"Schwelm \u0096 \"S\"" = c!"\"Schwelm \\u0096 \\\"S\\\"\"" := by decide +kernel

/-- A city with a quote can add a bank with an address of its own. -/
def evil : BankInfo :=
  { bankID := c!"10010010", url := c!"https://bank.example", lastChanged := c!"today",
    city := c!"Berlin\"}, {BankID: \"20020020\", URL: \"https://evil.example\", City: \"Bonn" }

set_option maxRecDepth 20000 in
example : compile (writeData isPrint [evil]) = some
    [{ bankID := c!"10010010", url := c!"https://bank.example", city := c!"Berlin" },
     { bankID := c!"20020020", url := c!"https://evil.example", city := c!"Bonn", lastChanged := c!"today" }] := by
  decide +kernel

set_option maxRecDepth 20000 in
example : compile (writeData isPrint [{ city := c!"Frankfurt\nOder" }]) = none := by decide +kernel

set_option maxRecDepth 20000 in
example : compile (writeData isPrint [{ city := c!"a\\tb" }]) = some [{ city := c!"a\tb" }] := by decide +kernel

end WrittenSample

end Verif.Bankinfo.GoText
