import Verif.Token.Scan

/-
The positional lexer delivers exactly the tokens of the list scanner.
-/

namespace Verif.Token

open Lexer

/-- The lexer whose current token started after `pre`, has consumed `seen` of it
and has `rest` ahead. -/
def mk (pre seen rest : Bytes) : Lexer :=
  ⟨pre ++ seen ++ rest, pre.length + seen.length, pre.length⟩

theorem next_cons (pre seen : Bytes) (b : Byte) (r : Bytes) :
    (mk pre seen (b :: r)).next = (b, mk pre (seen ++ [b]) r) := by
  simp [Lexer.next, mk, Nat.add_assoc]

theorem next_nil (pre seen : Bytes) : (mk pre seen []).next = (0, mk pre seen []) := by
  simp [Lexer.next, mk]

theorem backup_snoc (pre seen : Bytes) (b : Byte) (r : Bytes) :
    (mk pre (seen ++ [b]) r).backup = mk pre seen (b :: r) := by
  simp [Lexer.backup, mk]

theorem peek_cons (pre seen : Bytes) (b : Byte) (r : Bytes) :
    (mk pre seen (b :: r)).peek = (b, mk pre seen (b :: r)) := by
  simp [Lexer.peek, next_cons, backup_snoc]

theorem peek_nil (pre seen : Bytes) (b : Byte) :
    (mk pre (seen ++ [b]) []).peek = (0, mk pre seen [b]) := by
  simp [Lexer.peek, next_nil, backup_snoc]

theorem accept_cons_pos {v : Bytes} {b : Byte} (h : v.contains b = true) (pre seen r : Bytes) :
    (mk pre seen (b :: r)).accept v = (true, mk pre (seen ++ [b]) r) := by
  simp [Lexer.accept, next_cons]; simpa using h

theorem accept_cons_neg {v : Bytes} {b : Byte} (h : v.contains b = false) (pre seen r : Bytes) :
    (mk pre seen (b :: r)).accept v = (false, mk pre seen (b :: r)) := by
  simp [Lexer.accept, next_cons, backup_snoc]; simpa using h

theorem accept_nil_neg {v : Bytes} {b : Byte} (h : v.contains 0 = false) (pre seen : Bytes) :
    (mk pre (seen ++ [b]) []).accept v = (false, mk pre seen [b]) := by
  simp [Lexer.accept, next_nil, backup_snoc]; simpa using h

theorem mk_append (pre seen a r : Bytes) : (mk pre (seen ++ a) r).input = (mk pre seen (a ++ r)).input := by
  simp [mk]

theorem acceptRunLoop_stop {c : Byte} (hc : isDig c = false) (pre r : Bytes) (ds : Bytes) :
    ∀ (seen : Bytes) (n : Nat), (∀ d ∈ ds, isDig d = true) → ds.length < n →
      acceptRunLoop digits n (mk pre seen (ds ++ c :: r)) = mk pre (seen ++ ds ++ [c]) r := by
  induction ds with
  | nil =>
    intro seen n _ hn
    obtain ⟨n, rfl⟩ := Nat.exists_eq_add_of_lt hn
    simp only [isDig] at hc
    simp [acceptRunLoop, next_cons]
    intro h
    exact absurd (by simpa using h) (by simpa using hc)
  | cons d ds ih =>
    intro seen n hds hn
    cases n with
    | zero => simp at hn
    | succ n =>
      have hd : d ∈ digits := by have := hds d (by simp); simpa [isDig] using this
      simp only [List.cons_append, acceptRunLoop, next_cons]
      rw [if_pos (by simpa using hd), ih _ _ (fun x hx => hds x (by simp [hx])) (by simp at hn; omega)]
      simp

theorem acceptRunLoop_end (pre : Bytes) (ds : Bytes) :
    ∀ (seen : Bytes) (n : Nat), (∀ d ∈ ds, isDig d = true) → ds.length < n →
      acceptRunLoop digits n (mk pre seen ds) = mk pre (seen ++ ds) [] := by
  induction ds with
  | nil =>
    intro seen n _ hn
    obtain ⟨n, rfl⟩ := Nat.exists_eq_add_of_lt hn
    simp [acceptRunLoop, next_nil, digits]
  | cons d ds ih =>
    intro seen n hds hn
    cases n with
    | zero => simp at hn
    | succ n =>
      have hd : d ∈ digits := by have := hds d (by simp); simpa [isDig] using this
      simp only [acceptRunLoop, next_cons]
      rw [if_pos (by simpa using hd), ih _ _ (fun x hx => hds x (by simp [hx])) (by simp at hn; omega)]
      simp

theorem acceptRun_stop {c : Byte} (hc : isDig c = false) (pre seen ds r : Bytes)
    (hds : ∀ d ∈ ds, isDig d = true) :
    (mk pre seen (ds ++ c :: r)).acceptRun digits = mk pre (seen ++ ds) (c :: r) := by
  unfold acceptRun
  rw [acceptRunLoop_stop hc _ _ _ _ _ hds, backup_snoc]
  simp [mk]; omega

theorem acceptRun_end (pre seen ds x : Bytes) (b : Byte) (hx : seen ++ ds = x ++ [b])
    (hds : ∀ d ∈ ds, isDig d = true) :
    (mk pre seen ds).acceptRun digits = mk pre x [b] := by
  unfold acceptRun
  rw [acceptRunLoop_end _ _ _ _ hds, hx, backup_snoc]
  simp [mk]; omega

theorem takeWhile_all {p : Byte → Bool} {l : Bytes} : ∀ d ∈ l.takeWhile p, p d = true := by
  induction l with
  | nil => simp
  | cons a l ih =>
    intro d hd
    simp only [List.takeWhile] at hd
    split at hd
    · simp at hd; rcases hd with rfl | hd
      · assumption
      · exact ih _ hd
    · simp at hd

/-- A list is its digit run followed by nothing or by a non-digit. -/
theorem digits_cases (l : Bytes) :
    (l.dropWhile isDig = [] ∧ l = l.takeWhile isDig) ∨
    (∃ c r, l.dropWhile isDig = c :: r ∧ isDig c = false ∧ l = l.takeWhile isDig ++ c :: r) := by
  have h := (List.takeWhile_append_dropWhile (p := isDig) (l := l)).symm
  cases hd : l.dropWhile isDig with
  | nil => left; rw [hd] at h; simpa using h
  | cons c r =>
    right
    refine ⟨c, r, rfl, ?_, by rw [hd] at h; exact h⟩
    have := List.head_dropWhile_not (p := isDig) (l := l) (by simp [hd])
    simpa [hd] using this

theorem emit_mk (pre seen rest : Bytes) (t : Typ) (st : Option St) :
    (mk pre seen rest).emit t st =
      .go (mk (pre ++ seen) [] rest) (some ⟨t, seen, pre.length⟩) st := by
  have h : (mk pre seen rest).slice pre.length (pre.length + seen.length) = some seen := by
    unfold Lexer.slice
    rw [if_pos (by simp [mk])]
    simp [mk]
  have h' : (mk pre seen rest).slice (mk pre seen rest).start (mk pre seen rest).pos = some seen := h
  unfold Lexer.emit
  rw [h']
  simp [mk]

/-- What a state function may do, against the prediction of the scanner. -/
def Agrees (pre : Bytes) (all : Bytes) (s : Step) (o : One) : Prop :=
  match o with
  | .tok t n =>
      s = .go (mk (pre ++ all.take n) [] (all.drop n)) (some ⟨t, all.take n, pre.length⟩) (some .start)
  | .stop n =>
      s = .go (mk (pre ++ all.take n) [] (all.drop n)) (some ⟨.eof, all.take n, pre.length⟩) none
  | .err m => ∃ l, s = .go l (some ⟨.error, m, pre.length⟩) none
  | .panic => s = .panic

theorem agrees_emit (pre seen rest : Bytes) (t : Typ) :
    Agrees pre (seen ++ rest) ((mk pre seen rest).emit t (some .start)) (.tok t seen.length) := by
  simp [Agrees, emit_mk]

theorem agrees_err (l : Lexer) (all : Bytes) (m : Bytes) (pre : Bytes) (h : l.start = pre.length) :
    Agrees pre all (l.errorf m) (.err m) := ⟨l, by simp [Lexer.errorf, h]⟩

theorem alnumLoop_agrees (pre : Bytes) : ∀ (n : Nat) (seen rest : Bytes) (text : Bool),
    rest.length < n →
    Agrees pre (seen ++ rest) (lexAlnumLoop n text (mk pre seen rest))
      (scanAlnum seen.length text rest) := by
  intro n
  induction n with
  | zero => intro _ _ _ h; omega
  | succ n ih =>
    intro seen rest text hn
    cases rest with
    | nil =>
      simp only [lexAlnumLoop, next_nil, scanAlnum]
      exact agrees_err _ _ _ _ rfl
    | cons r rest =>
      rw [scanAlnum.eq_def]
      simp only [lexAlnumLoop, next_cons]
      split
      · cases rest with
        | nil =>
          simp only [peek_nil]
          rw [if_neg (by decide)]
          exact agrees_err _ _ _ _ rfl
        | cons p rest =>
          simp only [peek_cons, next_cons]
          split
          · have := ih (seen ++ [r] ++ [p]) rest text (by simp at hn; omega)
            simpa using this
          · exact agrees_err _ _ _ _ rfl
      · split
        · simp only [backup_snoc]
          split <;> exact agrees_emit _ _ _ _
        · split
          · exact agrees_err _ _ _ _ rfl
          · split
            · have := ih (seen ++ [r]) rest true (by simp at hn; omega)
              simpa using this
            · have := ih (seen ++ [r]) rest text (by simp at hn; omega)
              simpa using this

theorem alnum_agrees (pre seen rest : Bytes) :
    Agrees pre (seen ++ rest) (lexAlphaNumeric (mk pre seen rest))
      (scanAlnum seen.length false rest) := by
  apply alnumLoop_agrees
  simp [mk]; omega

/-- A state function followed, if it hands over silently, by `lexAlphaNumeric`. -/
def thenAlnum (s : Step) : Step :=
  match s with
  | .go l none (some .alnum) => lexAlphaNumeric l
  | s => s

theorem thenAlnum_emit (l : Lexer) (t : Typ) : thenAlnum (l.emit t (some .start)) = l.emit t (some .start) := by
  unfold Lexer.emit; split <;> simp [thenAlnum]

theorem thenAlnum_err (l : Lexer) (m : Bytes) : thenAlnum (l.errorf m) = l.errorf m := by
  simp [Lexer.errorf, thenAlnum]

theorem isDig_not_delim : ∀ b : Byte, isDig b = true → isDelimiter b = false := by decide +kernel
theorem isDig_not_comma : ∀ b : Byte, isDig b = true → (b == 44) = false := by decide +kernel
theorem isDig_ne_zero : ∀ b : Byte, isDig b = true → (b == 0) = false := by decide +kernel
theorem isDig_not_esc : ∀ b : Byte, isDig b = true → (b == 63) = false := by decide +kernel
theorem isDig_not_nl : ∀ b : Byte, isDig b = true → (b == 10 || b == 13) = false := by decide +kernel

/-- The alphanumeric scan of a last harmless byte ends in "Unexpected end of
input"; this is where the slip of `backup` at the end of the input ends up. -/
theorem scanAlnum_last {b : Byte} (h : isDig b = true ∨ b = 44) (k : Nat) :
    scanAlnum k false [b] = .err b!"Unexpected end of input" := by
  have h1 : (b == 63) = false := by rcases h with h | rfl; exact isDig_not_esc b h; decide
  have h2 : isDelimiter b = false := by rcases h with h | rfl; exact isDig_not_delim b h; decide
  have h3 : (b == 0) = false := by rcases h with h | rfl; exact isDig_ne_zero b h; decide
  have h4 : (b == 10 || b == 13) = false := by rcases h with h | rfl; exact isDig_not_nl b h; decide
  rw [scanAlnum.eq_def]
  simp only [h1, h2, h3, h4]
  simp [scanAlnum]

theorem last_of_digits {ds : Bytes} (hds : ∀ d ∈ ds, isDig d = true) (seen : Bytes) (z : Byte)
    (hz : isDig z = true ∨ z = 44) :
    ∃ x b, seen ++ [z] ++ ds = x ++ [b] ∧ (isDig b = true ∨ b = 44) := by
  rcases List.eq_nil_or_concat ds with rfl | ⟨ds', d, rfl⟩
  · exact ⟨seen, z, by simp, hz⟩
  · exact ⟨seen ++ [z] ++ ds', d, by simp, Or.inl (hds d (by simp))⟩

theorem peek_then_alnum_end (pre all x : Bytes) (b : Byte) (hb : isDig b = true ∨ b = 44) (t : Typ) :
    Agrees pre all
      (thenAlnum (if isDelimiter b then (mk pre x [b]).emit t (some .start)
        else .go (mk pre x [b]) none (some .alnum)))
      (.err b!"Unexpected end of input") := by
  have h2 : isDelimiter b = false := by rcases hb with h | rfl; exact isDig_not_delim b h; decide
  rw [h2]
  have := alnum_agrees pre x [b]
  rw [scanAlnum_last hb] at this
  simpa [thenAlnum, Agrees] using this

/-- The float tail shared by `lexDigit` and `lexNumber`. -/
theorem floatTail_agrees (pre seen r : Bytes) :
    Agrees pre (seen ++ [44] ++ r)
      (thenAlnum
        (let l4 := (mk pre (seen ++ [44]) r).acceptRun digits
         let (p, l5) := l4.peek
         if isDelimiter p then l5.emit .float (some .start) else .go l5 none (some .alnum)))
      (scanTail .float (seen.length + 1 + (r.takeWhile isDig).length) (r.dropWhile isDig)) := by
  rcases digits_cases r with ⟨h1, h2⟩ | ⟨c, r', h1, hc, h2⟩
  · rw [h1]
    have hds : ∀ d ∈ r, isDig d = true := by rw [h2]; exact takeWhile_all
    obtain ⟨x, b, hx, hb⟩ := last_of_digits hds seen 44 (Or.inr rfl)
    simp only [acceptRun_end pre _ r x b hx hds, peek_cons, scanTail]
    exact peek_then_alnum_end _ _ _ _ hb _
  · rw [h1]
    generalize hds : r.takeWhile isDig = ds at *
    have hall : ∀ d ∈ ds, isDig d = true := by rw [← hds]; exact takeWhile_all
    subst h2
    simp only [acceptRun_stop hc _ _ _ _ hall, peek_cons, scanTail]
    by_cases hd : isDelimiter c = true
    · simp only [hd, if_true, thenAlnum_emit]
      have := agrees_emit pre (seen ++ [44] ++ ds) (c :: r') .float
      simpa [Nat.add_assoc, Nat.add_comm 1] using this
    · simp only [hd]
      have := alnum_agrees pre (seen ++ [44] ++ ds) (c :: r')
      simpa [thenAlnum, Nat.add_assoc, Nat.add_comm 1] using this

theorem number_agrees (pre : Bytes) (a : Byte) (r : Bytes) :
    Agrees pre (a :: r) (thenAlnum (lexNumber (mk pre [] (a :: r)))) (scanNumber (a :: r)) := by
  unfold lexNumber scanNumber
  dsimp only
  rcases digits_cases (a :: r) with ⟨h1, h2⟩ | ⟨c, r', h1, hc, h2⟩
  · rw [h1]
    have hds : ∀ d ∈ (a :: r), isDig d = true := by
      rw [h2]; exact takeWhile_all
    obtain ⟨x, b, hx, hb⟩ : ∃ x b, ([] : Bytes) ++ a :: r = x ++ [b] ∧ isDig b = true := by
      rcases List.eq_nil_or_concat (a :: r) with h | ⟨y, d, h⟩
      · simp at h
      · exact ⟨y, d, by simpa using h, hds d (by rw [h]; simp)⟩
    rw [acceptRun_end pre [] (a :: r) x b hx hds]
    rw [accept_cons_neg (by have := isDig_not_comma b hb; simpa using this)]
    simp only [peek_cons]
    have := peek_then_alnum_end pre (a :: r) x b (Or.inl hb) .numeric
    simpa using this
  · rw [h1]
    generalize hds : (a :: r).takeWhile isDig = ds at *
    have hall : ∀ d ∈ ds, isDig d = true := by rw [← hds]; exact takeWhile_all
    rw [h2, acceptRun_stop hc _ _ _ _ hall]
    simp only [List.nil_append]
    by_cases hcm : c = 44
    · subst hcm
      rw [accept_cons_pos (by decide)]
      have := floatTail_agrees pre ds r'
      simpa using this
    · rw [accept_cons_neg (by simpa using hcm)]
      have hcm' : (c == 44) = false := by simpa using hcm
      simp only [hcm', peek_cons, scanTail, Bool.false_eq_true, if_false]
      by_cases hd : isDelimiter c = true
      · simp only [hd, if_true, thenAlnum_emit]
        exact agrees_emit pre ds (c :: r') .numeric
      · simp only [hd]
        have := alnum_agrees pre ds (c :: r')
        simpa [thenAlnum] using this

theorem digit_agrees (pre r : Bytes) :
    Agrees pre (48 :: r) (thenAlnum (lexDigit (mk pre [] (48 :: r)))) (scanDigit r) := by
  unfold lexDigit scanDigit
  rw [accept_cons_pos (by decide)]
  simp only [List.nil_append]
  cases r with
  | nil =>
    have hp : (mk pre [48] []).peek = (0, mk pre [] [48]) := peek_nil pre [] 48
    rw [hp]
    simp only
    rw [if_neg (by decide), accept_cons_neg (by decide)]
    simp only [Bool.false_eq_true, if_false]
    rw [acceptRun_end pre [] [48] [] 48 rfl (by intro d hd; simp at hd; subst hd; decide)]
    simp only [peek_cons]
    have := peek_then_alnum_end pre [48] [] 48 (Or.inl (by decide)) .digit
    rw [if_neg (by decide)]
    exact this
  | cons c r =>
    simp only [peek_cons]
    by_cases hd : isDelimiter c = true
    · simp only [hd, if_true, thenAlnum_emit]
      exact agrees_emit pre [48] (c :: r) .numeric
    · simp only [hd]
      by_cases hcm : c = 44
      · subst hcm
        rw [accept_cons_pos (by decide)]
        have := floatTail_agrees pre [48] r
        simpa using this
      · rw [accept_cons_neg (by simpa using hcm)]
        have hcm' : (c == 44) = false := by simpa using hcm
        simp only [hcm', Bool.false_eq_true, if_false]
        rcases digits_cases (c :: r) with ⟨h1, h2⟩ | ⟨d, r', h1, hc, h2⟩
        · rw [h1]
          have hds : ∀ d ∈ (c :: r), isDig d = true := by
            rw [h2]; exact takeWhile_all
          obtain ⟨x, b, hx, hb⟩ : ∃ x b, ([48] : Bytes) ++ c :: r = x ++ [b] ∧ isDig b = true := by
            rcases List.eq_nil_or_concat (c :: r) with h | ⟨y, d, h⟩
            · simp at h
            · exact ⟨48 :: y, d, by rw [h]; simp, hds d (by rw [h]; simp)⟩
          rw [acceptRun_end pre _ _ x b hx hds]
          simp only [peek_cons]
          rw [if_neg (by have := isDig_not_comma b hb; simpa using this)]
          exact peek_then_alnum_end pre _ x b (Or.inl hb) .digit
        · rw [h1]
          generalize hds : (c :: r).takeWhile isDig = ds at *
          have hall : ∀ d ∈ ds, isDig d = true := by rw [← hds]; exact takeWhile_all
          rw [h2, acceptRun_stop hc _ _ _ _ hall]
          simp only [peek_cons]
          by_cases hcm2 : (d == 44) = true
          · simp only [hcm2, if_true, thenAlnum_err]
            exact agrees_err _ _ _ _ rfl
          · simp only [hcm2, scanTail]
            by_cases hd2 : isDelimiter d = true
            · simp only [hd2, if_true]
              have := agrees_emit pre (48 :: ds) (d :: r') .digit
              simpa [Nat.add_comm, thenAlnum_emit] using this
            · simp only [hd2]
              have := alnum_agrees pre (48 :: ds) (d :: r')
              simpa [thenAlnum, Nat.add_comm] using this

theorem slice_mk (pre seen ds rest : Bytes) :
    (mk pre (seen ++ ds) rest).slice (mk pre seen (ds ++ rest)).pos (mk pre (seen ++ ds) rest).pos
      = some ds := by
  unfold Lexer.slice
  rw [if_pos (by simp [mk])]
  simp only [mk, Option.some.injEq]
  have h1 : pre ++ (seen ++ ds) ++ rest = (pre ++ seen) ++ (ds ++ rest) := by simp
  have h2 : pre.length + seen.length = (pre ++ seen).length := by simp
  rw [h1, h2, List.drop_left]
  have h3 : pre.length + (seen ++ ds).length - (pre ++ seen).length = ds.length := by simp; omega
  rw [h3, List.take_left]

theorem binary_agrees (pre r : Bytes) :
    Agrees pre (64 :: r) (lexBinaryData (mk pre [] (64 :: r))) (scanBinary pre.length r) := by
  unfold lexBinaryData scanBinary
  rw [accept_cons_pos (by decide)]
  simp only [List.nil_append]
  rcases digits_cases r with ⟨h1, h2⟩ | ⟨c, r', h1, hc, h2⟩
  · rw [h1, ← h2]
    have hds : ∀ d ∈ r, isDig d = true := by rw [h2]; exact takeWhile_all
    rcases List.eq_nil_or_concat r with rfl | ⟨y, d, rfl⟩
    · rw [acceptRun_end pre [64] [] [] 64 rfl (by simp)]
      rw [if_neg (by simp [mk])]
      have : (mk pre [] [64]).slice (mk pre [64] []).pos (mk pre [] [64]).pos = none := by
        simp [mk, Lexer.slice]
      rw [this]
      rfl
    · rw [acceptRun_end pre [64] (y.concat d) ([64] ++ y) d (by simp) hds]
      have hdd : isDig d = true := hds d (by simp)
      by_cases hy : y = []
      · subst hy
        simp only [List.append_nil]
        rw [if_pos (by simp [mk])]
        exact agrees_err _ _ _ _ rfl
      · rw [if_neg (by simp [mk]; exact hy)]
        have hs := slice_mk pre [64] y [d]
        have hs' : (mk pre [64] (y.concat d)).pos = (mk pre [64] (y ++ [d])).pos := by simp
        rw [hs', hs]
        simp only
        have hlen : ∃ m, (y.concat d).length = m + 2 := by
          cases y with
          | nil => simp at hy
          | cons a y => exact ⟨y.length, by simp⟩
        obtain ⟨m, hm⟩ := hlen
        rw [hm]
        simp only
        split
        · exact agrees_err _ _ _ _ rfl
        · rw [accept_cons_neg (by
            have : ∀ b : Byte, isDig b = true → ([64] : Bytes).contains b = false := by decide +kernel
            exact this d hdd)]
          exact agrees_err _ _ _ _ rfl
  · rw [h1]
    generalize hds : r.takeWhile isDig = ds at *
    have hall : ∀ d ∈ ds, isDig d = true := by rw [← hds]; exact takeWhile_all
    subst h2
    rw [acceptRun_stop hc _ _ _ _ hall]
    by_cases hempty : ds = []
    · subst hempty
      simp only [List.append_nil, List.nil_append]
      rw [if_pos trivial]
      exact agrees_err _ _ _ _ rfl
    · have hl : ds.length ≠ 0 := by simpa using hempty
      rw [if_neg (by simp [mk]; exact hempty), slice_mk]
      simp only [hl, if_false]
      by_cases hbig : decVal ds ≥ 2 ^ 63
      · simp only [hbig, if_true]; exact agrees_err _ _ _ _ rfl
      · simp only [hbig, if_false]
        by_cases hat : c = 64
        · subst hat
          rw [accept_cons_pos (by decide)]
          simp only [bne_self_eq_false, Bool.not_true, Bool.false_eq_true, if_false]
          have hpos : (mk pre ([64] ++ ds ++ [64]) r').pos + decVal ds
              = pre.length + 2 + ds.length + decVal ds := by simp [mk]; omega
          rw [hpos]
          by_cases hov : pre.length + 2 + ds.length + decVal ds ≥ 2 ^ 63
          · simp only [hov, if_true]; rfl
          · simp only [hov, if_false]
            generalize hv : decVal ds = v at *
            cases hr : r'.drop v with
            | nil =>
              have hlen : r'.length ≤ v := by
                have := congrArg List.length hr; simp at this; omega
              have hp : Lexer.peek
                  { input := (mk pre ([64] ++ ds ++ [64]) r').input,
                    pos := pre.length + 2 + ds.length + v,
                    start := (mk pre ([64] ++ ds ++ [64]) r').start }
                  = (0, ⟨(mk pre ([64] ++ ds ++ [64]) r').input,
                      pre.length + 2 + ds.length + v - 1, pre.length⟩) := by
                unfold Lexer.peek Lexer.next
                have : (mk pre ([64] ++ ds ++ [64]) r').input[pre.length + 2 + ds.length + v]? = none := by
                  apply List.getElem?_eq_none
                  simp [mk]; omega
                simp only [this]
                rfl
              rw [hp]
              simp only
              rw [if_neg (by decide), if_pos (by decide)]
              exact agrees_err _ _ _ _ rfl
            | cons d r'' =>
              have hsplit : r' = r'.take v ++ d :: r'' := by rw [← hr]; simp
              have hlen : (r'.take v).length = v := by
                have := congrArg List.length hr; simp at this ⊢; omega
              have hmk : (⟨(mk pre ([64] ++ ds ++ [64]) r').input,
                    pre.length + 2 + ds.length + v,
                    (mk pre ([64] ++ ds ++ [64]) r').start⟩ : Lexer)
                  = mk pre ([64] ++ ds ++ [64] ++ r'.take v) (d :: r'') := by
                simp only [mk, Lexer.mk.injEq]
                refine ⟨?_, ?_, trivial⟩
                · conv => lhs; rw [hsplit]
                  simp
                · simp only [List.length_append, List.length_cons, List.length_nil, hlen]; omega
              rw [hmk, peek_cons]
              simp only
              by_cases hd : isDelimiter d = true
              · simp only [hd, if_true]
                have := agrees_emit pre ([64] ++ ds ++ [64] ++ r'.take v) (d :: r'') .binaryData
                have e1 : [64] ++ ds ++ [64] ++ r'.take v ++ d :: r'' = 64 :: (ds ++ 64 :: r') := by
                  conv => rhs; rw [hsplit]
                  simp
                have e2 : ([64] ++ ds ++ [64] ++ r'.take v).length = 2 + ds.length + v := by
                  simp only [List.length_append, List.length_cons, List.length_nil, hlen]; omega
                rw [e1, e2] at this
                exact this
              · simp only [hd]
                by_cases hz : (d == 0) = true
                · simp only [hz, if_true]
                  exact agrees_err _ _ _ _ rfl
                · simp only [hz]
                  exact agrees_err _ _ _ _ rfl
        · rw [accept_cons_neg (by simpa using hat)]
          have : (c != 64) = true := by simpa using hat
          simp only [this, Bool.not_false, if_true]
          exact agrees_err _ _ _ _ rfl

/-! ## The driver -/

theorem next_tok (l l' : Lexer) (st : St) (t : Token) (st' : Option St) (n : Nat)
    (h : step st l = .go l' (some t) st') :
    LState.next (n + 2) ⟨l, some st, []⟩ = .tok t ⟨l', st', []⟩ := by
  simp [LState.next, h]

theorem next_silent (l l' : Lexer) (st st' : St) (n : Nat)
    (h : step st l = .go l' none (some st')) :
    LState.next (n + 1) ⟨l, some st, []⟩ = LState.next n ⟨l', some st', []⟩ := by
  conv => lhs; unfold LState.next
  simp [h]

theorem next_panic (l : Lexer) (st : St) (n : Nat) (h : step st l = .panic) :
    LState.next (n + 1) ⟨l, some st, []⟩ = .panic := by
  simp [LState.next, h]

/-- Prediction of the scanner for a call of `Next`. -/
def NextAgrees (pre rest : Bytes) (r : NextRes) (o : One) : Prop :=
  match o with
  | .tok t n =>
      r = .tok ⟨t, rest.take n, pre.length⟩ ⟨mk (pre ++ rest.take n) [] (rest.drop n), some .start, []⟩
  | .stop n => ∃ l, r = .tok ⟨.eof, rest.take n, pre.length⟩ ⟨l, none, []⟩
  | .err m => ∃ l, r = .tok ⟨.error, m, pre.length⟩ ⟨l, none, []⟩
  | .panic => r = .panic

theorem nextAgrees_of (pre rest : Bytes) (l : Lexer) (st : St) (o : One) (n : Nat)
    (h : Agrees pre rest (step st l) o) :
    NextAgrees pre rest (LState.next (n + 2) ⟨l, some st, []⟩) o := by
  cases o with
  | tok t k => exact next_tok _ _ _ _ _ _ h
  | stop k => exact ⟨_, next_tok _ _ _ _ _ _ h⟩
  | err m => obtain ⟨l', h⟩ := h; exact ⟨l', next_tok _ _ _ _ _ _ h⟩
  | panic => exact next_panic _ _ _ h

theorem nextAgrees_thenAlnum (pre rest : Bytes) (l : Lexer) (st : St) (o : One) (n : Nat)
    (h : Agrees pre rest (thenAlnum (step st l)) o) :
    NextAgrees pre rest (LState.next (n + 3) ⟨l, some st, []⟩) o := by
  by_cases hs : ∃ l', step st l = .go l' none (some .alnum)
  · obtain ⟨l', hs⟩ := hs
    rw [next_silent _ _ _ _ _ hs]
    rw [hs] at h
    exact nextAgrees_of _ _ _ .alnum _ _ h
  · have : thenAlnum (step st l) = step st l := by
      unfold thenAlnum
      split
      · exact absurd ⟨_, by assumption⟩ hs
      · rfl
    rw [this] at h
    exact nextAgrees_of _ _ _ _ _ (n + 1) h

theorem next_agrees (pre rest : Bytes) :
    NextAgrees pre rest (LState.next 5 ⟨mk pre [] rest, some .start, []⟩) (lexOne pre.length rest) := by
  cases rest with
  | nil =>
    have : step .start (mk pre [] []) = .go (mk pre [] []) (some ⟨.eof, [], pre.length⟩) none := by
      simp only [step, lexStart, next_nil]
      rw [if_neg (by decide), if_neg (by decide), if_neg (by decide), if_neg (by decide),
        if_pos (by decide), emit_mk]
      simp
    exact ⟨_, next_tok _ _ _ _ _ _ this⟩
  | cons r rest =>
    have hst : step .start (mk pre [] (r :: rest)) = lexStart (mk pre [] (r :: rest)) := rfl
    have hb : (mk pre [r] rest).backup = mk pre [] (r :: rest) := backup_snoc pre [] r rest
    simp only [lexStart, next_cons, List.nil_append, emit_mk, hb] at hst
    unfold lexOne
    dsimp only
    by_cases h1 : (r == 43) = true
    · simp only [h1, if_true] at hst ⊢
      exact next_tok _ _ _ _ _ _ hst
    simp only [h1] at hst ⊢
    by_cases h2 : (r == 39) = true
    · simp only [h2, if_true] at hst ⊢
      exact next_tok _ _ _ _ _ _ hst
    simp only [h2] at hst ⊢
    by_cases h3 : (r == 58) = true
    · simp only [h3, if_true] at hst ⊢
      exact next_tok _ _ _ _ _ _ hst
    simp only [h3] at hst ⊢
    by_cases h4 : (r == 64) = true
    · simp only [h4, if_true] at hst ⊢
      have h4' : r = 64 := by simpa using h4
      subst h4'
      have hs : step .start (mk pre [] (64 :: rest)) = .go (mk pre [] (64 :: rest)) none (some .binary) := hst
      rw [next_silent _ _ _ _ _ hs]
      exact nextAgrees_of _ _ _ .binary _ _ (binary_agrees pre rest)
    simp only [h4] at hst ⊢
    by_cases h5 : (r == 0) = true
    · simp only [h5, if_true] at hst ⊢
      exact ⟨_, next_tok _ _ _ _ _ _ hst⟩
    simp only [h5] at hst ⊢
    by_cases h6 : (r == 48) = true
    · simp only [h6, if_true] at hst ⊢
      have h6' : r = 48 := by simpa using h6
      subst h6'
      have hs : step .start (mk pre [] (48 :: rest)) = .go (mk pre [] (48 :: rest)) none (some .digit) := hst
      rw [next_silent _ _ _ _ _ hs]
      exact nextAgrees_thenAlnum _ _ _ .digit _ _ (digit_agrees pre rest)
    simp only [h6] at hst ⊢
    by_cases h7 : 49 ≤ r ∧ r ≤ 57
    · rw [if_pos h7]
      have hs : step .start (mk pre [] (r :: rest)) = .go (mk pre [] (r :: rest)) none (some .number) := by
        simpa [h7] using hst
      rw [next_silent _ _ _ _ _ hs]
      refine nextAgrees_thenAlnum _ _ _ .number _ _ (number_agrees pre r rest)
    · rw [if_neg h7]
      have hs : step .start (mk pre [] (r :: rest)) = .go (mk pre [] (r :: rest)) none (some .alnum) := by
        simpa [h7] using hst
      rw [next_silent _ _ _ _ _ hs]
      exact nextAgrees_of _ _ _ .alnum _ _ (alnum_agrees pre [] (r :: rest))

theorem drain_none (n : Nat) (l : Lexer) : LState.drain n ⟨l, none, []⟩ = .done [] := by
  cases n <;> simp [LState.drain, LState.hasNext]

theorem drain_eq_scan (n : Nat) : ∀ (pre rest : Bytes), rest.length < n →
    LState.drain n ⟨mk pre [] rest, some .start, []⟩ = scanF n pre.length rest := by
  induction n with
  | zero => intro _ _ h; omega
  | succ n ih =>
    intro pre rest hn
    have h := next_agrees pre rest
    unfold LState.drain scanF
    simp only [LState.hasNext, Option.isSome_some, if_true]
    cases ho : lexOne pre.length rest with
    | tok t k =>
      rw [ho] at h
      simp only [NextAgrees] at h
      have hk := lexOne_tok ho
      rw [h]
      simp only
      rw [ih _ _ (by simp; omega)]
      simp [Nat.min_eq_left hk.2]
    | stop k =>
      rw [ho] at h
      obtain ⟨l, h⟩ := h
      rw [h]
      simp [drain_none, Drain.cons]
    | err m =>
      rw [ho] at h
      obtain ⟨l, h⟩ := h
      rw [h]
      simp [drain_none, Drain.cons]
    | panic =>
      rw [ho] at h
      simp only [NextAgrees] at h
      rw [h]

/-- The model of the lexer delivers the tokens of the list scanner. -/
theorem lex_eq_scan (input : Bytes) : lex input = scan 0 input := by
  unfold lex newLexer scan
  exact drain_eq_scan _ [] input (by omega)

end Verif.Token
