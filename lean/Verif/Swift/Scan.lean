import Verif.Swift.Lexer
import Mathlib.Data.List.Basic

/-
Proof device: a list-based scanner that does in one step what the SWIFT lexer does between
two tokens, and the theorem that both deliver the same tokens (`lex_eq_scan`).
-/

namespace Verif.Swift

open Token (Lexer Typ Token Drain digits isDig mk next_cons next_nil backup_snoc peek_cons peek_nil accept_cons_pos
  accept_cons_neg accept_nil_neg acceptRun_stop acceptRun_end takeWhile_all digits_cases contains_digits)

/-- Outcome of scanning one token. -/
inductive One where
  | tok (t : Typ) (n : Nat) (next : St)
  | stop (n : Nat)
  | err (msg : Bytes)
  deriving DecidableEq, Repr

/-- What follows a line break that ends a tag. -/
def boundaryTail (rest : Bytes) : Bool :=
  rest.take 2 == [45, 58] || rest.take 3 == [45, 13, 10] ||
    (decide (3 ≤ rest.length) && rest.take 1 == [58] && isNum (rest.getD 1 0)) || rest == [45]

def boundary : Bytes → Bool
  | 13 :: 10 :: rest => boundaryTail rest
  | _ => false

def scanAlnum : Nat → Bytes → One
  | _, [] => .err unexpectedEOF
  | k, r :: rest =>
    if r == 13 then
      if boundary (r :: rest) then .tok .swiftAlphaNumeric k .symbol else scanAlnum (k + 1) rest
    else if r == 0 then .err unexpectedEOF
    else scanAlnum (k + 1) rest

def scanCharacter : Nat → Bytes → One
  | _, [] => .err unexpectedEOF
  | k, r :: rest =>
    if isUpper r then scanCharacter (k + 1) rest
    else if isNum r then scanCharacter (k + 1) rest
    else if r == 13 then .tok .swiftCharacter k .start
    else if r == 0 then .err unexpectedEOF
    else scanAlnum (k + 1) rest

def scanAlpha : Nat → Bytes → One
  | _, [] => .err unexpectedEOF
  | k, r :: rest =>
    if isUpper r then scanAlpha (k + 1) rest
    else if isNum r then scanCharacter (k + 1) rest
    else if r == 13 then .tok .swiftAlpha k .start
    else if r == 0 then .err unexpectedEOF
    else scanAlnum (k + 1) rest

/-- After `k` bytes of digits, the comma and more digits. -/
def scanDecimal (k : Nat) (rest : Bytes) : One :=
  match rest with
  | [] => .err unexpectedEOF
  | c :: r => if c == 13 then .tok .swiftDecimal k .start else scanAlnum k (c :: r)

/-- After `k` digits that are followed by neither digit nor comma. -/
def scanInteger (k : Nat) (rest : Bytes) : One :=
  if boundary rest then .tok .swiftNumeric k .start else scanCharacter k rest

def scanDigit (k : Nat) (rest : Bytes) : One :=
  match rest.dropWhile isDig with
  | [] => .err unexpectedEOF
  | c :: r =>
    if c == 44 then
      scanDecimal (k + (rest.takeWhile isDig).length + 1 + (r.takeWhile isDig).length) (r.dropWhile isDig)
    else scanInteger (k + (rest.takeWhile isDig).length) (c :: r)

/-- After `k` bytes, the last of them a digit: the rest of a tag's identifier. -/
def scanTagEnd (k : Nat) (rest : Bytes) : One :=
  match rest with
  | [] => .err tagNotClosed
  | c :: r =>
    if c == 58 then .tok .swiftTag (k + 1) .start
    else if isUpper c ∧ r.head? = some 58 then .tok .swiftTag (k + 2) .start
    else .err tagNotClosed

def scanTagDigits (k : Nat) (rest : Bytes) : One :=
  match rest with
  | [] => .err tagNoDigit
  | c :: r =>
    if isDig c then scanTagEnd (k + 1 + (r.takeWhile isDig).length) (r.dropWhile isDig)
    else .err tagNoDigit

def scanTag (rest : Bytes) : One :=
  match rest with
  | 58 :: r => scanTagDigits 1 r
  | r => scanTagDigits 0 r

def scanSymbol : Bytes → One
  | 13 :: 10 :: r =>
    match r with
    | [] => .err unexpectedEOF
    | p :: _ =>
      if p == 0 then .err unexpectedEOF
      else if p == 45 then .tok .swiftMessageSeparator 3 .start
      else .tok .swiftTagSeparator 2 .tagId
  | _ => .err b!"Malformed syntax symbol"

def scanStart : Bytes → One
  | [] => .stop 0
  | r :: rest =>
    if isNum r then scanDigit 1 rest
    else if isUpper r then scanAlpha 1 rest
    else if r == 13 then scanSymbol (r :: rest)
    else if r == 0 then .stop 1
    else scanAlnum 1 rest

def scanEntry : Bytes → One
  | 13 :: 10 :: _ => .tok .swiftDatasetStart 2 .tagId
  | _ => .err b!"Malformed swift dataset"

/-- One token from each state in which a token may begin. -/
def lexOne (st : St) (rest : Bytes) : One :=
  match st with
  | .entry => scanEntry rest
  | .tagId => scanTag rest
  | .start => scanStart rest
  | .symbol => scanSymbol rest
  | _ => .stop 0

def scanF : Nat → St → Nat → Bytes → Drain
  | 0, _, _, _ => .timeout []
  | n + 1, st, pos, rest =>
    match lexOne st rest with
    | .tok t k st' => (scanF n st' (pos + k) (rest.drop k)).cons ⟨t, rest.take k, pos⟩
    | .stop k => .done [⟨.eof, rest.take k, pos⟩]
    | .err m => .done [⟨.error, m, pos⟩]

/-- The tokens of `rest`, its first byte being at position `pos`. -/
def scan (st : St) (pos : Nat) (rest : Bytes) : Drain := scanF (rest.length + 1) st pos rest

/-! ## One token -/

theorem emit_mk (pre seen rest : Bytes) (t : Typ) (st : Option St) :
    emit (mk pre seen rest) t st = .go (mk (pre ++ seen) [] rest) (some ⟨t, seen, pre.length⟩) st := by
  have h : (mk pre seen rest).slice (mk pre seen rest).start (mk pre seen rest).pos = some seen := by
    unfold Lexer.slice
    rw [if_pos (by simp [mk])]
    simp [mk]
  unfold emit
  rw [h]
  simp [mk]

theorem errorf_mk (pre seen rest msg : Bytes) :
    errorf (mk pre seen rest) msg = .go (mk pre seen rest) (some ⟨.error, msg, pre.length⟩) none := rfl

theorem next_tok {l l' : Lexer} {st : St} {t : Token} {st' : Option St} {n : Nat}
    (h : step st l = .go l' (some t) st') : LState.next (n + 2) ⟨l, some st, []⟩ = .tok t ⟨l', st', []⟩ := by
  simp [LState.next, h]

theorem next_silent {l l' : Lexer} {st st' : St} {n : Nat} (h : step st l = .go l' none (some st')) :
    LState.next (n + 1) ⟨l, some st, []⟩ = LState.next n ⟨l', some st', []⟩ := by
  conv => lhs; unfold LState.next
  simp [h]

/-- Prediction of the scanner for a call of `Next` that has `whole` from the start of the
token. -/
def Agrees (pre whole : Bytes) (r : NextRes) (o : One) : Prop :=
  match o with
  | .tok t n st => r = .tok ⟨t, whole.take n, pre.length⟩ ⟨mk (pre ++ whole.take n) [] (whole.drop n), some st, []⟩
  | .stop n => ∃ l, r = .tok ⟨.eof, whole.take n, pre.length⟩ ⟨l, none, []⟩
  | .err m => ∃ l, r = .tok ⟨.error, m, pre.length⟩ ⟨l, none, []⟩

theorem agrees_tok {pre seen rest : Bytes} {l : Lexer} {st : St} {t : Typ} {st' : St} {n k : Nat}
    (h : step st l = emit (mk pre seen rest) t (some st')) (hk : k = seen.length) :
    Agrees pre (seen ++ rest) (LState.next (n + 2) ⟨l, some st, []⟩) (.tok t k st') := by
  subst hk
  rw [emit_mk] at h
  simp only [Agrees, List.take_left, List.drop_left]
  exact next_tok h

theorem agrees_err {pre seen rest whole msg : Bytes} {l : Lexer} {st : St} {n : Nat}
    (h : step st l = errorf (mk pre seen rest) msg) :
    Agrees pre whole (LState.next (n + 2) ⟨l, some st, []⟩) (.err msg) := ⟨_, next_tok h⟩

theorem acceptLine_mk (pre seen rest : Bytes) :
    (∃ r, rest = 13 :: 10 :: r ∧ acceptLine (mk pre seen rest) = (true, mk pre (seen ++ [13, 10]) r)) ∨
    ((∀ r, rest ≠ 13 :: 10 :: r) ∧ ∃ l, acceptLine (mk pre seen rest) = (false, l) ∧ l.start = pre.length) := by
  unfold acceptLine
  match rest with
  | [] =>
    refine Or.inr ⟨by simp, ?_⟩
    have : (mk pre seen []).accept [13] = (false, (mk pre seen []).backup) := by
      simp [Lexer.accept, next_nil]
    rw [this]
    exact ⟨_, rfl, rfl⟩
  | [a] =>
    refine Or.inr ⟨by simp, ?_⟩
    by_cases ha : a = 13
    · subst ha
      rw [accept_cons_pos (by decide)]
      simp only [if_true]
      rw [accept_nil_neg (by decide)]
      exact ⟨_, rfl, rfl⟩
    · rw [accept_cons_neg (by simpa using ha)]
      exact ⟨_, rfl, rfl⟩
  | a :: b :: r =>
    by_cases ha : a = 13
    · subst ha
      rw [accept_cons_pos (by decide)]
      by_cases hb : b = 10
      · subst hb
        refine Or.inl ⟨r, rfl, ?_⟩
        simp only [if_true]
        rw [accept_cons_pos (by decide)]
        simp
      · refine Or.inr ⟨by simp [hb], ?_⟩
        simp only [if_true]
        rw [accept_cons_neg (by simpa using hb)]
        exact ⟨_, rfl, rfl⟩
    · refine Or.inr ⟨by simp [ha], ?_⟩
      rw [accept_cons_neg (by simpa using ha)]
      exact ⟨_, rfl, rfl⟩

theorem boundary_eq {rest : Bytes} (h : ∀ r, rest ≠ 13 :: 10 :: r) : boundary rest = false := by
  unfold boundary
  split
  · exact absurd rfl (h _)
  · rfl

theorem isTagBoundary_mk (pre seen rest : Bytes) : isTagBoundary (mk pre seen rest) = boundary rest := by
  unfold isTagBoundary
  rcases acceptLine_mk pre seen rest with ⟨r, rfl, h⟩ | ⟨h, l, h', _⟩
  · rw [h]
    have : (mk pre (seen ++ [13, 10]) r).input.drop (mk pre (seen ++ [13, 10]) r).pos = r := by
      simp [mk]
    simp only [this, Bool.true_and]
    rfl
  · rw [h', boundary_eq h]
    simp

theorem errorf_start (l : Lexer) (msg : Bytes) : errorf l msg = .go l (some ⟨.error, msg, l.start⟩) none := rfl

theorem alnum_agrees (pre : Bytes) (rest : Bytes) : ∀ (seen : Bytes) (n : Nat), rest.length + 2 ≤ n →
    Agrees pre (seen ++ rest) (LState.next n ⟨mk pre seen rest, some .alnum, []⟩) (scanAlnum seen.length rest) := by
  induction rest with
  | nil =>
    intro seen n hn
    obtain ⟨n, rfl⟩ := Nat.exists_eq_add_of_le' hn
    refine agrees_err (pre := pre) (seen := seen) (rest := []) ?_
    simp only [step, lexAlnum, next_nil]
    rfl
  | cons r rest ih =>
    intro seen n hn
    obtain ⟨n, rfl⟩ := Nat.exists_eq_add_of_le' hn
    unfold scanAlnum
    have hs : step .alnum (mk pre seen (r :: rest)) = lexAlnum (mk pre seen (r :: rest)) := rfl
    unfold lexAlnum at hs
    simp only [next_cons, backup_snoc, isTagBoundary_mk] at hs
    have go : step .alnum (mk pre seen (r :: rest)) = .go (mk pre (seen ++ [r]) rest) none (some .alnum) →
        Agrees pre (seen ++ r :: rest) (LState.next (n + ((r :: rest).length + 2)) ⟨mk pre seen (r :: rest), some .alnum, []⟩)
          (scanAlnum (seen.length + 1) rest) := by
      intro h
      have hn' : n + ((r :: rest).length + 2) = (n + (rest.length + 2)) + 1 := by simp; omega
      rw [hn', next_silent h]
      have := ih (seen ++ [r]) (n + (rest.length + 2)) (by omega)
      simpa using this
    by_cases h1 : r = 13
    · subst h1
      simp only [beq_self_eq_true, if_true] at hs ⊢
      by_cases hb : boundary (13 :: rest) = true
      · rw [if_pos hb] at hs ⊢
        exact agrees_tok hs rfl
      · rw [if_neg hb] at hs ⊢
        exact go hs
    · have h1' : (r == 13) = false := by simpa using h1
      simp only [h1', Bool.false_eq_true, if_false] at hs ⊢
      by_cases h0 : (r == 0) = true
      · rw [if_pos h0] at hs ⊢
        exact agrees_err hs
      · rw [if_neg h0] at hs ⊢
        exact go hs

theorem character_agrees (pre : Bytes) (rest : Bytes) : ∀ (seen : Bytes) (n : Nat), rest.length + 2 ≤ n →
    Agrees pre (seen ++ rest) (LState.next n ⟨mk pre seen rest, some .character, []⟩) (scanCharacter seen.length rest) := by
  induction rest with
  | nil =>
    intro seen n hn
    obtain ⟨n, rfl⟩ := Nat.exists_eq_add_of_le' hn
    refine agrees_err (pre := pre) (seen := seen) (rest := []) ?_
    simp only [step, lexCharacter, next_nil]
    rfl
  | cons r rest ih =>
    intro seen n hn
    obtain ⟨n, rfl⟩ := Nat.exists_eq_add_of_le' hn
    unfold scanCharacter
    have hs : step .character (mk pre seen (r :: rest)) = lexCharacter (mk pre seen (r :: rest)) := rfl
    unfold lexCharacter at hs
    simp only [next_cons, backup_snoc] at hs
    have hn' : n + ((r :: rest).length + 2) = (n + (rest.length + 2)) + 1 := by simp; omega
    have go : step .character (mk pre seen (r :: rest)) = .go (mk pre (seen ++ [r]) rest) none (some .character) →
        Agrees pre (seen ++ r :: rest) (LState.next (n + ((r :: rest).length + 2)) ⟨mk pre seen (r :: rest), some .character, []⟩)
          (scanCharacter (seen.length + 1) rest) := by
      intro h
      rw [hn', next_silent h]
      have := ih (seen ++ [r]) (n + (rest.length + 2)) (by omega)
      simpa using this
    by_cases h1 : isUpper r = true
    · rw [if_pos h1] at hs ⊢
      exact go hs
    rw [if_neg h1] at hs ⊢
    by_cases h2 : isNum r = true
    · rw [if_pos h2] at hs ⊢
      exact go hs
    rw [if_neg h2] at hs ⊢
    by_cases h3 : (r == 13) = true
    · rw [if_pos h3] at hs ⊢
      exact agrees_tok hs rfl
    rw [if_neg h3] at hs ⊢
    by_cases h4 : (r == 0) = true
    · rw [if_pos h4] at hs ⊢
      exact agrees_err hs
    rw [if_neg h4] at hs ⊢
    rw [hn', next_silent hs]
    have := alnum_agrees pre rest (seen ++ [r]) (n + (rest.length + 2)) (by omega)
    simpa using this

theorem alpha_agrees (pre : Bytes) (rest : Bytes) : ∀ (seen : Bytes) (n : Nat), rest.length + 2 ≤ n →
    Agrees pre (seen ++ rest) (LState.next n ⟨mk pre seen rest, some .alpha, []⟩) (scanAlpha seen.length rest) := by
  induction rest with
  | nil =>
    intro seen n hn
    obtain ⟨n, rfl⟩ := Nat.exists_eq_add_of_le' hn
    refine agrees_err (pre := pre) (seen := seen) (rest := []) ?_
    simp only [step, lexAlpha, next_nil]
    rfl
  | cons r rest ih =>
    intro seen n hn
    obtain ⟨n, rfl⟩ := Nat.exists_eq_add_of_le' hn
    unfold scanAlpha
    have hs : step .alpha (mk pre seen (r :: rest)) = lexAlpha (mk pre seen (r :: rest)) := rfl
    unfold lexAlpha at hs
    simp only [next_cons, backup_snoc] at hs
    have hn' : n + ((r :: rest).length + 2) = (n + (rest.length + 2)) + 1 := by simp; omega
    by_cases h1 : isUpper r = true
    · rw [if_pos h1] at hs ⊢
      rw [hn', next_silent hs]
      have := ih (seen ++ [r]) (n + (rest.length + 2)) (by omega)
      simpa using this
    rw [if_neg h1] at hs ⊢
    by_cases h2 : isNum r = true
    · rw [if_pos h2] at hs ⊢
      rw [hn', next_silent hs]
      have := character_agrees pre rest (seen ++ [r]) (n + (rest.length + 2)) (by omega)
      simpa using this
    rw [if_neg h2] at hs ⊢
    by_cases h3 : (r == 13) = true
    · rw [if_pos h3] at hs ⊢
      exact agrees_tok hs rfl
    rw [if_neg h3] at hs ⊢
    by_cases h4 : (r == 0) = true
    · rw [if_pos h4] at hs ⊢
      exact agrees_err hs
    rw [if_neg h4] at hs ⊢
    rw [hn', next_silent hs]
    have := alnum_agrees pre rest (seen ++ [r]) (n + (rest.length + 2)) (by omega)
    simpa using this

theorem isNum_iff (b : Byte) : isNum b = isDig b := by
  unfold isDig
  cases h : digits.contains b with
  | true =>
    have := (contains_digits b).1 h
    simp [isNum, this]
  | false =>
    have : ¬ (48 ≤ b ∧ b ≤ 57) := fun hx => by
      have := (contains_digits b).2 hx
      rw [this] at h
      cases h
    simpa [isNum] using this

theorem comma_not_dig : isDig 44 = false := by decide

theorem digit_bounds {b : Byte} (h : isDig b = true) : b ≠ 44 ∧ b ≠ 13 ∧ b ≠ 0 ∧ b ≠ 58 ∧ isUpper b = false := by
  revert b; decide +kernel

theorem list_snoc {β : Type} {l : List β} (h : l ≠ []) : ∃ x b, l = x ++ [b] := by
  rcases List.eq_nil_or_concat l with rfl | ⟨x, b, rfl⟩
  · exact absurd rfl h
  · exact ⟨x, b, by simp⟩

/-- The end of a run of digits, and with it of the input: reported by whatever state looks
at the last digit again. -/
theorem digit_agrees (pre seen rest : Bytes) (hseen : seen ≠ []) (hd : ∀ b ∈ seen, isDig b = true) (n : Nat)
    (hn : rest.length + 5 ≤ n) :
    Agrees pre (seen ++ rest) (LState.next n ⟨mk pre seen rest, some .digit, []⟩) (scanDigit seen.length rest) := by
  obtain ⟨n, rfl⟩ := Nat.exists_eq_add_of_le' hn
  have hs : step .digit (mk pre seen rest) = lexDigit (mk pre seen rest) := rfl
  unfold lexDigit at hs
  unfold scanDigit
  rcases digits_cases rest with ⟨h1, h2⟩ | ⟨c, r, h1, h2, h3⟩
  · rw [h1]
    simp only
    have hall : ∀ d ∈ rest, isDig d = true := by
      intro d hdm
      rw [h2] at hdm
      exact takeWhile_all d hdm
    obtain ⟨x, b, hx⟩ := list_snoc (l := seen ++ rest) (by simp [hseen])
    have hb : isDig b = true := by
      have : b ∈ seen ++ rest := by rw [hx]; simp
      rcases List.mem_append.1 this with h | h
      · exact hd b h
      · exact hall b h
    have hbb := digit_bounds hb
    have e1 : (mk pre seen rest).acceptRun digits = mk pre x [b] := acceptRun_end pre seen rest x b hx hall
    have e3 : boundary [b] = false := boundary_eq (by simp)
    have e2 : (mk pre x [b]).accept [44] = (false, mk pre x [b]) := accept_cons_neg (by simp [hbb.1]) pre x []
    simp only [e1, e2, isTagBoundary_mk, e3, Bool.false_eq_true, if_false] at hs
    rw [show n + (rest.length + 5) = (n + (rest.length + 4)) + 1 from by omega, next_silent hs]
    have := character_agrees pre [b] x (n + (rest.length + 4)) (by simp; omega)
    rw [← hx] at this
    have e4 : scanCharacter x.length [b] = .err unexpectedEOF := by
      unfold scanCharacter
      have : isNum b = true := by rw [isNum_iff]; exact hb
      simp [hbb.2.2.2.2, this, scanCharacter]
    rw [e4] at this
    exact this
  · rw [h1]
    simp only
    have e1 : (mk pre seen rest).acceptRun digits = mk pre (seen ++ rest.takeWhile isDig) (c :: r) := by
      conv => lhs; rw [h3]
      exact acceptRun_stop h2 pre seen _ r takeWhile_all
    have hw : seen ++ rest = seen ++ rest.takeWhile isDig ++ c :: r := by
      conv => lhs; rw [h3]
      simp
    have hlen : (c :: r).length ≤ rest.length := by
      conv => rhs; rw [h3]
      simp
    rw [hw]
    generalize rest.takeWhile isDig = ds at *
    by_cases hc : c = 44
    · subst hc
      have e2 : (mk pre (seen ++ ds) (44 :: r)).accept [44] = (true, mk pre (seen ++ ds ++ [44]) r) :=
        accept_cons_pos (by decide) pre _ r
      simp only [e1, e2, if_true] at hs
      simp only [beq_self_eq_true, if_true]
      rcases digits_cases r with ⟨k1, k2⟩ | ⟨c', r', k1, k2, k3⟩
      · rw [k1]
        simp only [scanDecimal]
        have hall : ∀ d ∈ r, isDig d = true := by
          intro d hdm
          rw [k2] at hdm
          exact takeWhile_all d hdm
        obtain ⟨x, b, hx⟩ := list_snoc (l := seen ++ ds ++ [44] ++ r) (by simp)
        have hb : b ≠ 13 ∧ b ≠ 0 := by
          rcases List.eq_nil_or_concat r with rfl | ⟨r0, b0, hr0⟩
          · have hx' : seen ++ ds ++ [44] = x ++ [b] := by simpa using hx
            have := List.append_inj' hx' rfl
            simp at this
            rw [← this.2]
            decide
          · have hr0' : r = r0 ++ [b0] := by simpa using hr0
            rw [hr0', ← List.append_assoc] at hx
            have := List.append_inj' hx rfl
            simp at this
            have h9 := digit_bounds (hall b0 (by rw [hr0']; simp))
            rw [← this.2]
            exact ⟨h9.2.1, h9.2.2.1⟩
        have e3 : (mk pre (seen ++ ds ++ [44]) r).acceptRun digits = mk pre x [b] := acceptRun_end pre _ r x b hx hall
        have e5 : (b == 13) = false := by simpa using hb.1
        simp only [e3, peek_cons, e5, Bool.false_eq_true, if_false] at hs
        rw [show n + (rest.length + 5) = (n + (rest.length + 4)) + 1 from by omega, next_silent hs]
        have := alnum_agrees pre [b] x (n + (rest.length + 4)) (by simp; omega)
        rw [← hx] at this
        have e4 : scanAlnum x.length [b] = .err unexpectedEOF := by
          unfold scanAlnum
          simp [hb, scanAlnum]
        rw [e4] at this
        exact this
      · rw [k1]
        have e3 : (mk pre (seen ++ ds ++ [44]) r).acceptRun digits =
            mk pre (seen ++ ds ++ [44] ++ r.takeWhile isDig) (c' :: r') := by
          conv => lhs; rw [k3]
          exact acceptRun_stop k2 pre _ _ r' takeWhile_all
        have hlen' : (c' :: r').length ≤ r.length := by
          conv => rhs; rw [k3]
          simp
        have hw' : seen ++ ds ++ 44 :: r = seen ++ ds ++ [44] ++ r.takeWhile isDig ++ c' :: r' := by
          conv => lhs; rw [k3]
          simp
        rw [hw']
        generalize r.takeWhile isDig = ds' at *
        simp only [scanDecimal]
        simp only [e3, peek_cons] at hs
        by_cases h13 : (c' == 13) = true
        · rw [if_pos h13] at hs ⊢
          exact agrees_tok hs (by simp; omega)
        · rw [if_neg h13] at hs ⊢
          rw [show n + (rest.length + 5) = (n + (rest.length + 4)) + 1 from by omega, next_silent hs]
          have := alnum_agrees pre (c' :: r') (seen ++ ds ++ [44] ++ ds') (n + (rest.length + 4)) (by simp at *; omega)
          have hl : (seen ++ ds ++ [44] ++ ds').length = seen.length + ds.length + 1 + ds'.length := by simp; omega
          rw [hl] at this
          exact this
    · have hc' : (c == 44) = false := by simpa using hc
      simp only [hc', Bool.false_eq_true, if_false]
      have e2 : (mk pre (seen ++ ds) (c :: r)).accept [44] = (false, mk pre (seen ++ ds) (c :: r)) :=
        accept_cons_neg (by simpa using hc) pre _ r
      simp only [e1, e2, isTagBoundary_mk, Bool.false_eq_true, if_false] at hs
      unfold scanInteger
      by_cases hb : boundary (c :: r) = true
      · rw [if_pos hb] at hs ⊢
        exact agrees_tok hs (by simp)
      · rw [if_neg hb] at hs ⊢
        rw [show n + (rest.length + 5) = (n + (rest.length + 4)) + 1 from by omega, next_silent hs]
        have := character_agrees pre (c :: r) (seen ++ ds) (n + (rest.length + 4)) (by omega)
        rw [List.length_append] at this
        exact this

theorem symbol_agrees (pre rest : Bytes) (n : Nat) (hn : 2 ≤ n) :
    Agrees pre rest (LState.next n ⟨mk pre [] rest, some .symbol, []⟩) (scanSymbol rest) := by
  obtain ⟨n, rfl⟩ := Nat.exists_eq_add_of_le' hn
  have hs : step .symbol (mk pre [] rest) = lexSymbol (mk pre [] rest) := rfl
  unfold lexSymbol at hs
  rcases acceptLine_mk pre [] rest with ⟨r, rfl, h⟩ | ⟨h, l, h', hl⟩
  · rw [h] at hs
    simp only [if_true, List.nil_append] at hs
    unfold scanSymbol
    cases r with
    | nil =>
      have e : (mk pre [13, 10] []).peek = (0, mk pre [13] [10]) := peek_nil pre [13] 10
      simp only [e] at hs
      exact agrees_err hs
    | cons p r =>
      simp only [peek_cons] at hs ⊢
      by_cases h0 : (p == 0) = true
      · rw [if_pos h0] at hs ⊢
        exact agrees_err hs
      rw [if_neg h0] at hs ⊢
      by_cases h1 : (p == 45) = true
      · rw [if_pos h1] at hs ⊢
        rw [next_cons] at hs
        exact agrees_tok (seen := [13, 10, p]) hs rfl
      rw [if_neg h1] at hs ⊢
      exact agrees_tok (seen := [13, 10]) hs rfl
  · rw [h'] at hs
    simp only [Bool.false_eq_true, if_false] at hs
    have : scanSymbol rest = .err b!"Malformed syntax symbol" := by
      unfold scanSymbol
      split
      · exact absurd rfl (h _)
      · rfl
    rw [this]
    refine ⟨l, next_tok ?_⟩
    rw [hs, errorf_start, hl]

theorem entry_agrees (pre rest : Bytes) (n : Nat) (hn : 2 ≤ n) :
    Agrees pre rest (LState.next n ⟨mk pre [] rest, some .entry, []⟩) (scanEntry rest) := by
  obtain ⟨n, rfl⟩ := Nat.exists_eq_add_of_le' hn
  have hs : step .entry (mk pre [] rest) = lexEntry (mk pre [] rest) := rfl
  unfold lexEntry at hs
  rcases acceptLine_mk pre [] rest with ⟨r, rfl, h⟩ | ⟨h, l, h', hl⟩
  · rw [h] at hs
    simp only [if_true, List.nil_append] at hs
    exact agrees_tok (seen := [13, 10]) hs rfl
  · rw [h'] at hs
    simp only [Bool.false_eq_true, if_false] at hs
    have : scanEntry rest = .err b!"Malformed swift dataset" := by
      unfold scanEntry
      split
      · exact absurd rfl (h _)
      · rfl
    rw [this]
    refine ⟨l, next_tok ?_⟩
    rw [hs, errorf_start, hl]

theorem start_agrees (pre rest : Bytes) (n : Nat) (hn : rest.length + 6 ≤ n) :
    Agrees pre rest (LState.next n ⟨mk pre [] rest, some .start, []⟩) (scanStart rest) := by
  obtain ⟨n, rfl⟩ := Nat.exists_eq_add_of_le' hn
  have hs : step .start (mk pre [] rest) = lexStart (mk pre [] rest) := rfl
  unfold lexStart at hs
  unfold scanStart
  cases rest with
  | nil =>
    simp only [next_nil] at hs
    have h : lexStart (mk pre [] []) = emit (mk pre [] []) .eof none := hs
    rw [emit_mk] at h
    exact ⟨_, next_tok h⟩
  | cons r rest =>
    simp only [next_cons, List.nil_append] at hs ⊢
    have hb : (mk pre [r] rest).backup = mk pre [] (r :: rest) := backup_snoc pre [] r rest
    rw [hb] at hs
    have hn' : n + ((r :: rest).length + 6) = (n + (rest.length + 6)) + 1 := by simp; omega
    by_cases h1 : isNum r = true
    · rw [if_pos h1] at hs ⊢
      rw [hn', next_silent hs]
      exact digit_agrees pre [r] rest (by simp) (by simpa [← isNum_iff] using h1) _ (by omega)
    rw [if_neg h1] at hs ⊢
    by_cases h2 : isUpper r = true
    · rw [if_pos h2] at hs ⊢
      rw [hn', next_silent hs]
      exact alpha_agrees pre rest [r] _ (by omega)
    rw [if_neg h2] at hs ⊢
    by_cases h3 : (r == 13) = true
    · rw [if_pos h3] at hs ⊢
      rw [hn', next_silent hs]
      exact symbol_agrees pre (r :: rest) _ (by omega)
    rw [if_neg h3] at hs ⊢
    by_cases h4 : (r == 0) = true
    · rw [if_pos h4] at hs ⊢
      rw [emit_mk] at hs
      exact ⟨_, next_tok hs⟩
    rw [if_neg h4] at hs ⊢
    rw [hn', next_silent hs]
    exact alnum_agrees pre rest [r] _ (by omega)

/-- Everything of `lexTagID` after the optional colon. -/
def tagDigits (l1 : Lexer) : Step :=
  let (ok, l2) := l1.accept digits
  if !ok then errorf l2 tagNoDigit
  else
    let l3 := l2.acceptRun digits
    let (p, l4) := l3.peek
    let l5 := if isUpper p then l4.next.2 else l4
    let (ok, l6) := l5.accept [58]
    if !ok then errorf l6 tagNotClosed
    else emit l6 .swiftTag (some .start)

theorem tagDigits_spec (pre seen rest : Bytes) (l : Lexer) (n : Nat) (h : step .tagId l = tagDigits (mk pre seen rest)) :
    Agrees pre (seen ++ rest) (LState.next (n + 2) ⟨l, some .tagId, []⟩) (scanTagDigits seen.length rest) := by
  unfold tagDigits at h
  unfold scanTagDigits
  cases rest with
  | nil =>
    have : (mk pre seen []).accept digits = (false, (mk pre seen []).backup) := by simp [Lexer.accept, next_nil, digits]
    rw [this] at h
    exact ⟨_, next_tok (by rw [h]; rfl)⟩
  | cons c r =>
    dsimp only
    by_cases hc : isDig c = true
    · rw [if_pos hc]
      rw [accept_cons_pos (by simpa [isDig] using hc)] at h
      simp only [Bool.not_true, Bool.false_eq_true, if_false] at h
      rcases digits_cases r with ⟨k1, k2⟩ | ⟨d, r', k1, k2, k3⟩
      · rw [k1]
        simp only [scanTagEnd]
        have hall : ∀ d ∈ r, isDig d = true := by
          intro d hdm
          rw [k2] at hdm
          exact takeWhile_all d hdm
        obtain ⟨x, b, hx⟩ := list_snoc (l := seen ++ [c] ++ r) (by simp)
        have hb : isDig b = true := by
          rcases List.eq_nil_or_concat r with rfl | ⟨r0, b0, hr0⟩
          · have hx' : seen ++ [c] = x ++ [b] := by simpa using hx
            have := List.append_inj' hx' rfl
            simp at this
            rw [← this.2]
            exact hc
          · have hr0' : r = r0 ++ [b0] := by simpa using hr0
            rw [hr0', ← List.append_assoc] at hx
            have := List.append_inj' hx rfl
            simp at this
            rw [← this.2]
            exact hall b0 (by rw [hr0']; simp)
        have hbb := digit_bounds hb
        have e1 : (mk pre (seen ++ [c]) r).acceptRun digits = mk pre x [b] := acceptRun_end pre _ r x b hx hall
        have e2 : (mk pre x [b]).accept [58] = (false, mk pre x [b]) := accept_cons_neg (by simp [hbb.2.2.2.1]) pre x []
        simp only [e1, peek_cons, hbb.2.2.2.2, Bool.false_eq_true, if_false, e2, Bool.not_false, if_true] at h
        exact agrees_err h
      · rw [k1]
        have e1 : (mk pre (seen ++ [c]) r).acceptRun digits = mk pre (seen ++ [c] ++ r.takeWhile isDig) (d :: r') := by
          conv => lhs; rw [k3]
          exact acceptRun_stop k2 pre _ _ r' takeWhile_all
        have hw : seen ++ c :: r = seen ++ [c] ++ r.takeWhile isDig ++ d :: r' := by
          conv => lhs; rw [k3]
          simp
        rw [hw]
        generalize r.takeWhile isDig = ds at *
        simp only [e1, peek_cons] at h
        simp only [scanTagEnd]
        by_cases h58 : d = 58
        · subst h58
          have : isUpper 58 = false := by decide
          rw [this] at h
          simp only [Bool.false_eq_true, if_false] at h
          rw [accept_cons_pos (by decide)] at h
          simp only [Bool.not_true, Bool.false_eq_true, if_false] at h
          simp only [beq_self_eq_true, if_true]
          rw [show seen ++ [c] ++ ds ++ 58 :: r' = (seen ++ [c] ++ ds ++ [58]) ++ r' from by simp]
          exact agrees_tok h (by simp; omega)
        · have h58' : (d == 58) = false := by simpa using h58
          simp only [h58', Bool.false_eq_true, if_false]
          by_cases hu : isUpper d = true
          · rw [if_pos hu, next_cons] at h
            simp only [hu, true_and]
            cases r' with
            | nil =>
              rw [accept_nil_neg (by decide)] at h
              simp only [Bool.not_false, if_true] at h
              rw [if_neg (by simp)]
              exact agrees_err h
            | cons e r'' =>
              by_cases he : e = 58
              · subst he
                rw [accept_cons_pos (by decide)] at h
                simp only [Bool.not_true, Bool.false_eq_true, if_false] at h
                rw [if_pos (by simp)]
                rw [show seen ++ [c] ++ ds ++ d :: 58 :: r'' = (seen ++ [c] ++ ds ++ [d] ++ [58]) ++ r'' from by simp]
                exact agrees_tok h (by simp; omega)
              · rw [accept_cons_neg (by simpa using he)] at h
                simp only [Bool.not_false, if_true] at h
                rw [if_neg (by simpa using he)]
                exact agrees_err h
          · rw [if_neg hu, accept_cons_neg (by simpa using h58)] at h
            simp only [Bool.not_false, if_true] at h
            rw [if_neg (by simp [hu])]
            exact agrees_err h
    · rw [if_neg hc]
      rw [accept_cons_neg (by simpa [isDig] using hc)] at h
      simp only [Bool.not_false, if_true] at h
      exact agrees_err h

theorem tag_agrees (pre rest : Bytes) (n : Nat) (hn : 2 ≤ n) (hp : pre.getLast? = some 10) :
    Agrees pre rest (LState.next n ⟨mk pre [] rest, some .tagId, []⟩) (scanTag rest) := by
  obtain ⟨n, rfl⟩ := Nat.exists_eq_add_of_le' hn
  have hs : step .tagId (mk pre [] rest) = tagDigits ((mk pre [] rest).accept [58]).2 := rfl
  cases rest with
  | nil =>
    obtain ⟨p, hp⟩ : ∃ p, pre = p ++ [10] := by
      rcases List.eq_nil_or_concat pre with rfl | ⟨x, b, rfl⟩
      · simp at hp
      · simp at hp
        exact ⟨x, by simp [hp]⟩
    have e1 : ((mk pre [] []).accept [58]).2 = (mk pre [] []).backup := by simp [Lexer.accept, next_nil]
    rw [e1] at hs
    have e2 : ((mk pre [] []).backup.accept digits) = (false, (mk pre [] []).backup) := by
      subst hp
      simp [Lexer.accept, Lexer.backup, Lexer.next, mk, digits]
    unfold tagDigits at hs
    rw [e2] at hs
    exact ⟨_, next_tok (by rw [hs]; rfl)⟩
  | cons c r =>
    unfold scanTag
    by_cases hc : c = 58
    · subst hc
      rw [accept_cons_pos (by decide)] at hs
      exact tagDigits_spec pre [58] r _ n hs
    · rw [accept_cons_neg (by simpa using hc)] at hs
      split
      · rename_i heq
        simp at heq
        exact absurd heq.1 hc
      · exact tagDigits_spec pre [] (c :: r) _ n hs

/-! ## Progress -/

theorem scanAlnum_tok {k : Nat} {rest : Bytes} {t : Typ} {n : Nat} {st : St} (h : scanAlnum k rest = .tok t n st) :
    k ≤ n ∧ n < k + rest.length ∧ boundary (rest.drop (n - k)) = true ∧ t = .swiftAlphaNumeric ∧ st = .symbol := by
  fun_induction scanAlnum k rest with
  | case1 => simp at h
  | case2 k r rest h1 h2 =>
    simp only [One.tok.injEq] at h
    obtain ⟨rfl, rfl, rfl⟩ := h
    simp [h2]
  | case3 k r rest h1 h2 ih =>
    obtain ⟨a, b, c, d⟩ := ih h
    refine ⟨by omega, by simp; omega, ?_, d⟩
    rw [show n - k = (n - (k + 1)) + 1 from by omega]
    exact c
  | case4 => simp at h
  | case5 k r rest h1 h2 ih =>
    obtain ⟨a, b, c, d⟩ := ih h
    refine ⟨by omega, by simp; omega, ?_, d⟩
    rw [show n - k = (n - (k + 1)) + 1 from by omega]
    exact c

theorem scanCharacter_tok {k : Nat} {rest : Bytes} {t : Typ} {n : Nat} {st : St} (h : scanCharacter k rest = .tok t n st) :
    k ≤ n ∧ n < k + rest.length ∧ (rest.drop (n - k)).head? = some 13 ∧ (st = .start ∨ st = .symbol) := by
  fun_induction scanCharacter k rest with
  | case1 => simp at h
  | case2 k r rest h1 ih =>
    obtain ⟨a, b, c, d⟩ := ih h
    refine ⟨by omega, by simp; omega, ?_, d⟩
    rw [show n - k = (n - (k + 1)) + 1 from by omega]
    exact c
  | case3 k r rest h1 h2 ih =>
    obtain ⟨a, b, c, d⟩ := ih h
    refine ⟨by omega, by simp; omega, ?_, d⟩
    rw [show n - k = (n - (k + 1)) + 1 from by omega]
    exact c
  | case4 k r rest h1 h2 h3 =>
    simp only [One.tok.injEq] at h
    obtain ⟨rfl, rfl, rfl⟩ := h
    simpa using h3
  | case5 => simp at h
  | case6 k r rest h1 h2 h3 h4 =>
    obtain ⟨a, b, c, d⟩ := scanAlnum_tok h
    refine ⟨by omega, by simp; omega, ?_, Or.inr d.2⟩
    rw [show n - k = (n - (k + 1)) + 1 from by omega]
    show (rest.drop (n - (k + 1))).head? = some 13
    unfold boundary at c
    split at c
    · rename_i heq
      rw [heq]
      rfl
    · simp at c

theorem scanAlpha_tok {k : Nat} {rest : Bytes} {t : Typ} {n : Nat} {st : St} (h : scanAlpha k rest = .tok t n st) :
    k ≤ n ∧ n < k + rest.length ∧ (rest.drop (n - k)).head? = some 13 ∧ (st = .start ∨ st = .symbol) := by
  fun_induction scanAlpha k rest with
  | case1 => simp at h
  | case2 k r rest h1 ih =>
    obtain ⟨a, b, c, d⟩ := ih h
    refine ⟨by omega, by simp; omega, ?_, d⟩
    rw [show n - k = (n - (k + 1)) + 1 from by omega]
    exact c
  | case3 k r rest h1 h2 =>
    obtain ⟨a, b, c, d⟩ := scanCharacter_tok h
    refine ⟨by omega, by simp; omega, ?_, d⟩
    rw [show n - k = (n - (k + 1)) + 1 from by omega]
    exact c
  | case4 k r rest h1 h2 h3 =>
    simp only [One.tok.injEq] at h
    obtain ⟨rfl, rfl, rfl⟩ := h
    simpa using h3
  | case5 => simp at h
  | case6 k r rest h1 h2 h3 h4 =>
    obtain ⟨a, b, c, d⟩ := scanAlnum_tok h
    refine ⟨by omega, by simp; omega, ?_, Or.inr d.2⟩
    rw [show n - k = (n - (k + 1)) + 1 from by omega]
    show (rest.drop (n - (k + 1))).head? = some 13
    unfold boundary at c
    split at c
    · rename_i heq
      rw [heq]
      rfl
    · simp at c

theorem boundary_head {rest : Bytes} (h : boundary rest = true) : rest.head? = some 13 := by
  unfold boundary at h
  split at h
  · rfl
  · simp at h

theorem drop_app {β : Type} {a b : List β} {i : Nat} (h : a.length ≤ i) : (a ++ b).drop i = b.drop (i - a.length) := by
  rw [List.drop_append, List.drop_eq_nil_of_le h, List.nil_append]

theorem scanDigit_tok {k : Nat} {rest : Bytes} {t : Typ} {n : Nat} {st : St} (h : scanDigit k rest = .tok t n st) :
    k ≤ n ∧ n < k + rest.length ∧ (rest.drop (n - k)).head? = some 13 ∧ (st = .start ∨ st = .symbol) := by
  unfold scanDigit at h
  rcases digits_cases rest with ⟨h1, h2⟩ | ⟨c, r, h1, h2, h3⟩
  · rw [h1] at h
    simp at h
  · rw [h1] at h
    simp only at h
    generalize rest.takeWhile isDig = ds at *
    subst h3
    split at h
    · unfold scanDecimal at h
      rcases digits_cases r with ⟨k1, k2⟩ | ⟨c', r', k1, k2, k3⟩
      · rw [k1] at h
        simp at h
      · rw [k1] at h
        simp only at h
        generalize r.takeWhile isDig = ds' at *
        subst k3
        have hd : ∀ j, j ≥ k + ds.length + 1 + ds'.length →
            (ds ++ c :: (ds' ++ c' :: r')).drop (j - k) = (c' :: r').drop (j - (k + ds.length + 1 + ds'.length)) := by
          intro j hj
          rw [show ds ++ c :: (ds' ++ c' :: r') = (ds ++ c :: ds') ++ c' :: r' from by simp,
            drop_app (by simp; omega)]
          simp only [List.length_append, List.length_cons]
          congr 1
          omega
        split at h
        · simp only [One.tok.injEq] at h
          obtain ⟨rfl, rfl, rfl⟩ := h
          rename_i h13
          rw [hd _ (Nat.le_refl _)]
          simp only [beq_iff_eq] at h13
          simp [h13]
          omega
        · obtain ⟨a, b, c, d⟩ := scanAlnum_tok h
          rw [hd _ a]
          refine ⟨by omega, by simp at b ⊢; omega, boundary_head c, Or.inr d.2⟩
    · unfold scanInteger at h
      have hd : ∀ j, j ≥ k + ds.length → (ds ++ c :: r).drop (j - k) = (c :: r).drop (j - (k + ds.length)) := by
        intro j hj
        rw [drop_app (by omega)]
        congr 1
        omega
      split at h
      · simp only [One.tok.injEq] at h
        obtain ⟨rfl, rfl, rfl⟩ := h
        rename_i hb
        rw [hd _ (Nat.le_refl _)]
        simp [boundary_head hb]
      · obtain ⟨a, b, e, d⟩ := scanCharacter_tok h
        rw [hd _ a]
        exact ⟨by omega, by simp at b ⊢; omega, e, d⟩

theorem scanTagDigits_tok {k : Nat} {rest : Bytes} {t : Typ} {n : Nat} {st : St} (h : scanTagDigits k rest = .tok t n st) :
    k < n ∧ n ≤ k + rest.length ∧ t = .swiftTag ∧ st = .start := by
  unfold scanTagDigits at h
  split at h
  · simp at h
  · rename_i c r
    split at h
    · rcases digits_cases r with ⟨h1, h2⟩ | ⟨d, r', h1, h2, h3⟩
      · rw [h1] at h
        simp [scanTagEnd] at h
      · rw [h1] at h
        generalize r.takeWhile isDig = ds at *
        subst h3
        simp only [scanTagEnd] at h
        split at h
        · simp only [One.tok.injEq] at h
          obtain ⟨rfl, rfl, rfl⟩ := h
          exact ⟨by omega, by simp; omega, rfl, rfl⟩
        · split at h
          · simp only [One.tok.injEq] at h
            obtain ⟨rfl, rfl, rfl⟩ := h
            rename_i hx
            cases r' with
            | nil => simp at hx
            | cons => exact ⟨by omega, by simp; omega, rfl, rfl⟩
          · simp at h
    · simp at h

/-- The states in which a token may begin. -/
def Boundary (st : St) : Prop := st = .entry ∨ st = .tagId ∨ st = .start ∨ st = .symbol

theorem lexOne_tok {st : St} {rest : Bytes} {t : Typ} {n : Nat} {st' : St} (h : lexOne st rest = .tok t n st') :
    0 < n ∧ n ≤ rest.length ∧ (st' = .tagId ∨ st' = .start ∨ st' = .symbol) ∧
      (st' = .tagId → (rest.take n).getLast? = some 10) := by
  cases st with
  | entry =>
    simp only [lexOne] at h
    unfold scanEntry at h
    split at h
    · simp only [One.tok.injEq] at h
      obtain ⟨rfl, rfl, rfl⟩ := h
      simp
    · simp at h
  | tagId =>
    simp only [lexOne] at h
    unfold scanTag at h
    split at h
    · obtain ⟨a, b, _, d⟩ := scanTagDigits_tok h
      exact ⟨by omega, by simp; omega, by simp [d], by simp [d]⟩
    · obtain ⟨a, b, _, d⟩ := scanTagDigits_tok h
      exact ⟨by omega, by omega, by simp [d], by simp [d]⟩
  | start =>
    simp only [lexOne] at h
    unfold scanStart at h
    split at h
    · simp at h
    · rename_i r rest
      split at h
      · obtain ⟨a, b, _, d⟩ := scanDigit_tok h
        exact ⟨by omega, by simp; omega, Or.inr d, by rintro rfl; simp at d⟩
      split at h
      · obtain ⟨a, b, _, d⟩ := scanAlpha_tok h
        exact ⟨by omega, by simp; omega, Or.inr d, by rintro rfl; simp at d⟩
      split at h
      · unfold scanSymbol at h
        split at h
        · rename_i heq
          split at h
          · simp at h
          · split at h
            · simp at h
            split at h
            · simp only [One.tok.injEq] at h
              obtain ⟨rfl, rfl, rfl⟩ := h
              rw [heq]
              simp
            · simp only [One.tok.injEq] at h
              obtain ⟨rfl, rfl, rfl⟩ := h
              rw [heq]
              simp
        · simp at h
      split at h
      · simp at h
      · obtain ⟨a, b, _, d⟩ := scanAlnum_tok h
        exact ⟨by omega, by simp; omega, Or.inr (Or.inr d.2), by rw [d.2]; simp⟩
  | symbol =>
    simp only [lexOne] at h
    unfold scanSymbol at h
    split at h
    · split at h
      · simp at h
      · split at h
        · simp at h
        split at h
        · simp only [One.tok.injEq] at h
          obtain ⟨rfl, rfl, rfl⟩ := h
          simp
        · simp only [One.tok.injEq] at h
          obtain ⟨rfl, rfl, rfl⟩ := h
          simp
    · simp at h
  | digit => simp [lexOne] at h
  | alpha => simp [lexOne] at h
  | character => simp [lexOne] at h
  | alnum => simp [lexOne] at h

/-! ## The driver -/

theorem next_agrees (pre rest : Bytes) (st : St) (hst : Boundary st) (hp : st = .tagId → pre.getLast? = some 10) (n : Nat)
    (hn : rest.length + 6 ≤ n) :
    Agrees pre rest (LState.next n ⟨mk pre [] rest, some st, []⟩) (lexOne st rest) := by
  rcases hst with rfl | rfl | rfl | rfl
  · exact entry_agrees pre rest n (by omega)
  · exact tag_agrees pre rest n (by omega) (hp rfl)
  · exact start_agrees pre rest n hn
  · exact symbol_agrees pre rest n (by omega)

theorem drain_none (n : Nat) (l : Lexer) : LState.drain n ⟨l, none, []⟩ = .done [] := by
  cases n <;> simp [LState.drain]

theorem drain_eq_scan (n : Nat) : ∀ (pre rest : Bytes) (st : St), Boundary st → (st = .tagId → pre.getLast? = some 10) →
    rest.length < n → LState.drain n ⟨mk pre [] rest, some st, []⟩ = scanF n st pre.length rest := by
  induction n with
  | zero => intro _ _ _ _ _ h; omega
  | succ n ih =>
    intro pre rest st hst hp hn
    have h := next_agrees pre rest st hst hp (2 * (mk pre [] rest).input.length + 8) (by simp [mk]; omega)
    unfold LState.drain scanF
    simp only [Option.isSome_some, if_true]
    cases ho : lexOne st rest with
    | tok t k st' =>
      rw [ho] at h
      simp only [Agrees] at h
      obtain ⟨h1, h2, h3, h4⟩ := lexOne_tok ho
      rw [h]
      simp only
      rw [ih _ _ _ (Or.inr h3) _ (by simp; omega)]
      · simp [Nat.min_eq_left h2]
      · intro hx
        have := h4 hx
        rw [List.getLast?_append, this]
        rfl
    | stop k =>
      rw [ho] at h
      obtain ⟨l, h⟩ := h
      rw [h]
      simp [drain_none, Drain.cons]
    | err m =>
      rw [ho] at h
      obtain ⟨l, h⟩ := h
      rw [h]
      simp [drain_none, Drain.cons]

theorem scanF_stable {n m : Nat} {st : St} {pos : Nat} {rest : Bytes} (hn : rest.length < n) (hm : rest.length < m) :
    scanF n st pos rest = scanF m st pos rest := by
  induction n generalizing m pos rest st with
  | zero => omega
  | succ n ih =>
    cases m with
    | zero => omega
    | succ m =>
      simp only [scanF]
      cases h : lexOne st rest with
      | tok t k st' =>
        have := lexOne_tok h
        simp only
        rw [ih (m := m)] <;> simp <;> omega
      | _ => rfl

/-- Unfolding equation of the scanner. -/
theorem scan_eq (st : St) (pos : Nat) (rest : Bytes) :
    scan st pos rest = match lexOne st rest with
      | .tok t k st' => (scan st' (pos + k) (rest.drop k)).cons ⟨t, rest.take k, pos⟩
      | .stop k => .done [⟨.eof, rest.take k, pos⟩]
      | .err m => .done [⟨.error, m, pos⟩] := by
  conv => lhs; unfold scan scanF
  cases h : lexOne st rest with
  | tok t k st' =>
    have := lexOne_tok h
    simp only [scan]
    rw [scanF_stable (n := rest.length) (m := (rest.drop k).length + 1)] <;> simp <;> omega
  | _ => rfl

/-- The model of the lexer delivers the tokens of the list scanner. -/
theorem lex_eq_scan (input : Bytes) : lex input = scan .entry 0 input := by
  unfold lex newLexer scan
  have := drain_eq_scan (input.length + 2) [] input .entry (Or.inl rfl) (by simp) (by omega)
  refine Eq.trans ?_ (this.trans (scanF_stable (by omega) (by omega)))
  rfl

end Verif.Swift
