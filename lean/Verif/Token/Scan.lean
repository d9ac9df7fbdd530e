import Verif.Token.Lexer

/-
Proof device: a list-based scanner that does in one step what the positional
lexer of `Verif.Token.Lexer` does between two visits of `lexStart`, and the
theorem that both deliver the same tokens (`lex_eq_scan`).
-/

namespace Verif.Token

theorem contains_digits (b : Byte) : digits.contains b = true ↔ 48 ≤ b ∧ b ≤ 57 := by
  revert b; decide +kernel

/-- ASCII digit. -/
def isDig (b : Byte) : Bool := digits.contains b

/-- Outcome of scanning one token. -/
inductive One where
  | tok (t : Typ) (n : Nat)
  | stop (n : Nat)
  | err (msg : Bytes)
  | panic
  deriving DecidableEq, Repr

def scanAlnum : Nat → Bool → Bytes → One
  | _, _, [] => .err b!"Unexpected end of input"
  | k, text, r :: rest =>
    if r == 63 then
      match rest with
      | [] => .err b!"Unexpected escape character"
      | p :: rest' =>
        if isSyntaxSymbol p then scanAlnum (k + 2) text rest'
        else .err b!"Unexpected escape character"
    else if isDelimiter r then .tok (if text then .text else .alphaNumeric) k
    else if r == 0 then .err b!"Unexpected end of input"
    else if r == 10 || r == 13 then scanAlnum (k + 1) true rest
    else scanAlnum (k + 1) text rest

/-- After a numeric prefix of `k` bytes: the token ends at a delimiter with type
`t`, or goes on as alphanumeric. -/
def scanTail (t : Typ) (k : Nat) (rest : Bytes) : One :=
  match rest with
  | [] => .err b!"Unexpected end of input"
  | c :: _ => if isDelimiter c then .tok t k else scanAlnum k false rest

def scanNumber (rest : Bytes) : One :=
  let ds := rest.takeWhile isDig
  match rest.dropWhile isDig with
  | [] => .err b!"Unexpected end of input"
  | c :: r =>
    if c == 44 then
      scanTail .float (ds.length + 1 + (r.takeWhile isDig).length) (r.dropWhile isDig)
    else scanTail .numeric ds.length (c :: r)

/-- `rest` is what follows the leading zero. -/
def scanDigit (rest : Bytes) : One :=
  match rest with
  | [] => .err b!"Unexpected end of input"
  | c :: r =>
    if isDelimiter c then .tok .numeric 1
    else if c == 44 then
      scanTail .float (2 + (r.takeWhile isDig).length) (r.dropWhile isDig)
    else
      match (c :: r).dropWhile isDig with
      | [] => .err b!"Unexpected end of input"
      | d :: r' =>
        if d == 44 then .err b!"Malformed float"
        else scanTail .digit (1 + ((c :: r).takeWhile isDig).length) (d :: r')

/-- `rest` is what follows the leading `@`, `pos` the position of that `@`. -/
def scanBinary (pos : Nat) (rest : Bytes) : One :=
  let ds := rest.takeWhile isDig
  match rest.dropWhile isDig with
  | [] =>
    match ds.length with
    | 0 => .panic
    | 1 => .err b!"Binary length can't be empty"
    | _ => .err b!"Binary length must contain of digits only"
  | c :: r =>
    if ds.length = 0 then .err b!"Binary length can't be empty"
    else if decVal ds ≥ 2 ^ 63 then .err b!"Binary length must contain of digits only"
    else if c != 64 then .err b!"Binary length must contain of digits only"
    else if pos + 2 + ds.length + decVal ds ≥ 2 ^ 63 then .panic
    else
      match r.drop (decVal ds) with
      | [] => .err b!"Unexpected end of input"
      | d :: _ =>
        if isDelimiter d then .tok .binaryData (2 + ds.length + decVal ds)
        else if d == 0 then .err b!"Unexpected end of input"
        else .err b!"Expected syntax symbol after binary data"

def lexOne (pos : Nat) (rest : Bytes) : One :=
  match rest with
  | [] => .stop 0
  | r :: rest' =>
    if r == 43 then .tok .dataElementSeparator 1
    else if r == 39 then .tok .segmentEndMarker 1
    else if r == 58 then .tok .groupDataElementSeparator 1
    else if r == 64 then scanBinary pos rest'
    else if r == 0 then .stop 1
    else if r == 48 then scanDigit rest'
    else if 49 ≤ r ∧ r ≤ 57 then scanNumber (r :: rest')
    else scanAlnum 0 false (r :: rest')

def scanF : Nat → Nat → Bytes → Drain
  | 0, _, _ => .timeout []
  | n + 1, pos, rest =>
    match lexOne pos rest with
    | .tok t k => (scanF n (pos + k) (rest.drop k)).cons ⟨t, rest.take k, pos⟩
    | .stop k => .done [⟨.eof, rest.take k, pos⟩]
    | .err m => .done [⟨.error, m, pos⟩]
    | .panic => .panic []

/-- The tokens of `rest`, its first byte being at position `pos`. -/
def scan (pos : Nat) (rest : Bytes) : Drain := scanF (rest.length + 1) pos rest

/-! ## Progress -/

theorem scanAlnum_tok {k : Nat} {text : Bool} {rest : Bytes} {t : Typ} {n : Nat}
    (h : scanAlnum k text rest = .tok t n) : k ≤ n ∧ n < k + rest.length := by
  fun_induction scanAlnum k text rest <;> simp_all <;> omega

/-- From a state that is not at a delimiter the alphanumeric token is longer. -/
theorem scanAlnum_tok_lt {k : Nat} {text : Bool} {r : Byte} {rest : Bytes} {t : Typ} {n : Nat}
    (hd : isDelimiter r = false) (h : scanAlnum k text (r :: rest) = .tok t n) : k < n := by
  rw [scanAlnum.eq_def] at h
  simp only [hd] at h
  split at h
  · split at h
    · simp at h
    · split at h
      · have := scanAlnum_tok h; omega
      · simp at h
  · split at h
    · simp at *
    · split at h
      · simp at h
      · split at h <;> (have := scanAlnum_tok h; omega)

theorem takeWhile_length_add_dropWhile (p : Byte → Bool) (l : Bytes) :
    (l.takeWhile p).length + (l.dropWhile p).length = l.length := by
  rw [← List.length_append, List.takeWhile_append_dropWhile]

theorem scanTail_tok {t t' : Typ} {k n : Nat} {rest : Bytes}
    (h : scanTail t k rest = .tok t' n) : k ≤ n ∧ n < k + rest.length := by
  unfold scanTail at h
  split at h
  · simp at h
  · split at h
    · simp at h; simp; omega
    · exact scanAlnum_tok h

theorem lexOne_tok {pos : Nat} {rest : Bytes} {t : Typ} {n : Nat}
    (h : lexOne pos rest = .tok t n) : 1 ≤ n ∧ n ≤ rest.length := by
  unfold lexOne at h
  split at h
  · simp at h
  · rename_i r rest'
    split at h; · simp at h; simp; omega
    split at h; · simp at h; simp; omega
    split at h; · simp at h; simp; omega
    split at h
    · unfold scanBinary at h
      have hl := takeWhile_length_add_dropWhile isDig rest'
      dsimp only at h
      split at h
      · split at h <;> simp at h
      · rename_i c r' hc
        split at h; · simp at h
        split at h; · simp at h
        split at h; · simp at h
        split at h; · simp at h
        split at h; · simp at h
        rename_i d r'' hd
        have hd' := congrArg List.length hd
        simp [hc] at hd' hl
        split at h
        · simp at h; simp; omega
        · split at h <;> simp at h
    split at h; · simp at h
    split at h
    · unfold scanDigit at h
      split at h; · simp at h
      split at h; · simp at h; simp; omega
      split at h
      · rename_i c r' _ _
        have hl := takeWhile_length_add_dropWhile isDig r'
        have := scanTail_tok h
        simp; omega
      · rename_i c r' _ _
        have hl := takeWhile_length_add_dropWhile isDig (c :: r')
        split at h; · simp at h
        rename_i d r'' hd
        rw [hd] at hl
        split at h; · simp at h
        have := scanTail_tok h
        simp at *; omega
    split at h
    · unfold scanNumber at h
      have hl := takeWhile_length_add_dropWhile isDig (r :: rest')
      have hr : isDig r = true := by
        have := ‹49 ≤ r ∧ r ≤ 57›
        unfold isDig; rw [contains_digits]
        exact ⟨UInt8.le_trans (by decide) this.1, this.2⟩
      have h1 : 1 ≤ ((r :: rest').takeWhile isDig).length := by simp [List.takeWhile, hr]
      dsimp only at h
      split at h; · simp at h
      rename_i c r' hc
      rw [hc] at hl
      split at h
      · have hl2 := takeWhile_length_add_dropWhile isDig r'
        have := scanTail_tok h
        simp only [List.length_cons] at *; omega
      · have := scanTail_tok h
        simp only [List.length_cons] at *; omega
    · have h2 := scanAlnum_tok h
      have hd : isDelimiter r = false := by
        simp only [isDelimiter]; simp_all
      have h3 := scanAlnum_tok_lt hd h
      simp only [List.length_cons] at *; omega

theorem lexOne_stop {pos : Nat} {rest : Bytes} {n : Nat}
    (h : lexOne pos rest = .stop n) :
    (rest = [] ∧ n = 0) ∨ (∃ r, rest = 0 :: r ∧ n = 1) := by
  unfold lexOne at h
  split at h
  · simp at h; simp [h]
  · rename_i r rest'
    split at h; · simp at h
    split at h; · simp at h
    split at h; · simp at h
    split at h
    · unfold scanBinary at h
      dsimp only at h
      repeat' (split at h)
      all_goals simp at h
    split at h
    · simp at h; simp_all
    have ha : ∀ k text l, scanAlnum k text l ≠ .stop n := by
      intro k text l
      fun_induction scanAlnum k text l <;> simp_all
    have ht : ∀ t k l, scanTail t k l ≠ .stop n := by
      intro t k l
      unfold scanTail
      repeat' split
      all_goals simp_all
    split at h
    · unfold scanDigit at h
      repeat' (split at h)
      all_goals simp_all
    split at h
    · unfold scanNumber at h
      dsimp only at h
      repeat' (split at h)
      all_goals simp_all
    · exact absurd h (ha _ _ _)

theorem scanF_stable {n m pos : Nat} {rest : Bytes} (hn : rest.length < n) (hm : rest.length < m) :
    scanF n pos rest = scanF m pos rest := by
  induction n generalizing m pos rest with
  | zero => omega
  | succ n ih =>
    cases m with
    | zero => omega
    | succ m =>
      simp only [scanF]
      cases h : lexOne pos rest with
      | tok t k =>
        have := lexOne_tok h
        simp only
        rw [ih (m := m)] <;> simp <;> omega
      | _ => rfl

/-- Unfolding equation of the scanner. -/
theorem scan_eq (pos : Nat) (rest : Bytes) :
    scan pos rest = match lexOne pos rest with
      | .tok t k => (scan (pos + k) (rest.drop k)).cons ⟨t, rest.take k, pos⟩
      | .stop k => .done [⟨.eof, rest.take k, pos⟩]
      | .err m => .done [⟨.error, m, pos⟩]
      | .panic => .panic [] := by
  conv => lhs; unfold scan scanF
  cases h : lexOne pos rest with
  | tok t k =>
    have := lexOne_tok h
    simp only [scan]
    rw [scanF_stable (n := rest.length) (m := (rest.drop k).length + 1)] <;> simp <;> omega
  | _ => rfl

/-- Induction over the tokens of an input. -/
theorem scan_induction {P : Nat → Bytes → Prop}
    (h : ∀ pos rest, (∀ t k, lexOne pos rest = .tok t k → P (pos + k) (rest.drop k)) → P pos rest)
    (pos : Nat) (rest : Bytes) : P pos rest := by
  induction hn : rest.length using Nat.strongRecOn generalizing pos rest with
  | ind n ih =>
    apply h
    intro t k hk
    have := lexOne_tok hk
    apply ih _ _ _ _ rfl
    simp; omega

end Verif.Token
