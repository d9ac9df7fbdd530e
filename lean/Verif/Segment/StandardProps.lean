import Verif.Segment.RequestProps
import Verif.Segment.MoreRequests
import Verif.Segment.Plain
import Mathlib.Data.List.Forall2

/-
C124: what a reader of the HBCI syntax sees in a segment written by the library.
-/

namespace Verif.Segment

open GoLib Element Element.Spec Segment.Spec Verif.Token.Spec Token Time Domain Charset

/-! ## Specification: the HBCI syntax -/

/-- A part of an element: a text, or binary data. -/
inductive Part where
  | text (t : Str)
  | data (d : Bytes)
  deriving DecidableEq, Repr

/-- Where a reader stands: between characters, after `?`, in the length of binary data (the digits so far),
or in the data (one byte and so many more to come). -/
inductive Place where
  | plain
  | quoted
  | length (digits : Bytes)
  | data (more : Nat)

/-- One more character at the beginning of the first part. -/
def push (c : Byte) : List (List (List Part)) → Option (List (List (List Part)))
  | ((.text t :: f) :: fs) :: ss => some (((.text (Char.ofNat c.toNat :: t) :: f) :: fs) :: ss)
  | _ => none

/-- One more byte at the beginning of the first part, which is data. -/
def pushData (c : Byte) : List (List (List Part)) → Option (List (List (List Part)))
  | ((.data d :: f) :: fs) :: ss => some (((.data (c :: d) :: f) :: fs) :: ss)
  | _ => none

/-- The first part, nothing so far, is data. -/
def startData : List (List (List Part)) → Option (List (List (List Part)))
  | ((.text [] :: f) :: fs) :: ss => some (((.data [] :: f) :: fs) :: ss)
  | _ => none

/-- One more part at the beginning. -/
def newPart : List (List (List Part)) → Option (List (List (List Part)))
  | (f :: fs) :: ss => some (((.text [] :: f) :: fs) :: ss)
  | _ => none

/-- One more element at the beginning. -/
def newElement : List (List (List Part)) → Option (List (List (List Part)))
  | fs :: ss => some (([.text []] :: fs) :: ss)
  | _ => none

/-- The segments of a message, their elements and the parts of these: `'` ends a segment, `+` separates elements,
`:` separates parts, `?` takes the special meaning from the next character, `@n@` announces `n` bytes of data. -/
def reading : Bytes → Place → Option (List (List (List Part)))
  | [], .plain => some []
  | [], _ => none
  | c :: r, .quoted => (reading r .plain).bind (push c)
  | c :: r, .length ds =>
    if c = 64 then
      if ds = [] then none
      else
        match digitsVal ds with
        | 0 => (reading r .plain).bind startData
        | n + 1 => reading r (.data n)
    else if isDigit c then reading r (.length (ds ++ [c])) else none
  | c :: r, .data 0 => ((reading r .plain).bind startData).bind (pushData c)
  | c :: r, .data (n + 1) => (reading r (.data n)).bind (pushData c)
  | c :: r, .plain =>
    if c = 39 then (reading r .plain).map fun ss => [[.text []]] :: ss
    else if c = 43 then (reading r .plain).bind newElement
    else if c = 58 then (reading r .plain).bind newPart
    else if c = 63 then reading r .quoted
    else if c = 64 then reading r (.length [])
    else (reading r .plain).bind (push c)

/-- What a reader of the HBCI syntax finds in a message. -/
def standard (b : Bytes) : Option (List (List (List Part))) := reading b .plain

/-- A list without its empty parts at the end; one part remains. -/
def stripped (ps : List Part) : List Part :=
  match (ps.reverse.dropWhile fun p => p == .text []).reverse with
  | [] => [.text []]
  | r => r

mutual
/-- The parts of an element.  Decimal fractions are left out. -/
def partsOf : DE → Option (List Part)
  | .alnum v _ | .text v _ | .code v _ _ | .identification v _ | .currency v _ => some [.text v]
  | .digit v max | .countryCode v max => some [.text (toUTF8 (zeroPad max v))]
  | .number v _ | .virtualDate v _ => some [.text (toUTF8 (itoa v))]
  | .boolean v => some [.text (if v then c!"J" else c!"N")]
  | .date t => some [.text (toUTF8 (format8 t))]
  | .time t => some [.text (toUTF8 (format6 t))]
  | .float _ _ | .value _ _ => none
  | .dtaus d _ | .binary d _ => some [.data d]
  | .group _ es => (partsAll es).map fun ps => stripped ps.flatten
  | .array _ _ es => (partsAll es).map fun ps => stripped ps.flatten

/-- The parts of several elements; an absent one counts as empty. -/
def partsAll : List (Option DE) → Option (List (List Part))
  | [] => some []
  | e :: r => (partsOpt e).bind fun p => (partsAll r).map fun ps => p :: ps

def partsOpt : Option DE → Option (List Part)
  | none => some [.text []]
  | some e => partsOf e
end

/-- A list of elements without the empty ones at the end. -/
def shortened (fs : List (List Part)) : List (List Part) := (fs.reverse.dropWhile fun f => f == [.text []]).reverse

/-- A number in decimal digits. -/
def decimal (n : Int) : Str := toUTF8 (itoa n)

/-- A number in at least three decimal digits. -/
def decimal3 (n : Int) : Str := toUTF8 (zeroPad 3 n)

/-- A date as year, month and day. -/
def dateText (t : Civil) : Str := toUTF8 (format8 t)

/-- `J` or `N`. -/
def yesNo (v : Bool) : Str := if v then c!"J" else c!"N"

/-- The parts of the head of a segment. -/
def headParts (id : Str) (number version : Int) (ref : Option Int) : List Part :=
  ([id, decimal number, decimal version] ++ ref.toList.map decimal).map .text

/-- A text the end of which is not cut off. -/
def CleanText (t : Str) : Prop := t.getLast? ≠ some ':' ∧ t.getLast? ≠ some '+'

/-- A part the end of which is not cut off. -/
def Clean : Part → Prop
  | .text t => CleanText t
  | .data d => d.getLast? ≠ some 58 ∧ d.getLast? ≠ some 43

/-! ## Reading what is written -/

/-- The bytes of a part. -/
def partBytes : Part → Bytes
  | .text t => enc (escape t)
  | .data d => marshalBinary d

/-- Texts are Latin-1. -/
def Encodable : Part → Prop
  | .text t => Latin1 t
  | .data _ => True

theorem reading_text {t : Str} (hl : Latin1 t) {r : Bytes} {u : Str} {f : List Part} {fs : List (List Part)}
    {ss : List (List (List Part))} (h : reading r .plain = some (((.text u :: f) :: fs) :: ss)) :
    reading (enc (escape t) ++ r) .plain = some (((.text (t ++ u) :: f) :: fs) :: ss) := by
  induction t with
  | nil => exact h
  | cons c t ih =>
    have hc : c.toNat ≤ 255 := hl c (by simp)
    have ih := ih fun d hd => hl d (by simp [hd])
    have hb := char_back hc
    rw [escape_cons]
    split
    · have e : enc (['?', c] ++ escape t) ++ r = 63 :: UInt8.ofNat c.toNat :: (enc (escape t) ++ r) := by
        simp [enc]
      rw [e, reading]
      simp only [show ((63 : Byte) = 39) = False from by decide, show ((63 : Byte) = 43) = False from by decide,
        show ((63 : Byte) = 58) = False from by decide, if_false, if_true]
      rw [reading, ih]
      show some _ = _
      rw [hb]
      rfl
    · rename_i hs
      have e : enc ([c] ++ escape t) ++ r = UInt8.ofNat c.toNat :: (enc (escape t) ++ r) := by simp [enc]
      have hns : ¬ Escapable (UInt8.ofNat c.toNat) := fun h => by
        rw [← special_byte hc] at h
        unfold Special at h
        simp only [special, Bool.or_eq_true, beq_iff_eq, not_or] at hs
        tauto
      unfold Escapable Delim at hns
      simp only [not_or] at hns
      rw [e, reading, if_neg (by tauto), if_neg (by tauto), if_neg (by tauto), if_neg (by tauto), if_neg (by tauto), ih]
      show some _ = _
      rw [hb]
      rfl

theorem reading_data {d r : Bytes} {f : List Part} {fs : List (List Part)} {ss : List (List (List Part))}
    (h : reading r .plain = some (((.text [] :: f) :: fs) :: ss)) (hd : d ≠ []) :
    reading (d ++ r) (.data (d.length - 1)) = some (((.data d :: f) :: fs) :: ss) := by
  induction d with
  | nil => exact absurd rfl hd
  | cons c d ih =>
    cases d with
    | nil =>
      show reading (c :: r) (.data 0) = _
      rw [reading, h]
      rfl
    | cons c' d =>
      show reading (c :: (c' :: d ++ r)) (.data (d.length + 1)) = _
      rw [reading]
      have := ih (by simp)
      rw [show (c' :: d).length - 1 = d.length from rfl] at this
      rw [this]
      rfl

theorem reading_length {ds : Bytes} (hds : ∀ x ∈ ds, Digit x) (acc : Bytes) (r : Bytes) :
    reading (ds ++ r) (.length acc) = reading r (.length (acc ++ ds)) := by
  induction ds generalizing acc with
  | nil => simp
  | cons c ds ih =>
    have hc := hds c (by simp)
    have h1 : c ≠ 64 := by rintro rfl; revert hc; unfold Digit; decide
    have h2 : isDigit c = true := by rw [isDigit_iff]; exact hc
    rw [List.cons_append, reading, if_neg h1, if_pos h2, ih fun x hx => hds x (by simp [hx])]
    simp

theorem reading_binary {d r : Bytes} {f : List Part} {fs : List (List Part)} {ss : List (List (List Part))}
    (h : reading r .plain = some (((.text [] :: f) :: fs) :: ss)) :
    reading (marshalBinary d ++ r) .plain = some (((.data d :: f) :: fs) :: ss) := by
  unfold marshalBinary
  have e : 64 :: natDec d.length ++ 64 :: d ++ r = 64 :: (natDec d.length ++ 64 :: (d ++ r)) := by simp
  rw [e, reading]
  simp only [show ((64 : Byte) = 39) = False from by decide, show ((64 : Byte) = 43) = False from by decide,
    show ((64 : Byte) = 58) = False from by decide, show ((64 : Byte) = 63) = False from by decide, if_false, if_true]
  rw [reading_length fun x hx => natDec_mem hx, List.nil_append, reading, if_pos rfl,
    if_neg (natDec_digits _).1, digitsVal_natDec]
  cases d with
  | nil => simp [h, startData]
  | cons c d => exact reading_data h (by simp)

theorem reading_part {p : Part} (hp : Encodable p) {r : Bytes} {f : List Part} {fs : List (List Part)}
    {ss : List (List (List Part))} (h : reading r .plain = some (((.text [] :: f) :: fs) :: ss)) :
    reading (partBytes p ++ r) .plain = some (((p :: f) :: fs) :: ss) := by
  cases p with
  | text t =>
    have := reading_text (t := t) hp h
    rw [List.append_nil] at this
    exact this
  | data d => exact reading_binary h

/-- The bytes of an element. -/
def elementBytes (ps : List Part) : Bytes := join 58 (ps.map partBytes)

theorem reading_element {ps : List Part} (hne : ps ≠ []) (hp : ∀ p ∈ ps, Encodable p) {r : Bytes} {fs : List (List Part)}
    {ss : List (List (List Part))} (h : reading r .plain = some (([.text []] :: fs) :: ss)) :
    reading (elementBytes ps ++ r) .plain = some ((ps :: fs) :: ss) := by
  unfold elementBytes
  induction ps with
  | nil => exact absurd rfl hne
  | cons p ps ih =>
    cases ps with
    | nil => exact reading_part (hp p (by simp)) h
    | cons q ps =>
      rw [List.map_cons, join_cons _ _ (by simp), List.append_assoc]
      refine reading_part (hp p (by simp)) ?_
      rw [List.cons_append, reading]
      simp only [show ((58 : Byte) = 39) = False from by decide, show ((58 : Byte) = 43) = False from by decide,
        if_false, if_true]
      rw [ih (by simp) fun p h => hp p (by simp [h])]
      rfl

theorem reading_elements {fs : List (List Part)} (hne : fs ≠ []) (hf : ∀ f ∈ fs, f ≠ [] ∧ ∀ p ∈ f, Encodable p)
    {r : Bytes} {ss : List (List (List Part))} (h : reading r .plain = some ss) :
    reading (join 43 (fs.map elementBytes) ++ 39 :: r) .plain = some (fs :: ss) := by
  induction fs with
  | nil => exact absurd rfl hne
  | cons f fs ih =>
    have hf1 := hf f (by simp)
    cases fs with
    | nil =>
      refine reading_element hf1.1 hf1.2 ?_
      rw [reading, if_pos rfl, h]
      rfl
    | cons g fs =>
      rw [List.map_cons, join_cons _ _ (by simp), List.append_assoc]
      refine reading_element hf1.1 hf1.2 ?_
      rw [List.cons_append, reading]
      simp only [show ((43 : Byte) = 39) = False from by decide, if_false, if_true]
      rw [ih (by simp) fun f h => hf f (by simp [h])]
      rfl

/-! ## What is written -/

theorem partBytes_nil {p : Part} : partBytes p = [] ↔ p = .text [] := by
  cases p with
  | text t => simpa [partBytes] using enc_escape_nil
  | data d => simp [partBytes, marshalBinary]

theorem elementBytes_nil {f : List Part} (hf : f ≠ []) : elementBytes f = [] ↔ f = [.text []] := by
  unfold elementBytes
  cases f with
  | nil => exact absurd rfl hf
  | cons t f =>
    cases f with
    | nil => simp [join, partBytes_nil]
    | cons u f => rw [List.map_cons, join_cons _ _ (by simp)]; simp

theorem join_append (c : Byte) {a b : List Bytes} (ha : a ≠ []) (hb : b ≠ []) :
    join c (a ++ b) = join c a ++ c :: join c b := by
  induction a with
  | nil => exact absurd rfl ha
  | cons x a ih =>
    cases a with
    | nil => rw [List.singleton_append, join_cons _ _ hb]; rfl
    | cons y a =>
      rw [List.cons_append, join_cons _ _ (by simp), ih (by simp), join_cons _ _ (by simp : (y :: a) ≠ [])]
      simp

theorem join_flatten {fs : List (List Part)} (h : ∀ f ∈ fs, f ≠ []) :
    join 58 (fs.map elementBytes) = join 58 (fs.flatten.map partBytes) := by
  induction fs with
  | nil => rfl
  | cons f fs ih =>
    cases fs with
    | nil => simp [join, elementBytes]
    | cons g fs =>
      have hg : (g :: fs).flatten ≠ [] := by
        have := h g (by simp)
        simp [this]
      have hf := h f (by simp)
      rw [List.map_cons, join_cons _ _ (by simp), ih fun f hf => h f (by simp [hf]),
        show (f :: g :: fs).flatten = f ++ (g :: fs).flatten from rfl, List.map_append,
        join_append 58 (a := f.map partBytes) (by simpa using hf) (fun h => hg (List.map_eq_nil_iff.1 h))]
      rfl

theorem split_end {α : Type} (p : α → Bool) (l : List α) :
    (∀ x ∈ l, p x = true) ∨ ∃ out x tail, p x = false ∧ (∀ y ∈ tail, p y = true) ∧ l = out ++ [x] ++ tail := by
  induction l with
  | nil => simp
  | cons a l ih =>
    rcases ih with h | ⟨out, x, tail, hx, ht, rfl⟩
    · cases ha : p a with
      | true => left; intro x hx; rcases List.mem_cons.1 hx with rfl | hx <;> [exact ha; exact h x hx]
      | false => right; exact ⟨[], a, l, ha, h, by simp⟩
    · right; exact ⟨a :: out, x, tail, hx, ht, by simp⟩

theorem dropEnd_all {α : Type} {p : α → Bool} {l : List α} (h : ∀ x ∈ l, p x = true) :
    (l.reverse.dropWhile p).reverse = [] := by
  have := List.dropWhile_append_of_pos (p := p) (l₁ := l.reverse) (l₂ := []) (by simpa using h)
  rw [List.append_nil] at this
  rw [this]
  rfl

theorem dropEnd_split {α : Type} {p : α → Bool} {out : List α} {x : α} {tail : List α} (hx : p x = false)
    (h : ∀ y ∈ tail, p y = true) : ((out ++ [x] ++ tail).reverse.dropWhile p).reverse = out ++ [x] := by
  rw [List.reverse_append, List.dropWhile_append_of_pos (by simpa using h)]
  simp [hx]

theorem eq_replicate {l : List Part} (h : ∀ t ∈ l, (t == .text []) = true) : l = List.replicate l.length (.text []) := by
  rw [List.eq_replicate_iff]
  exact ⟨rfl, fun t ht => by simpa using h t ht⟩

/-- The bytes of a part do not end in the separator. -/
theorem part_last {p : Part} (hp : Encodable p) (hc : Clean p) :
    (partBytes p).getLast? ≠ some 58 ∧ (partBytes p).getLast? ≠ some 43 := by
  cases p with
  | text t =>
    have key : ∀ (x : Byte) (d : Char), Char.ofNat x.toNat = d → t.getLast? ≠ some d → (enc (escape t)).getLast? ≠ some x := by
      intro x d hx ht
      unfold enc
      rw [List.getLast?_map, escape_last]
      cases hs : t.getLast? with
      | none => simp
      | some c =>
        rw [hs] at ht
        have hc := hp c (List.mem_of_getLast? hs)
        intro hh
        simp only [Option.map_some, Option.some.injEq] at hh
        have := char_back hc
        rw [hh, hx] at this
        exact ht (by rw [this])
    exact ⟨key 58 ':' rfl hc.1, key 43 '+' rfl hc.2⟩
  | data d =>
    have key : ∀ x : Byte, x ≠ 64 → d.getLast? ≠ some x → (marshalBinary d).getLast? ≠ some x := by
      intro x hx hd
      unfold marshalBinary
      rw [List.getLast?_append]
      rcases List.eq_nil_or_concat d with rfl | ⟨i, y, rfl⟩
      · simpa using hx.symm
      · rw [List.concat_eq_append] at hd ⊢
        rw [← List.cons_append, List.getLast?_concat] at *
        simpa using hd
    exact ⟨key 58 (by decide) hc.1, key 43 (by decide) hc.2⟩

theorem stripped_split {out : List Part} {x : Part} {tail : List Part} (hx : (x == .text []) = false)
    (ht : ∀ y ∈ tail, (y == .text []) = true) : stripped (out ++ [x] ++ tail) = out ++ [x] := by
  unfold stripped
  rw [dropEnd_split (p := fun p : Part => p == .text []) hx ht]
  cases out <;> rfl

theorem trim_parts {ts : List Part} (hl : ∀ t ∈ ts, Encodable t) (h : ∀ t ∈ stripped ts, Clean t) :
    trimRight 58 (join 58 (ts.map partBytes)) = elementBytes (stripped ts) := by
  rcases split_end (fun t : Part => t == .text []) ts with ha | ⟨out, x, tail, hx, ht, rfl⟩
  · have e : stripped ts = [.text []] := by unfold stripped; rw [dropEnd_all ha]
    rw [e, eq_replicate ha, List.map_replicate, partBytes_nil.2 rfl]
    have : ∀ n, trimRight 58 (join 58 (List.replicate n [])) = [] := by
      intro n
      cases n with
      | zero => rfl
      | succ n =>
        have := join_trailing 58 [] [] n
        rw [List.replicate_succ, show ([] : Bytes) :: List.replicate n [] = [] ++ [[]] ++ List.replicate n [] by simp, this, trimRight_replicate]
        rfl
    rw [this]
    rfl
  · rw [stripped_split hx ht] at h ⊢
    have hx' : x ≠ .text [] := by simpa using hx
    have htr : trimRight 58 (partBytes x) = partBytes x :=
      trimRight_of_last (part_last (hl x (by simp)) (h x (by simp))).1
    rw [eq_replicate ht, List.map_append, List.map_append, List.map_replicate, partBytes_nil.2 rfl]
    rw [show [x].map partBytes = [partBytes x] from rfl,
      trim_join (by rw [htr]; exact fun hh => hx' (partBytes_nil.1 hh)), htr]
    unfold elementBytes
    rw [List.map_append, show [x].map partBytes = [partBytes x] from rfl, join_snoc]

theorem stripped_ne_nil (ts : List Part) : stripped ts ≠ [] := by
  unfold stripped
  split
  · simp
  · rename_i h; exact h

theorem mem_stripped {ts : List Part} {t : Part} (h : t ∈ ts) : t = .text [] ∨ t ∈ stripped ts := by
  rcases split_end (fun t : Part => t == .text []) ts with ha | ⟨out, x, tail, hx, ht, rfl⟩
  · left; simpa using ha t h
  · rw [stripped_split hx ht]
    rcases List.mem_append.1 h with h | h
    · exact Or.inr h
    · left; simpa using ht t h

theorem of_mem_stripped {ts : List Part} {t : Part} (h : t ∈ stripped ts) : t = .text [] ∨ t ∈ ts := by
  unfold stripped at h
  split at h
  · left; simpa using h
  · right
    have := List.mem_reverse.1 h
    exact List.mem_reverse.1 ((List.dropWhile_sublist _).subset this)

/-- What the bytes of an element are. -/
def Carried (b : Bytes) (ts : List Part) : Prop := ts ≠ [] ∧ (∀ t ∈ ts, Encodable t) ∧ b = elementBytes ts

theorem carried_text {v : Str} {b : Bytes} (hm : marshalText v = .ok b) : Carried b [.text v] := by
  have hl : Latin1 v := by
    by_contra hl
    rw [marshalText, toISO_panic fun hx => hl (escape_latin1.1 hx)] at hm
    simp at hm
  rw [marshalText_ok hl] at hm
  cases hm
  exact ⟨by simp, fun t ht => by rw [List.mem_singleton.1 ht]; exact hl, rfl⟩

theorem carried_plain {b : Bytes} (h : ∀ x ∈ b, Digit x ∨ x = 45 ∨ x = 74 ∨ x = 78) : Carried b [.text (toUTF8 b)] := by
  refine ⟨by simp, fun t ht => by rw [List.mem_singleton.1 ht]; exact latin1_toUTF8 b, ?_⟩
  have : escape (toUTF8 b) = toUTF8 b := by
    rw [escape_eq_self]
    intro c hc
    simp only [toUTF8, List.mem_map] at hc
    obtain ⟨x, hx, rfl⟩ := hc
    have key : ∀ x : Byte, Digit x ∨ x = 45 ∨ x = 74 ∨ x = 78 → ¬ Special (Char.ofNat x.toNat) := by
      unfold Digit Special
      decide +kernel
    exact key x (h x hx)
  simp [elementBytes, join, partBytes, this, enc_toUTF8]

theorem carried_all {ps : List Bytes} {fs : List (List Part)} (hc : List.Forall₂ Carried ps fs) :
    (∀ f ∈ fs, f ≠ [] ∧ ∀ t ∈ f, Encodable t) ∧ ps = fs.map elementBytes := by
  induction hc with
  | nil => simp
  | cons hx _ ih =>
    obtain ⟨h1, h2, rfl⟩ := hx
    obtain ⟨h3, rfl⟩ := ih
    refine ⟨?_, rfl⟩
    intro f hf
    rcases List.mem_cons.1 hf with rfl | hf
    · exact ⟨h1, h2⟩
    · exact h3 f hf

theorem clean_nil : Clean (.text []) := by simp [Clean, CleanText]

theorem carried_group {ps : List Bytes} {fs : List (List Part)} (hc : List.Forall₂ Carried ps fs)
    (h : ∀ t ∈ stripped fs.flatten, Clean t) :
    Carried (trimRight 58 (join 58 ps)) (stripped fs.flatten) := by
  obtain ⟨h1, h2⟩ := carried_all hc
  have hl : ∀ t ∈ fs.flatten, Encodable t := by
    intro t ht
    obtain ⟨f, hf, ht⟩ := List.mem_flatten.1 ht
    exact (h1 f hf).2 t ht
  refine ⟨stripped_ne_nil _, ?_, ?_⟩
  · intro t ht
    rcases of_mem_stripped ht with rfl | ht
    · exact fun c hc => absurd hc (by simp)
    · exact hl t ht
  · rw [h2, join_flatten fun f hf => (h1 f hf).1, trim_parts hl h]

theorem itoa_plain {n : Int} : ∀ x ∈ itoa n, Digit x ∨ x = 45 ∨ x = 74 ∨ x = 78 := fun x hx => by
  rcases itoa_mem hx with h | h <;> simp [h]

theorem zeroPad_plain {w : Nat} {n : Int} : ∀ x ∈ zeroPad w n, Digit x ∨ x = 45 ∨ x = 74 ∨ x = 78 := fun x hx => by
  rcases zeroPad_mem hx with h | h <;> simp [h]

mutual
theorem carried_of : (e : DE) → ∀ b ts, e.marshal = .ok b → partsOf e = some ts →
    (∀ t ∈ ts, Clean t) → Carried b ts
  | .alnum v _, b, ts, hm, hp, _ | .text v _, b, ts, hm, hp, _ | .code v _ _, b, ts, hm, hp, _
  | .identification v _, b, ts, hm, hp, _ | .currency v _, b, ts, hm, hp, _ => by
    rw [DE.marshal] at hm
    rw [partsOf] at hp
    cases hp
    exact carried_text hm
  | .digit v max, b, ts, hm, hp, _ | .countryCode v max, b, ts, hm, hp, _ => by
    rw [DE.marshal, marshalDigit] at hm
    rw [partsOf] at hp
    cases hp; cases hm
    exact carried_plain zeroPad_plain
  | .number v _, b, ts, hm, hp, _ | .virtualDate v _, b, ts, hm, hp, _ => by
    rw [DE.marshal, marshalNumber] at hm
    rw [partsOf] at hp
    cases hp; cases hm
    exact carried_plain itoa_plain
  | .boolean v, b, ts, hm, hp, _ => by
    rw [DE.marshal] at hm
    rw [partsOf] at hp
    cases hp; cases hm
    cases v
    · exact carried_plain (b := [78]) (by simp)
    · exact carried_plain (b := [74]) (by simp)
  | .date t, b, ts, hm, hp, _ => by
    rw [DE.marshal, marshalDate] at hm
    rw [partsOf] at hp
    cases hp; cases hm
    refine carried_plain fun x hx => ?_
    unfold format8 formatYear at hx
    simp only [List.mem_append] at hx
    rcases hx with (h | h) | h
    · split at h
      · rcases List.mem_cons.1 h with rfl | h
        · simp
        · exact Or.inl (pad_mem h)
      · exact Or.inl (pad_mem h)
    · exact Or.inl (pad_mem h)
    · exact Or.inl (pad_mem h)
  | .time t, b, ts, hm, hp, _ => by
    rw [DE.marshal, marshalTime] at hm
    rw [partsOf] at hp
    cases hp; cases hm
    refine carried_plain fun x hx => Or.inl ?_
    unfold format6 at hx
    simp only [List.mem_append] at hx
    rcases hx with (h | h) | h <;> exact pad_mem h
  | .float _ _, _, _, _, hp, _ | .value _ _, _, _, _, hp, _ => by simp [partsOf] at hp
  | .dtaus d _, b, ts, hm, hp, _ | .binary d _, b, ts, hm, hp, _ => by
    rw [DE.marshal] at hm
    rw [partsOf] at hp
    cases hp; cases hm
    exact ⟨by simp, by simp [Encodable], rfl⟩
  | .group _ es, b, ts, hm, hp, h | .array _ _ es, b, ts, hm, hp, h => by
    rw [DE.marshal] at hm
    rw [partsOf] at hp
    cases hps : DE.marshalAll es with
    | err => rw [hps] at hm; simp at hm
    | panic => rw [hps] at hm; simp at hm
    | ok ps =>
      cases hfs : partsAll es with
      | none => rw [hfs] at hp; simp at hp
      | some fs =>
        rw [hps] at hm
        rw [hfs] at hp
        simp only [Outcome.map', Outcome.ok.injEq, Option.map_some, Option.some.injEq] at hm hp
        subst hm hp
        refine carried_group (carried_ofAll es ps fs hps hfs fun f hf t ht => ?_) h
        rcases mem_stripped (List.mem_flatten.2 ⟨f, hf, ht⟩) with rfl | h'
        · exact clean_nil
        · exact h t h'

theorem carried_ofAll : (es : List (Option DE)) → ∀ ps fs, DE.marshalAll es = .ok ps → partsAll es = some fs →
    (∀ f ∈ fs, ∀ t ∈ f, Clean t) → List.Forall₂ Carried ps fs
  | [], ps, fs, hm, hp, _ => by
    rw [DE.marshalAll] at hm
    rw [partsAll] at hp
    cases hm; cases hp
    exact .nil
  | none :: r, ps, fs, hm, hp, h => by
    rw [DE.marshalAll, DE.marshalOpt] at hm
    rw [partsAll, partsOpt] at hp
    cases hps : DE.marshalAll r with
    | err => rw [hps] at hm; simp at hm
    | panic => rw [hps] at hm; simp at hm
    | ok ps' =>
      cases hfs : partsAll r with
      | none => rw [hfs] at hp; simp at hp
      | some fs' =>
        rw [hps] at hm
        rw [hfs] at hp
        simp only [Outcome.map', Outcome.bind, Outcome.ok.injEq, Option.map_some, Option.bind_some, Option.some.injEq] at hm hp
        subst hm hp
        refine .cons ⟨by simp, ?_, rfl⟩ (carried_ofAll r ps' fs' hps hfs fun f hf => h f (by simp [hf]))
        intro t ht
        rw [List.mem_singleton.1 ht]
        exact fun c hc => absurd hc (by simp)
  | some e :: r, ps, fs, hm, hp, h => by
    rw [DE.marshalAll, DE.marshalOpt] at hm
    rw [partsAll, partsOpt] at hp
    cases hb : e.marshal with
    | err => rw [hb] at hm; simp at hm
    | panic => rw [hb] at hm; simp at hm
    | ok b =>
    cases hf : partsOf e with
    | none => rw [hf] at hp; simp at hp
    | some f =>
    cases hps : DE.marshalAll r with
    | err => rw [hb, hps] at hm; simp at hm
    | panic => rw [hb, hps] at hm; simp at hm
    | ok ps' =>
      cases hfs : partsAll r with
      | none => rw [hfs, hf] at hp; simp at hp
      | some fs' =>
        rw [hb, hps] at hm
        rw [hf, hfs] at hp
        simp only [Outcome.map', Outcome.bind, Outcome.ok.injEq, Option.map_some, Option.bind_some, Option.some.injEq] at hm hp
        subst hm hp
        exact .cons (carried_of e b f hb hf (h f (by simp)))
          (carried_ofAll r ps' fs' hps hfs fun f hf => h f (by simp [hf]))
end

theorem carried_header (h : Header) (hl : Latin1 h.id) :
    Carried (headerBytes h) (headParts h.id h.position h.version h.ref) := by
  have hn : ∀ n : Int, partBytes (.text (decimal n)) = itoa n := fun n => by
    have := (carried_plain (itoa_plain (n := n))).2.2
    simpa [elementBytes, join, decimal] using this.symm
  refine ⟨by simp [headParts], ?_, ?_⟩
  · intro t ht
    unfold headParts at ht
    simp only [List.cons_append, List.nil_append, List.map_cons, List.mem_cons, List.mem_map] at ht
    rcases ht with rfl | rfl | rfl | ⟨x, ⟨y, _, rfl⟩, rfl⟩
    · exact hl
    all_goals exact latin1_toUTF8 _
  · have hi : partBytes (.text h.id) = enc (escape h.id) := rfl
    unfold headerBytes headParts elementBytes
    cases h.ref with
    | none => simp [join, hn, hi]
    | some r => simp [join, hn, hi]

theorem elementBytes_last {f : List Part} (hl : ∀ t ∈ f, Encodable t) (h : ∀ t ∈ f, Clean t) :
    (elementBytes f).getLast? ≠ some 43 := by
  rcases List.eq_nil_or_concat f with rfl | ⟨init, t, rfl⟩
  · simp [elementBytes, join]
  · rw [List.concat_eq_append] at *
    unfold elementBytes
    rw [List.map_append, show [t].map partBytes = [partBytes t] from rfl, join_snoc]
    have h1 : (partBytes t).getLast? ≠ some 43 := (part_last (hl t (by simp)) (h t (by simp))).2
    rw [List.getLast?_append]
    cases hp : (partBytes t).getLast? with
    | some x => rw [hp] at h1; simpa using h1
    | none =>
      simp only [Option.none_or]
      rcases List.eq_nil_or_concat (init.map partBytes) with he | ⟨i, p, he⟩
      · rw [he]; simp [pre]
      · rw [he, List.concat_eq_append, pre_append]
        simp [pre]

/-- A segment before the rest of a message is read as its head followed by the parts of every element, without the
empty ones at the end; the rest is read as if it stood alone. -/
theorem C124_segment {s : Seg} {w r : Bytes} {fs : List (List Part)} (hm : s.marshal = .ok w)
    (hp : partsAll s.elements = some fs) (hc : ∀ f ∈ fs, ∀ t ∈ f, Clean t) {ss : List (List (List Part))}
    (hr : standard r = some ss) :
    standard (w ++ r) =
      some ((headParts s.header.id s.header.position s.header.version s.header.ref :: shortened fs) :: ss) := by
  unfold Seg.marshal at hm
  cases hh : s.header.marshal with
  | err => rw [hh] at hm; simp at hm
  | panic => rw [hh] at hm; simp at hm
  | ok hb =>
  cases hps : DE.marshalAll s.elements with
  | err => rw [hh, hps] at hm; simp at hm
  | panic => rw [hh, hps] at hm; simp at hm
  | ok ps =>
    rw [hh, hps] at hm
    simp only [Outcome.map', Outcome.bind, Outcome.ok.injEq] at hm
    subst hm
    have hlh := header_latin1 hh
    obtain rfl := header_marshal_eq hh
    have hch := carried_header s.header hlh
    obtain ⟨h1, rfl⟩ := carried_all (carried_ofAll _ _ _ hps hp hc)
    generalize headParts s.header.id s.header.position s.header.version s.header.ref = hd at hch ⊢
    obtain ⟨hd1, hd2, hd3⟩ := hch
    have htrim : trimRight 43 (join 43 (headerBytes s.header :: fs.map elementBytes)) =
        join 43 ((hd :: shortened fs).map elementBytes) := by
      rcases split_end (fun f : List Part => f == [.text []]) fs with ha | ⟨out, x, tail, hx, ht, rfl⟩
      · have e : shortened fs = [] := dropEnd_all ha
        have e2 : fs.map elementBytes = List.replicate fs.length [] := by
          rw [List.eq_replicate_iff]
          refine ⟨by simp, ?_⟩
          intro b hb
          obtain ⟨f, hf, rfl⟩ := List.mem_map.1 hb
          have := ha f hf
          simp only [beq_iff_eq] at this
          rw [this]
          rfl
        have hl := (headerBytes_last s.header).1
        have h3 := trim_join (c := 43) (out := []) (p := headerBytes s.header) (k := fs.length)
          (by rw [trimRight_of_last hl]; exact headerBytes_ne_nil _)
        rw [trimRight_of_last hl] at h3
        rw [e, e2]
        simpa [pre, join, hd3] using h3
      · have e : shortened (out ++ [x] ++ tail) = out ++ [x] := dropEnd_split hx ht
        have hxm : x ∈ out ++ [x] ++ tail := by simp
        have e2 : tail.map elementBytes = List.replicate tail.length [] := by
          rw [List.eq_replicate_iff]
          refine ⟨by simp, ?_⟩
          intro b hb
          obtain ⟨f, hf, rfl⟩ := List.mem_map.1 hb
          have := ht f hf
          simp only [beq_iff_eq] at this
          rw [this]
          rfl
        have hl : (elementBytes x).getLast? ≠ some 43 :=
          elementBytes_last (h1 x hxm).2 (hc x hxm)
        have hne : elementBytes x ≠ [] := fun hh => by
          rw [elementBytes_nil (h1 x hxm).1] at hh
          simp [hh] at hx
        have h3 := trim_join (c := 43) (out := headerBytes s.header :: out.map elementBytes) (p := elementBytes x)
          (k := tail.length) (by rw [trimRight_of_last hl]; exact hne)
        rw [trimRight_of_last hl, ← join_snoc] at h3
        rw [e, List.map_append, List.map_append, e2]
        simpa [hd3] using h3
    have hsub : ∀ f ∈ shortened fs, f ∈ fs := fun f hf =>
      List.mem_reverse.1 ((List.dropWhile_sublist _).subset (List.mem_reverse.1 hf))
    rw [htrim, List.append_assoc]
    refine reading_elements (by simp) ?_ hr
    intro f hf
    rcases List.mem_cons.1 hf with rfl | hf
    · exact ⟨hd1, hd2⟩
    · exact h1 f (hsub f hf)

/-- A segment as it is read when it has the given number. -/
def shown (number : Int) (s : Seg) : List (List Part) :=
  headParts s.header.id number s.header.version s.header.ref :: shortened ((partsAll s.elements).getD [])

/-- A segment without decimal fractions, no part of which loses its end. -/
def CleanSeg (s : Seg) : Prop := ∃ fs, partsAll s.elements = some fs ∧ ∀ f ∈ fs, ∀ t ∈ f, Clean t

/-- Several segments are read as these segments, in their order and with their numbers. -/
theorem C124_message {ss : List Seg} {bs : List Bytes} (hm : ss.map Seg.marshal = bs.map .ok) (hc : ∀ s ∈ ss, CleanSeg s) :
    standard bs.flatten = some (ss.map fun s => shown s.header.position s) := by
  induction ss generalizing bs with
  | nil =>
    cases bs with
    | nil => rfl
    | cons b r => simp at hm
  | cons s ss ih =>
    cases bs with
    | nil => simp at hm
    | cons b bs =>
      simp only [List.map_cons, List.cons.injEq] at hm
      obtain ⟨fs, h1, h2⟩ := hc s (by simp)
      rw [List.flatten_cons, C124_segment hm.1 h1 h2 (ih hm.2 fun s hs => hc s (by simp [hs]))]
      simp [shown, h1]

/-! ## The requests -/

/-- An element that is one text. -/
def word (t : Str) : List Part := [.text t]

/-- The message is one segment with this identification, number, version and these elements; empty elements at the
end are not there. -/
def Reads (w : Bytes) (id : Str) (number version : Int) (fs : List (List Part)) : Prop :=
  standard w = some [headParts id number version none :: shortened fs]

theorem reads_of {s : Seg} {n : Int} {w : Bytes} {fs : List (List Part)} (hm : (s.setPosition n).marshal = .ok w)
    (hr : s.header.ref = none) (hp : partsAll s.elements = some fs) (hc : ∀ f ∈ fs, ∀ t ∈ f, Clean t) :
    Reads w s.header.id n s.header.version fs := by
  have := C124_segment hm hp hc (r := []) (ss := []) rfl
  rw [List.append_nil] at this
  unfold Reads
  rw [this]
  show some [headParts s.header.id n s.header.version s.header.ref :: _] = _
  rw [hr]

/-- The account of a request, as it is read. -/
def nationalParts (a : AccountConnection) : List Part :=
  stripped ([a.accountID, a.sub, decimal3 a.country, a.bankID].map .text)

/-- The international account of a request, as it is read. -/
def internationalParts (a : InternationalConnection) : List Part :=
  stripped ([a.iban, a.bic, a.accountID, a.sub, decimal3 a.country, a.bankID].map .text)

/-- No text of the account loses its end. -/
def CleanNational (a : AccountConnection) : Prop := CleanText a.accountID ∧ CleanText a.sub ∧ CleanText a.bankID

/-- No text of the international account loses its end. -/
def CleanInternational (a : InternationalConnection) : Prop :=
  CleanText a.iban ∧ CleanText a.bic ∧ CleanText a.accountID ∧ CleanText a.sub ∧ CleanText a.bankID

theorem clean_of_plain {b : Bytes} (h : ∀ x ∈ b, Digit x ∨ x = 45 ∨ x = 74 ∨ x = 78) : CleanText (toUTF8 b) := by
  have key : ∀ c, (toUTF8 b).getLast? = some c → c ≠ ':' ∧ c ≠ '+' := by
    intro c hc
    have := List.mem_of_getLast? hc
    simp only [toUTF8, List.mem_map] at this
    obtain ⟨x, hx, rfl⟩ := this
    have key : ∀ x : Byte, Digit x ∨ x = 45 ∨ x = 74 ∨ x = 78 → Char.ofNat x.toNat ≠ ':' ∧ Char.ofNat x.toNat ≠ '+' := by
      unfold Digit
      decide +kernel
    exact key x (h x hx)
  exact ⟨fun h => (key _ h).1 rfl, fun h => (key _ h).2 rfl⟩

theorem cleanText_nil : CleanText [] := by simp [CleanText]

theorem clean_decimal3 (n : Int) : CleanText (decimal3 n) := clean_of_plain zeroPad_plain

theorem clean_decimal (n : Int) : CleanText (decimal n) := clean_of_plain itoa_plain

theorem clean_yesNo (v : Bool) : CleanText (yesNo v) := by cases v <;> simp [CleanText, yesNo]

theorem clean_date (t : Civil) : CleanText (dateText t) := by
  refine clean_of_plain fun x hx => ?_
  unfold format8 formatYear at hx
  simp only [List.mem_append] at hx
  rcases hx with (h | h) | h
  · split at h
    · rcases List.mem_cons.1 h with rfl | h
      · simp
      · exact Or.inl (pad_mem h)
    · exact Or.inl (pad_mem h)
  · exact Or.inl (pad_mem h)
  · exact Or.inl (pad_mem h)

theorem clean_stripped {ts : List Part} (h : ∀ t ∈ ts, Clean t) : ∀ t ∈ stripped ts, Clean t := fun t ht => by
  rcases of_mem_stripped ht with rfl | ht
  · exact clean_nil
  · exact h t ht

theorem decimal3_ne_nil (n : Int) : decimal3 n ≠ [] := by
  have := zeroPad_ne_nil 3 n
  simpa [decimal3, toUTF8] using this

theorem isEmpty_decimal3 (n : Int) : (decimal3 n).isEmpty = false := by
  have := decimal3_ne_nil n
  cases h : decimal3 n with
  | nil => exact absurd h this
  | cons => rfl

theorem text_beq (t : Str) : (Part.text t == Part.text []) = t.isEmpty := by
  cases t <;> simp

theorem parts_national (a : AccountConnection) : partsOf (accountConnectionDE a) = some (nationalParts a) := by
  simp [accountConnectionDE, partsOf, partsAll, partsOpt, nationalParts, decimal3]

theorem parts_international (a : InternationalConnection) :
    partsOf (internationalDE a) = some (internationalParts a) := by
  have e : stripped [.text (decimal3 a.country), .text a.bankID] =
      if a.bankID = [] then [.text (decimal3 a.country)] else [.text (decimal3 a.country), .text a.bankID] := by
    unfold stripped
    by_cases h : a.bankID = []
    · simp [h, text_beq, isEmpty_decimal3]
    · simp [h, text_beq]
  have e2 : ∀ p q r s : Part, ∀ t : Str, t ≠ [] →
      stripped [p, q, r, s, .text t] = stripped [p, q, r, s, .text t, .text []] := by
    intro p q r s t ht
    simp [stripped, text_beq, ht]
  unfold internationalDE bankIdentification
  simp only [partsOf, partsAll, partsOpt, Option.bind_some, Option.map_some, Option.some.injEq]
  simp only [List.flatten_cons, List.flatten_nil, List.append_nil, List.cons_append, List.nil_append]
  show stripped (.text a.iban :: .text a.bic :: .text a.accountID :: .text a.sub ::
    stripped [.text (decimal3 a.country), .text a.bankID]) = _
  rw [e]
  unfold internationalParts
  split
  · rename_i h
    rw [h]
    exact e2 _ _ _ _ _ (decimal3_ne_nil _)
  · rfl

theorem clean_nationalParts {a : AccountConnection} (h : CleanNational a) : ∀ t ∈ nationalParts a, Clean t := by
  refine clean_stripped fun t ht => ?_
  simp only [List.map_cons, List.map_nil, List.mem_cons, List.not_mem_nil, or_false] at ht
  rcases ht with rfl | rfl | rfl | rfl
  · exact h.1
  · exact h.2.1
  · exact clean_decimal3 _
  · exact h.2.2

theorem clean_internationalParts {a : InternationalConnection} (h : CleanInternational a) :
    ∀ t ∈ internationalParts a, Clean t := by
  obtain ⟨h1, h2, h3, h4, h5⟩ := h
  refine clean_stripped fun t ht => ?_
  simp only [List.map_cons, List.map_nil, List.mem_cons, List.not_mem_nil, or_false] at ht
  rcases ht with rfl | rfl | rfl | rfl | rfl | rfl
  · exact h1
  · exact h2
  · exact h3
  · exact h4
  · exact clean_decimal3 _
  · exact h5

theorem parts_optional (o : Option Str) (max : Int) :
    partsOpt (o.map fun m => .alnum m max) = some (word (o.getD [])) := by cases o <;> simp [partsOpt, partsOf, word]

theorem parts_date (o : Option Civil) : partsOpt (o.map .date) = some (word ((o.map dateText).getD [])) := by
  cases o <;> simp [partsOpt, partsOf, dateText, word]

theorem clean_optional {o : Option Str} (h : ∀ m, o = some m → CleanText m) : CleanText (o.getD []) := by
  cases o with
  | none => exact cleanText_nil
  | some m => exact h m rfl

/-- The requests for a balance and for information about an account. -/
theorem read_account {id : Str} {v n : Int} {acc : DE} {ps : List Part} {all : Bool} {mark : Option Str} {w : Bytes}
    (hacc : partsOf acc = some ps) (hc : ∀ t ∈ ps, Clean t) (hmk : ∀ m, mark = some m → CleanText m)
    (hm : ((newSegment 1 id v [some acc, some (.boolean all), none, mark.map fun m => .alnum m 35]).setPosition n).marshal = .ok w) :
    Reads w id n v [ps, word (yesNo all), word [], word (mark.getD [])] := by
  have hp : partsAll [some acc, some (.boolean all), none, mark.map fun m => .alnum m 35] =
      some [ps, word (yesNo all), word [], word (mark.getD [])] := by
    rw [partsAll, partsAll, partsAll, partsAll, partsAll, parts_optional]
    simp [partsOpt, partsOf, hacc, yesNo, word]
  refine reads_of hm rfl hp fun f hf t ht => ?_
  simp only [List.mem_cons, List.not_mem_nil, or_false] at hf
  rcases hf with rfl | rfl | rfl | rfl
  · exact hc t ht
  · rw [List.mem_singleton.1 ht]; exact clean_yesNo all
  · rw [List.mem_singleton.1 ht]; exact clean_nil
  · rw [List.mem_singleton.1 ht]; exact clean_optional hmk

/-- What the bank reads in a request for balances: the account, whether all accounts are asked for, no limit,
and where to continue. -/
theorem C124_balance {v n : Int} {a : AccountConnection} {b : InternationalConnection} {all : Bool} {mark : Option Str}
    {w : Bytes} (hmk : ∀ m, mark = some m → CleanText m) :
    (CleanNational a → ((({ newBalanceRequest v a all with mark := mark } : BalanceRequest)).seg.setPosition n).marshal = .ok w →
      Reads w c!"HKSAL" n v [nationalParts a, word (yesNo all), word [], word (mark.getD [])]) ∧
    (CleanInternational b → ((({ newSepaBalanceRequest v b all with mark := mark } : BalanceRequest)).seg.setPosition n).marshal = .ok w →
      Reads w c!"HKSAL" n v [internationalParts b, word (yesNo all), word [], word (mark.getD [])]) :=
  ⟨fun hc hm => read_account (parts_national a) (clean_nationalParts hc) hmk hm,
    fun hc hm => read_account (parts_international b) (clean_internationalParts hc) hmk hm⟩

/-- The same for a request for information about accounts. -/
theorem C124_information {v n : Int} {a : AccountConnection} {b : InternationalConnection} {all : Bool}
    {mark : Option Str} {w : Bytes} (hmk : ∀ m, mark = some m → CleanText m) :
    (CleanNational a → ((({ newInformationRequest v a all with mark := mark } : InformationRequest)).seg.setPosition n).marshal = .ok w →
      Reads w c!"HKKIF" n v [nationalParts a, word (yesNo all), word [], word (mark.getD [])]) ∧
    (CleanInternational b →
      ((({ newSepaInformationRequest v b all with mark := mark } : InformationRequest)).seg.setPosition n).marshal = .ok w →
      Reads w c!"HKKIF" n v [internationalParts b, word (yesNo all), word [], word (mark.getD [])]) :=
  ⟨fun hc hm => read_account (parts_national a) (clean_nationalParts hc) hmk hm,
    fun hc hm => read_account (parts_international b) (clean_internationalParts hc) hmk hm⟩

theorem read_transactions {v n : Int} {acc : DE} {ps : List Part} {all : Bool} {start stop : Option Civil}
    {mark : Option Str} {w : Bytes} (hacc : partsOf acc = some ps) (hc : ∀ t ∈ ps, Clean t)
    (hmk : ∀ m, mark = some m → CleanText m)
    (hm : ((TransactionRequest.seg ⟨v, acc, all, start, stop, mark⟩).setPosition n).marshal = .ok w) :
    Reads w c!"HKKAZ" n v [ps, word (yesNo all),
      word ((start.map dateText).getD []), word ((stop.map dateText).getD []), word [], word (mark.getD [])] := by
  have hp : partsAll (TransactionRequest.seg ⟨v, acc, all, start, stop, mark⟩).elements =
      some [ps, word (yesNo all), word ((start.map dateText).getD []), word ((stop.map dateText).getD []), word [], word (mark.getD [])] := by
    have e : partsOpt (mark.map fun m => .alnum m (strLen m)) = some (word (mark.getD [])) := by
      cases mark <;> simp [partsOpt, partsOf, word]
    show partsAll [some acc, some (.boolean all), start.map .date, stop.map .date, none,
      mark.map fun m => .alnum m (strLen m)] = _
    rw [partsAll, partsAll, partsAll, partsAll, partsAll, partsAll, partsAll, parts_date, parts_date, e]
    simp [partsOpt, partsOf, hacc, yesNo, word]
  refine reads_of hm rfl hp fun f hf t ht => ?_
  have hd : ∀ o : Option Civil, CleanText ((o.map dateText).getD []) := by
    intro o
    cases o with
    | none => exact cleanText_nil
    | some t => exact clean_date t
  simp only [List.mem_cons, List.not_mem_nil, or_false] at hf
  rcases hf with rfl | rfl | rfl | rfl | rfl | rfl
  · exact hc t ht
  · rw [List.mem_singleton.1 ht]; exact clean_yesNo all
  · rw [List.mem_singleton.1 ht]; exact hd _
  · rw [List.mem_singleton.1 ht]; exact hd _
  · rw [List.mem_singleton.1 ht]; exact clean_nil
  · rw [List.mem_singleton.1 ht]; exact clean_optional hmk

/-- What the bank reads in a request for transactions: the account, whether all accounts are asked for, the first
and the last day, no limit, and where to continue. -/
theorem C124_transactions {v n : Int} {a : AccountConnection} {b : InternationalConnection} {all : Bool}
    {start stop : Option Civil} {mark : Option Str} {w : Bytes} (hmk : ∀ m, mark = some m → CleanText m) :
    (CleanNational a →
      ((({ newTransactionRequest v a all with start := start, stop := stop, mark := mark } : TransactionRequest)).seg.setPosition n).marshal = .ok w →
      Reads w c!"HKKAZ" n v [nationalParts a, word (yesNo all),
        word ((start.map dateText).getD []), word ((stop.map dateText).getD []), word [], word (mark.getD [])]) ∧
    (CleanInternational b →
      ((({ newSepaTransactionRequest v b all with start := start, stop := stop, mark := mark } : TransactionRequest)).seg.setPosition n).marshal = .ok w →
      Reads w c!"HKKAZ" n v [internationalParts b, word (yesNo all),
        word ((start.map dateText).getD []), word ((stop.map dateText).getD []), word [], word (mark.getD [])]) :=
  ⟨fun hc hm => read_transactions (parts_national a) (clean_nationalParts hc) hmk hm,
    fun hc hm => read_transactions (parts_international b) (clean_internationalParts hc) hmk hm⟩

/-- What the bank reads in a request for the status protocol. -/
theorem C124_status {v n : Int} {start stop : Civil} {k : Int} {mark : Str} {w : Bytes} (hmk : CleanText mark)
    (hm : ((newStatusRequest v start stop k mark).setPosition n).marshal = .ok w) :
    Reads w c!"HKPRO" n v [word (dateText start), word (dateText stop), word (decimal k), word mark] := by
  have hp : partsAll (newStatusRequest v start stop k mark).elements =
      some [word (dateText start), word (dateText stop), word (decimal k), word mark] := by
    show partsAll [some (.date start), some (.date stop), some (.number k 4),
      if mark = [] then none else some (.alnum mark 35)] = _
    by_cases h : mark = [] <;> simp [partsAll, partsOpt, partsOf, h, dateText, decimal, word]
  refine reads_of hm rfl hp fun f hf t ht => ?_
  simp only [List.mem_cons, List.not_mem_nil, or_false] at hf
  rcases hf with rfl | rfl | rfl | rfl
  · rw [List.mem_singleton.1 ht]; exact clean_date _
  · rw [List.mem_singleton.1 ht]; exact clean_date _
  · rw [List.mem_singleton.1 ht]; exact clean_decimal _
  · rw [List.mem_singleton.1 ht]; exact hmk

/-- What the bank reads when a TAN is asked for (version 6), and when one is handed in. -/
theorem C124_tan {id job : Str} {n : Int} {more : Bool} {w : Bytes} :
    (CleanText id → ((tanRequestV6 id).setPosition n).marshal = .ok w →
      Reads w c!"HKTAN" n 6 [word c!"4", word id]) ∧
    (CleanText job → ((tanRequestProcess2 job more).setPosition n).marshal = .ok w →
      Reads w c!"HKTAN" n 1 [word c!"2", word [], word job, word [], word (yesNo more)]) := by
  constructor
  · intro hc hm
    have hp : partsAll (tanRequestV6 id).elements = some [word c!"4", word id, word [], word [], word [], word [], word []] := by
      show partsAll [some (.alnum c!"4" 1), some (.alnum id 6), none, none, none, none, none] = _
      simp [partsAll, partsOpt, partsOf, word]
    have := reads_of hm rfl hp (by
      intro f hf t ht
      simp only [List.mem_cons, List.not_mem_nil, or_false] at hf
      rcases hf with rfl | rfl | rfl | rfl | rfl | rfl | rfl <;> rw [List.mem_singleton.1 ht]
      · simp [Clean, CleanText]
      · exact hc
      all_goals exact clean_nil)
    unfold Reads at this ⊢
    rw [this]
    simp [shortened, word, tanRequestV6, newSegment, newHeader]
  · intro hc hm
    have hp : partsAll (tanRequestProcess2 job more).elements = some [word c!"2", word [], word job, word [], word (yesNo more), word []] := by
      show partsAll [some (.alnum c!"2" 1), none, some (.alnum job 35), none, some (.boolean more), none] = _
      simp [partsAll, partsOpt, partsOf, yesNo, word]
    have := reads_of hm rfl hp (by
      intro f hf t ht
      simp only [List.mem_cons, List.not_mem_nil, or_false] at hf
      rcases hf with rfl | rfl | rfl | rfl | rfl | rfl <;> rw [List.mem_singleton.1 ht]
      · simp [Clean, CleanText]
      · exact clean_nil
      · exact hc
      · exact clean_nil
      · exact clean_yesNo more
      · exact clean_nil)
    unfold Reads at this ⊢
    rw [this]
    cases more <;> simp [shortened, word, tanRequestProcess2, newSegment, newHeader, yesNo]

/-! ## Different requests look different -/

theorem toUTF8_injective {a b : Bytes} (h : toUTF8 a = toUTF8 b) : a = b := by
  rw [← enc_toUTF8 a, h, enc_toUTF8]

theorem natDec_injective {a b : Nat} (h : natDec a = natDec b) : a = b := by
  have := congrArg digitsVal h
  rwa [digitsVal_natDec, digitsVal_natDec] at this

theorem decimal_inj {m n : Int} (h : decimal m = decimal n) : m = n := by
  have h := toUTF8_injective h
  have hd : ∀ (k : Nat) (t : Bytes), natDec k ≠ 45 :: t := by
    intro k t hk
    have := natDec_mem (n := k) (b := 45) (by rw [hk]; simp)
    revert this
    unfold Digit
    decide
  unfold itoa at h
  split at h <;> split at h
  · simp only [List.cons.injEq, true_and] at h
    have := natDec_injective h
    omega
  · exact absurd h.symm (hd _ _)
  · exact absurd h (hd _ _)
  · have := natDec_injective h
    omega

theorem decimal3_inj {m n : Int} (h : decimal3 m = decimal3 n) : m = n := by
  have h := toUTF8_injective h
  have hd : ∀ (j k : Nat) (t : Bytes), List.replicate j 48 ++ natDec k ≠ 45 :: t := by
    intro j k t hk
    have : (45 : Byte) ∈ List.replicate j 48 ++ natDec k := by rw [hk]; simp
    rcases List.mem_append.1 this with h | h
    · simp at h
    · have := natDec_mem h
      revert this
      unfold Digit
      decide
  have key : ∀ (j k a b : Nat), List.replicate j 48 ++ natDec a = List.replicate k 48 ++ natDec b → a = b := by
    intro j k a b h
    have := congrArg digitsVal h
    rwa [digitsVal_zeros, digitsVal_zeros, digitsVal_natDec, digitsVal_natDec] at this
  unfold zeroPad at h
  dsimp only at h
  split at h <;> split at h
  · simp only [List.cons.injEq, true_and] at h
    have := key _ _ _ _ h
    omega
  · exact absurd h.symm (hd _ _ _)
  · exact absurd h (hd _ _ _)
  · have := key _ _ _ _ h
    omega

theorem nationalParts_eq (a : AccountConnection) : nationalParts a =
    (if a.bankID = [] then [a.accountID, a.sub, decimal3 a.country]
      else [a.accountID, a.sub, decimal3 a.country, a.bankID]).map .text := by
  unfold nationalParts stripped
  by_cases h : a.bankID = []
  · simp [h, text_beq, isEmpty_decimal3]
  · simp [h, text_beq]

theorem nationalParts_inj {a b : AccountConnection} (h : nationalParts a = nationalParts b) : a = b := by
  rw [nationalParts_eq, nationalParts_eq] at h
  obtain ⟨a1, a2, a3, a4⟩ := a
  obtain ⟨b1, b2, b3, b4⟩ := b
  simp only at h
  replace h := List.map_injective_iff.2 (fun _ _ => Part.text.inj) h
  split at h <;> split at h <;> simp only [List.cons.injEq, List.cons_ne_nil, List.nil_eq, and_false, and_true, reduceCtorEq] at h
  · obtain ⟨rfl, rfl, h⟩ := h
    rename_i h1 h2
    rw [decimal3_inj h, h1, h2]
  · obtain ⟨rfl, rfl, h, rfl⟩ := h
    rw [decimal3_inj h]

theorem shortened_account (ps : List Part) (all : Bool) (m : Str) : shortened [ps, word (yesNo all), word [], word m] =
    if m = [] then [ps, word (yesNo all)] else [ps, word (yesNo all), word [], word m] := by
  unfold shortened
  by_cases h : m = []
  · cases all <;> simp [h, yesNo, word]
  · simp [h, word]

/-- Two requests for balances that are the same on the wire ask for the same. -/
theorem C124_balance_same {v v' n n' : Int} {a a' : AccountConnection} {all all' : Bool} {mark mark' : Option Str} {w : Bytes}
    (hc : CleanNational a) (hc' : CleanNational a') (hmk : ∀ m, mark = some m → CleanText m)
    (hmk' : ∀ m, mark' = some m → CleanText m)
    (hm : (({ newBalanceRequest v a all with mark := mark } : BalanceRequest).seg.setPosition n).marshal = .ok w)
    (hm' : (({ newBalanceRequest v' a' all' with mark := mark' } : BalanceRequest).seg.setPosition n').marshal = .ok w) :
    n = n' ∧ v = v' ∧ a = a' ∧ all = all' ∧ mark.getD [] = mark'.getD [] := by
  have h := (C124_balance (b := ⟨[], [], [], [], 0, []⟩) hmk).1 hc hm
  have h' := (C124_balance (b := ⟨[], [], [], [], 0, []⟩) hmk').1 hc' hm'
  unfold Reads at h h'
  rw [h'] at h
  simp only [Option.some.injEq, List.cons.injEq, and_true] at h
  obtain ⟨h1, h2⟩ := h
  have hy : ∀ x y : Bool, yesNo x = yesNo y → x = y := by
    intro x y; cases x <;> cases y <;> simp [yesNo]
  have hw : ∀ x y : Str, word x = word y → x = y := by
    intro x y h; simpa [word] using h
  simp only [headParts, List.cons_append, List.cons.injEq, List.nil_append, List.map_cons, Part.text.injEq] at h1
  have hn : n = n' := decimal_inj h1.2.1.symm
  have hv : v = v' := decimal_inj h1.2.2.1.symm
  rw [shortened_account, shortened_account] at h2
  split at h2 <;> split at h2 <;> simp only [List.cons.injEq, List.cons_ne_nil, List.nil_eq, and_false, and_true, reduceCtorEq] at h2
  · rename_i e1 e2
    exact ⟨hn, hv, nationalParts_inj h2.1.symm, hy _ _ (hw _ _ h2.2.symm), by rw [e1, e2]⟩
  · exact ⟨hn, hv, nationalParts_inj h2.1.symm, hy _ _ (hw _ _ h2.2.1.symm), hw _ _ h2.2.2.2.symm⟩

/-! ## A concrete case -/

/-- An account with a text that needs quoting. -/
def sampleNational : AccountConnection := ⟨c!"10+2'3", [], 280, c!"10020030"⟩

theorem sampleNational_clean : CleanNational sampleNational := by
  simp [CleanNational, CleanText, sampleNational]

set_option maxRecDepth 20000 in
example : ({ newBalanceRequest 5 sampleNational true with mark := some c!"a:b" } : BalanceRequest).seg.marshal =
    .ok b!"HKSAL:1:5+10?+2?'3::280:10020030+J++a?:b'" := by decide +kernel

set_option maxRecDepth 20000 in
example : standard b!"HKSAL:1:5+10?+2?'3::280:10020030+J++a?:b'" =
    some [[[.text c!"HKSAL", .text c!"1", .text c!"5"],
      [.text c!"10+2'3", .text [], .text c!"280", .text c!"10020030"], [.text c!"J"], [.text []], [.text c!"a:b"]]] := by
  decide +kernel

set_option maxRecDepth 20000 in
/-- A mark that ends in `+` takes the end of the segment with it: the condition cannot be dropped. -/
theorem C124_cut : ∃ w, ({ newBalanceRequest 5 sampleNational true with mark := some c!"a+" } : BalanceRequest).seg.marshal =
    .ok w ∧ standard w = none :=
  ⟨b!"HKSAL:1:5+10?+2?'3::280:10020030+J++a?'", by decide +kernel, by decide +kernel⟩

set_option maxRecDepth 20000 in
example : (newSepaInformationRequest 4 ⟨c!"DE01", c!"BIC", [], [], 280, []⟩ false).seg.marshal =
    .ok b!"HKKIF:1:4+DE01:BIC:::280+N'" := by decide +kernel

set_option maxRecDepth 20000 in
example : (newStatusRequest 4 ⟨2026, 11, 16, 0, 0, 0, 0⟩ ⟨2026, 11, 17, 0, 0, 0, 0⟩ 5 []).marshal =
    .ok b!"HKPRO:1:4+20261116+20261117+5'" := by decide +kernel

set_option maxRecDepth 20000 in
example : (tanRequestV6 c!"HKSAL").marshal = .ok b!"HKTAN:1:6+4+HKSAL'" ∧
    (tanRequestProcess2 c!"r?1" false).marshal = .ok b!"HKTAN:1:1+2++r??1++N'" := by decide +kernel

set_option maxRecDepth 20000 in
example : ({ newTransactionRequest 5 sampleNational false with
      start := some ⟨2026, 1, 2, 0, 0, 0, 0⟩, stop := some ⟨2026, 2, 3, 0, 0, 0, 0⟩ } : TransactionRequest).seg.marshal =
    .ok b!"HKKAZ:1:5+10?+2?'3::280:10020030+N+20260102+20260203'" := by decide +kernel

end Verif.Segment
