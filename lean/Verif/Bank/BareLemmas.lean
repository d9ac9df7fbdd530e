import Verif.Message.Bare
import Verif.Bank.Envelope
import Verif.Dialog.DeliveryProps

/-
Which bytes stand unescaped in what the program writes, and how such texts are read.
-/

namespace Verif.Token

open GoLib Token.Spec

variable {p : Byte → Bool}

theorem NoBare.prefix {e : Bool} {a b : Bytes} (h : NoBare p e b) (hab : a <+: b) : NoBare p e a := by
  obtain ⟨c, rfl⟩ := hab
  exact ((noBare_append _ _ _).1 h).1

/-- Two texts with a separator between them. -/
theorem NoBare.sep {a b : Bytes} {d : Byte} (ha : NoBare p false a) (hb : NoBare p false b) (hd : p d = false) (h63 : d ≠ 63) :
    NoBare p false (a ++ d :: b) := by
  rw [noBare_append]
  refine ⟨ha, ?_⟩
  have : (d == 63) = false := by simpa using h63
  cases escAfter false a
  · exact ⟨hd, by rw [this]; exact hb⟩
  · exact hb

theorem noBare_join {d : Byte} (hd : p d = false) (h63 : d ≠ 63) : {l : List Bytes} → (∀ a ∈ l, NoBare p false a) →
    NoBare p false (join d l)
  | [], _ => trivial
  | [a], h => by simpa [join] using h a (by simp)
  | a :: b :: l, h => by
    show NoBare p false (a ++ d :: join d (b :: l))
    exact (h a (by simp)).sep (noBare_join hd h63 fun x hx => h x (by simp [hx])) hd h63

/-- Plain bytes. -/
theorem noBare_plain {b : Bytes} (h : ∀ c ∈ b, p c = false ∧ c ≠ 63) : NoBare p false b ∧ escAfter false b = false := by
  induction b with
  | nil => exact ⟨trivial, rfl⟩
  | cons c b ih =>
    obtain ⟨h1, h2⟩ := h c (by simp)
    have : (c == 63) = false := by simpa using h2
    have ih := ih fun x hx => h x (by simp [hx])
    exact ⟨⟨h1, by rw [this]; exact ih.1⟩, by simp only [escAfter, this]; exact ih.2⟩

/-- Balanced texts: nothing of the set stands unescaped, and no escape character at the end is left over. -/
def Even (p : Byte → Bool) (b : Bytes) : Prop := NoBare p false b ∧ escAfter false b = false

theorem Even.append {a b : Bytes} (ha : Even p a) (hb : Even p b) : Even p (a ++ b) := by
  unfold Even at *
  rw [noBare_append, escAfter_append, ha.2]
  exact ⟨⟨ha.1, hb.1⟩, hb.2⟩

theorem Even.cons {b : Bytes} {d : Byte} (hd : p d = false) (h63 : d ≠ 63) (hb : Even p b) : Even p (d :: b) := by
  have : (d == 63) = false := by simpa using h63
  exact ⟨⟨hd, by rw [this]; exact hb.1⟩, by simp only [escAfter, this]; exact hb.2⟩

theorem Even.nil : Even p [] := ⟨trivial, rfl⟩

theorem Even.mono {q : Byte → Bool} (h : ∀ c, q c = true → p c = true) {b : Bytes} (hb : Even p b) : Even q b :=
  ⟨hb.1.mono h, hb.2⟩

/-- The last text may be anything. -/
theorem NoBare.after {a b : Bytes} (ha : Even p a) (hb : NoBare p false b) : NoBare p false (a ++ b) := by
  rw [noBare_append, ha.2]
  exact ⟨ha.1, hb⟩

end Verif.Token

namespace Verif.Message

open GoLib Element Element.Spec Segment Segment.Spec Token Token.Spec Message.Spec

/-- The bytes that carry syntax, but for the escape character. -/
def loud (c : Byte) : Bool := c == 43 || c == 39 || c == 58 || c == 64

/-- Terminator and binary mark. -/
def harsh (c : Byte) : Bool := c == 39 || c == 64

theorem loud_of_harsh (c : Byte) (h : harsh c = true) : loud c = true := by
  simp only [harsh, loud, Bool.or_eq_true] at *; tauto

/-- A text as it is transmitted. -/
theorem noBare_enc {s : Str} (hl : Latin1 s) : Even loud (enc (escape s)) := by
  induction s with
  | nil => exact ⟨trivial, rfl⟩
  | cons c s ih =>
    have ih := ih fun x hx => hl x (by simp [hx])
    have hc : c.toNat ≤ 255 := hl c (by simp)
    have e : enc (escape (c :: s)) = enc (escape [c]) ++ enc (escape s) := by simp [enc, escape]
    have key : NoBare loud false (enc (escape [c])) ∧ escAfter false (enc (escape [c])) = false := by
      by_cases hs : special c = true
      · have : enc (escape [c]) = [63, UInt8.ofNat c.toNat] := by simp [escape, enc, hs]
        rw [this]
        simp [NoBare, escAfter, loud]
      · have : enc (escape [c]) = [UInt8.ofNat c.toNat] := by simp [escape, enc, hs]
        rw [this]
        apply noBare_plain
        intro b hb
        simp only [List.mem_singleton] at hb
        subst hb
        have hk : ∀ k : Char, k.toNat ≤ 255 → c ≠ k → UInt8.ofNat c.toNat ≠ UInt8.ofNat k.toNat := by
          intro k hk hn he
          apply hn
          have := congrArg UInt8.toNat he
          simp only [UInt8.toNat_ofNat'] at this
          rw [Nat.mod_eq_of_lt (by omega), Nat.mod_eq_of_lt (by omega)] at this
          exact Char.ext (UInt32.toNat_inj.1 this)
        simp only [special, Bool.or_eq_true, beq_iff_eq, not_or] at hs
        obtain ⟨⟨⟨⟨h1, h2⟩, h3⟩, h4⟩, h5⟩ := hs
        have a1 := hk '?' (by decide) h1
        have a2 := hk '@' (by decide) h2
        have a3 := hk '\'' (by decide) h3
        have a4 := hk ':' (by decide) h4
        have a5 := hk '+' (by decide) h5
        simp only [loud]
        refine ⟨?_, a1⟩
        have b2 : (UInt8.ofNat c.toNat == 64) = false := by simpa using a2
        have b3 : (UInt8.ofNat c.toNat == 39) = false := by simpa using a3
        have b4 : (UInt8.ofNat c.toNat == 58) = false := by simpa using a4
        have b5 : (UInt8.ofNat c.toNat == 43) = false := by simpa using a5
        simp [b2, b3, b4, b5]
    rw [e]
    exact Even.append key ih

theorem noBare_digits {b : Bytes} (h : ∀ c ∈ b, Spec.Digit c ∨ c = 45 ∨ c = 44 ∨ c = 74 ∨ c = 78) :
    Even loud b := by
  apply noBare_plain
  intro c hc
  have : ∀ c : Byte, (48 ≤ c.toNat ∧ c.toNat ≤ 57) ∨ c = 45 ∨ c = 44 ∨ c = 74 ∨ c = 78 → loud c = false ∧ c ≠ 63 := by
    unfold loud; decide +kernel
  exact this c (h c hc)

/-- A number on the wire. -/
theorem noBare_itoa (n : Int) : Even loud (itoa n) :=
  noBare_digits fun _ hc => (itoa_mem hc).imp id Or.inl

theorem noBare_zeroPad (w : Nat) (n : Int) : Even loud (zeroPad w n) :=
  noBare_digits fun _ hc => (zeroPad_mem hc).imp id Or.inl

/-- An element without binary data in it; the fraction of a number consists of digits. -/
inductive Wordy : DE → Prop where
  | alnum (v : Str) (max : Int) : Wordy (.alnum v max)
  | text (v : Str) (max : Int) : Wordy (.text v max)
  | digit (v : Int) (max : Nat) : Wordy (.digit v max)
  | number (v : Int) (max : Int) : Wordy (.number v max)
  | float {v : Dec} (max : Int) : (∀ c ∈ v.frac, Spec.Digit c) → Wordy (.float v max)
  | boolean (v : Bool) : Wordy (.boolean v)
  | code (v : Str) (max : Int) (set : List Str) : Wordy (.code v max set)
  | date (t : Time.Civil) : Wordy (.date t)
  | virtualDate (v : Int) (max : Int) : Wordy (.virtualDate v max)
  | time (t : Time.Civil) : Wordy (.time t)
  | identification (v : Str) (max : Int) : Wordy (.identification v max)
  | countryCode (v : Int) (max : Nat) : Wordy (.countryCode v max)
  | currency (v : Str) (max : Int) : Wordy (.currency v max)
  | value {v : Dec} (max : Int) : (∀ c ∈ v.frac, Spec.Digit c) → Wordy (.value v max)
  | group {n : Nat} {es : List (Option DE)} : (∀ e, some e ∈ es → Wordy e) → Wordy (.group n es)
  | array {n m : Nat} {es : List (Option DE)} : (∀ e, some e ∈ es → Wordy e) → Wordy (.array n m es)

theorem noBare_text {v : Str} {b : Bytes} (h : marshalText v = .ok b) : Even loud b := by
  obtain ⟨h1, rfl⟩ := Bank.marshalText_latin1 h
  exact noBare_enc h1

theorem noBare_float {x : Dec} (h : ∀ c ∈ x.frac, Spec.Digit c) :
    Even loud (floatString x) := by
  apply noBare_digits
  intro b hb
  rw [floatString_eq] at hb
  rcases List.mem_append.1 hb with hb | hb
  · unfold Dec.head at hb
    rcases List.mem_append.1 hb with hb | hb
    · split at hb
      · simp at hb; simp [hb]
      · simp at hb
    · exact Or.inl (natDec_mem hb)
  · rcases List.mem_cons.1 hb with rfl | hb
    · simp
    · exact Or.inl (h b hb)

/-- No terminator, `+` or `@` stands unescaped in the bytes of such an element. -/
def coarse (c : Byte) : Bool := c == 43 || c == 39 || c == 64

theorem loud_of_coarse (c : Byte) (h : coarse c = true) : loud c = true := by
  simp only [coarse, loud, Bool.or_eq_true] at *; tauto

theorem coarse_of_harsh (c : Byte) (h : harsh c = true) : coarse c = true := by
  simp only [coarse, harsh, Bool.or_eq_true] at *; tauto

theorem trimRight_isPrefix (c : Byte) (b : Bytes) : trimRight c b <+: b := by
  obtain ⟨k, hk⟩ := trimRight_spec c b
  exact ⟨_, hk.symm⟩

theorem noBare_all {es : List (Option DE)} {ps : List Bytes} (h : DE.marshalAll es = .ok ps)
    (hw : ∀ e, some e ∈ es → ∀ b, e.marshal = .ok b → NoBare coarse false b) : ∀ q ∈ ps, NoBare coarse false q := by
  rw [marshalAll_ok] at h
  induction es generalizing ps with
  | nil => simp at h; simp [h]
  | cons e es ih =>
    cases ps with
    | nil => simp at h
    | cons q ps =>
      simp only [List.map_cons, List.cons.injEq] at h
      intro x hx
      rcases List.mem_cons.1 hx with rfl | hx
      · cases e with
        | none => simp [DE.marshalOpt] at h; rw [h.1]; trivial
        | some e => exact hw e (by simp) _ (by simpa [DE.marshalOpt] using h.1)
      · exact ih h.2 (fun e he => hw e (by simp [he])) x hx

theorem noBare_marshal {e : DE} (hw : Wordy e) : ∀ {b : Bytes}, e.marshal = .ok b → NoBare coarse false b := by
  have lc : ∀ {b : Bytes}, Even loud b → NoBare coarse false b :=
    fun h => h.1.mono loud_of_coarse
  have grp : ∀ {es : List (Option DE)} {b : Bytes}, (∀ e, some e ∈ es → ∀ {b : Bytes}, e.marshal = .ok b → NoBare coarse false b) →
      ((DE.marshalAll es).map' fun ps => trimRight 58 (join 58 ps)) = .ok b → NoBare coarse false b := by
    intro es b ih hm
    obtain ⟨ps, h1, rfl⟩ := Dialog.map_ok hm
    exact (noBare_join rfl (by decide) (noBare_all h1 fun e he b hb => ih e he hb)).prefix (trimRight_isPrefix _ _)
  induction hw with
  | alnum v m | text v m | code v m s | identification v m | currency v m =>
    intro b hm; rw [DE.marshal] at hm; exact lc (noBare_text hm)
  | digit v m | countryCode v m => intro b hm; rw [DE.marshal] at hm; cases hm; exact lc (noBare_zeroPad _ _)
  | number v m | virtualDate v m => intro b hm; rw [DE.marshal] at hm; cases hm; exact lc (noBare_itoa _)
  | float m h | value m h => intro b hm; rw [DE.marshal] at hm; cases hm; exact lc (noBare_float h)
  | boolean v => intro b hm; rw [DE.marshal] at hm; cases hm; exact lc (noBare_digits (by cases v <;> simp [marshalBool]))
  | date t =>
    intro b hm
    rw [DE.marshal] at hm; cases hm
    refine lc (noBare_digits fun b hb => ?_)
    unfold marshalDate Time.format8 Time.formatYear at hb
    rcases List.mem_append.1 hb with hb | hb
    · rcases List.mem_append.1 hb with hb | hb
      · split at hb
        · rcases List.mem_cons.1 hb with rfl | hb
          · simp
          · exact Or.inl (pad_mem hb)
        · exact Or.inl (pad_mem hb)
      · exact Or.inl (pad_mem hb)
    · exact Or.inl (pad_mem hb)
  | time t =>
    intro b hm
    rw [DE.marshal] at hm; cases hm
    refine lc (noBare_digits fun b hb => ?_)
    unfold marshalTime Time.format6 at hb
    rcases List.mem_append.1 hb with hb | hb
    · rcases List.mem_append.1 hb with hb | hb
      · exact Or.inl (pad_mem hb)
      · exact Or.inl (pad_mem hb)
    · exact Or.inl (pad_mem hb)
  | group _ ih => intro b hm; rw [DE.marshal] at hm; exact grp ih hm
  | array _ ih => intro b hm; rw [DE.marshal] at hm; exact grp ih hm

/-- A segment all of whose elements are such. -/
def WordySeg (s : Seg) : Prop := ∀ e, some e ∈ s.elements → Wordy e

theorem even_headerBytes {h : Header} (hid : Latin1 h.id) : Even coarse (headerBytes h) := by
  have lc : ∀ {b : Bytes}, Even loud b → Even coarse b := fun h => h.mono loud_of_coarse
  have n : ∀ k, Even coarse (58 :: itoa k) := fun k => .cons rfl (by decide) (lc (noBare_itoa k))
  unfold headerBytes
  refine (((lc (noBare_enc hid)).append (n _)).append (n _)).append ?_
  cases h.ref with
  | none => exact .nil
  | some r => exact n r

/-- The bytes of such a segment: its cells and the terminator. -/
theorem seg_cells {s : Seg} {b : Bytes} (hw : WordySeg s) (h : s.marshal = .ok b) :
    ∃ ps, ps.length = s.elements.length ∧ (∀ q ∈ ps, NoBare coarse false q) ∧ DE.marshalAll s.elements = .ok ps ∧ Latin1 s.header.id ∧
      b = trimRight 43 (join 43 (headerBytes s.header :: ps)) ++ [39] := by
  unfold Seg.marshal at h
  obtain ⟨hb, h1, h2⟩ := Dialog.bind_ok h
  obtain ⟨ps, h3, rfl⟩ := Dialog.map_ok h2
  refine ⟨ps, ?_, noBare_all h3 fun e he b hb => noBare_marshal (hw e he) hb, h3, header_latin1 h1, by rw [header_marshal_eq h1]⟩
  rw [marshalAll_ok] at h3
  simpa using (congrArg List.length h3).symm

theorem noBare_seg {s : Seg} {b : Bytes} (hw : WordySeg s) (h : s.marshal = .ok b) :
    ∃ t, b = t ++ [39] ∧ headerBytes s.header <+: t ∧ NoBare harsh false t := by
  obtain ⟨ps, _, h2, _, h4, h5⟩ := seg_cells hw h
  refine ⟨_, h5, ?_, ?_⟩
  · have : ∃ y, join 43 (headerBytes s.header :: ps) = headerBytes s.header ++ y := by
      cases ps with
      | nil => exact ⟨[], by simp [join]⟩
      | cons p ps => exact ⟨_, rfl⟩
    obtain ⟨y, hy⟩ := this
    rw [hy]
    exact Dialog.trimRight_prefix (headerBytes_last _).1 y
  · refine NoBare.prefix (noBare_join rfl (by decide) fun q hq => ?_) (trimRight_isPrefix _ _)
    rcases List.mem_cons.1 hq with rfl | hq
    · exact (even_headerBytes h4).1.mono coarse_of_harsh
    · exact (h2 q hq).mono coarse_of_harsh

/-! ## Reading -/

/-- The cells a text is divided into by an unescaped separator. -/
def cells (d : Byte) : Bool → Bytes → Bytes → List Bytes
  | _, [], cur => [cur]
  | true, c :: r, cur => cells d false r (cur ++ [c])
  | false, c :: r, cur => if c = d then cur :: cells d false r [] else cells d (c == 63) r (cur ++ [c])

theorem cells_noBare {d : Byte} {e : Bool} {a : Bytes} (h : NoBare (· == d) e a) (b cur : Bytes) :
    cells d e (a ++ b) cur = cells d (escAfter e a) b (cur ++ a) := by
  induction a generalizing e cur with
  | nil => cases e <;> simp [escAfter]
  | cons c a ih =>
    cases e
    · have hc : c ≠ d := by simpa using h.1
      simp only [List.cons_append, cells, if_neg hc, escAfter]
      rw [ih h.2]; simp
    · simp only [List.cons_append, cells, escAfter]
      rw [ih (e := false) h]; simp

theorem cells_even {d : Byte} {a : Bytes} (h : Even (· == d) a) (b : Bytes) :
    cells d false (a ++ d :: b) [] = a :: cells d false b [] := by
  rw [cells_noBare h.1, h.2]
  simp [cells]

theorem cells_last {d : Byte} {a : Bytes} (h : NoBare (· == d) false a) (cur : Bytes) : cells d false a cur = [cur ++ a] := by
  have := cells_noBare h [] cur
  rw [List.append_nil] at this
  rw [this]
  cases escAfter false a <;> rfl

/-- Separators written are the most there can be. -/
theorem cells_join_length {d : Byte} (hd : d ≠ 63) : (l : List Bytes) → l ≠ [] → (∀ a ∈ l, NoBare (· == d) false a) → ∀ cur : Bytes,
    (cells d false (join d l) cur).length ≤ l.length
  | [], h, _, _ => absurd rfl h
  | [a], _, h, cur => by
    rw [show join d [a] = a from rfl, cells_last (h a (by simp))]; simp
  | a :: b :: l, _, h, cur => by
    have ih := cells_join_length hd (b :: l) (by simp) (fun x hx => h x (by simp [hx]))
    have e : join d (a :: b :: l) = a ++ d :: join d (b :: l) := rfl
    rw [e, cells_noBare (h a (by simp))]
    cases escAfter false a
    · simp only [cells, if_true, List.length_cons]
      have := ih []
      simp only [List.length_cons] at this
      omega
    · simp only [cells]
      have := ih (cur ++ a ++ [d])
      simp only [List.length_cons] at this ⊢
      omega

theorem cells_length_mono {d : Byte} {e : Bool} {a b : Bytes} (h : a <+: b) (cur : Bytes) :
    (cells d e a cur).length ≤ (cells d e b cur).length := by
  obtain ⟨c, rfl⟩ := h
  induction a generalizing e cur with
  | nil =>
    have : ∀ (c : Bytes) (e : Bool) (cur : Bytes), 1 ≤ (cells d e c cur).length := by
      intro c
      induction c with
      | nil => intro e cur; cases e <;> simp [cells]
      | cons x c ih =>
        intro e cur
        cases e
        · simp only [cells]; split
          · simp
          · exact ih _ _
        · exact ih _ _
    have := this c e cur
    cases e <;> simpa [cells] using this
  | cons x a ih =>
    cases e
    · simp only [List.cons_append, cells]
      split
      · simpa using ih _
      · exact ih _
    · exact ih _

theorem even_value {v : Bytes} (hv : Value v) (h : NoBare (· == 64) false v) : Escaped v := by
  rcases hv with ⟨ds, pl, rfl, _⟩ | ⟨_, he, _⟩
  · exact absurd h.1 (by simp)
  · exact he

/-- A field without unescaped `@` is balanced. -/
theorem even_field {f : Bytes} (hf : Segment.Spec.Field f) (h : NoBare (· == 64) false f) : Even (fun c => c == 43 || c == 39) f := by
  have dl : ∀ c : Byte, (c == 43 || c == 39) = true → Delim c := by
    intro c hc; simp only [Bool.or_eq_true, beq_iff_eq] at hc; rcases hc with rfl | rfl <;> simp [Delim]
  induction hf with
  | nil => exact .nil
  | one hv => exact noBare_escaped (even_value hv h) dl
  | none_more _ ih => exact .cons rfl (by decide) (ih h.2)
  | @more p f hv _ ih =>
    have h1 := (noBare_append _ _ _).1 h
    have h2 := noBare_escaped (even_value hv h1.1) dl
    rw [h2.2] at h1
    exact Even.append h2 (.cons rfl (by decide) (ih h1.2.2))

/-- The elements of a segment without unescaped `@` are its cells, but for an empty last one. -/
theorem segment_cells {t : Bytes} (h : SegmentText (t ++ [39])) (hl : (t ++ [39]).length < 2 ^ 63) (hn : NoBare (· == 64) false t) :
    ∃ es, Segment.extractElements (t ++ [39]) = .ok es ∧ (cells 43 false t [] = es ∨ cells 43 false t [] = es ++ [[]]) ∧
      ∀ f ∈ es, Segment.Spec.Field f ∧ f.length < 2 ^ 63 ∧ NoBare (· == 64) false f := by
  obtain ⟨es, h1, h2, _⟩ := segmentText_elements h hl
  obtain ⟨init, q, h3, h4, h5⟩ := segmentText_fields_inv h
  have h3 : t = pre 43 init ++ q := by
    have := List.append_inj' h3 rfl
    exact this.1
  subst h3
  have key : ∀ {init : List Bytes} {q : Bytes}, (∀ f ∈ init, Segment.Spec.Field f) → Segment.Spec.Field q → NoBare (· == 64) false (pre 43 init ++ q) →
      cells 43 false (pre 43 init ++ q) [] = init ++ [q] ∧ (∀ f ∈ init ++ [q], NoBare (· == 64) false f) := by
    intro init q hi hq hn
    induction init with
    | nil =>
      refine ⟨?_, by simpa [pre] using hn⟩
      have := (even_field hq (by simpa [pre] using hn)).1
      simpa [pre] using cells_last (this.mono (q := (· == 43)) (by intro c hc; simp only [hc, Bool.true_or])) []
    | cons a init ih =>
      have e : pre 43 (a :: init) ++ q = a ++ 43 :: (pre 43 init ++ q) := by simp [pre_cons]
      rw [e] at hn ⊢
      have h1 := (noBare_append _ _ _).1 hn
      have h2 := even_field (hi a (by simp)) h1.1
      rw [h2.2] at h1
      obtain ⟨i1, i2⟩ := ih (fun f hf => hi f (by simp [hf])) h1.2.2
      rw [cells_even (h2.mono (q := (· == 43)) (by intro c hc; simp only [hc, Bool.true_or])), i1]
      refine ⟨rfl, fun f hf => ?_⟩
      rcases List.mem_cons.1 hf with rfl | hf
      · exact h1.1
      · exact i2 f hf
  obtain ⟨k1, k2⟩ := key h4 h5 hn
  refine ⟨es, h1, ?_, ?_⟩
  · rw [k1]
    have hp : (pre 43 init).length + q.length < 2 ^ 63 := by simp at hl; omega
    by_cases hq : q = []
    · subst hq
      right
      rw [List.append_nil, extract_segment_nil h4 (by omega)] at h1
      simp at h1; rw [h1]
    · left
      rw [extract_segment h4 h5 hq (by simp; omega)] at h1
      simpa using h1
  · have hes : es = init ++ [q] ∨ es = init := by
      by_cases hq : q = []
      · subst hq
        right
        rw [List.append_nil, extract_segment_nil h4 (by simp at hl; omega)] at h1
        simpa using h1.symm
      · left
        rw [extract_segment h4 h5 hq (by simp at hl ⊢; omega)] at h1
        simpa using h1.symm
    intro f hf
    refine ⟨(h2 f hf).1, (h2 f hf).2, k2 f ?_⟩
    rcases hes with rfl | rfl
    · exact hf
    · simp [hf]
