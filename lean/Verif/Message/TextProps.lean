import Verif.Message.Texts
import Verif.Message.ReferenceProps
import Verif.Element.ValidityProps
import Mathlib.Data.List.Forall2

/-
C113: what `String` prints and what is sent; finding segments in a message of one's own.
-/

namespace Verif.Element

open GoLib Charset Spec

/-! ## Specification -/

namespace Spec

/-- Only characters of ASCII. -/
def Ascii (s : Str) : Prop := ∀ c ∈ s, c.toNat < 128

/-- Nothing of this element is lost on the way to the bank: texts are ASCII, and the printed
group does not end with a separator. -/
def Kept : DE → Prop
  | .alnum v _ => Ascii v
  | .text v _ => Ascii v
  | .code v _ _ => Ascii v
  | .identification v _ => Ascii v
  | .currency v _ => Ascii v
  | .group n es => (DE.group n es).print.getLast? ≠ some 58
  | .array a b es => (DE.array a b es).print.getLast? ≠ some 58
  | _ => True

/-- And likewise of everything inside. -/
def AllKept (e : DE) : Prop := ∀ d, Within d e → Kept d

end Spec

/-! ## Lemmas -/

theorem escape_ascii {s : Str} : Ascii (escape s) ↔ Ascii s := by
  unfold Ascii escape
  constructor
  · intro h c hc
    apply h
    rw [List.mem_flatMap]
    exact ⟨c, hc, by split <;> simp⟩
  · intro h c hc
    obtain ⟨d, hd, hc⟩ := List.mem_flatMap.1 hc
    split at hc
    · simp only [List.mem_cons, List.not_mem_nil, or_false] at hc
      rcases hc with rfl | rfl
      · decide
      · exact h _ hd
    · simp only [List.mem_cons, List.not_mem_nil, or_false] at hc
      exact hc ▸ h _ hd

theorem utf8_length (s : Str) : (s.length ≤ (Message.utf8 s).length) ∧ ((Message.utf8 s).length = s.length → Ascii s) := by
  induction s with
  | nil => exact ⟨Nat.le_refl _, by intro _ c hc; cases hc⟩
  | cons c s ih =>
    have e : Message.utf8 (c :: s) = String.utf8EncodeChar c ++ Message.utf8 s := rfl
    have hl : (String.utf8EncodeChar c).length = c.utf8Size := String.length_utf8EncodeChar c
    have hp : 0 < c.utf8Size := Char.utf8Size_pos c
    rw [e]
    simp only [List.length_append, List.length_cons, hl]
    refine ⟨by omega, fun h d hd => ?_⟩
    rcases List.mem_cons.1 hd with rfl | hd
    · have : d.utf8Size = 1 := by omega
      have h1 := Char.utf8Size_eq_one_iff.1 this
      have : d.val.toNat ≤ 127 := h1
      change d.val.toNat < 128
      omega
    · exact ih.2 (by omega) d hd

theorem text_kept {v : Str} (h : Ascii v) : marshalText v = .ok (Message.utf8 (escape v)) := by
  have h' := escape_ascii.2 h
  unfold marshalText toISO
  rw [if_pos, Message.utf8_ascii h']
  rw [List.all_eq_true]
  intro c hc
  have := h' c hc
  simp only [decide_eq_true_eq]
  omega

theorem text_lost {v : Str} {b : Bytes} (h : marshalText v = .ok b) :
    b.length ≤ (Message.utf8 (escape v)).length ∧ (b.length = (Message.utf8 (escape v)).length → Ascii v) := by
  unfold marshalText toISO at h
  split at h
  · cases h
    have := utf8_length (escape v)
    rw [List.length_map]
    exact ⟨this.1, fun h => escape_ascii.1 (this.2 h.symm)⟩
  · cases h

theorem join_size (c : Byte) (ps : List Bytes) : (join c ps).length = (ps.map List.length).sum + (ps.length - 1) := by
  induction ps with
  | nil => rfl
  | cons p r ih =>
    cases r with
    | nil => simp [join]
    | cons q r =>
      rw [join_cons c p (by simp), List.length_append, List.length_cons, ih]
      simp only [List.map_cons, List.sum_cons, List.length_cons]
      omega

theorem trimRight_length (c : Byte) (b : Bytes) :
    (trimRight c b).length ≤ b.length ∧ ((trimRight c b).length = b.length → b.getLast? ≠ some c) := by
  obtain ⟨k, hk⟩ := trimRight_spec c b
  have hl : b.length = (trimRight c b).length + k := by
    conv_lhs => rw [hk]
    simp
  refine ⟨by omega, fun h => ?_⟩
  have h0 : k = 0 := by omega
  subst h0
  rw [List.replicate_zero, List.append_nil] at hk
  rw [hk]
  exact trimRight_getLast? c b

/-- What happens to an element: kept, or made shorter. -/
theorem leaf_kept {e : DE} (hg : ∀ n es, e ≠ .group n es) (ha : ∀ a b es, e ≠ .array a b es)
    (h1 : Kept e → e.marshal = .ok e.print)
    (h2 : ∀ b, e.marshal = .ok b → b.length ≤ e.print.length ∧ (b.length = e.print.length → Kept e)) :
    (AllKept e → e.marshal = .ok e.print) ∧
    ∀ b, e.marshal = .ok b → b.length ≤ e.print.length ∧ (b.length = e.print.length → AllKept e) := by
  have : AllKept e ↔ Kept e := by
    unfold AllKept
    constructor
    · exact fun h => h e (.self _)
    · intro h d hd
      rw [(within_leaf hg ha).1 hd]
      exact h
  rw [this]
  exact ⟨h1, h2⟩

/-- The same for a list of elements. -/
def ListKept (es : List (Option DE)) : Prop := ∀ c, some c ∈ es → AllKept c

theorem group_kept {e : DE} {es : List (Option DE)} (hm : e.marshal = (DE.marshalAll es).map' fun ps => trimRight 58 (join 58 ps))
    (hp : e.print = join 58 (DE.printAll es)) (hk : AllKept e ↔ e.print.getLast? ≠ some 58 ∧ ListKept es)
    (h1 : ListKept es → DE.marshalAll es = .ok (DE.printAll es))
    (h2 : ∀ ps, DE.marshalAll es = .ok ps → ps.length = (DE.printAll es).length ∧
      (ps.map List.length).sum ≤ ((DE.printAll es).map List.length).sum ∧
      ((ps.map List.length).sum = ((DE.printAll es).map List.length).sum → ListKept es)) :
    (AllKept e → e.marshal = .ok e.print) ∧
    ∀ b, e.marshal = .ok b → b.length ≤ e.print.length ∧ (b.length = e.print.length → AllKept e) := by
  rw [hk]
  constructor
  · rintro ⟨k1, k2⟩
    rw [hm, h1 k2]
    simp only [Outcome.map', Outcome.ok.injEq]
    rw [hp] at k1 ⊢
    exact trimRight_of_last k1
  · intro b hb
    rw [hm] at hb
    obtain ⟨ps, k1, rfl⟩ := Dialog.map_ok hb
    obtain ⟨g1, g2, g3⟩ := h2 ps k1
    have t := trimRight_length 58 (join 58 ps)
    have j1 := join_size 58 ps
    have j2 := join_size 58 (DE.printAll es)
    rw [hp]
    refine ⟨by omega, fun hl => ?_⟩
    have k2 := g3 (by omega)
    have k3 := h1 k2
    rw [k1] at k3
    cases k3
    exact ⟨t.2 (by omega), k2⟩

mutual
theorem print_kept : (e : DE) → (AllKept e → e.marshal = .ok e.print) ∧
    ∀ b, e.marshal = .ok b → b.length ≤ e.print.length ∧ (b.length = e.print.length → AllKept e)
  | .alnum v _ => leaf_kept (by simp) (by simp) (fun h => text_kept h) fun _ h => text_lost h
  | .text v _ => leaf_kept (by simp) (by simp) (fun h => text_kept h) fun _ h => text_lost h
  | .code v _ _ => leaf_kept (by simp) (by simp) (fun h => text_kept h) fun _ h => text_lost h
  | .identification v _ => leaf_kept (by simp) (by simp) (fun h => text_kept h) fun _ h => text_lost h
  | .currency v _ => leaf_kept (by simp) (by simp) (fun h => text_kept h) fun _ h => text_lost h
  | .digit v max => leaf_kept (by simp) (by simp) (fun _ => rfl) fun b h => by cases h; exact ⟨Nat.le_refl _, fun _ => trivial⟩
  | .number v max => leaf_kept (by simp) (by simp) (fun _ => rfl) fun b h => by cases h; exact ⟨Nat.le_refl _, fun _ => trivial⟩
  | .float v max => leaf_kept (by simp) (by simp) (fun _ => rfl) fun b h => by cases h; exact ⟨Nat.le_refl _, fun _ => trivial⟩
  | .dtaus v max => leaf_kept (by simp) (by simp) (fun _ => rfl) fun b h => by cases h; exact ⟨Nat.le_refl _, fun _ => trivial⟩
  | .binary v max => leaf_kept (by simp) (by simp) (fun _ => rfl) fun b h => by cases h; exact ⟨Nat.le_refl _, fun _ => trivial⟩
  | .boolean v => leaf_kept (by simp) (by simp) (fun _ => by cases v <;> rfl) fun b h => by
      cases h; exact ⟨by cases v <;> exact Nat.le_refl _, fun _ => trivial⟩
  | .date v => leaf_kept (by simp) (by simp) (fun _ => rfl) fun b h => by cases h; exact ⟨Nat.le_refl _, fun _ => trivial⟩
  | .virtualDate v max => leaf_kept (by simp) (by simp) (fun _ => rfl) fun b h => by cases h; exact ⟨Nat.le_refl _, fun _ => trivial⟩
  | .time v => leaf_kept (by simp) (by simp) (fun _ => rfl) fun b h => by cases h; exact ⟨Nat.le_refl _, fun _ => trivial⟩
  | .countryCode v max => leaf_kept (by simp) (by simp) (fun _ => rfl) fun b h => by cases h; exact ⟨Nat.le_refl _, fun _ => trivial⟩
  | .value v max => leaf_kept (by simp) (by simp) (fun _ => rfl) fun b h => by cases h; exact ⟨Nat.le_refl _, fun _ => trivial⟩
  | .group n es => by
    have ih := printAll_kept es
    refine group_kept (es := es) (by rw [DE.marshal]) (by rw [DE.print]) ?_ ih.1 ih.2
    constructor
    · exact fun h => ⟨h _ (.self _), fun c hc d hd => h d (.group hc hd)⟩
    · rintro ⟨h1, h2⟩ d hd
      rcases within_group.1 hd with rfl | ⟨c, hc, hd⟩
      · exact h1
      · exact h2 c hc d hd
  | .array a b es => by
    have ih := printAll_kept es
    refine group_kept (es := es) (by rw [DE.marshal]) (by rw [DE.print]) ?_ ih.1 ih.2
    constructor
    · exact fun h => ⟨h _ (.self _), fun c hc d hd => h d (.array hc hd)⟩
    · rintro ⟨h1, h2⟩ d hd
      rcases within_array.1 hd with rfl | ⟨c, hc, hd⟩
      · exact h1
      · exact h2 c hc d hd

theorem printAll_kept : (es : List (Option DE)) → (ListKept es → DE.marshalAll es = .ok (DE.printAll es)) ∧
    ∀ ps, DE.marshalAll es = .ok ps → ps.length = (DE.printAll es).length ∧
      (ps.map List.length).sum ≤ ((DE.printAll es).map List.length).sum ∧
      ((ps.map List.length).sum = ((DE.printAll es).map List.length).sum → ListKept es)
  | [] => by
    refine ⟨fun _ => rfl, fun ps h => ?_⟩
    cases h
    exact ⟨rfl, Nat.le_refl _, fun _ c hc => by cases hc⟩
  | none :: r => by
    have ih := printAll_kept r
    constructor
    · intro h
      rw [DE.marshalAll, ih.1 fun c hc => h c (List.mem_cons_of_mem _ hc)]
      rfl
    · intro ps h
      rw [DE.marshalAll] at h
      obtain ⟨b, h1, h2⟩ := (Dialog.bind_eq_ok _ _ _).1 h
      cases h1
      obtain ⟨qs, h3, rfl⟩ := Dialog.map_ok h2
      obtain ⟨k1, k2, k3⟩ := ih.2 qs h3
      have e : DE.printAll (none :: r) = [] :: DE.printAll r := rfl
      rw [e]
      simp only [List.length_cons, List.map_cons, List.sum_cons, List.length_nil, Nat.zero_add]
      refine ⟨by omega, k2, fun h c hc => k3 h c ?_⟩
      simpa using hc
  | some a :: r => by
    have ih := printAll_kept r
    have ia := print_kept a
    constructor
    · intro h
      rw [DE.marshalAll, ih.1 fun c hc => h c (List.mem_cons_of_mem _ hc)]
      have : DE.marshalOpt (some a) = .ok a.print := ia.1 (h a (by simp))
      rw [this]
      rfl
    · intro ps h
      rw [DE.marshalAll] at h
      obtain ⟨b, h1, h2⟩ := (Dialog.bind_eq_ok _ _ _).1 h
      obtain ⟨qs, h3, rfl⟩ := Dialog.map_ok h2
      obtain ⟨k1, k2, k3⟩ := ih.2 qs h3
      have h1' : a.marshal = .ok b := h1
      obtain ⟨g1, g2⟩ := ia.2 b h1'
      have e : DE.printAll (some a :: r) = a.print :: DE.printAll r := rfl
      rw [e]
      simp only [List.length_cons, List.map_cons, List.sum_cons]
      refine ⟨by omega, by omega, fun h c hc => ?_⟩
      rcases List.mem_cons.1 hc with hc | hc
      · cases hc
        exact g2 (by omega)
      · exact k3 (by omega) c hc
end

/-! ## Elements -/

/-- C113: what `String` prints for an element is what `MarshalHBCI` returns exactly if all
texts in it are ASCII and no group in it is printed with a separator at its end. -/
theorem C113_elements (e : DE) : e.marshal = .ok e.print ↔ AllKept e :=
  ⟨fun h => ((print_kept e).2 _ h).2 rfl, (print_kept e).1⟩

/-- C113: what is sent is never longer than what is printed, and as long only if it is the same. -/
theorem C113_shorter {e : DE} {b : Bytes} (h : e.marshal = .ok b) :
    b.length ≤ e.print.length ∧ (b.length = e.print.length → b = e.print) := by
  obtain ⟨h1, h2⟩ := (print_kept e).2 b h
  refine ⟨h1, fun hl => ?_⟩
  have := (print_kept e).1 (h2 hl)
  rw [h] at this
  cases this
  rfl

/-- A group with all that matters: an escaped colon, binary data and a missing element inside. -/
example : (DE.group 3 [some (.alnum c!"a:b" 9), none, some (.binary [58, 200] 9)]).print = b!"a?:b::@2@:" ++ [200] ∧
    (DE.group 3 [some (.alnum c!"a:b" 9), none, some (.binary [58, 200] 9)]).marshal = .ok (b!"a?:b::@2@:" ++ [200]) := by
  decide +kernel

/-- A missing element at the end, and a text that is not ASCII. -/
example : (DE.group 2 [some (.alnum c!"ä" 9), none]).print = [195, 164, 58] ∧
    (DE.group 2 [some (.alnum c!"ä" 9), none]).marshal = .ok [228] := by
  decide +kernel

end Verif.Element

namespace Verif.Segment

open GoLib Element Element.Spec

/-! ## Segments -/

theorem marshal_eq (s : Seg) :
    s.marshal = (DE.marshalAll (some s.header.de :: s.elements)).map' fun ps => trimRight 43 (join 43 ps) ++ [39] := by
  unfold Seg.marshal Header.marshal
  rw [DE.marshalAll]
  have : DE.marshalOpt (some s.header.de) = s.header.de.marshal := rfl
  rw [this]
  cases s.header.de.marshal with
  | ok h =>
    cases DE.marshalAll s.elements <;> rfl
  | err => rfl
  | panic => rfl

/-- C113: what `String` prints for a segment is what is sent exactly if nothing of its header and
its elements is lost and the last of them is not printed as nothing (or with a `+` at its end). -/
theorem C113_segments (s : Seg) :
    s.marshal = .ok s.print ↔
      AllKept s.header.de ∧ (∀ c, some c ∈ s.elements → AllKept c) ∧ (∀ x, s.print ≠ x ++ [43, 39]) := by
  have key := printAll_kept (some s.header.de :: s.elements)
  have hp : s.print = join 43 (DE.printAll (some s.header.de :: s.elements)) ++ [39] := rfl
  have hlist : ListKept (some s.header.de :: s.elements) ↔ AllKept s.header.de ∧ ∀ c, some c ∈ s.elements → AllKept c := by
    unfold ListKept
    simp only [List.mem_cons, Option.some.injEq]
    exact ⟨fun h => ⟨h _ (.inl rfl), fun c hc => h c (.inr hc)⟩, fun h c hc => hc.elim (fun e => e ▸ h.1) (h.2 c)⟩
  have hlast : (join 43 (DE.printAll (some s.header.de :: s.elements))).getLast? ≠ some 43 ↔ ∀ x, s.print ≠ x ++ [43, 39] := by
    rw [hp]
    constructor
    · intro h x hx
      have : join 43 (DE.printAll (some s.header.de :: s.elements)) = x ++ [43] := by
        have e : x ++ [43, 39] = (x ++ [43]) ++ [39] := by simp
        rw [e] at hx
        exact List.append_cancel_right hx
      rw [this] at h
      simp at h
    · intro h hl
      obtain ⟨ys, hy⟩ := List.getLast?_eq_some_iff.1 hl
      refine h ys ?_
      rw [hy]
      simp
  rw [marshal_eq, ← and_assoc, ← hlist, ← hlast]
  constructor
  · intro h
    obtain ⟨ps, h1, h2⟩ := Dialog.map_ok h
    rw [hp] at h2
    have h2 := List.append_cancel_right h2
    obtain ⟨g1, g2, g3⟩ := key.2 ps h1
    have t := trimRight_length 43 (join 43 ps)
    have j1 := join_size 43 ps
    have j2 := join_size 43 (DE.printAll (some s.header.de :: s.elements))
    have hl := congrArg List.length h2
    have k2 := g3 (by omega)
    refine ⟨k2, ?_⟩
    rw [← h2]
    exact trimRight_getLast? 43 _
  · rintro ⟨k1, k2⟩
    rw [key.1 k1, hp]
    simp only [Outcome.map', trimRight_of_last k2]

/-- C113: what is sent of a segment is never longer than what is printed, and as long only if it is the
same. -/
theorem C113_segment_shorter {s : Seg} {b : Bytes} (h : s.marshal = .ok b) :
    b.length ≤ s.print.length ∧ (b.length = s.print.length → b = s.print) := by
  have key := printAll_kept (some s.header.de :: s.elements)
  have hp : s.print = join 43 (DE.printAll (some s.header.de :: s.elements)) ++ [39] := rfl
  rw [marshal_eq] at h
  obtain ⟨ps, h1, rfl⟩ := Dialog.map_ok h
  obtain ⟨g1, g2, g3⟩ := key.2 ps h1
  have t := trimRight_length 43 (join 43 ps)
  have j1 := join_size 43 ps
  have j2 := join_size 43 (DE.printAll (some s.header.de :: s.elements))
  rw [hp]
  simp only [List.length_append, List.length_cons, List.length_nil]
  refine ⟨by omega, fun hl => ?_⟩
  have k := key.1 (g3 (by omega))
  rw [h1] at k
  cases k
  rw [trimRight_of_last (t.2 (by omega))]

/-- C113: what `String` prints for a segment that refers to no other is never what is sent. -/
theorem C113_own (position : Int) (id : Str) (version : Int) (es : List (Option DE)) :
    (newSegment position id version es).marshal ≠ .ok (newSegment position id version es).print := by
  intro h
  have := ((C113_segments _).1 h).1 _ (.self _)
  apply this
  have e : (newSegment position id version es).header.de.print =
      join 58 [Message.utf8 (escape id), itoa position, itoa version, []] := rfl
  unfold Header.de at e
  rw [e]
  rw [join_cons _ _ (by simp), join_cons _ _ (by simp), join_cons _ _ (by simp)]
  refine List.getLast?_eq_some_iff.2 ⟨Message.utf8 (escape id) ++ 58 :: (itoa position ++ 58 :: itoa version), ?_⟩
  simp [join]

/-- A segment that refers to another, as a bank would send it. -/
example : (newReferencingSegment 4 3 c!"HIKAZ" 5 [some (.binary b!":20:x" 99)]).print = b!"HIKAZ:4:5:3+@5@:20:x'" ∧
    (newReferencingSegment 4 3 c!"HIKAZ" 5 [some (.binary b!":20:x" 99)]).marshal = .ok b!"HIKAZ:4:5:3+@5@:20:x'" := by
  decide +kernel

/-- A segment of the library's own. -/
example : (newSegment 3 c!"HKIDN" 2 [some (.alnum c!"Max" 9), none]).print = b!"HKIDN:3:2:+Max+'" ∧
    (newSegment 3 c!"HKIDN" 2 [some (.alnum c!"Max" 9), none]).marshal = .ok b!"HKIDN:3:2+Max'" := by
  decide +kernel

end Verif.Segment

namespace Verif.Message

open GoLib Segment Element

/-! ## Finding segments -/

theorem findFirst_eq (id : Str) (segs : List (Option Seg)) (o : Option Seg) :
    findFirst id segs = .ok o ↔
      (o = none ∧ ∃ ss : List Seg, segs = ss.map some ∧ ∀ s ∈ ss, s.header.id ≠ id) ∨
      ∃ (s : Seg) (before : List Seg) (after : List (Option Seg)), o = some s ∧ segs = before.map some ++ some s :: after ∧ s.header.id = id ∧
        ∀ t ∈ before, t.header.id ≠ id := by
  induction segs with
  | nil =>
    constructor
    · intro h
      cases h
      exact .inl ⟨rfl, [], rfl, by simp⟩
    · rintro (⟨rfl, -⟩ | ⟨s, b, a, -, h, -⟩)
      · rfl
      · simp at h
  | cons x r ih =>
    cases x with
    | none =>
      constructor
      · intro h; cases h
      · rintro (⟨-, ss, h, -⟩ | ⟨s, b, a, -, h, -⟩)
        · cases ss <;> simp at h
        · cases b <;> simp at h
    | some x =>
      rw [findFirst]
      split
      · rename_i hx
        constructor
        · intro h
          cases h
          exact .inr ⟨x, [], r, rfl, rfl, hx, by simp⟩
        · rintro (⟨-, ss, h, hn⟩ | ⟨s, b, a, rfl, h, hs, hn⟩)
          · cases ss with
            | nil => simp at h
            | cons y ss =>
              simp only [List.map_cons, List.cons.injEq, Option.some.injEq] at h
              exact absurd hx (h.1 ▸ hn y (by simp))
          · cases b with
            | nil =>
              simp only [List.map_nil, List.nil_append, List.cons.injEq, Option.some.injEq] at h
              rw [h.1]
            | cons y b =>
              simp only [List.map_cons, List.cons_append, List.cons.injEq, Option.some.injEq] at h
              exact absurd hx (h.1 ▸ hn y (by simp))
      · rename_i hx
        rw [ih]
        constructor
        · rintro (⟨rfl, ss, rfl, hn⟩ | ⟨s, b, a, rfl, rfl, hs, hn⟩)
          · exact .inl ⟨rfl, x :: ss, rfl, by simpa using ⟨hx, hn⟩⟩
          · exact .inr ⟨s, x :: b, a, rfl, rfl, hs, by simpa using ⟨hx, hn⟩⟩
        · rintro (⟨rfl, ss, h, hn⟩ | ⟨s, b, a, rfl, h, hs, hn⟩)
          · cases ss with
            | nil => simp at h
            | cons y ss =>
              simp only [List.map_cons, List.cons.injEq, Option.some.injEq] at h
              exact .inl ⟨rfl, ss, h.2, fun s hs => hn s (by simp [hs])⟩
          · cases b with
            | nil =>
              simp only [List.map_nil, List.nil_append, List.cons.injEq, Option.some.injEq] at h
              exact absurd (h.1 ▸ hs) hx
            | cons y b =>
              simp only [List.map_cons, List.cons_append, List.cons.injEq, Option.some.injEq] at h
              exact .inr ⟨s, b, a, rfl, h.2, hs, fun t ht => hn t (by simp [ht])⟩

theorem findFirst_ne_err (id : Str) (segs : List (Option Seg)) : findFirst id segs ≠ .err := by
  induction segs with
  | nil => simp [findFirst]
  | cons x r ih =>
    cases x with
    | none => simp [findFirst]
    | some x => rw [findFirst]; split <;> simp_all

/-- C113: `FindSegment` on a message of one's own returns the first segment with that ID; it
returns nil if no segment has it; but it panics if a missing segment comes first, or if there is no
content. -/
theorem C113_find (m : BasicMessage) (id : Str) :
    (∀ s, m.findSegment id = .ok (some s) ↔ ∃ (before : List Seg) (after : List (Option Seg)), m.content = some (before.map some ++ some s :: after) ∧
      s.header.id = id ∧ ∀ t ∈ before, t.header.id ≠ id) ∧
    (m.findSegment id = .ok none ↔ ∃ ss : List Seg, m.content = some (ss.map some) ∧ ∀ s ∈ ss, s.header.id ≠ id) ∧
    (m.findSegment id = .panic ↔ m.content = none ∨
      ∃ (before : List Seg) (after : List (Option Seg)), m.content = some (before.map some ++ none :: after) ∧ ∀ t ∈ before, t.header.id ≠ id) := by
  unfold BasicMessage.findSegment
  cases hc : m.content with
  | none => simp
  | some segs =>
    simp only [Option.some.injEq, reduceCtorEq, false_or]
    refine ⟨fun s => ?_, ?_, ?_⟩
    · rw [findFirst_eq]
      constructor
      · rintro (⟨h, -⟩ | ⟨t, b, a, h1, h2, h3, h4⟩)
        · cases h
        · cases h1
          exact ⟨b, a, h2, h3, h4⟩
      · rintro ⟨b, a, h2, h3, h4⟩
        exact .inr ⟨s, b, a, rfl, h2, h3, h4⟩
    · rw [findFirst_eq]
      constructor
      · rintro (⟨-, h⟩ | ⟨t, b, a, h1, -⟩)
        · exact h
        · cases h1
      · exact fun h => .inl ⟨rfl, h⟩
    · clear hc
      induction segs with
      | nil => simp [findFirst]
      | cons x r ih =>
        cases x with
        | none =>
          simp only [findFirst, true_iff]
          exact ⟨[], r, rfl, by simp⟩
        | some x =>
          rw [findFirst]
          split
          · rename_i hx
            refine ⟨fun h => (by cases h), ?_⟩
            rintro ⟨b, a, h, hn⟩
            cases b with
            | nil => simp at h
            | cons y b =>
              simp only [List.map_cons, List.cons_append, List.cons.injEq, Option.some.injEq] at h
              exact absurd hx (h.1 ▸ hn y (by simp))
          · rename_i hx
            rw [ih]
            constructor
            · rintro ⟨b, a, rfl, hn⟩
              exact ⟨x :: b, a, rfl, by simpa using ⟨hx, hn⟩⟩
            · rintro ⟨b, a, h, hn⟩
              cases b with
              | nil => simp at h
              | cons y b =>
                simp only [List.map_cons, List.cons_append, List.cons.injEq, Option.some.injEq] at h
                exact ⟨b, a, h.2, fun t ht => hn t (by simp [ht])⟩

/-- C113: `FindSegments` returns all segments with that ID, in order, and panics if any segment is
missing, whatever its place. -/
theorem C113_find_all (m : BasicMessage) (id : Str) :
    (∀ ss : List Seg, m.content = some (ss.map some) → m.findSegments id = .ok (ss.filter fun s => s.header.id = id)) ∧
    ((∀ ss : List Seg, m.content ≠ some (ss.map some)) → m.findSegments id = .panic) := by
  unfold BasicMessage.findSegments
  cases hc : m.content with
  | none => simp
  | some segs =>
    simp only [Option.some.injEq, ne_eq]
    clear hc
    induction segs with
    | nil =>
      refine ⟨fun ss h => ?_, fun h => absurd rfl (h [])⟩
      cases ss with
      | nil => rfl
      | cons => simp at h
    | cons x r ih =>
      cases x with
      | none =>
        refine ⟨fun ss h => ?_, fun _ => rfl⟩
        cases ss <;> simp at h
      | some x =>
        rw [findAll]
        constructor
        · intro ss h
          cases ss with
          | nil => simp at h
          | cons y ss =>
            simp only [List.map_cons, List.cons.injEq, Option.some.injEq] at h
            obtain ⟨rfl, h⟩ := h
            rw [ih.1 ss h]
            simp only [Outcome.map', List.filter_cons, decide_eq_true_eq]
        · intro h
          rw [ih.2 fun ss hs => h (x :: ss) (by simp [hs])]
          rfl

/-- C113: `FindMarshaledSegment` finds the same segment as `FindSegment`, but what it returns for a
segment that refers to no other is not what is sent. -/
theorem C113_marshaled (m : BasicMessage) (id : Str) :
    (∀ b, m.findMarshaledSegment id = .ok (some b) ↔ ∃ s, m.findSegment id = .ok (some s) ∧ b = s.print) ∧
    ∀ b s, m.findMarshaledSegment id = .ok (some b) → m.findSegment id = .ok (some s) → s.header.ref = none →
      s.marshal ≠ .ok b := by
  have key : ∀ b, m.findMarshaledSegment id = .ok (some b) ↔ ∃ s, m.findSegment id = .ok (some s) ∧ b = s.print := by
    intro b
    unfold BasicMessage.findMarshaledSegment
    cases m.findSegment id with
    | ok o => cases o <;> simp [eq_comm]
    | err => simp
    | panic => simp
  refine ⟨key, fun b s hb hs hr => ?_⟩
  obtain ⟨t, ht, rfl⟩ := (key b).1 hb
  rw [hs] at ht
  cases ht
  have e : s = newSegment s.header.position s.header.id s.header.version s.elements := by
    obtain ⟨⟨i, p, v, r⟩, es⟩ := s
    simp only at hr
    subst hr
    rfl
  rw [e]
  exact C113_own _ _ _ _

/-- C113: `FindMarshaledSegments` gives what is printed for the segments with that ID, in order; of
segments without reference that is more than what is sent. -/
theorem C113_marshaled_all (m : BasicMessage) (id : Str) (ss : List Seg) (h : m.content = some (ss.map some)) :
    ∃ bs, m.findMarshaledSegments id = .ok bs ∧
      List.Forall₂ (fun b s => b = s.print ∧ (s.header.ref = none → ∀ sent, s.marshal = .ok sent → sent.length < b.length)) bs
        (ss.filter fun s => s.header.id = id) := by
  have h1 := (C113_find_all m id).1 ss h
  refine ⟨(ss.filter fun s => s.header.id = id).map Seg.print, by rw [BasicMessage.findMarshaledSegments, h1]; rfl, ?_⟩
  rw [List.forall₂_map_left_iff, List.forall₂_same]
  intro s _
  refine ⟨rfl, fun hr sent hs => ?_⟩
  obtain ⟨k1, k2⟩ := C113_segment_shorter hs
  refine Nat.lt_of_le_of_ne k1 fun e => ?_
  have e' : s = newSegment s.header.position s.header.id s.header.version s.elements := by
    obtain ⟨⟨i, p, v, r⟩, es⟩ := s
    simp only at hr
    subst hr
    rfl
  have := k2 e
  subst this
  rw [e'] at hs
  exact C113_own _ _ _ _ hs

/-- An initialisation message as the dialogs make it: two segments, a TAN request, and missing
ones. -/
def sampleInit : BasicMessage :=
  { header := newMsgHeader 0 300 c!"0" 1, end_ := ⟨6, 1⟩, sigBegin := none, sigEnd := none, version := .fints300, cache := []
    content := some [some (newSegment 3 c!"HKIDN" 2 [some (.alnum c!"Max" 9)]),
      some (newSegment 4 c!"HKVVB" 3 [some (.number 0 3)]), none, none] }

example : sampleInit.findSegment c!"HKVVB" = .ok (some (newSegment 4 c!"HKVVB" 3 [some (.number 0 3)])) ∧
    sampleInit.findSegment c!"HKSYN" = .panic ∧ sampleInit.findSegments c!"HKVVB" = .panic ∧
    sampleInit.findMarshaledSegment c!"HKVVB" = .ok (some b!"HKVVB:4:3:+0'") := by
  refine ⟨rfl, rfl, rfl, ?_⟩
  decide +kernel

end Verif.Message
