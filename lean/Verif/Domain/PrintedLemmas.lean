import Verif.Domain.Printed
import Mathlib.Data.List.Basic
import Mathlib.Data.List.TakeWhile

namespace Verif.Domain.Printed

/-! ## Cutting -/

theorem pieces_ne (sep : Char) (s : Str) : pieces sep s ≠ [] := by
  cases s with
  | nil => simp [pieces]
  | cons c r =>
    simp only [pieces]
    split
    · simp
    · split <;> simp

theorem pieces_clean {sep : Char} {x : Str} (h : sep ∉ x) : pieces sep x = [x] := by
  induction x with
  | nil => rfl
  | cons c r ih =>
    have hc : c ≠ sep := fun e => h (by simp [e])
    simp only [pieces, if_neg hc, ih fun q => h (by simp [q])]

theorem pieces_sep {sep : Char} {x : Str} (h : sep ∉ x) (s : Str) : pieces sep (x ++ sep :: s) = x :: pieces sep s := by
  induction x with
  | nil => simp [pieces]
  | cons c r ih =>
    have hc : c ≠ sep := fun e => h (by simp [e])
    simp only [List.cons_append, pieces, if_neg hc, ih fun q => h (by simp [q])]

/-- Lines, each with its end. -/
theorem pieces_lines {sep : Char} {ls : List Str} (h : ∀ l ∈ ls, sep ∉ l) (s : Str) :
    pieces sep (ls.flatMap (fun l => l ++ [sep]) ++ s) = ls ++ pieces sep s := by
  induction ls with
  | nil => rfl
  | cons l ls ih =>
    rw [List.flatMap_cons, List.append_assoc, List.append_assoc, List.singleton_append, pieces_sep (h l (by simp)),
      ih fun m hm => h m (by simp [hm])]
    rfl

/-! ## Lines -/

theorem line_congr (p : Layout) {w v : Nat → Nat} : ∀ (l : List Str) (tabs : Bool) (j : Nat),
    (∀ i, i + 1 < l.length → w (j + i) = v (j + i)) → line p w tabs j l = line p v tabs j l
  | [], _, _, _ => rfl
  | [_], _, _, _ => rfl
  | c :: d :: r, tabs, j, h => by
    have h0 := h 0 (by simp)
    have ih := fun t => line_congr p (w := w) (v := v) (d :: r) t (j + 1) fun i hi => by
      have := h (i + 1) (by simpa using hi)
      rwa [← Nat.add_assoc, Nat.add_right_comm] at this
    simp only [Nat.add_zero] at h0
    simp only [line, h0, ih]

/-- Lines that agree with given widths. -/
theorem render_block (p : Layout) (w : Nat → Nat) {after : List (List Str)} (ha : after ≠ []) :
    ∀ (B before : List (List Str)),
      (∀ xs l ys, B = xs ++ l :: ys → ∀ j, j + 1 < l.length → width p j (xs.reverse ++ before) l (ys ++ after) = w j) →
      render p before (B ++ after) = B.flatMap (fun l => line p w p.tabIndent 0 l ++ ['\n']) ++ render p (B.reverse ++ before) after
  | [], before, _ => rfl
  | l :: B, before, h => by
    have hne : B ++ after ≠ [] := by simp [ha]
    obtain ⟨m, rest, e⟩ := List.exists_cons_of_ne_nil hne
    have hl : line p (fun j => width p j before l (m :: rest)) p.tabIndent 0 l = line p w p.tabIndent 0 l := by
      refine line_congr p l _ 0 fun i hi => ?_
      have := h [] l B rfl i hi
      rw [e] at this
      simpa using this
    have ih := render_block p w ha B (l :: before) fun xs k ys hB j hj => by
      have := h (l :: xs) k ys (by rw [hB]; rfl) j hj
      simpa using this
    rw [List.cons_append, e, render, hl, ← e, ih]
    simp

/-- The width of a column whose block is known. -/
theorem width_block (p : Layout) {j : Nat} {B before after : List (List Str)} (hB : ∀ l ∈ B, j + 1 < l.length)
    (hb : ∀ l, before.head? = some l → ¬ j + 1 < l.length) (ha : ∀ l, after.head? = some l → ¬ j + 1 < l.length)
    {xs ys : List (List Str)} {l : List Str} (e : B = xs ++ l :: ys) :
    width p j (xs.reverse ++ before) l (ys ++ after) = colWidth p j B := by
  have stop : ∀ (zs : List (List Str)), (∀ l, zs.head? = some l → ¬ j + 1 < l.length) → zs.takeWhile (has j) = [] := by
    intro zs hz
    cases zs with
    | nil => rfl
    | cons z zs =>
      have := hz z rfl
      rw [List.takeWhile_cons_of_neg (by simpa [has] using this)]
  have h1 : (xs.reverse ++ before).takeWhile (has j) = xs.reverse := by
    rw [List.takeWhile_append_of_pos, stop _ hb, List.append_nil]
    intro k hk
    have := hB k (by rw [e]; simp [List.mem_reverse.1 hk])
    simpa [has] using this
  have h2 : (ys ++ after).takeWhile (has j) = ys := by
    rw [List.takeWhile_append_of_pos, stop _ ha, List.append_nil]
    intro k hk
    have := hB k (by rw [e]; simp [hk])
    simpa [has] using this
  rw [width, h1, h2, List.reverse_reverse, ← e]

/-- Lines without a tab are printed as they are. -/
theorem render_plain (p : Layout) {after : List (List Str)} (ha : after ≠ []) (ls : List Str) (before : List (List Str)) :
    render p before (ls.map (fun l => [l]) ++ after) =
      ls.flatMap (fun l => l ++ ['\n']) ++ render p ((ls.map fun l => [l]).reverse ++ before) after := by
  rw [render_block p (fun _ => 0) ha (ls.map fun l => [l]) before]
  · congr 1
    rw [List.flatMap_map]
    simp [line, bar]
  · intro xs l ys e j hj
    have hl : l ∈ ls.map fun l => [l] := by rw [e]; simp
    obtain ⟨x, _, rfl⟩ := List.mem_map.1 hl
    simp at hj

/-! ## Tables -/

/-- The text of one line. -/
def tabbed : List Str → Str
  | [] => []
  | [c] => c
  | c :: d :: r => c ++ '\t' :: tabbed (d :: r)

theorem pieces_tabbed : ∀ {l : List Str}, l ≠ [] → (∀ c ∈ l, '\t' ∉ c) → pieces '\t' (tabbed l) = l
  | [], h, _ => absurd rfl h
  | [c], _, h => pieces_clean (h c (by simp))
  | c :: d :: r, _, h => by
    rw [tabbed, pieces_sep (h c (by simp)), pieces_tabbed (by simp) fun x hx => h x (by simp only [List.mem_cons] at hx ⊢; tauto)]

theorem tabbed_clean : ∀ {l : List Str}, (∀ c ∈ l, '\n' ∉ c) → '\n' ∉ tabbed l
  | [], _ => by simp [tabbed]
  | [c], h => h c (by simp)
  | c :: d :: r, h => by
    have ih := tabbed_clean (l := d :: r) fun x hx => h x (by simp only [List.mem_cons] at hx ⊢; tauto)
    have hc := h c (by simp)
    simp only [tabbed, List.mem_append, List.mem_cons, not_or]
    exact ⟨hc, by decide, ih⟩

/-- A cell without tab and line break. -/
def Clean (c : Str) : Prop := '\t' ∉ c ∧ '\n' ∉ c

/-- The cells of lines of clean cells. -/
theorem cells_lines {ls : List (List Str)} (hne : ∀ l ∈ ls, l ≠ []) (h : ∀ l ∈ ls, ∀ c ∈ l, Clean c) (s : Str) :
    cellsOf (ls.flatMap (fun l => tabbed l ++ ['\n']) ++ s) = ls ++ cellsOf s := by
  have e : ls.flatMap (fun l => tabbed l ++ ['\n']) = (ls.map tabbed).flatMap (fun l => l ++ ['\n']) := by
    rw [List.flatMap_map]
  rw [cellsOf, e, pieces_lines, List.map_append, List.map_map]
  · congr 1
    conv_rhs => rw [← List.map_id ls]
    refine List.map_congr_left fun l hl => ?_
    exact pieces_tabbed (hne l hl) fun c hc => (h l hl c hc).1
  · intro l hl
    obtain ⟨k, hk, rfl⟩ := List.mem_map.1 hl
    exact tabbed_clean fun c hc => (h k hk c hc).2

/-- A table: plain lines, a heading with `n` columns, rows with `n` columns or one more, and plain
lines again. -/
theorem table (p : Layout) {top bottom : List Str} {head : List Str} {rows : List (List Str)} {n : Nat}
    (hh : head.length = n + 1) (hr : ∀ r ∈ rows, r.length = n + 1) :
    render p [] (top.map (fun l => [l]) ++ (head :: rows) ++ bottom.map (fun l => [l]) ++ [[[]]]) =
      top.flatMap (fun l => l ++ ['\n']) ++
      (head :: rows).flatMap (fun l => line p (fun j => colWidth p j (head :: rows)) p.tabIndent 0 l ++ ['\n']) ++
      bottom.flatMap (fun l => l ++ ['\n']) := by
  have plain : ∀ (ls : List Str) (ms : List (List Str)) j l, (ls.map (fun l => [l]) ++ [[[]]] ++ ms).head? = some l → ¬ j + 1 < l.length := by
    intro ls ms j l hl
    cases ls with
    | nil => simp at hl; subst hl; simp
    | cons x ls => simp at hl; subst hl; simp
  have plain' : ∀ (ls : List Str) j l, (ls.map (fun l => [l])).head? = some l → ¬ j + 1 < l.length := by
    intro ls j l hl
    cases ls with
    | nil => simp at hl
    | cons x ls => simp at hl; subst hl; simp
  rw [List.append_assoc, List.append_assoc, render_plain p (by simp), List.append_assoc, List.append_nil]
  congr 1
  rw [render_block p (fun j => colWidth p j (head :: rows)) (by simp)]
  · congr 1
    rw [render_plain p (by simp)]
    simp [render, line, bar]
  · intro xs l ys e j hj
    refine width_block p ?_ ?_ ?_ e
    · have hl : l ∈ head :: rows := by rw [e]; simp
      have len : ∀ k ∈ head :: rows, k.length = n + 1 := by
        intro k hk
        rcases List.mem_cons.1 hk with rfl | hk
        · exact hh
        · exact hr k hk
      intro k hk
      rw [len l hl] at hj
      rw [len k hk]
      exact hj
    · intro k hk
      rw [← List.map_reverse] at hk
      exact plain' _ j k hk
    · intro k hk
      exact plain bottom [] j k (by simpa using hk)

/-- The same with rows that have one more column than the heading. -/
theorem table' (p : Layout) {top : List Str} {head : List Str} {rows : List (List Str)} {n : Nat}
    (hh : head.length = n + 1) (hr : ∀ r ∈ rows, r.length = n + 2) :
    render p [] (top.map (fun l => [l]) ++ (head :: rows) ++ [[[]]]) =
      top.flatMap (fun l => l ++ ['\n']) ++
      (head :: rows).flatMap (fun l =>
        line p (fun j => if j < n then colWidth p j (head :: rows) else colWidth p j rows) p.tabIndent 0 l ++ ['\n']) := by
  have plain' : ∀ (ls : List Str) j l, (ls.map (fun l => [l])).head? = some l → ¬ j + 1 < l.length := by
    intro ls j l hl
    cases ls with
    | nil => simp at hl
    | cons x ls => simp at hl; subst hl; simp
  rw [List.append_assoc, render_plain p (by simp), List.append_nil]
  congr 1
  rw [render_block p (fun j => if j < n then colWidth p j (head :: rows) else colWidth p j rows) (by simp)]
  · simp [render, line, bar]
  · intro xs l ys e j hj
    by_cases hjn : j < n
    · simp only [if_pos hjn]
      refine width_block p ?_ ?_ ?_ e
      · intro k hk
        rcases List.mem_cons.1 hk with rfl | hk
        · omega
        · rw [hr k hk]; omega
      · intro k hk
        rw [← List.map_reverse] at hk
        exact plain' _ j k hk
      · intro k hk
        simp at hk; subst hk; simp
    · simp only [if_neg hjn]
      cases xs with
      | nil =>
        simp only [List.nil_append, List.cons.injEq] at e
        rw [← e.1, hh] at hj
        omega
      | cons x xs =>
        simp only [List.cons_append, List.cons.injEq] at e
        have hl : l ∈ rows := by rw [e.2]; simp
        rw [hr l hl] at hj
        rw [List.reverse_cons, List.append_assoc]
        refine width_block p ?_ ?_ ?_ e.2
        · intro k hk
          rw [hr k hk]; exact hj
        · intro k hk
          simp only [List.singleton_append, List.head?_cons, Option.some.injEq] at hk
          rw [← hk, ← e.1, hh]
          omega
        · intro k hk
          simp at hk; subst hk; simp

end Verif.Domain.Printed
