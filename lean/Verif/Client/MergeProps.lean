import Verif.Client.Model
import Mathlib.Data.List.Sort

/-
C36: merged statement pages.
-/

namespace Verif.Client

/-- Pages in the order of their time stamps. -/
def Ordered (ps : List Page) : Prop := ps.Pairwise fun p q => p.stamp ≤ q.stamp

/-- Every page has a later time stamp than the pages before it. -/
def Increasing (ps : List Page) : Prop := ps.Pairwise fun p q => p.stamp < q.stamp

/-- C36: the data of the merged page are those of all pages, each once, ordered by time. -/
theorem C36_sorted (S : Sorter) (now : Int) (ps : List Page) :
    ∃ qs : List Page, qs.Perm ps ∧ Ordered qs ∧ (merge S now ps).data = (qs.map Page.data).flatten := by
  refine ⟨S.sort ps, S.perm ps, S.ordered ps, ?_⟩
  simp [merge, List.flatMap]

theorem ordered_unique {ps qs : List Page} (h : ps.Perm qs) (hq : Increasing qs) (hp : Ordered ps) : ps = qs := by
  have hp : ps.Pairwise fun p q : Page => p.stamp ≤ q.stamp := hp
  refine h.eq_of_pairwise (le := fun p q : Page => p.stamp ≤ q.stamp) ?_ hp (hq.imp fun h => Int.le_of_lt h)
  intro a b ha hb h1 h2
  have hb' : b ∈ qs := hb
  have ha' : a ∈ qs := h.mem_iff.1 ha
  clear hp h ha hb
  induction qs with
  | nil => simp at ha'
  | cons x xs ih =>
    unfold Increasing at hq
    rw [List.pairwise_cons] at hq
    simp only [List.mem_cons] at ha' hb'
    rcases ha' with rfl | ha <;> rcases hb' with rfl | hb
    · rfl
    · have := hq.1 b hb; omega
    · have := hq.1 a ha; omega
    · exact ih hq.2 hb ha

/-- C36: pages received at increasing times are put together in the order of their reception,
in whatever order they are passed. -/
theorem C36_order (S : Sorter) (now : Int) {received passed : List Page} (h : passed.Perm received)
    (hinc : Increasing received) : (merge S now passed).data = (received.map Page.data).flatten := by
  obtain ⟨qs, h1, h2, h3⟩ := C36_sorted S now passed
  rw [h3, ordered_unique (h1.trans h) hinc h2]

theorem insert_filter (p : Page) (t : Int) (qs : List Page) :
    (insert p qs).filter (fun q => q.stamp = t) = (p :: qs).filter (fun q => q.stamp = t) := by
  induction qs with
  | nil => rfl
  | cons q qs ih =>
    unfold insert
    split
    · rfl
    · rename_i hlt
      rw [List.filter_cons, ih]
      simp only [List.filter_cons, decide_eq_true_eq]
      by_cases h1 : p.stamp = t <;> by_cases h2 : q.stamp = t <;> simp only [h1, h2, if_true, if_false]
      omega

/-- C36: up to twelve pages with the same time stamp stay in the order in which they are
passed. -/
theorem C36_ties (S : Sorter) (now : Int) (ps : List Page) (hlen : ps.length ≤ 12) :
    ∃ qs : List Page, qs.Perm ps ∧ Ordered qs ∧
      (∀ t : Int, qs.filter (fun q => q.stamp = t) = ps.filter (fun q => q.stamp = t)) ∧
      (merge S now ps).data = (qs.map Page.data).flatten := by
  refine ⟨S.sort ps, S.perm ps, S.ordered ps, ?_, by simp [merge, List.flatMap]⟩
  intro t
  rw [S.short ps hlen]
  clear hlen
  induction ps with
  | nil => rfl
  | cons p ps ih =>
    rw [List.foldr_cons, insert_filter, List.filter_cons, ih, List.filter_cons]

/-- C36: so two pages with the same time stamp, which a coarse clock may give them, are put
together in the order in which they are passed. -/
theorem C36_same_time (S : Sorter) (now : Int) (p q : Page) (h : p.stamp = q.stamp) :
    (merge S now [p, q]).data = p.data ++ q.data := by
  simp [merge, S.short [p, q] (by simp), insert, h]

theorem insert_perm (p : Page) (qs : List Page) : (insert p qs).Perm (p :: qs) := by
  induction qs with
  | nil => exact .refl _
  | cons q qs ih =>
    unfold insert
    split
    · exact .refl _
    · exact (ih.cons q).trans (.swap p q qs)

theorem insert_ordered (p : Page) {qs : List Page} (h : Ordered qs) : Ordered (insert p qs) := by
  induction qs with
  | nil => exact List.pairwise_singleton _ _
  | cons q qs ih =>
    unfold Ordered at h ih ⊢
    rw [List.pairwise_cons] at h
    unfold insert
    split
    · rename_i hle
      rw [List.pairwise_cons, List.pairwise_cons]
      refine ⟨?_, h.1, h.2⟩
      intro r hr
      rcases List.mem_cons.1 hr with rfl | hr
      · exact hle
      · have := h.1 r hr; omega
    · rename_i hlt
      rw [List.pairwise_cons]
      refine ⟨?_, ih h.2⟩
      intro r hr
      rcases List.mem_cons.1 ((insert_perm p qs).mem_iff.1 hr) with rfl | hr
      · omega
      · exact h.1 r hr

/-- There are sorting functions as Go's library promises: insertion sort is one. -/
def insertionSorter : Sorter where
  sort ps := ps.foldr insert []
  perm ps := by
    induction ps with
    | nil => exact .refl _
    | cons p ps ih => exact (insert_perm p _).trans (ih.cons p)
  ordered ps := by
    induction ps with
    | nil => exact .nil
    | cons p ps ih => exact insert_ordered p ih
  short _ _ := rfl

/-- Three pages, passed in another order than they were received in. -/
example : [(⟨b!"c", 9⟩ : Page), ⟨b!"a", 1⟩, ⟨b!"b", 5⟩].Perm [⟨b!"a", 1⟩, ⟨b!"b", 5⟩, ⟨b!"c", 9⟩] ∧
    Increasing [⟨b!"a", 1⟩, ⟨b!"b", 5⟩, ⟨b!"c", 9⟩] ∧
    merge insertionSorter 10 [⟨b!"c", 9⟩, ⟨b!"a", 1⟩, ⟨b!"b", 5⟩] = ⟨b!"abc", 10⟩ := by
  refine ⟨?_, ?_, by decide⟩
  · exact (insertionSorter.perm [⟨b!"c", 9⟩, ⟨b!"a", 1⟩, ⟨b!"b", 5⟩]).symm
  · simp [Increasing]

/-- Two of three pages have the same time stamp. -/
example : merge insertionSorter 10 [⟨b!"c", 5⟩, ⟨b!"a", 1⟩, ⟨b!"b", 5⟩] = ⟨b!"acb", 10⟩ := by decide

end Verif.Client
