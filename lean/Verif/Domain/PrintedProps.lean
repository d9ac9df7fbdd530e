import Verif.Domain.PrintedLemmas

/-
C109: the printed lists.
-/

namespace Verif.Domain.Printed

variable {F T : Type}

/-! ## Specification -/

namespace Spec

/-- A text filled with blanks up to a width. -/
def fill (w : Nat) (s : Str) : Str := s ++ List.replicate (w - s.length) ' '

/-- The width of the widest text, at least `least`. -/
def widest (least : Nat) (texts : List Str) : Nat := texts.foldl (fun w s => max w s.length) least

/-- Numbers and dates are printed without tabs and line breaks. -/
structure FormsOk (f : Forms F T) : Prop where
  number : ∀ x, Clean (f.number x)
  day : ∀ t, Clean (f.day t)

/-- The texts of a balance have no tabs and line breaks, and the bank has a number. -/
structure BalanceOk (a : Balance F T) : Prop where
  product : Clean a.product
  bank : Clean a.bank
  account : Clean a.account
  booked : Clean a.booked.2
  earmarked : ∀ e, a.earmarked = some e → Clean e.2
  limit : ∀ l, a.limit = some l → Clean l.2
  known : a.bank ≠ []

/-- An amount with its currency. -/
def money (f : Forms F T) (a : F × Str) : Str := f.number a.1 ++ c!" " ++ a.2

/-- The booked balance; what is earmarked is put behind it, unless it is zero. -/
def booked (f : Forms F T) (a : Balance F T) : Str :=
  match a.earmarked with
  | none => money f a.booked
  | some e => if f.isZero e.1 then money f a.booked else money f a.booked ++ c!" (" ++ money f e ++ c!")*"

/-- The limit, or a hyphen. -/
def limit (f : Forms F T) (a : Balance F T) : Str :=
  match a.limit with
  | none => c!" - "
  | some l => money f l

/-- The texts of a transaction have no tabs and line breaks. -/
structure TransactionOk (a : Transaction F T) : Prop where
  ownBank : Clean a.ownBank
  ownAccount : Clean a.ownAccount
  amount : Clean a.amount.2
  text : Clean a.text
  bank : Clean a.bank
  account : Clean a.account
  name : Clean a.name
  purpose : Clean a.purpose
  before : Clean a.before.2.2
  after : Clean a.after.2.2

/-- The texts about an account have no tabs and line breaks, and the bank has a number. -/
structure InformationOk (a : Information F) : Prop where
  bank : Clean a.bank
  account : Clean a.account
  user : Clean a.user
  currency : Clean a.currency
  name1 : Clean a.name1
  name2 : Clean a.name2
  product : Clean a.product
  limit : ∀ l, a.limit = some l → Clean l.1 ∧ Clean l.2.2
  known : a.bank ≠ []

/-- The limit of an account with its kind, or a hyphen. -/
def limitOf (f : Forms F T) (a : Information F) : Str :=
  match a.limit with
  | none => c!" - "
  | some l => l.1 ++ c!": " ++ money f l.2

/-- A text filled with tabs up to the next place for one behind a width; tabs are eight apart. -/
def tabFill (w : Nat) (s : Str) : Str := s ++ List.replicate (((w + 7) / 8 * 8 - s.length + 7) / 8) '\t'

/-- A line about a balance. -/
def balanceAt (f : Forms F T) (b : T × (F × Str)) : Str := c!"Balance at " ++ f.day b.1 ++ c!": " ++ money f b.2 ++ c!"\n"

end Spec

open Spec

/-! ## Lemmas -/

theorem line_fill {p : Layout} (hp : p.padTab = false) (hd : p.debug = false) (w : Nat → Nat) (j : Nat) (c d : Str) (r : List Str) :
    line p w false j (c :: d :: r) = fill (w j) c ++ line p w false (j + 1) (d :: r) := by
  simp only [line]
  split
  · rename_i h; subst h; simp [pad, hp, fill, bar, hd]
  · simp [pad, hp, fill, bar, hd]

theorem line_last {p : Layout} (hd : p.debug = false) (w : Nat → Nat) (t : Bool) (j : Nat) (c : Str) : line p w t j [c] = c := by
  simp [line, bar, hd]

/-- The first cell, if it is followed by others. -/
theorem line_first {p : Layout} (hp : p.padTab = false) (hd : p.debug = false) (ht : p.tabWidth = 1) (w : Nat → Nat) {c d e : Str}
    {r : List Str} (hne : d ≠ []) :
    line p w true 0 (c :: d :: e :: r) =
      (if c = [] then List.replicate (w 0) '\t' else fill (w 0) c) ++ line p w false 1 (d :: e :: r) := by
  simp only [line]
  split
  · simp [pad, bar, ht, hp, hd]
  · simp [pad, bar, hp, hd, fill]

/-- A first cell with text. -/
theorem line_text {p : Layout} (hp : p.padTab = false) (hd : p.debug = false) (w : Nat → Nat) (t : Bool) {c d : Str}
    {r : List Str} (hne : c ≠ []) : line p w t 0 (c :: d :: r) = fill (w 0) c ++ line p w false 1 (d :: r) := by
  simp [line, hne, pad, bar, hp, hd, fill]

theorem col_widest (p : Layout) (j : Nat) (head : List Str) (rows : List (List Str)) (h : (head.getD j []).length ≤ p.minWidth) :
    colWidth p j (head :: rows) = widest p.minWidth (rows.map fun r => r.getD j []) := by
  rw [colWidth, List.foldl_cons, widest, List.foldl_map, Nat.max_eq_left h]

theorem col_rows (p : Layout) (j : Nat) (rows : List (List Str)) :
    colWidth p j rows = widest p.minWidth (rows.map fun r => r.getD j []) := by
  rw [colWidth, widest, List.foldl_map]

theorem clean_append {a b : Str} (ha : Clean a) (hb : Clean b) : Clean (a ++ b) := by
  unfold Clean at *
  simp only [List.mem_append, not_or]
  exact ⟨⟨ha.1, hb.1⟩, ha.2, hb.2⟩

theorem clean_nil : Clean [] := by simp [Clean]

theorem clean_of {c : Str} (h : (c.all fun x => x ≠ '\t' && x ≠ '\n') = true) : Clean c := by
  rw [List.all_eq_true] at h
  constructor
  · intro q
    have := h _ q
    simp at this
  · intro q
    have := h _ q
    simp at this

theorem amounts_eq (f : Forms F T) (a : Balance F T) : a.amounts f = booked f a := by
  unfold Balance.amounts Balance.marked booked money Forms.amount
  cases a.earmarked with
  | none => simp
  | some e =>
    simp only
    cases f.isZero e.1 <;> simp

theorem limit_eq (f : Forms F T) (a : Balance F T) : a.limitText f = limit f a := by
  unfold Balance.limitText limit money Forms.amount
  cases a.limit <;> rfl

theorem money_clean {f : Forms F T} (hf : FormsOk f) {a : F × Str} (h : Clean a.2) : Clean (money f a) :=
  clean_append (clean_append (hf.number _) (clean_of (by decide))) h

theorem booked_clean {f : Forms F T} (hf : FormsOk f) {a : Balance F T} (h : BalanceOk a) : Clean (booked f a) := by
  unfold booked
  split
  · exact money_clean hf h.booked
  · rename_i e he
    split
    · exact money_clean hf h.booked
    · exact clean_append (clean_append (clean_append (money_clean hf h.booked) (clean_of (by decide)))
        (money_clean hf (h.earmarked e he))) (clean_of (by decide))

theorem limit_clean {f : Forms F T} (hf : FormsOk f) {a : Balance F T} (h : BalanceOk a) : Clean (limit f a) := by
  unfold limit
  split
  · exact clean_of (by decide)
  · rename_i l hl; exact money_clean hf (h.limit l hl)

/-- The cells of a balance. -/
def balanceCells (f : Forms F T) (a : Balance F T) : List Str :=
  [a.product, a.bank, a.account, [], f.day a.day, booked f a, limit f a, []]

theorem row_eq (f : Forms F T) (a : Balance F T) : a.row f = tabbed (balanceCells f a) ++ ['\n'] := by
  simp [Balance.row, balanceCells, tabbed, amounts_eq, limit_eq]

theorem flatMap_congr {α : Type} {l : List α} {g k : α → Str} (h : ∀ a ∈ l, g a = k a) : l.flatMap g = l.flatMap k := by
  induction l with
  | nil => rfl
  | cons a l ih => rw [List.flatMap_cons, List.flatMap_cons, h a (by simp), ih fun x hx => h x (by simp [hx])]

/-- Both lists of balances. -/
theorem balances_text {f : Forms F T} (hf : FormsOk f) {ab : List (Balance F T)} (h : ∀ a ∈ ab, BalanceOk a)
    {b c : Str} (hb : Clean b) (hb' : b.length ≤ 20) (hc : Clean c) (hc' : c.length ≤ 20) (hbn : b ≠ []) :
    tabwriter wide (c!"\n" ++ (c!"Product Name\t" ++ b ++ c!"\t" ++ c ++ c!"\t\tBookingDate\tAmount\tLimit") ++ c!"\n" ++ ab.flatMap (Balance.row f)) =
      c!"\n" ++ fill (widest 20 (ab.map Balance.product)) c!"Product Name" ++ fill (widest 20 (ab.map Balance.bank)) b ++
        fill (widest 20 (ab.map Balance.account)) c ++ fill 20 [] ++
        fill (widest 20 (ab.map fun a => f.day a.day)) c!"BookingDate" ++ fill (widest 20 (ab.map (booked f))) c!"Amount" ++ c!"Limit\n" ++
      ab.flatMap fun a =>
        (if a.product = [] then List.replicate (widest 20 (ab.map Balance.product)) '\t'
          else fill (widest 20 (ab.map Balance.product)) a.product) ++
        fill (widest 20 (ab.map Balance.bank)) a.bank ++ fill (widest 20 (ab.map Balance.account)) a.account ++ fill 20 [] ++
        fill (widest 20 (ab.map fun a => f.day a.day)) (f.day a.day) ++ fill (widest 20 (ab.map (booked f))) (booked f a) ++
        fill (widest 20 (ab.map (limit f))) (limit f a) ++ c!"\n" := by
  have hd : wide.debug = false := rfl
  have hp : wide.padTab = false := rfl
  have hm : wide.minWidth = 20 := rfl
  obtain ⟨head, hhead⟩ : ∃ head : List Str, head = [c!"Product Name", b, c, [], c!"BookingDate", c!"Amount", c!"Limit"] := ⟨_, rfl⟩
  have et : c!"\n" ++ (c!"Product Name\t" ++ b ++ c!"\t" ++ c ++ c!"\t\tBookingDate\tAmount\tLimit") ++ c!"\n" ++ ab.flatMap (Balance.row f) =
      ([[]] :: head :: ab.map (balanceCells f)).flatMap (fun l => tabbed l ++ ['\n']) ++ [] := by
    have : ab.flatMap (Balance.row f) = (ab.map (balanceCells f)).flatMap (fun l => tabbed l ++ ['\n']) := by
      rw [List.flatMap_map]
      congr 1
      funext a
      exact row_eq f a
    rw [this]
    simp [hhead, tabbed]
  have hcells : cellsOf (([[]] :: head :: ab.map (balanceCells f)).flatMap (fun l => tabbed l ++ ['\n']) ++ []) =
      ([[]] :: head :: ab.map (balanceCells f)) ++ cellsOf [] := by
    refine cells_lines ?_ ?_ []
    · intro l hl
      simp only [List.mem_cons, List.mem_map] at hl
      rcases hl with rfl | rfl | ⟨a, _, rfl⟩ <;> simp [hhead, balanceCells]
    · intro l hl x hx
      simp only [List.mem_cons, List.mem_map] at hl
      rcases hl with rfl | rfl | ⟨a, ha, rfl⟩
      · simp at hx; subst hx; exact clean_nil
      · simp only [hhead, List.mem_cons, List.not_mem_nil, or_false] at hx
        rcases hx with rfl | rfl | rfl | rfl | rfl | rfl | rfl
        · exact clean_of (by decide)
        · exact hb
        · exact hc
        · exact clean_nil
        · exact clean_of (by decide)
        · exact clean_of (by decide)
        · exact clean_of (by decide)
      · have ok := h a ha
        simp only [balanceCells, List.mem_cons, List.not_mem_nil, or_false] at hx
        rcases hx with rfl | rfl | rfl | rfl | rfl | rfl | rfl | rfl
        · exact ok.product
        · exact ok.bank
        · exact ok.account
        · exact clean_nil
        · exact hf.day _
        · exact booked_clean hf ok
        · exact limit_clean hf ok
        · exact clean_nil
  rw [tabwriter, et, hcells, show cellsOf [] = [[[]]] from rfl]
  have ht := table' wide (top := [[]]) (head := head) (rows := ab.map (balanceCells f)) (n := 6) (by simp [hhead]) (by
    intro r hr
    obtain ⟨a, _, rfl⟩ := List.mem_map.1 hr
    simp [balanceCells])
  rw [show ([[]] :: head :: ab.map (balanceCells f)) ++ [[[]]] =
    (([[]] : List Str).map (fun l => [l]) ++ (head :: ab.map (balanceCells f)) ++ [[[]]]) from by simp, ht]
  have w0 : colWidth wide 0 (head :: ab.map (balanceCells f)) = widest 20 (ab.map Balance.product) := by
    rw [col_widest _ _ _ _ (by simp [hhead, hm]), List.map_map, hm]; rfl
  have w1 : colWidth wide 1 (head :: ab.map (balanceCells f)) = widest 20 (ab.map Balance.bank) := by
    rw [col_widest _ _ _ _ (by simpa [hhead, hm] using hb'), List.map_map, hm]; rfl
  have w2 : colWidth wide 2 (head :: ab.map (balanceCells f)) = widest 20 (ab.map Balance.account) := by
    rw [col_widest _ _ _ _ (by simpa [hhead, hm] using hc'), List.map_map, hm]; rfl
  have w3 : colWidth wide 3 (head :: ab.map (balanceCells f)) = 20 := by
    rw [col_widest _ _ _ _ (by simp [hhead, hm]), List.map_map, hm]
    have : ∀ l : List (Balance F T), widest 20 (l.map ((fun r => r.getD 3 []) ∘ balanceCells f)) = 20 := by
      intro l
      induction l with
      | nil => rfl
      | cons a l ih => simpa [widest, balanceCells] using ih
    exact this ab
  have w4 : colWidth wide 4 (head :: ab.map (balanceCells f)) = widest 20 (ab.map fun a => f.day a.day) := by
    rw [col_widest _ _ _ _ (by simp [hhead, hm]), List.map_map, hm]; rfl
  have w5 : colWidth wide 5 (head :: ab.map (balanceCells f)) = widest 20 (ab.map (booked f)) := by
    rw [col_widest _ _ _ _ (by simp [hhead, hm]), List.map_map, hm]; rfl
  have w6 : colWidth wide 6 (ab.map (balanceCells f)) = widest 20 (ab.map (limit f)) := by
    rw [col_rows, List.map_map, hm]; rfl
  have hti : wide.tabIndent = true := rfl
  obtain ⟨w, hw⟩ : ∃ w : Nat → Nat, w = fun j => if j < 6 then colWidth wide j (head :: ab.map (balanceCells f)) else colWidth wide j (ab.map (balanceCells f)) :=
    ⟨_, rfl⟩
  rw [← hw, hti]
  have v0 : w 0 = widest 20 (ab.map Balance.product) := by rw [hw, ← w0]; rfl
  have v1 : w 1 = widest 20 (ab.map Balance.bank) := by rw [hw, ← w1]; rfl
  have v2 : w 2 = widest 20 (ab.map Balance.account) := by rw [hw, ← w2]; rfl
  have v3 : w 3 = 20 := by rw [hw, ← w3]; rfl
  have v4 : w 4 = widest 20 (ab.map fun a => f.day a.day) := by rw [hw, ← w4]; rfl
  have v5 : w 5 = widest 20 (ab.map (booked f)) := by rw [hw, ← w5]; rfl
  have v6 : w 6 = widest 20 (ab.map (limit f)) := by rw [hw, ← w6]; rfl
  rw [← v0, ← v1, ← v2, ← v4, ← v5, ← v6]
  rw [show ∀ (g : List Str → Str), (head :: ab.map (balanceCells f)).flatMap g = g head ++ ab.flatMap (fun a => g (balanceCells f a)) from
    fun g => by rw [List.flatMap_cons, List.flatMap_map]]
  have hrow : ∀ a ∈ ab, line wide w true 0 (balanceCells f a) ++ ['\n'] =
        (if a.product = [] then List.replicate (w 0) '\t' else fill (w 0) a.product) ++
        fill (w 1) a.bank ++ fill (w 2) a.account ++ fill 20 [] ++ fill (w 4) (f.day a.day) ++ fill (w 5) (booked f a) ++
        fill (w 6) (limit f a) ++ c!"\n" := by
    intro a ha
    have ok := h a ha
    rw [balanceCells, line_first hp hd rfl _ ok.known]
    simp only [line_fill hp hd, line_last hd, v3]
    simp
  rw [flatMap_congr hrow, hhead, line_text hp hd _ _ (by simp)]
  simp only [line_fill hp hd, line_last hd, v3]
  simp

theorem remark_eq (f : Forms F T) (ab : List (Balance F T)) :
    ab.any (fun a => (a.marked f).isSome) = ab.any (fun a => match a.earmarked with
      | none => false
      | some e => !f.isZero e.1) := by
  congr 1
  funext a
  unfold Balance.marked
  cases a.earmarked with
  | none => rfl
  | some e => simp only; cases f.isZero e.1 <;> rfl

/-! ## C109: balances -/

/-- C109: A list of balances is printed as a table with one line per account in the order of the
list; every column is as wide as its widest text, at least 20, and filled with blanks.  A remark
follows exactly if something other than zero is earmarked on some account.  The first column of
an account without product name is not filled with blanks but with as many tabs. -/
theorem C109_balances {f : Forms F T} (hf : FormsOk f) {ab : List (Balance F T)} (h : ∀ a ∈ ab, BalanceOk a) :
    balances f ab =
      c!"\n" ++ fill (widest 20 (ab.map Balance.product)) c!"Product Name" ++ fill (widest 20 (ab.map Balance.bank)) c!"BankID" ++
        fill (widest 20 (ab.map Balance.account)) c!"AccountID" ++ fill 20 [] ++
        fill (widest 20 (ab.map fun a => f.day a.day)) c!"BookingDate" ++ fill (widest 20 (ab.map (booked f))) c!"Amount" ++ c!"Limit\n" ++
      (ab.flatMap fun a =>
        (if a.product = [] then List.replicate (widest 20 (ab.map Balance.product)) '\t'
          else fill (widest 20 (ab.map Balance.product)) a.product) ++
        fill (widest 20 (ab.map Balance.bank)) a.bank ++ fill (widest 20 (ab.map Balance.account)) a.account ++ fill 20 [] ++
        fill (widest 20 (ab.map fun a => f.day a.day)) (f.day a.day) ++ fill (widest 20 (ab.map (booked f))) (booked f a) ++
        fill (widest 20 (ab.map (limit f))) (limit f a) ++ c!"\n") ++
      (if ab.any (fun a => match a.earmarked with
          | none => false
          | some e => !f.isZero e.1) then c!"* earmarked transactions\n" else []) := by
  rw [balances, balancesText, remark_eq]
  congr 1
  exact balances_text hf h (b := c!"BankID") (c := c!"AccountID") (clean_of (by decide)) (by decide) (clean_of (by decide)) (by decide) (by simp)

/-- C109: The same for accounts with BIC and IBAN. -/
theorem C109_sepa {f : Forms F T} (hf : FormsOk f) {ab : List (Balance F T)} (h : ∀ a ∈ ab, BalanceOk a) :
    sepaBalances f ab =
      c!"\n" ++ fill (widest 20 (ab.map Balance.product)) c!"Product Name" ++ fill (widest 20 (ab.map Balance.bank)) c!"BIC" ++
        fill (widest 20 (ab.map Balance.account)) c!"IBAN" ++ fill 20 [] ++
        fill (widest 20 (ab.map fun a => f.day a.day)) c!"BookingDate" ++ fill (widest 20 (ab.map (booked f))) c!"Amount" ++ c!"Limit\n" ++
      (ab.flatMap fun a =>
        (if a.product = [] then List.replicate (widest 20 (ab.map Balance.product)) '\t'
          else fill (widest 20 (ab.map Balance.product)) a.product) ++
        fill (widest 20 (ab.map Balance.bank)) a.bank ++ fill (widest 20 (ab.map Balance.account)) a.account ++ fill 20 [] ++
        fill (widest 20 (ab.map fun a => f.day a.day)) (f.day a.day) ++ fill (widest 20 (ab.map (booked f))) (booked f a) ++
        fill (widest 20 (ab.map (limit f))) (limit f a) ++ c!"\n") ++
      (if ab.any (fun a => match a.earmarked with
          | none => false
          | some e => !f.isZero e.1) then c!"* earmarked transactions\n" else []) := by
  rw [sepaBalances, balancesText, remark_eq]
  congr 1
  exact balances_text hf h (b := c!"BIC") (c := c!"IBAN") (clean_of (by decide)) (by decide) (clean_of (by decide)) (by decide) (by simp)

theorem widest_ge (n : Nat) (l : List Str) : n ≤ widest n l ∧ ∀ s ∈ l, s.length ≤ widest n l := by
  induction l generalizing n with
  | nil => simp [widest]
  | cons s l ih =>
    have := ih (max n s.length)
    simp only [widest, List.foldl_cons] at this ⊢
    refine ⟨by omega, fun t ht => ?_⟩
    rcases List.mem_cons.1 ht with rfl | ht
    · omega
    · exact this.2 t ht

theorem widest_le {n m : Nat} {l : List Str} (hn : n ≤ m) (h : ∀ s ∈ l, s.length ≤ m) : widest n l ≤ m := by
  induction l generalizing n with
  | nil => simpa [widest] using hn
  | cons s l ih =>
    have := h s (by simp)
    simp only [widest, List.foldl_cons]
    exact ih (by omega) fun t ht => h t (by simp [ht])

theorem infix_flatMap {α : Type} {l : List α} {g : α → Str} {a : α} (h : a ∈ l) : g a <:+: l.flatMap g := by
  induction l with
  | nil => simp at h
  | cons b l ih =>
    rw [List.flatMap_cons]
    rcases List.mem_cons.1 h with rfl | h
    · exact (List.prefix_append _ _).isInfix
    · exact (ih h).trans (List.suffix_append _ _).isInfix

/-- C109: In fact nothing separates the columns: the product name with the most characters, if
there are twenty or more, is printed with the number of the bank right behind it. -/
theorem C109_glued {f : Forms F T} (hf : FormsOk f) {ab : List (Balance F T)} (h : ∀ a ∈ ab, BalanceOk a)
    {a : Balance F T} (ha : a ∈ ab) (hl : 20 ≤ a.product.length) (hm : ∀ b ∈ ab, b.product.length ≤ a.product.length) :
    (a.product ++ a.bank) <:+: balances f ab := by
  have hw : widest 20 (ab.map Balance.product) = a.product.length := by
    refine Nat.le_antisymm (widest_le hl ?_) ((widest_ge _ _).2 _ (List.mem_map_of_mem ha))
    intro s hs
    obtain ⟨b, hb, rfl⟩ := List.mem_map.1 hs
    exact hm b hb
  have hne : a.product ≠ [] := by
    intro e
    rw [e] at hl
    simp at hl
  have hf' : fill (widest 20 (ab.map Balance.product)) a.product = a.product := by
    rw [hw, fill]; simp
  rw [C109_balances hf h]
  refine List.IsInfix.trans ?_ (List.infix_append _ _ _)
  refine List.IsInfix.trans ?_ (infix_flatMap ha)
  rw [if_neg hne, hf']
  simp only [fill, List.append_assoc]
  rw [← List.append_assoc a.product]
  exact (List.prefix_append _ _).isInfix

/-! ## C109: transactions -/

/-- The cells of a transaction. -/
def transactionCells (f : Forms F T) (a : Transaction F T) : List Str :=
  [f.day a.day, a.text, money f a.amount, a.bank, a.account, a.name, a.purpose]

theorem transaction_row (f : Forms F T) (a : Transaction F T) : a.row f = tabbed (transactionCells f a) ++ ['\n'] := by
  simp [Transaction.row, transactionCells, tabbed, money, Forms.amount]

theorem balanceLine_eq (f : Forms F T) (b : T × (F × Str)) : balanceLine f b = balanceAt f b := rfl

/-- A table whose heading and rows have seven cells. -/
theorem seven {p : Layout} (hp : p.padTab = false) (hd : p.debug = false) {top bottom : List Str} (ht : ∀ l ∈ top, Clean l)
    (hbt : ∀ l ∈ bottom, Clean l) {t0 t1 t2 t3 t4 t5 t6 : Str} (htitles : ∀ t ∈ [t0, t1, t2, t3, t4, t5, t6], Clean t ∧ t.length ≤ p.minWidth)
    (h0 : t0 ≠ []) {α : Type} {l : List α} {g0 g1 g2 g3 g4 g5 g6 : α → Str}
    (hg : ∀ a ∈ l, ∀ c ∈ [g0 a, g1 a, g2 a, g3 a, g4 a, g5 a, g6 a], Clean c) (hg0 : ∀ a ∈ l, g0 a ≠ []) :
    tabwriter p (top.flatMap (fun x => x ++ ['\n']) ++ tabbed [t0, t1, t2, t3, t4, t5, t6] ++ ['\n'] ++
        l.flatMap (fun a => tabbed [g0 a, g1 a, g2 a, g3 a, g4 a, g5 a, g6 a] ++ ['\n']) ++ bottom.flatMap (fun x => x ++ ['\n'])) =
      top.flatMap (fun x => x ++ ['\n']) ++
      fill (widest p.minWidth (l.map g0)) t0 ++ fill (widest p.minWidth (l.map g1)) t1 ++ fill (widest p.minWidth (l.map g2)) t2 ++
        fill (widest p.minWidth (l.map g3)) t3 ++ fill (widest p.minWidth (l.map g4)) t4 ++ fill (widest p.minWidth (l.map g5)) t5 ++ t6 ++ c!"\n" ++
      (l.flatMap fun a =>
        fill (widest p.minWidth (l.map g0)) (g0 a) ++ fill (widest p.minWidth (l.map g1)) (g1 a) ++ fill (widest p.minWidth (l.map g2)) (g2 a) ++
        fill (widest p.minWidth (l.map g3)) (g3 a) ++ fill (widest p.minWidth (l.map g4)) (g4 a) ++ fill (widest p.minWidth (l.map g5)) (g5 a) ++
        g6 a ++ c!"\n") ++
      bottom.flatMap (fun x => x ++ ['\n']) := by
  obtain ⟨head, hhead⟩ : ∃ head : List Str, head = [t0, t1, t2, t3, t4, t5, t6] := ⟨_, rfl⟩
  obtain ⟨cells, hcells⟩ : ∃ cells : α → List Str, cells = fun a => [g0 a, g1 a, g2 a, g3 a, g4 a, g5 a, g6 a] := ⟨_, rfl⟩
  have et : top.flatMap (fun x => x ++ ['\n']) ++ tabbed [t0, t1, t2, t3, t4, t5, t6] ++ ['\n'] ++
        l.flatMap (fun a => tabbed [g0 a, g1 a, g2 a, g3 a, g4 a, g5 a, g6 a] ++ ['\n']) ++ bottom.flatMap (fun x => x ++ ['\n']) =
      (top.map (fun x => [x]) ++ (head :: l.map cells) ++ bottom.map (fun x => [x])).flatMap (fun l => tabbed l ++ ['\n']) ++ [] := by
    rw [List.flatMap_append, List.flatMap_append, List.flatMap_cons, List.flatMap_map, List.flatMap_map, List.flatMap_map, hhead, hcells]
    simp only [tabbed, List.append_nil, List.append_assoc]
  rw [tabwriter, et, cells_lines, show cellsOf [] = [[[]]] from rfl]
  rotate_left
  · intro x hx
    simp only [List.mem_append, List.mem_cons, List.mem_map] at hx
    rcases hx with (⟨y, _, rfl⟩ | rfl | ⟨a, _, rfl⟩) | ⟨y, _, rfl⟩ <;> simp [hhead, hcells]
  · intro x hx c hc
    simp only [List.mem_append, List.mem_cons, List.mem_map] at hx
    rcases hx with (⟨y, hy, rfl⟩ | rfl | ⟨a, ha, rfl⟩) | ⟨y, hy, rfl⟩
    · rw [List.mem_singleton] at hc; subst hc; exact ht _ hy
    · rw [hhead] at hc; exact (htitles c hc).1
    · rw [hcells] at hc; exact hg a ha c hc
    · rw [List.mem_singleton] at hc; subst hc; exact hbt _ hy
  rw [table p (n := 6) (by simp [hhead]) (by
    intro r hr
    obtain ⟨a, _, rfl⟩ := List.mem_map.1 hr
    simp [hcells])]
  obtain ⟨w, hw⟩ : ∃ w : Nat → Nat, w = fun j => colWidth p j (head :: l.map cells) := ⟨_, rfl⟩
  have v : ∀ j, (head.getD j []).length ≤ p.minWidth → w j = widest p.minWidth (l.map fun a => (cells a).getD j []) := by
    intro j hj
    rw [hw]
    simp only
    rw [col_widest _ _ _ _ hj, List.map_map]
    rfl
  have v0 : w 0 = widest p.minWidth (l.map g0) := by rw [v 0 (by rw [hhead]; exact (htitles t0 (by simp)).2), hcells]; rfl
  have v1 : w 1 = widest p.minWidth (l.map g1) := by rw [v 1 (by rw [hhead]; exact (htitles t1 (by simp)).2), hcells]; rfl
  have v2 : w 2 = widest p.minWidth (l.map g2) := by rw [v 2 (by rw [hhead]; exact (htitles t2 (by simp)).2), hcells]; rfl
  have v3 : w 3 = widest p.minWidth (l.map g3) := by rw [v 3 (by rw [hhead]; exact (htitles t3 (by simp)).2), hcells]; rfl
  have v4 : w 4 = widest p.minWidth (l.map g4) := by rw [v 4 (by rw [hhead]; exact (htitles t4 (by simp)).2), hcells]; rfl
  have v5 : w 5 = widest p.minWidth (l.map g5) := by rw [v 5 (by rw [hhead]; exact (htitles t5 (by simp)).2), hcells]; rfl
  rw [← hw, ← v0, ← v1, ← v2, ← v3, ← v4, ← v5]
  rw [show ∀ (g : List Str → Str), (head :: l.map cells).flatMap g = g head ++ l.flatMap (fun a => g (cells a)) from
    fun g => by rw [List.flatMap_cons, List.flatMap_map]]
  have hrow : ∀ a ∈ l, line p w p.tabIndent 0 (cells a) ++ ['\n'] =
      fill (w 0) (g0 a) ++ fill (w 1) (g1 a) ++ fill (w 2) (g2 a) ++ fill (w 3) (g3 a) ++ fill (w 4) (g4 a) ++ fill (w 5) (g5 a) ++
        g6 a ++ c!"\n" := by
    intro a ha
    rw [hcells]
    simp only
    rw [line_text hp hd _ _ (hg0 a ha)]
    simp only [line_fill hp hd, line_last hd]
    simp
  rw [flatMap_congr hrow, hhead, line_text hp hd _ _ h0]
  simp only [line_fill hp hd, line_last hd]
  simp

/-- C109: A list of transactions is printed as a table with one line per transaction in the order
of the list, each column at least 24 wide; above it the account and the opening balance of the
first transaction, below it the closing balance of the last one. -/
theorem C109_transactions {f : Forms F T} (hf : FormsOk f) (hday : ∀ t, f.day t ≠ []) {l : List (Transaction F T)} (h : ∀ a ∈ l, TransactionOk a) :
    transactions f l =
      c!"\n" ++
      (match l.head? with
        | none => []
        | some a => c!"Transactions for account " ++ a.ownBank ++ c!"/" ++ a.ownAccount ++ c!"\n" ++ balanceAt f a.before) ++
      fill (widest 24 (l.map fun a => f.day a.day)) c!"BookingDate" ++ fill (widest 24 (l.map Transaction.text)) c!"Booking Text" ++
        fill (widest 24 (l.map fun a => money f a.amount)) c!"Amount" ++ fill (widest 24 (l.map Transaction.bank)) c!"BankID" ++
        fill (widest 24 (l.map Transaction.account)) c!"AccountID" ++ fill (widest 24 (l.map Transaction.name)) c!"Name" ++ c!"Purpose\n" ++
      (l.flatMap fun a =>
        fill (widest 24 (l.map fun a => f.day a.day)) (f.day a.day) ++ fill (widest 24 (l.map Transaction.text)) a.text ++
        fill (widest 24 (l.map fun a => money f a.amount)) (money f a.amount) ++ fill (widest 24 (l.map Transaction.bank)) a.bank ++
        fill (widest 24 (l.map Transaction.account)) a.account ++ fill (widest 24 (l.map Transaction.name)) a.name ++ a.purpose ++ c!"\n") ++
      (match l.getLast? with
        | none => []
        | some a => balanceAt f a.after) := by
  have clean7 : ∀ a ∈ l, ∀ c ∈ [f.day a.day, a.text, money f a.amount, a.bank, a.account, a.name, a.purpose], Clean c := by
    intro a ha c hc
    have ok := h a ha
    simp only [List.mem_cons, List.not_mem_nil, or_false] at hc
    rcases hc with rfl | rfl | rfl | rfl | rfl | rfl | rfl
    · exact hf.day _
    · exact ok.text
    · exact money_clean hf ok.amount
    · exact ok.bank
    · exact ok.account
    · exact ok.name
    · exact ok.purpose
  have titles : ∀ t ∈ [c!"BookingDate", c!"Booking Text", c!"Amount", c!"BankID", c!"AccountID", c!"Name", c!"Purpose"],
      Clean t ∧ t.length ≤ wider.minWidth := by
    intro t ht
    have : ∀ t ∈ [c!"BookingDate", c!"Booking Text", c!"Amount", c!"BankID", c!"AccountID", c!"Name", c!"Purpose"],
      (t.all fun x => x ≠ '\t' && x ≠ '\n') = true ∧ t.length ≤ 24 := by decide
    exact ⟨clean_of (this t ht).1, (this t ht).2⟩
  have bl : ∀ b : T × (F × Str), Clean b.2.2 → Clean (c!"Balance at " ++ f.day b.1 ++ c!": " ++ money f b.2) := fun b hb =>
    clean_append (clean_append (clean_append (clean_of (by decide)) (hf.day _)) (clean_of (by decide))) (money_clean hf hb)
  have main := fun (top bottom : List Str) ht hb => seven (p := wider) rfl rfl (top := top) (bottom := bottom) ht hb titles (by simp) clean7 (fun a _ => hday _)
  have rows : l.flatMap (Transaction.row f) = l.flatMap (fun a => tabbed [f.day a.day, a.text, money f a.amount, a.bank, a.account, a.name, a.purpose] ++ ['\n']) :=
    flatMap_congr fun a _ => transaction_row f a
  rcases l with _ | ⟨a, r⟩
  · have := main [[]] [] (by simp [clean_nil]) (by simp)
    simpa [transactions, tabbed, List.append_assoc, show wider.minWidth = 24 from rfl] using this
  · obtain ⟨z, hz⟩ : ∃ z, (a :: r).getLast? = some z := ⟨_, List.getLast?_eq_getLast_of_ne_nil (by simp)⟩
    have hzm : z ∈ a :: r := List.mem_of_getLast? hz
    have := main [[], c!"Transactions for account " ++ a.ownBank ++ c!"/" ++ a.ownAccount,
        c!"Balance at " ++ f.day a.before.1 ++ c!": " ++ money f a.before.2]
      [c!"Balance at " ++ f.day z.after.1 ++ c!": " ++ money f z.after.2]
      (by
        intro x hx
        simp only [List.mem_cons, List.not_mem_nil, or_false] at hx
        have ok := h a (by simp)
        rcases hx with rfl | rfl | rfl
        · exact clean_nil
        · exact clean_append (clean_append (clean_append (clean_of (by decide)) ok.ownBank) (clean_of (by decide))) ok.ownAccount
        · exact bl a.before ok.before)
      (by
        intro x hx
        rw [List.mem_singleton] at hx
        subst hx
        exact bl z.after (h z hzm).after)
    unfold transactions
    rw [rows, hz]
    simp only [List.head?_cons, balanceLine_eq, balanceAt]
    refine Eq.trans (congrArg _ ?_) (this.trans ?_)
    · simp [tabbed]
    · simp [show wider.minWidth = 24 from rfl]

/-! ## C109: accounts -/

theorem limitOf_clean {f : Forms F T} (hf : FormsOk f) {a : Information F} (h : InformationOk a) : Clean (limitOf f a) := by
  unfold limitOf
  split
  · exact clean_of (by decide)
  · rename_i l hl
    exact clean_append (clean_append (h.limit l hl).1 (clean_of (by decide))) (money_clean hf (h.limit l hl).2)

/-- The cells about an account. -/
theorem information_cells {f : Forms F T} (hf : FormsOk f) {a : Information F} (ok : InformationOk a) :
    ∀ c ∈ [a.bank, a.account, a.user, a.currency, a.name1 ++ c!", " ++ a.name2, a.product, limitOf f a], Clean c := by
  intro c hc
  simp only [List.mem_cons, List.not_mem_nil, or_false] at hc
  rcases hc with rfl | rfl | rfl | rfl | rfl | rfl | rfl
  · exact ok.bank
  · exact ok.account
  · exact ok.user
  · exact ok.currency
  · exact clean_append (clean_append ok.name1 (clean_of (by decide))) ok.name2
  · exact ok.product
  · exact limitOf_clean hf ok

theorem information_row (f : Forms F T) (a : Information F) :
    a.row f = tabbed [a.bank, a.account, a.user, a.currency, a.name1 ++ c!", " ++ a.name2, a.product, limitOf f a] ++ ['\n'] := by
  have : a.limitText f = limitOf f a := by
    unfold Information.limitText limitOf money Forms.amount
    cases a.limit <;> rfl
  simp [Information.row, this, tabbed]

theorem information_titles : ∀ t ∈ [c!"BankID", c!"AccountID", c!"UserID", c!"Currency", c!"Name", c!"ProductID", c!"Limit"],
    Clean t ∧ t.length ≤ wide.minWidth := by
  intro t ht
  have : ∀ t ∈ [c!"BankID", c!"AccountID", c!"UserID", c!"Currency", c!"Name", c!"ProductID", c!"Limit"],
    (t.all fun x => x ≠ '\t' && x ≠ '\n') = true ∧ t.length ≤ 20 := by decide
  exact ⟨clean_of (this t ht).1, (this t ht).2⟩

/-- C109: A list of accounts is printed as a table with one line per account in the order of the
list, each column at least 20 wide; the names are joined by a comma, and the limit comes with its
kind or is a hyphen. -/
theorem C109_informations {f : Forms F T} (hf : FormsOk f) {l : List (Information F)} (h : ∀ a ∈ l, InformationOk a) :
    informations f l =
      c!"\n" ++
      fill (widest 20 (l.map Information.bank)) c!"BankID" ++ fill (widest 20 (l.map Information.account)) c!"AccountID" ++
        fill (widest 20 (l.map Information.user)) c!"UserID" ++ fill (widest 20 (l.map Information.currency)) c!"Currency" ++
        fill (widest 20 (l.map fun a => a.name1 ++ c!", " ++ a.name2)) c!"Name" ++ fill (widest 20 (l.map Information.product)) c!"ProductID" ++ c!"Limit\n" ++
      l.flatMap fun a =>
        fill (widest 20 (l.map Information.bank)) a.bank ++ fill (widest 20 (l.map Information.account)) a.account ++
        fill (widest 20 (l.map Information.user)) a.user ++ fill (widest 20 (l.map Information.currency)) a.currency ++
        fill (widest 20 (l.map fun a => a.name1 ++ c!", " ++ a.name2)) (a.name1 ++ c!", " ++ a.name2) ++
        fill (widest 20 (l.map Information.product)) a.product ++ limitOf f a ++ c!"\n" := by
  have := seven (p := wide) rfl rfl (top := [[]]) (bottom := []) (by simp [clean_nil]) (by simp) information_titles (by simp)
    (l := l) (g0 := Information.bank) (g1 := Information.account) (g2 := Information.user) (g3 := Information.currency)
    (g4 := fun a => a.name1 ++ c!", " ++ a.name2) (g5 := Information.product) (g6 := limitOf f)
    (fun a ha => information_cells hf (h a ha)) (fun a ha => (h a ha).known)
  unfold informations
  rw [flatMap_congr fun a _ => information_row f a]
  refine Eq.trans (congrArg _ ?_) (this.trans ?_)
  · simp [tabbed, informationTitles]
  · simp [show wide.minWidth = 20 from rfl]

/-! ## C109: single values -/

theorem cells_two {head row : List Str} (hh : head ≠ []) (hr : row ≠ []) (ch : ∀ c ∈ head, Clean c) (cr : ∀ c ∈ row, Clean c) :
    cellsOf (c!"\n" ++ tabbed head ++ c!"\n" ++ tabbed row) = [[[]], head, row] := by
  have := cells_lines (ls := [[[]], head]) (by simp [hh]) (by
    intro l hl c hc
    simp only [List.mem_cons, List.not_mem_nil, or_false] at hl
    rcases hl with rfl | rfl
    · rw [List.mem_singleton] at hc; subst hc; exact clean_nil
    · exact ch c hc) (tabbed row)
  have e : c!"\n" ++ tabbed head ++ c!"\n" ++ tabbed row =
      [[[]], head].flatMap (fun l => tabbed l ++ ['\n']) ++ tabbed row := by simp [tabbed]
  rw [e, this]
  have : cellsOf (tabbed row) = [row] := by
    rw [cellsOf, pieces_clean (tabbed_clean fun c hc => (cr c hc).2)]
    simp [pieces_tabbed hr fun c hc => (cr c hc).1]
  rw [this]
  rfl

/-- C109: A single transaction is printed below its headings with tabs between the columns. -/
theorem C109_transaction {f : Forms F T} (hf : FormsOk f) {a : Transaction F T} (h : TransactionOk a) :
    transaction f a =
      c!"\n" ++ tabFill (max 11 (f.day a.day).length) c!"BookingDate" ++ tabFill (max 6 (money f a.amount).length) c!"Amount" ++
        tabFill (max 6 a.bank.length) c!"BankID" ++ tabFill (max 9 a.account.length) c!"AccountID" ++ c!"Purpose\n" ++
      tabFill (max 11 (f.day a.day).length) (f.day a.day) ++ tabFill (max 6 (money f a.amount).length) (money f a.amount) ++
        tabFill (max 6 a.bank.length) a.bank ++ tabFill (max 9 a.account.length) a.account ++ a.purpose := by
  have hc := cells_two (head := [c!"BookingDate", c!"Amount", c!"BankID", c!"AccountID", c!"Purpose"])
    (row := [f.day a.day, money f a.amount, a.bank, a.account, a.purpose]) (by simp) (by simp)
    (by
      intro c hc
      have : ∀ t ∈ [c!"BookingDate", c!"Amount", c!"BankID", c!"AccountID", c!"Purpose"],
        (t.all fun x => x ≠ '\t' && x ≠ '\n') = true := by decide
      exact clean_of (this c hc))
    (by
      intro c hc
      simp only [List.mem_cons, List.not_mem_nil, or_false] at hc
      rcases hc with rfl | rfl | rfl | rfl | rfl
      · exact hf.day _
      · exact money_clean hf h.amount
      · exact h.bank
      · exact h.account
      · exact h.purpose)
  have cell : ∀ (w : Nat → Nat) (t : Bool) (j : Nat) (c d : Str) (r : List Str),
      line ⟨0, 8, true, false, false⟩ w t j (c :: d :: r) = tabFill (w j) c ++ line ⟨0, 8, true, false, false⟩ w false (j + 1) (d :: r) ∨ t = true := by
    intro w t j c d r
    cases t with
    | true => exact .inr rfl
    | false =>
      left
      simp only [line]
      split
      · rename_i h; subst h; simp [pad, tabFill, bar]
      · simp [pad, tabFill, bar]
  have cell : ∀ (w : Nat → Nat) (j : Nat) (c d : Str) (r : List Str),
      line ⟨0, 8, true, false, false⟩ w false j (c :: d :: r) = tabFill (w j) c ++ line ⟨0, 8, true, false, false⟩ w false (j + 1) (d :: r) :=
    fun w j c d r => (cell w false j c d r).resolve_right (by simp)
  have last : ∀ (w : Nat → Nat) (j : Nat) (c : Str), line ⟨0, 8, true, false, false⟩ w false j [c] = c := fun w j c => by simp [line, bar]
  have et : c!"\n" ++ c!"BookingDate\tAmount\tBankID\tAccountID\tPurpose" ++ c!"\n" ++
      f.day a.day ++ c!"\t" ++ f.amount a.amount ++ c!"\t" ++ a.bank ++ c!"\t" ++ a.account ++ c!"\t" ++ a.purpose =
      c!"\n" ++ tabbed [c!"BookingDate", c!"Amount", c!"BankID", c!"AccountID", c!"Purpose"] ++ c!"\n" ++
        tabbed [f.day a.day, money f a.amount, a.bank, a.account, a.purpose] := by
    simp [tabbed, money, Forms.amount]
  unfold transaction
  rw [et, tabwriter, hc]
  simp only [render, cell, last]
  simp [width, has, colWidth, List.takeWhile]

/-- C109: In fact nothing separates a bank code of eight digits, as all German ones are, from the
account number behind it. -/
theorem C109_joined {f : Forms F T} (hf : FormsOk f) {a : Transaction F T} (h : TransactionOk a) (h8 : a.bank.length = 8) :
    (a.bank ++ a.account) <:+: transaction f a := by
  rw [C109_transaction hf h, h8]
  have : tabFill (max 6 8) a.bank = a.bank := by simp [tabFill, h8]
  rw [this]
  have aux : ∀ (p b acc r q : Str), (b ++ acc) <:+: (p ++ b ++ (acc ++ r) ++ q) := fun p b acc r q => ⟨p, r ++ q, by simp⟩
  exact aux _ _ _ _ _

theorem balance_text {f : Forms F T} (hf : FormsOk f) {a : Balance F T} (h : BalanceOk a) {b c : Str} (hb : Clean b) (hb' : b.length ≤ 24)
    (hc : Clean c) (hc' : c.length ≤ 24) (hbn : b ≠ []) :
    tabwriter wider (c!"\n" ++ (b ++ c!"\t" ++ c ++ c!"\t\tBookingDate\tAmount") ++ c!"\n" ++ a.bank ++ c!"\t" ++ a.account ++ c!"\t" ++ c!"\t" ++
        f.day a.day ++ c!"\t" ++ f.amount a.booked) =
      c!"\n" ++ fill (max 24 a.bank.length) b ++ fill (max 24 a.account.length) c ++ fill 24 [] ++
        fill (max 24 (f.day a.day).length) c!"BookingDate" ++ c!"Amount\n" ++
      fill (max 24 a.bank.length) a.bank ++ fill (max 24 a.account.length) a.account ++ fill 24 [] ++
        fill (max 24 (f.day a.day).length) (f.day a.day) ++ money f a.booked := by
  have hcl := cells_two (head := [b, c, [], c!"BookingDate", c!"Amount"])
    (row := [a.bank, a.account, [], f.day a.day, money f a.booked]) (by simp) (by simp)
    (by
      intro x hx
      simp only [List.mem_cons, List.not_mem_nil, or_false] at hx
      rcases hx with rfl | rfl | rfl | rfl | rfl
      · exact hb
      · exact hc
      · exact clean_nil
      · exact clean_of (by decide)
      · exact clean_of (by decide))
    (by
      intro x hx
      simp only [List.mem_cons, List.not_mem_nil, or_false] at hx
      rcases hx with rfl | rfl | rfl | rfl | rfl
      · exact h.bank
      · exact h.account
      · exact clean_nil
      · exact hf.day _
      · exact money_clean hf h.booked)
  have et : c!"\n" ++ (b ++ c!"\t" ++ c ++ c!"\t\tBookingDate\tAmount") ++ c!"\n" ++ a.bank ++ c!"\t" ++ a.account ++ c!"\t" ++ c!"\t" ++
        f.day a.day ++ c!"\t" ++ f.amount a.booked =
      c!"\n" ++ tabbed [b, c, [], c!"BookingDate", c!"Amount"] ++ c!"\n" ++ tabbed [a.bank, a.account, [], f.day a.day, money f a.booked] := by
    simp [tabbed, money, Forms.amount]
  have hp : wider.padTab = false := rfl
  have hd : wider.debug = false := rfl
  have hti : wider.tabIndent = true := rfl
  have hm : wider.minWidth = 24 := rfl
  rw [et, tabwriter, hcl]
  simp only [render, hti, line_text hp hd _ _ hbn, line_text hp hd _ _ h.known, line_fill hp hd, line_last hd]
  simp [width, has, colWidth, List.takeWhile, hm, Nat.max_eq_left hb', Nat.max_eq_left hc']

/-- C109: A single balance is printed below its headings, each column at least 24 wide. -/
theorem C109_balance {f : Forms F T} (hf : FormsOk f) {a : Balance F T} (h : BalanceOk a) :
    balance f a =
      c!"\n" ++ fill (max 24 a.bank.length) c!"BankID" ++ fill (max 24 a.account.length) c!"AccountID" ++ fill 24 [] ++
        fill (max 24 (f.day a.day).length) c!"BookingDate" ++ c!"Amount\n" ++
      fill (max 24 a.bank.length) a.bank ++ fill (max 24 a.account.length) a.account ++ fill 24 [] ++
        fill (max 24 (f.day a.day).length) (f.day a.day) ++ money f a.booked ∧
    sepaBalance f a =
      c!"\n" ++ fill (max 24 a.bank.length) c!"BIC" ++ fill (max 24 a.account.length) c!"IBAN" ++ fill 24 [] ++
        fill (max 24 (f.day a.day).length) c!"BookingDate" ++ c!"Amount\n" ++
      fill (max 24 a.bank.length) a.bank ++ fill (max 24 a.account.length) a.account ++ fill 24 [] ++
        fill (max 24 (f.day a.day).length) (f.day a.day) ++ money f a.booked :=
  ⟨balance_text hf h (b := c!"BankID") (c := c!"AccountID") (clean_of (by decide)) (by decide) (clean_of (by decide)) (by decide) (by simp),
   balance_text hf h (b := c!"BIC") (c := c!"IBAN") (clean_of (by decide)) (by decide) (clean_of (by decide)) (by decide) (by simp)⟩

/-- C109: A single account is printed below its headings, with bars between the columns. -/
theorem C109_information {f : Forms F T} (hf : FormsOk f) {a : Information F} (h : InformationOk a) :
    information f a =
      c!"\n" ++
      fill (max 20 a.bank.length) c!"BankID" ++ c!"|" ++ fill (max 20 a.account.length) c!"AccountID" ++ c!"|" ++
        fill (max 20 a.user.length) c!"UserID" ++ c!"|" ++ fill (max 20 a.currency.length) c!"Currency" ++ c!"|" ++
        fill (max 20 (a.name1 ++ c!", " ++ a.name2).length) c!"Name" ++ c!"|" ++ fill (max 20 a.product.length) c!"ProductID" ++ c!"|" ++ c!"Limit\n" ++
      fill (max 20 a.bank.length) a.bank ++ c!"|" ++ fill (max 20 a.account.length) a.account ++ c!"|" ++
        fill (max 20 a.user.length) a.user ++ c!"|" ++ fill (max 20 a.currency.length) a.currency ++ c!"|" ++
        fill (max 20 (a.name1 ++ c!", " ++ a.name2).length) (a.name1 ++ c!", " ++ a.name2) ++ c!"|" ++
        fill (max 20 a.product.length) a.product ++ c!"|" ++ limitOf f a ++ c!"\n" := by
  obtain ⟨p, hpe⟩ : ∃ p : Layout, p = ⟨20, 1, false, false, true⟩ := ⟨_, rfl⟩
  have cell : ∀ (w : Nat → Nat) (j : Nat) (c d : Str) (r : List Str),
      line p w false j (c :: d :: r) = bar p j ++ fill (w j) c ++ line p w false (j + 1) (d :: r) := by
    intro w j c d r
    simp only [line]
    split
    · rename_i h; subst h; simp [pad, hpe, fill]
    · simp [pad, hpe, fill]
  have b0 : bar p 0 = [] := rfl
  have bs : ∀ j, bar p (j + 1) = c!"|" := fun j => by simp [bar, hpe]
  have last : ∀ (w : Nat → Nat) (j : Nat) (c : Str), line p w false j [c] = bar p j ++ c := fun w j c => rfl
  obtain ⟨head, hhead⟩ : ∃ head : List Str, head = [c!"BankID", c!"AccountID", c!"UserID", c!"Currency", c!"Name", c!"ProductID", c!"Limit"] := ⟨_, rfl⟩
  obtain ⟨row, hrow⟩ : ∃ row : List Str, row = [a.bank, a.account, a.user, a.currency, a.name1 ++ c!", " ++ a.name2, a.product, limitOf f a] := ⟨_, rfl⟩
  have et : c!"\n" ++ informationTitles ++ c!"\n" ++ a.row f = [[[]], head, row].flatMap (fun l => tabbed l ++ ['\n']) ++ [] := by
    rw [information_row, hhead, hrow]
    simp [tabbed, informationTitles]
  have hcl : cellsOf ([[[]], head, row].flatMap (fun l => tabbed l ++ ['\n']) ++ []) = [[[]], head, row] ++ cellsOf [] := by
    refine cells_lines ?_ ?_ []
    · intro l hl
      simp only [List.mem_cons, List.not_mem_nil, or_false] at hl
      rcases hl with rfl | rfl | rfl <;> simp [hhead, hrow]
    · intro l hl c hc
      simp only [List.mem_cons, List.not_mem_nil, or_false] at hl
      rcases hl with rfl | rfl | rfl
      · rw [List.mem_singleton] at hc; subst hc; exact clean_nil
      · rw [hhead] at hc; exact (information_titles c hc).1
      · rw [hrow] at hc; exact information_cells hf h c hc
  unfold information
  rw [← hpe, et, tabwriter, hcl, show cellsOf [] = [[[]]] from rfl]
  have ht := table p (top := [[]]) (bottom := []) (head := head) (rows := [row]) (n := 6) (by simp [hhead]) (by simp [hrow])
  simp only [List.map_cons, List.map_nil, List.append_nil] at ht
  rw [show [[[]], head, row] ++ [[[]]] = ([[[]]] ++ [head, row] ++ [[[]]] : List (List Str)) from rfl, ht]
  have hti : p.tabIndent = false := by rw [hpe]
  have hm : p.minWidth = 20 := by rw [hpe]
  rw [hti, List.flatMap_cons, List.flatMap_cons, List.flatMap_cons, List.flatMap_nil, List.flatMap_nil, hhead, hrow]
  simp only [cell, last, b0, bs]
  simp [colWidth, hm]

/-! ## Examples -/

namespace Sample

/-- A number is printed with that many ones; there is one day. -/
def forms : Forms Nat Unit := ⟨fun n => List.replicate n '1' ++ c!".00", fun n => n == 0, fun _ => c!"2026-11-16"⟩

theorem forms_ok : FormsOk forms where
  number n := by
    have : Clean (List.replicate n '1') := by
      constructor <;> (intro h; have := List.eq_of_mem_replicate h; revert this; decide)
    exact clean_append this (clean_of (by decide))
  day _ := by
    have : Clean c!"2026-11-16" := clean_of (by decide)
    exact this

/-- A balance with something earmarked. -/
def giro : Balance Nat Unit := ⟨c!"Girokonto", c!"10000000", c!"1234567890", (), (2, c!"EUR"), some (1, c!"EUR"), none⟩

/-- A balance with a long product name. -/
def savings : Balance Nat Unit := ⟨c!"Sparkonto mit Zinsstaffel", c!"10000000", c!"42", (), (3, c!"EUR"), some (0, c!"EUR"), some (2, c!"EUR")⟩

/-- A balance without product name. -/
def unnamed : Balance Nat Unit := ⟨[], c!"10000000", c!"42", (), (3, c!"EUR"), none, none⟩

theorem giro_ok : BalanceOk giro :=
  ⟨clean_of (by decide), clean_of (by decide), clean_of (by decide), clean_of (by decide),
   fun e he => (by cases he; exact clean_of (by decide)), fun l hl => (by cases hl), by decide⟩

theorem savings_ok : BalanceOk savings :=
  ⟨clean_of (by decide), clean_of (by decide), clean_of (by decide), clean_of (by decide),
   fun e he => (by cases he; exact clean_of (by decide)), fun l hl => (by cases hl; exact clean_of (by decide)), by decide⟩

theorem unnamed_ok : BalanceOk unnamed :=
  ⟨clean_nil, clean_of (by decide), clean_of (by decide), clean_of (by decide), fun e he => (by cases he), fun l hl => (by cases hl), by decide⟩

/-- A transaction. -/
def rent : Transaction Nat Unit :=
  ⟨c!"10000000", c!"1234567890", (2, c!"EUR"), (), c!"DAUERAUFTRAG", c!"20000000", c!"99", c!"Vermieter", c!"Miete", ((), (3, c!"EUR")), ((), (1, c!"EUR"))⟩

theorem rent_ok : TransactionOk rent :=
  ⟨clean_of (by decide), clean_of (by decide), clean_of (by decide), clean_of (by decide), clean_of (by decide),
   clean_of (by decide), clean_of (by decide), clean_of (by decide), clean_of (by decide), clean_of (by decide)⟩

/-- An account. -/
def account : Information Nat :=
  ⟨c!"10000000", c!"1234567890", c!"4711", c!"EUR", c!"Erika", c!"Muster", c!"Giro", some (c!"E", (2, c!"EUR"))⟩

theorem account_ok : InformationOk account :=
  ⟨clean_of (by decide), clean_of (by decide), clean_of (by decide), clean_of (by decide), clean_of (by decide),
   clean_of (by decide), clean_of (by decide), fun l hl => (by cases hl; exact ⟨clean_of (by decide), clean_of (by decide)⟩), by decide⟩

end Sample

open Sample

/-- C109_balances: the texts of two accounts, with the remark of the first. -/
example : balances forms [giro, unnamed] =
    c!"\nProduct Name        BankID              AccountID                               BookingDate         Amount               Limit\n" ++
    c!"Girokonto           10000000            1234567890                              2026-11-16          11.00 EUR (1.00 EUR)* -                  \n" ++
    List.replicate 20 '\t' ++ c!"10000000            42                                      2026-11-16          111.00 EUR            -                  \n" ++
    c!"* earmarked transactions\n" := by
  rw [C109_balances forms_ok (by
    intro a ha
    simp only [List.mem_cons, List.not_mem_nil, or_false] at ha
    rcases ha with rfl | rfl
    · exact giro_ok
    · exact unnamed_ok)]
  decide +kernel

/-- C109_glued: the long name and the bank code. -/
example : c!"Sparkonto mit Zinsstaffel10000000" <:+: balances forms [giro, savings] :=
  C109_glued (a := savings) forms_ok (by
    intro a ha
    simp only [List.mem_cons, List.not_mem_nil, or_false] at ha
    rcases ha with rfl | rfl
    · exact giro_ok
    · exact savings_ok) (by simp) (by decide) (by
    intro b hb
    simp only [List.mem_cons, List.not_mem_nil, or_false] at hb
    rcases hb with rfl | rfl <;> decide)

/-- C109_transactions: one transaction between two balances. -/
example : transactions forms [rent] =
    c!"\nTransactions for account 10000000/1234567890\nBalance at 2026-11-16: 111.00 EUR\n" ++
    c!"BookingDate             Booking Text            Amount                  BankID                  AccountID               Name                    Purpose\n" ++
    c!"2026-11-16              DAUERAUFTRAG            11.00 EUR               20000000                99                      Vermieter               Miete\n" ++
    c!"Balance at 2026-11-16: 1.00 EUR\n" := by
  rw [C109_transactions forms_ok (fun t => by simp [forms]) (by
    intro a ha
    rw [List.mem_singleton] at ha
    subst ha
    exact rent_ok)]
  decide +kernel

/-- C109_transaction, C109_joined. -/
example : transaction forms rent =
    c!"\nBookingDate\tAmount\t\tBankID\tAccountID\tPurpose\n2026-11-16\t11.00 EUR\t2000000099\t\tMiete" := by
  rw [C109_transaction forms_ok rent_ok]
  decide +kernel

/-- C109_informations. -/
example : informations forms [account] =
    c!"\nBankID              AccountID           UserID              Currency            Name                ProductID           Limit\n" ++
    c!"10000000            1234567890          4711                EUR                 Erika, Muster       Giro                E: 11.00 EUR\n" := by
  rw [C109_informations forms_ok (by
    intro a ha
    rw [List.mem_singleton] at ha
    subst ha
    exact account_ok)]
  decide +kernel

/-- C109_information. -/
example : information forms account =
    c!"\nBankID              |AccountID           |UserID              |Currency            |Name                |ProductID           |Limit\n" ++
    c!"10000000            |1234567890          |4711                |EUR                 |Erika, Muster       |Giro                |E: 11.00 EUR\n" := by
  rw [C109_information forms_ok account_ok]
  decide +kernel

/-- C109_balance. -/
example : balance forms giro =
    c!"\nBankID                  AccountID                                       BookingDate             Amount\n" ++
    c!"10000000                1234567890                                      2026-11-16              11.00 EUR" := by
  rw [(C109_balance forms_ok giro_ok).1]
  decide +kernel

end Verif.Domain.Printed
