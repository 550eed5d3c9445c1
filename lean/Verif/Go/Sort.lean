/-
Package `sort` and map iteration: what the language and the library leave open is a parameter.
-/
import Verif.Go.Json
import Mathlib.Data.List.Sort

namespace OnePass

/-- A strict weak order, the contract of `sort.Slice`'s less function. -/
structure StrictWeak {α : Type} (less : α → α → Bool) : Prop where
  irrefl : ∀ a, less a a = false
  trans : ∀ a b c, less a b = true → less b c = true → less a c = true
  incomp : ∀ a b c, less a b = false → less b a = false → less b c = false → less c b = false →
    less a c = false ∧ less c a = false

/-- `sort.Slice(l, less)`: some permutation that is sorted if `less` is a strict weak order. It is not
stable: the order of equal elements is open. -/
structure Sorter where
  run : {α : Type} → (α → α → Bool) → List α → List α
  perm : ∀ {α : Type} (less : α → α → Bool) (l : List α), (run less l).Perm l
  sorted : ∀ {α : Type} (less : α → α → Bool) (l : List α), StrictWeak less →
    (run less l).Pairwise (fun a b => less b a = false)

theorem StrictWeak.asymm {α : Type} {less : α → α → Bool} (h : StrictWeak less) {a b : α}
    (hab : less a b = true) : less b a = false := by
  cases hb : less b a with
  | false => rfl
  | true =>
    have := h.trans _ _ _ hab hb
    rw [h.irrefl] at this
    cases this

/-- "Not greater" is transitive for a strict weak order. -/
theorem StrictWeak.le_trans {α : Type} {less : α → α → Bool} (h : StrictWeak less) {a b c : α}
    (hab : less b a = false) (hbc : less c b = false) : less c a = false := by
  cases hca : less c a with
  | false => rfl
  | true =>
    exfalso
    cases h1 : less a b with
    | true =>
      have := h.trans _ _ _ hca h1
      rw [hbc] at this; cases this
    | false =>
      cases h2 : less b c with
      | true =>
        have := h.trans _ _ _ h2 hca
        rw [hab] at this; cases this
      | false =>
        have := (h.incomp a b c h1 hab h2 hbc).2
        rw [hca] at this; cases this

/-- Insertion into a list for the sorter below. -/
def insertBy {α : Type} (less : α → α → Bool) (a : α) : List α → List α
  | [] => [a]
  | b :: l => if less a b then a :: b :: l else b :: insertBy less a l

theorem insertBy_perm {α : Type} (less : α → α → Bool) (a : α) (l : List α) :
    (insertBy less a l).Perm (a :: l) := by
  induction l with
  | nil => exact .refl _
  | cons b l ih =>
    unfold insertBy
    split
    · exact .refl _
    · exact (ih.cons b).trans (.swap _ _ _)

theorem insertBy_sorted {α : Type} {less : α → α → Bool} (h : StrictWeak less) (a : α) (l : List α)
    (hl : l.Pairwise (fun a b => less b a = false)) :
    (insertBy less a l).Pairwise (fun a b => less b a = false) := by
  induction l with
  | nil => simp [insertBy]
  | cons b l ih =>
    rw [List.pairwise_cons] at hl
    unfold insertBy
    split
    · rename_i hab
      refine List.pairwise_cons.2 ⟨?_, List.pairwise_cons.2 hl⟩
      intro c hc
      have hba : less b a = false := h.asymm hab
      rcases List.mem_cons.1 hc with rfl | hc
      · exact hba
      · exact h.le_trans hba (hl.1 c hc)
    · rename_i hab
      refine List.pairwise_cons.2 ⟨?_, ih hl.2⟩
      intro c hc
      rcases List.mem_cons.1 ((insertBy_perm less a l).mem_iff.1 hc) with rfl | hc
      · simpa using hab
      · exact hl.1 c hc

/-- Insertion sort: one admissible `sort.Slice`. Used in examples. -/
def Sorter.ins : Sorter where
  run less l := l.foldr (insertBy less) []
  perm less l := by
    induction l with
    | nil => exact .refl _
    | cons a l ih => exact (insertBy_perm less a _).trans (ih.cons a)
  sorted less l h := by
    induction l with
    | nil => exact .nil
    | cons a l ih => exact insertBy_sorted h a _ ih

/-- `sort.Strings`: strings that compare equal are equal, so all sorting algorithms agree
(`sortStrings_unique`); insertion sort stands for them. -/
def sortStrings (l : List Bytes) : List Bytes := Sorter.ins.run Str.lt l

theorem strLt_strictWeak : StrictWeak Str.lt where
  irrefl a := by simp [Str.lt]
  trans a b c h1 h2 := by
    simp only [Str.lt, decide_eq_true_eq] at *
    exact List.lt_trans h1 h2
  incomp a b c h1 h2 h3 h4 := by
    simp only [Str.lt, decide_eq_false_iff_not, List.not_lt] at *
    have e1 : a = b := List.le_antisymm h2 h1
    have e2 : b = c := List.le_antisymm h4 h3
    subst e1 e2
    exact ⟨List.le_refl _, List.le_refl _⟩

theorem sortStrings_perm (l : List Bytes) : (sortStrings l).Perm l := Sorter.ins.perm _ _

theorem sortStrings_sorted (l : List Bytes) : (sortStrings l).Pairwise (· ≤ ·) := by
  refine (Sorter.ins.sorted Str.lt l strLt_strictWeak).imp ?_
  intro a b h
  simpa [Str.lt] using h

/-- A sorted permutation of strings is unique. -/
theorem sorted_strings_unique {l l' : List Bytes} (hp : l.Perm l') (h : l.Pairwise (· ≤ ·)) (h' : l'.Pairwise (· ≤ ·)) :
    l = l' :=
  hp.eq_of_pairwise (fun _ _ _ _ h1 h2 => List.le_antisymm h1 h2) h h'

/-- The order in which `range` over a map meets its entries: any permutation. (One function per operation
of the program; an operation that ranges twice over equal maps gets the same order twice, which is no loss
since every theorem is about all orders.) -/
structure MapOrder where
  run : Members → Members
  perm : ∀ m, (run m).Perm m

/-- Document order, for examples. -/
def MapOrder.doc : MapOrder where
  run m := m
  perm _ := .refl _

/-- Reverse order, for examples. -/
def MapOrder.rev : MapOrder where
  run m := m.reverse
  perm m := m.reverse_perm

end OnePass
