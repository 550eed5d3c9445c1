/-
What the menu of the GUI is: its entries, the items they stand for, their texts.
-/
import Verif.Model.Domain

namespace OnePass
namespace Spec

/-- An entry of the menu. -/
inductive Entry where
  | all
  | cat (c : Cat)
  | trash
  deriving DecidableEq, Repr

/-- The items an entry stands for. -/
def Entry.Holds : Entry → Item → Prop
  | .all, i => i.trashed = false
  | .cat c, i => i.trashed = false ∧ i.category = c
  | .trash, i => i.trashed = true

instance (e : Entry) (i : Item) : Decidable (e.Holds i) := by
  cases e <;> unfold Entry.Holds <;> infer_instance

/-- The items of a vault that belong to an entry. -/
def Entry.of (e : Entry) (items : List Item) : List Item := items.filter (fun i => decide (e.Holds i))

/-- The name of an entry. -/
def Entry.name : Entry → Bytes
  | .all => b!"All"
  | .cat c => c.name
  | .trash => b!"Trashed"

/-- The text of an entry: its name and how many items it stands for. -/
def Entry.text (e : Entry) (items : List Item) : Bytes :=
  e.name ++ b!" (" ++ Num.natDec (e.of items).length ++ b!")"

/-- The menu for these items: All and the categories in use, by code, if there are items that are not in the trash;
Trashed if there are items in the trash. -/
def IsMenu (items : List Item) (m : List Entry) : Prop :=
  ∃ cs : List Cat, cs.Pairwise (fun a b => a.code < b.code) ∧
    (∀ c, c ∈ cs ↔ ∃ i ∈ items, i.trashed = false ∧ i.category = c) ∧
    m = (if ∃ i ∈ items, i.trashed = false then Entry.all :: cs.map .cat else []) ++
      (if ∃ i ∈ items, i.trashed = true then [Entry.trash] else [])

/-- A text with spaces around it. -/
def Padded (text line : Bytes) : Prop := ∃ a b, line = List.replicate a 32 ++ text ++ List.replicate b 32

end Spec
end OnePass
