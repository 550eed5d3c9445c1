/-
The tables of the OPVault format and of the user interface, written down independently of the code.
-/
import Verif.Go.Strings

namespace OnePass
namespace Spec

/-- The item categories of the OPVault format: code and name, by code. -/
def categories : List (Bytes × Bytes) :=
  [(b!"001", b!"Login"), (b!"002", b!"Credit Card"), (b!"003", b!"Secure Note"), (b!"004", b!"Identity"),
   (b!"005", b!"Password"), (b!"099", b!"Tombstone"), (b!"100", b!"Software License"), (b!"101", b!"Bank Account"),
   (b!"102", b!"Database"), (b!"103", b!"Driver License"), (b!"104", b!"Outdoor License"), (b!"105", b!"Membership"),
   (b!"106", b!"Passport"), (b!"107", b!"Rewards"), (b!"108", b!"SSN"), (b!"109", b!"Router"), (b!"110", b!"Server"),
   (b!"111", b!"Email")]

/-- Two strings are equal up to letter case. For strings with non-ASCII bytes this is Go's `strings.ToLower`. -/
def SameLetters (T : Text) (a b : Bytes) : Prop := Str.toLower T a = Str.toLower T b

instance (T : Text) (a b : Bytes) : Decidable (SameLetters T a b) := by unfold SameLetters; infer_instance

/-- On ASCII strings: equal length, and corresponding letters differ at most in case. -/
def AsciiSame : Bytes → Bytes → Prop
  | [], [] => True
  | a :: x, b :: y =>
    (a = b ∨ (65 ≤ a ∧ a ≤ 90 ∧ b = a + 32) ∨ (65 ≤ b ∧ b ≤ 90 ∧ a = b + 32)) ∧ AsciiSame x y
  | _, _ => False

theorem lowerByte_same : ∀ a b : UInt8, Str.lowerByte a = Str.lowerByte b ↔
    (a = b ∨ (65 ≤ a ∧ a ≤ 90 ∧ b = a + 32) ∨ (65 ≤ b ∧ b ≤ 90 ∧ a = b + 32)) := by
  intro a b
  have h1 := a.toNat_lt
  have h2 := b.toNat_lt
  simp only [Str.lowerByte, Str.isUpperA, Bool.and_eq_true, decide_eq_true_eq, UInt8.le_iff_toNat_le,
    ← UInt8.toNat_inj]
  split <;> split <;> simp only [UInt8.toNat_add, UInt8.reduceToNat] at * <;> omega

/-- `SameLetters` on ASCII strings is equality up to the case of the letters a–z. -/
theorem sameLetters_ascii (T : Text) {a b : Bytes} (ha : Str.isAscii a = true) (hb : Str.isAscii b = true) :
    SameLetters T a b ↔ AsciiSame a b := by
  have key : ∀ a b : Bytes, a.map Str.lowerByte = b.map Str.lowerByte ↔ AsciiSame a b := by
    intro a
    induction a with
    | nil => intro b; cases b <;> simp [AsciiSame]
    | cons x a ih =>
      intro b
      cases b with
      | nil => simp [AsciiSame]
      | cons y b => simp only [List.map_cons, List.cons.injEq, AsciiSame, ih, lowerByte_same]
  unfold SameLetters Str.toLower
  rw [if_pos ha, if_pos hb]
  exact key a b

end Spec
end OnePass
