/-
What a JSON number literal stands for (RFC 8259, section 6).
-/
import Verif.Spec.Answers
import Mathlib.Algebra.Order.Ring.Rat
import Mathlib.Algebra.Order.Field.Basic
import Mathlib.Algebra.Order.Ring.Abs
import Mathlib.Tactic.Positivity

namespace OnePass
namespace Spec
open Json (Digits)

/-- An exponent part and its value. -/
def ExpVal (e : Bytes) (x : Int) : Prop :=
  (e = [] ∧ x = 0) ∨
  ∃ c ds, (c = 101 ∨ c = 69) ∧ ds ≠ [] ∧ Digits ds ∧
    ((e = c :: ds ∨ e = c :: 43 :: ds) ∧ x = decimal ds ∨ e = c :: 45 :: ds ∧ x = -(decimal ds : Int))

/-- A number literal – `-`, digits, a fraction, an exponent – and the rational number it stands for. -/
def NumVal (t : Bytes) (q : ℚ) : Prop :=
  ∃ sign i fr f e x, t = sign ++ i ++ fr ++ e ∧ (sign = [] ∨ sign = [45]) ∧
    (i = [48] ∨ ∃ b r, i = b :: r ∧ b ≠ 48 ∧ Str.isDigitA b = true ∧ Digits r) ∧
    (fr = [] ∧ f = [] ∨ fr = 46 :: f ∧ f ≠ [] ∧ Digits f) ∧ ExpVal e x ∧
    q = (if sign = [] then 1 else -1) * decimal (i ++ f) * 10 ^ (x - f.length)

/-! ### float64 (IEEE 754 binary64) -/

/-- A finite float64: 53 binary digits, none below 2^-1074. (No upper bound: what is too large is left out elsewhere.) -/
def Float64 (x : ℚ) : Prop := ∃ m e : Int, |m| < 2 ^ 53 ∧ -1074 ≤ e ∧ x = m * 2 ^ e

/-- The last of the binary digits it is stored with is 0. -/
def EvenFloat64 (x : ℚ) : Prop :=
  ∃ m e : Int, |m| < 2 ^ 53 ∧ -1074 ≤ e ∧ x = m * 2 ^ e ∧ (2 ^ 52 ≤ |m| ∨ e = -1074) ∧ m % 2 = 0

/-- The float64 a number is rounded to: the nearest one, of two equally near ones the one whose last digit is 0. -/
def NearestFloat64 (q x : ℚ) : Prop :=
  Float64 x ∧ ∀ y, Float64 y → y ≠ x → |q - x| < |q - y| ∨ |q - x| = |q - y| ∧ EvenFloat64 x

end Spec
end OnePass
