/-
What a pattern of `path/filepath` means: the documentation of `filepath.Match`, as relations.
-/
import Verif.Go.Basic

namespace OnePass
namespace Spec

/-- A term of a pattern. -/
inductive Term where
  | star
  | any
  | one (c : UInt8)
  | cls (neg : Bool) (rs : List (UInt8 × UInt8))
  deriving DecidableEq, Repr

/-- A character of a class, possibly escaped: the text, the character, the rest of the text. -/
inductive CharR : Bytes → UInt8 → Bytes → Prop
  | plain (c : UInt8) (r : Bytes) : c ≠ 92 → c ≠ 45 → c ≠ 93 → c < 128 → CharR (c :: r) c r
  | escaped (c : UInt8) (r : Bytes) : c < 128 → CharR (92 :: c :: r) c r

/-- The ranges of a class up to the closing bracket: the text, the ranges, the rest of the text. -/
inductive RangesR : Bytes → List (UInt8 × UInt8) → Bytes → Prop
  | close (p : Bytes) : RangesR (93 :: p) [] p
  | single {t r p : Bytes} {c : UInt8} {rs : List (UInt8 × UInt8)} :
      CharR t c r → r.head? ≠ some 45 → RangesR r rs p → RangesR t ((c, c) :: rs) p
  | range {t r r' p : Bytes} {lo hi : UInt8} {rs : List (UInt8 × UInt8)} :
      CharR t lo (45 :: r) → CharR r hi r' → RangesR r' rs p → RangesR t ((lo, hi) :: rs) p

/-- The pattern consists of these terms. Characters of classes are ASCII. -/
inductive PatternR : Bytes → List Term → Prop
  | nil : PatternR [] []
  | star {p : Bytes} {ts : List Term} : PatternR p ts → PatternR (42 :: p) (.star :: ts)
  | any {p : Bytes} {ts : List Term} : PatternR p ts → PatternR (63 :: p) (.any :: ts)
  | one {p : Bytes} {ts : List Term} (c : UInt8) : c ≠ 42 → c ≠ 63 → c ≠ 91 → c ≠ 92 → PatternR p ts →
      PatternR (c :: p) (.one c :: ts)
  | escaped {p : Bytes} {ts : List Term} (c : UInt8) : PatternR p ts → PatternR (92 :: c :: p) (.one c :: ts)
  | cls {q p : Bytes} {ts : List Term} {rs : List (UInt8 × UInt8)} : q.head? ≠ some 94 → RangesR q rs p → rs ≠ [] →
      PatternR p ts → PatternR (91 :: q) (.cls false rs :: ts)
  | neg {q p : Bytes} {ts : List Term} {rs : List (UInt8 × UInt8)} : RangesR q rs p → rs ≠ [] →
      PatternR p ts → PatternR (91 :: 94 :: q) (.cls true rs :: ts)

/-- The term stands for this character (of a name, that is, not for a slash). -/
def Term.Takes : Term → UInt8 → Prop
  | .star, _ => False
  | .any, _ => True
  | .one c, b => b = c
  | .cls neg rs, b => (neg = false ∧ ∃ r ∈ rs, r.1 ≤ b ∧ b ≤ r.2) ∨ (neg = true ∧ ¬ ∃ r ∈ rs, r.1 ≤ b ∧ b ≤ r.2)

/-- The name fits the terms: a star stands for any sequence, every other term for one character. -/
inductive FitsName : List Term → Bytes → Prop
  | nil : FitsName [] []
  | char {t : Term} {ts : List Term} {b : UInt8} {n : Bytes} : t.Takes b → FitsName ts n → FitsName (t :: ts) (b :: n)
  | star {ts : List Term} (x : Bytes) {n : Bytes} : FitsName ts n → FitsName (.star :: ts) (x ++ n)

/-- Only stars and single characters. -/
def StarsOnly (ts : List Term) : Prop := ∀ t ∈ ts, t = .star ∨ ∃ c, t = .one c

end Spec
end OnePass
