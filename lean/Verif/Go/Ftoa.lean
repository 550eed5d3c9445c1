/-
strconv ftoa.go, and `fmt.Sprint`, `int64` of the float64 a JSON number literal is converted to.
-/
import Verif.Go.Float
import Verif.Go.Float64
import Verif.Go.Env

namespace OnePass
namespace F64
open Num

/-- The decimals with `n` digits next to `x` that stand for the float64 `x`, as coefficient and exponent: the nearer one, the one
with the even last digit of two. -/
def attempt (x : ℚ) (n : Nat) : Option (Nat × Int) :=
  let k := Int.log 10 x + 1 - n
  let s : ℚ := 10 ^ k
  let lo := ⌊x / s⌋₊
  if rndPos (lo * s) = x ∧ (rndPos ((lo + 1 : Nat) * s) ≠ x ∨ x - lo * s < (lo + 1 : Nat) * s - x ∨
      (x - lo * s = (lo + 1 : Nat) * s - x ∧ lo % 2 = 0)) then some (lo, k)
  else if rndPos ((lo + 1 : Nat) * s) = x then some (lo + 1, k)
  else none

/-- The shortest decimal that stands for `x`, with at least `n` digits. -/
def shortest (x : ℚ) : Nat → Nat → Nat × Int
  | 0, _ => (0, 0)
  | f + 1, n => (attempt x n).getD (shortest x f (n + 1))

/-- `decimalSlice` for the shortest format: the digits without trailing zeros and the position of the point behind the first. Seventeen
digits are enough for every float64. -/
def decDigits (x : ℚ) : Bytes × Int :=
  let r := shortest x 17 1
  (trimZeros (natDec r.1), (natDec r.1).length + r.2)

/-- `fmtE`: one digit, the others behind a point, the exponent with a sign and at least two digits. -/
def fmtE (ds : Bytes) (e : Int) : Bytes :=
  (match ds with
    | [] => []
    | [d] => [d]
    | d :: rest => d :: 46 :: rest) ++ (if e < 0 then [101, 45] else [101, 43]) ++ expDec e.natAbs

/-- `fmtF`. -/
def fmtF (ds : Bytes) (dp : Int) : Bytes :=
  if dp ≤ 0 then [48, 46] ++ List.replicate (-dp).toNat 48 ++ ds
  else if ds.length ≤ dp.toNat then ds ++ List.replicate (dp.toNat - ds.length) 48
  else ds.take dp.toNat ++ 46 :: ds.drop dp.toNat

/-- `FormatFloat(x, 'g', -1, 64)` for a float64 that is not negative. -/
def fmtG (x : ℚ) : Bytes :=
  if x = 0 then [48]
  else
    let d := decDigits x
    if d.2 - 1 < -4 ∨ 6 ≤ d.2 - 1 then fmtE d.1 (d.2 - 1) else fmtF d.1 d.2

/-- The absolute value of the float64 of a literal. -/
def absLit (t : Bytes) : ℚ := rndPos ((litParts t).2.1 * 10 ^ (litParts t).2.2)

/-- `fmt.Sprint` of the float64 of a literal. Zero keeps its sign. -/
def sprintLit (t : Bytes) : Bytes := if (litParts t).1 then 45 :: fmtG (absLit t) else fmtG (absLit t)

/-- `int64` of the float64 of a literal: the fraction is cut off; what does not fit becomes the least integer, as on amd64. -/
def toIntLit (t : Bytes) : Int :=
  let n : Int := ⌊absLit t⌋
  let v := if (litParts t).1 then -n else n
  if -9223372036854775808 ≤ v ∧ v ≤ 9223372036854775807 then v else -9223372036854775808

example : sprintLit b!"0.1" = b!"0.1" ∧ sprintLit b!"1e21" = b!"1e+21" ∧ sprintLit b!"123456789" = b!"1.23456789e+08" ∧
    sprintLit b!"-0" = b!"-0" ∧ sprintLit b!"0.3000000000000000444" = b!"0.30000000000000004" ∧
    sprintLit b!"5e-324" = b!"5e-324" ∧ sprintLit b!"9007199254740993" = b!"9.007199254740992e+15" ∧
    sprintLit b!"1.7976931348623157e308" = b!"1.7976931348623157e+308" ∧ sprintLit b!"100000.5" = b!"100000.5" ∧
    sprintLit b!"0.00001234" = b!"1.234e-05" ∧ sprintLit b!"20140" = b!"20140" ∧ sprintLit b!"9.5e-3" = b!"0.0095" := by
  decide +kernel

example : toIntLit b!"-1.9" = -1 ∧ toIntLit b!"9007199254740993" = 9007199254740992 ∧ toIntLit b!"1e19" = -9223372036854775808 ∧
    toIntLit b!"1.4e9" = 1400000000 := by decide +kernel

end F64
end OnePass
