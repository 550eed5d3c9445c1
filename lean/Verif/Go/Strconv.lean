/-
`strconv.ParseInt(s, 10, 64)`, decimal printing of integers, and `fmt.Sprint` of an integral float64.
-/
import Verif.Go.Strings

namespace OnePass

namespace Num

/-- The digit `d < 10` as a byte. -/
def digit (d : Nat) : UInt8 := UInt8.ofNat (48 + d)

/-- Decimal digits of `n`, most significant first; `fuel` bounds the number of digits. -/
def natDecAux : Nat → Nat → Bytes
  | 0, _ => []
  | f + 1, n => if n < 10 then [digit n] else natDecAux f (n / 10) ++ [digit (n % 10)]

/-- Decimal digits of a natural number (as `fmt.Sprint` prints it). -/
def natDec (n : Nat) : Bytes := natDecAux (n + 1) n

/-- `fmt.Sprint(n)` for a Go integer. -/
def intDec (n : Int) : Bytes :=
  if n < 0 then 45 :: natDec n.natAbs else natDec n.natAbs

/-- Result of `strconv.ParseUint(s, 10, 64)`. -/
inductive PU where
  | ok (n : Nat)
  | syntaxErr
  | rangeErr
  deriving DecidableEq, Repr

def maxUint64 : Nat := 18446744073709551616 - 1

/-- The digit loop of `strconv.ParseUint` in base 10: a value above `maxUint64` ends the loop at once
with a range error, a byte that is no digit with a syntax error. -/
def parseDigits (n : Nat) : Bytes → PU
  | [] => .ok n
  | c :: r =>
    if Str.isDigitA c then
      let n1 := n * 10 + (c.toNat - 48)
      if n1 > maxUint64 then .rangeErr else parseDigits n1 r
    else .syntaxErr

/-- `strconv.ParseUint(s, 10, 64)`. -/
def parseUint (s : Bytes) : PU := if s = [] then .syntaxErr else parseDigits 0 s

/-- `strconv.ParseInt(s, 10, 64)`: the value Go returns *and* whether there was an error. On a range
error the value is the nearest int64, on a syntax error it is 0. -/
def parseInt (s : Bytes) : Int × Bool :=
  let (neg, body) := match s with
    | 43 :: r => (false, r)
    | 45 :: r => (true, r)
    | _ => (false, s)
  match parseUint body with
  | .syntaxErr => (0, true)
  | .rangeErr => if neg then (-9223372036854775808, true) else (9223372036854775808 - 1, true)
  | .ok un =>
    if !neg && un ≥ 9223372036854775808 then (9223372036854775808 - 1, true)
    else if neg && un > 9223372036854775808 then (-9223372036854775808, true)
    else (if neg then -(un : Int) else un, false)

/-- Remove trailing zeros of a digit string. -/
def trimZeros (d : Bytes) : Bytes := (d.reverse.dropWhile (· == 48)).reverse

/-- At least two exponent digits (`%e`). -/
def expDec (e : Nat) : Bytes := if e < 10 then 48 :: natDec e else natDec e

/-- `fmt.Sprint(float64(n))` for an integer `n` with `|n| ≤ 2^53`. `%v` of a float64 is `%g` with the
shortest digits that identify the number; for such integers these are the decimal digits without
trailing zeros. Exponent notation is used iff the decimal exponent is at least 6, that is from seven
digits on (Go's strconv/ftoa.go, case 'g': `if shortest { eprec = 6 }`, `exp >= eprec`). -/
def sprintFloatInt (n : Int) : Bytes :=
  let ds := natDec n.natAbs
  let body :=
    if ds.length ≤ 6 then ds
    else
      let m := trimZeros ds
      let exp := ds.length - 1
      let mant := match m with
        | [] => []
        | [d] => [d]
        | d :: rest => d :: 46 :: rest
      mant ++ [101, 43] ++ expDec exp
  if n < 0 then 45 :: body else body

/-! ### Facts -/

theorem natDecAux_fuel (f g n : Nat) (hf : n < f) (hg : n < g) :
    natDecAux f n = natDecAux g n := by
  induction f generalizing g n with
  | zero => omega
  | succ f ih =>
    cases g with
    | zero => omega
    | succ g =>
      simp only [natDecAux]
      split
      · rfl
      · rw [ih g (n / 10) (by omega) (by omega)]

theorem natDec_lt {n : Nat} (h : n < 10) : natDec n = [digit n] := by
  simp [natDec, natDecAux, h]

theorem natDec_ge {n : Nat} (h : 10 ≤ n) : natDec n = natDec (n / 10) ++ [digit (n % 10)] := by
  have h' : ¬ n < 10 := by omega
  rw [natDec, natDecAux, if_neg h', natDec, natDecAux_fuel n (n / 10 + 1) (n / 10) (by omega) (by omega)]

theorem digit_toNat {d : Nat} (h : d < 10) : (digit d).toNat = 48 + d := by
  simp [digit]; omega

theorem digit_isDigit {d : Nat} (h : d < 10) : Str.isDigitA (digit d) = true := by
  have : d = 0 ∨ d = 1 ∨ d = 2 ∨ d = 3 ∨ d = 4 ∨ d = 5 ∨ d = 6 ∨ d = 7 ∨ d = 8 ∨ d = 9 := by omega
  rcases this with h|h|h|h|h|h|h|h|h|h <;> subst h <;> decide

theorem natDec_ne_nil (n : Nat) : natDec n ≠ [] := by
  by_cases h : n < 10
  · simp [natDec_lt h]
  · simp [natDec_ge (by omega : 10 ≤ n)]

theorem natDec_digits (n : Nat) : ∀ b ∈ natDec n, Str.isDigitA b = true := by
  induction n using Nat.strongRecOn with
  | _ n ih =>
    by_cases h : n < 10
    · rw [natDec_lt h]; intro b hb
      simp at hb; subst hb; exact digit_isDigit h
    · rw [natDec_ge (by omega)]
      intro b hb
      rcases List.mem_append.1 hb with hb | hb
      · exact ih (n / 10) (by omega) b hb
      · simp at hb; subst hb; exact digit_isDigit (Nat.mod_lt _ (by omega))

/-- Reading digits continues from a prefix. -/
theorem parseDigits_append (m : Nat) (a b : Bytes) (k : Nat) (h : parseDigits m a = .ok k) :
    parseDigits m (a ++ b) = parseDigits k b := by
  induction a generalizing m with
  | nil => simp only [parseDigits, PU.ok.injEq] at h; subst h; rfl
  | cons c r ih =>
    simp only [parseDigits, List.cons_append] at h ⊢
    split at h
    · rename_i hc
      rw [if_pos hc]
      split at h
      · cases h
      · rename_i hn
        rw [if_neg hn]
        exact ih _ h
    · cases h

theorem parseDigits_natDec (n : Nat) (h : n ≤ maxUint64) : parseDigits 0 (natDec n) = .ok n := by
  induction n using Nat.strongRecOn with
  | _ n ih =>
    by_cases h' : n < 10
    · rw [natDec_lt h']
      simp only [parseDigits, digit_isDigit h', digit_toNat h', if_true]
      have : ¬ (0 * 10 + (48 + n - 48) > maxUint64) := by omega
      rw [if_neg this]; congr 1; omega
    · rw [natDec_ge (by omega)]
      rw [parseDigits_append 0 _ _ (n / 10) (ih (n / 10) (by omega) (by omega))]
      have hd : n % 10 < 10 := Nat.mod_lt _ (by omega)
      simp only [parseDigits, digit_isDigit hd, digit_toNat hd, if_true]
      have : ¬ (n / 10 * 10 + (48 + n % 10 - 48) > maxUint64) := by omega
      rw [if_neg this]; congr 1; omega

theorem parseUint_natDec (n : Nat) (h : n ≤ maxUint64) : parseUint (natDec n) = .ok n := by
  simp [parseUint, natDec_ne_nil, parseDigits_natDec n h]

/-- What `fmt.Sprint` printed, `strconv.ParseInt` reads back. -/
theorem parseInt_intDec (n : Int) (hlo : -9223372036854775808 ≤ n) (hhi : n < 9223372036854775808) :
    parseInt (intDec n) = (n, false) := by
  by_cases hn : n < 0
  · have : parseInt (intDec n) = parseInt (45 :: natDec n.natAbs) := by simp [intDec, hn]
    rw [this]
    simp only [parseInt]
    rw [parseUint_natDec _ (by simp only [maxUint64]; omega)]
    have h1 : ¬ (n.natAbs > 9223372036854775808) := by omega
    simp [h1]; omega
  · have : parseInt (intDec n) = parseInt (natDec n.natAbs) := by simp [intDec, hn]
    rw [this]
    have hds := natDec_digits n.natAbs
    have hne := natDec_ne_nil n.natAbs
    have h1 : ¬ (n.natAbs ≥ 9223372036854775808) := by omega
    have hu := parseUint_natDec n.natAbs (by simp only [maxUint64]; omega)
    cases hc : natDec n.natAbs with
    | nil => exact absurd hc hne
    | cons c r =>
      have hcd := hds c (by simp [hc])
      have h43 : c ≠ 43 := by rintro rfl; revert hcd; decide
      have h45 : c ≠ 45 := by rintro rfl; revert hcd; decide
      rw [hc] at hu
      unfold parseInt
      split
      rename_i neg body heq
      split at heq
      · rename_i h; simp at h; exact absurd h.1 h43
      · rename_i h; simp at h; exact absurd h.1 h45
      · cases heq
        rw [hu]
        simp [h1]; omega

end Num
end OnePass
