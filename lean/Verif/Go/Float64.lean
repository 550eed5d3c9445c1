/-
float64: rounding to nearest, ties to even (IEEE 754 binary64), without the overflow to infinity – encoding/json refuses literals
that would (`Num.tooBig`).
-/
import Mathlib.Data.Int.Log
import Mathlib.Data.Rat.Floor
import Mathlib.Algebra.Order.Floor.Ring
import Mathlib.Algebra.Order.Ring.Rat
import Mathlib.Algebra.Order.Field.Basic
import Mathlib.Tactic.Linarith
import Mathlib.Tactic.NormNum
import Mathlib.Tactic.Positivity
import Mathlib.Tactic.Ring

namespace OnePass
namespace F64

/-- The nearest integer, the even one of two. -/
def nearest (y : ℚ) : Int :=
  let f := ⌊y⌋
  if y - f < 1 / 2 then f else if 1 / 2 < y - f then f + 1 else if f % 2 = 0 then f else f + 1

/-- The exponent of the last binary digit a float64 near `x` has: 53 binary digits, but none below 2^-1074. -/
def ulp (x : ℚ) : Int := max (Int.log 2 x - 52) (-1074)

/-- Rounding of a number that is not negative. -/
def rndPos (x : ℚ) : ℚ := nearest (x / 2 ^ ulp x) * 2 ^ ulp x

/-- Rounding to float64. -/
def rnd (x : ℚ) : ℚ := if x < 0 then -rndPos (-x) else rndPos x

theorem nearest_le {y : ℚ} {z : Int} (h : y ≤ z) : nearest y ≤ z := by
  have hf : ⌊y⌋ ≤ z := by exact_mod_cast (Int.floor_le y).trans h
  have hl : ⌊y⌋ < z ∨ y - ⌊y⌋ < 1 / 2 := by
    rcases lt_or_eq_of_le hf with h1 | h1
    · exact .inl h1
    · right
      have : y ≤ (⌊y⌋ : ℚ) := by rw [h1]; exact h
      linarith
  unfold nearest
  simp only
  split
  · exact hf
  · rename_i h1
    have := hl.resolve_right h1
    split
    · omega
    · split <;> omega

theorem le_nearest {y : ℚ} {z : Int} (h : (z : ℚ) ≤ y) : z ≤ nearest y := by
  have hf : z ≤ ⌊y⌋ := Int.le_floor.2 h
  unfold nearest
  simp only
  split
  · exact hf
  · split
    · omega
    · split <;> omega

theorem nearest_int (z : Int) : nearest z = z := le_antisymm (nearest_le le_rfl) (le_nearest le_rfl)

theorem nearest_close (y : ℚ) : |(nearest y : ℚ) - y| ≤ 1 / 2 := by
  have h1 := Int.floor_le y
  have h2 := Int.lt_floor_add_one y
  unfold nearest
  simp only
  rw [abs_le]
  split
  · constructor <;> linarith
  · split
    · push_cast; constructor <;> linarith
    · have : y - ⌊y⌋ = 1 / 2 := by linarith
      split
      · constructor <;> linarith
      · push_cast; constructor <;> linarith

theorem nearest_mono {x y : ℚ} (h : x ≤ y) : nearest x ≤ nearest y := by
  by_cases hf : ⌊x⌋ = ⌊y⌋
  · unfold nearest
    simp only
    rw [hf]
    by_cases h1 : x - (⌊y⌋ : ℚ) < 1 / 2
    · rw [if_pos h1]
      split
      · exact le_rfl
      · split
        · omega
        · split <;> omega
    · rw [if_neg h1, if_neg (by linarith : ¬ y - (⌊y⌋ : ℚ) < 1 / 2)]
      by_cases h2 : 1 / 2 < x - (⌊y⌋ : ℚ)
      · rw [if_pos h2, if_pos (by linarith)]
      · rw [if_neg h2]
        split
        · split <;> omega
        · split <;> exact le_rfl
  · have h1 : ⌊x⌋ + 1 ≤ ⌊y⌋ := by
      have := Int.floor_mono h
      omega
    have h2 : nearest x ≤ ⌊x⌋ + 1 := nearest_le (by push_cast; exact (Int.lt_floor_add_one x).le)
    have h3 : ⌊y⌋ ≤ nearest y := le_nearest (Int.floor_le y)
    omega

theorem two_zpow_pos (e : Int) : (0 : ℚ) < 2 ^ e := zpow_pos (by norm_num) e

/-- A multiple of the unit that is above stays above. -/
theorem rndPos_le {x : ℚ} {z : Int} (h : x ≤ z * 2 ^ ulp x) : rndPos x ≤ z * 2 ^ ulp x := by
  have hp := two_zpow_pos (ulp x)
  have : nearest (x / 2 ^ ulp x) ≤ z := nearest_le ((div_le_iff₀ hp).2 h)
  unfold rndPos
  exact mul_le_mul_of_nonneg_right (by exact_mod_cast this) hp.le

theorem le_rndPos {x : ℚ} {z : Int} (h : z * 2 ^ ulp x ≤ x) : z * 2 ^ ulp x ≤ rndPos x := by
  have hp := two_zpow_pos (ulp x)
  have : z ≤ nearest (x / 2 ^ ulp x) := le_nearest ((le_div_iff₀ hp).2 h)
  unfold rndPos
  exact mul_le_mul_of_nonneg_right (by exact_mod_cast this) hp.le

/-- Multiples of the unit are float64s. -/
theorem rndPos_exact {x : ℚ} {z : Int} (h : x = z * 2 ^ ulp x) : rndPos x = x := by
  have h1 := rndPos_le h.le
  have h2 := le_rndPos h.ge
  rw [← h] at h1 h2
  exact le_antisymm h1 h2

theorem two_zpow_int {e f : Int} (h : e ≤ f) : ∃ z : Int, (2 : ℚ) ^ f = z * 2 ^ e := by
  obtain ⟨n, hn⟩ := Int.eq_ofNat_of_zero_le (sub_nonneg.2 h)
  refine ⟨2 ^ n, ?_⟩
  have : f = n + e := by omega
  rw [this, zpow_add₀ (by norm_num), zpow_natCast]
  push_cast
  rfl

theorem ulp_mono {x y : ℚ} (hx : 0 < x) (h : x ≤ y) : ulp x ≤ ulp y := by
  have := Int.log_mono_right (b := 2) hx h
  unfold ulp
  omega

theorem rndPos_zero : rndPos 0 = 0 := by
  have : nearest (0 : ℚ) = 0 := nearest_int 0
  unfold rndPos
  rw [zero_div, this]
  simp

theorem rndPos_nonneg {x : ℚ} (h : 0 ≤ x) : 0 ≤ rndPos x := by
  have := le_rndPos (x := x) (z := 0) (by simpa using h)
  simpa using this

theorem rndPos_mono {x y : ℚ} (hx : 0 ≤ x) (h : x ≤ y) : rndPos x ≤ rndPos y := by
  rcases hx.eq_or_lt with rfl | hx
  · rw [rndPos_zero]; exact rndPos_nonneg h
  have hy := hx.trans_le h
  rcases (ulp_mono hx h).eq_or_lt with he | he
  · unfold rndPos
    rw [he]
    have hp := two_zpow_pos (ulp y)
    refine mul_le_mul_of_nonneg_right ?_ hp.le
    exact_mod_cast nearest_mono ((div_le_div_iff_of_pos_right hp).2 h)
  · have hu : ulp y = Int.log 2 y - 52 := by
      unfold ulp at he ⊢
      omega
    have hl : Int.log 2 x + 1 ≤ Int.log 2 y := by
      unfold ulp at he hu
      omega
    have h1 : x ≤ 2 ^ Int.log 2 y := by
      have := Int.lt_zpow_succ_log_self (b := 2) (by norm_num) x
      exact this.le.trans (zpow_le_zpow_right₀ (by norm_num) hl)
    have h2 : (2 : ℚ) ^ Int.log 2 y ≤ y := by
      have := Int.zpow_log_le_self (b := 2) (by norm_num) hy
      exact_mod_cast this
    obtain ⟨z, hz⟩ := two_zpow_int (e := ulp x) (f := Int.log 2 y) (by omega)
    obtain ⟨z', hz'⟩ := two_zpow_int (e := ulp y) (f := Int.log 2 y) (by omega)
    have h3 : rndPos x ≤ 2 ^ Int.log 2 y := by
      rw [hz]; exact rndPos_le (by rw [← hz]; exact h1)
    have h4 : (2 : ℚ) ^ Int.log 2 y ≤ rndPos y := by
      rw [hz']; exact le_rndPos (by rw [← hz']; exact h2)
    exact h3.trans h4

theorem rnd_mono {x y : ℚ} (h : x ≤ y) : rnd x ≤ rnd y := by
  unfold rnd
  by_cases hx : x < 0
  · rw [if_pos hx]
    by_cases hy : y < 0
    · rw [if_pos hy]
      have := rndPos_mono (x := -y) (y := -x) (by linarith) (by linarith)
      linarith
    · rw [if_neg hy]
      have h1 := rndPos_nonneg (x := -x) (by linarith)
      have h2 := rndPos_nonneg (x := y) (by linarith)
      linarith
  · rw [if_neg hx, if_neg (by linarith : ¬ y < 0)]
    exact rndPos_mono (by linarith) h

/-- Integers below 2^53 (and even ones below 2^54, and so on) are float64s. -/
theorem rndPos_nat (n k : Nat) (h : n * 2 ^ k ≤ 2 ^ (53 + k)) : rndPos ((n * 2 ^ k : Nat) : ℚ) = (n * 2 ^ k : Nat) := by
  rcases Nat.eq_zero_or_pos n with rfl | hn
  · simpa using rndPos_zero
  have hpos : (0 : ℚ) < ((n * 2 ^ k : Nat) : ℚ) := by
    have : 0 < n * 2 ^ k := by positivity
    exact_mod_cast this
  have hexact : ∀ j : Int, j ≤ k → ulp ((n * 2 ^ k : Nat) : ℚ) ≤ j → rndPos ((n * 2 ^ k : Nat) : ℚ) = (n * 2 ^ k : Nat) := by
    intro j hj hu
    obtain ⟨z, hz⟩ := two_zpow_int (e := ulp ((n * 2 ^ k : Nat) : ℚ)) (f := k) (by omega)
    refine rndPos_exact (z := n * z) ?_
    rw [Int.cast_mul, mul_assoc, ← hz, zpow_natCast]
    push_cast
    rfl
  rcases Nat.lt_or_ge (n * 2 ^ k) (2 ^ (53 + k)) with hlt | hge
  · refine hexact k le_rfl ?_
    have : Int.log 2 ((n * 2 ^ k : Nat) : ℚ) < 53 + k := by
      rw [← Int.lt_zpow_iff_log_lt (by norm_num) hpos]
      have : ((53 : Int) + k) = ((53 + k : Nat) : Int) := by push_cast; rfl
      rw [this, zpow_natCast]
      exact_mod_cast hlt
    unfold ulp
    omega
  · have heq : n * 2 ^ k = 2 ^ (53 + k) := le_antisymm h hge
    rw [heq]
    have hl : Int.log 2 ((2 ^ (53 + k) : Nat) : ℚ) = ((53 + k : Nat) : Int) := by
      have := Int.log_zpow (R := ℚ) (b := 2) (by norm_num) ((53 + k : Nat) : Int)
      rw [zpow_natCast] at this
      exact_mod_cast this
    obtain ⟨z, hz⟩ := two_zpow_int (e := ulp ((2 ^ (53 + k) : Nat) : ℚ)) (f := ((53 + k : Nat) : Int)) (by
      unfold ulp; rw [hl]; omega)
    refine rndPos_exact (z := z) ?_
    rw [← hz, zpow_natCast]
    push_cast
    rfl

theorem rnd_int (n : Int) (h1 : -9007199254740992 ≤ n) (h2 : n ≤ 9007199254740992) : rnd n = n := by
  unfold rnd
  have key : ∀ m : Nat, m ≤ 9007199254740992 → rndPos (m : ℚ) = m := by
    intro m hm
    have := rndPos_nat m 0 (by norm_num; exact hm)
    simpa using this
  by_cases hn : (n : ℚ) < 0
  · rw [if_pos hn]
    have hn' : n < 0 := by exact_mod_cast hn
    obtain ⟨m, hm⟩ := Int.eq_ofNat_of_zero_le (a := -n) (by omega)
    have : -(n : ℚ) = m := by exact_mod_cast hm
    rw [this, key m (by omega), ← this]
    ring
  · rw [if_neg hn]
    have hn' : 0 ≤ n := by
      by_contra h
      exact hn (by exact_mod_cast not_le.1 h)
    obtain ⟨m, rfl⟩ := Int.eq_ofNat_of_zero_le hn'
    exact_mod_cast key m (by omega)

/-- The error is at most half a unit. -/
theorem rndPos_close (x : ℚ) : |rndPos x - x| ≤ 2 ^ ulp x / 2 := by
  have hp := two_zpow_pos (ulp x)
  have h := nearest_close (x / 2 ^ ulp x)
  have e : rndPos x - x = ((nearest (x / 2 ^ ulp x) : ℚ) - x / 2 ^ ulp x) * 2 ^ ulp x := by
    unfold rndPos
    rw [sub_mul, div_mul_cancel₀ _ hp.ne']
  rw [e, abs_mul, abs_of_pos hp]
  have := mul_le_mul_of_nonneg_right h hp.le
  linarith

theorem rnd_close (x : ℚ) (h : 0 ≤ x) : rnd x ≤ x + x / 9007199254740992 + 1 / 1000000000000000000 := by
  unfold rnd
  rw [if_neg (not_lt.2 h)]
  rcases h.eq_or_lt with rfl | hx
  · rw [rndPos_zero]; norm_num
  have h1 := (abs_le.1 (rndPos_close x)).2
  have h2 : (2 : ℚ) ^ ulp x ≤ x / 4503599627370496 + 1 / 1000000000000000000 := by
    rcases max_choice (Int.log 2 x - 52) (-1074) with hm | hm
    · have : ulp x = Int.log 2 x - 52 := hm
      rw [this, zpow_sub₀ (by norm_num)]
      have h3 := Int.zpow_log_le_self (b := 2) (by norm_num) hx
      have h4 : (2 : ℚ) ^ (52 : Int) = 4503599627370496 := by norm_num
      rw [h4]
      have h5 : (2 : ℚ) ^ Int.log 2 x ≤ x := by exact_mod_cast h3
      have := div_le_div_of_nonneg_right h5 (show (0 : ℚ) ≤ 4503599627370496 by norm_num)
      have h6 : (0 : ℚ) ≤ 1 / 1000000000000000000 := by norm_num
      linarith
    · have : ulp x = -1074 := hm
      rw [this]
      have h3 : (2 : ℚ) ^ (-1074 : Int) ≤ 2 ^ (-60 : Int) := zpow_le_zpow_right₀ (by norm_num) (by norm_num)
      have h4 : (2 : ℚ) ^ (-60 : Int) ≤ 1 / 1000000000000000000 := by norm_num
      have h5 : (0 : ℚ) ≤ x / 4503599627370496 := by positivity
      have h6 := h3.trans h4
      generalize (2 : ℚ) ^ (-1074 : Int) = u at h6
      linarith
  have h3 : x / 9007199254740992 = x / 4503599627370496 / 2 := by
    rw [div_div]; norm_num
  have h4 : (0 : ℚ) ≤ 1 / 1000000000000000000 := by norm_num
  rw [h3]
  linarith

end F64
end OnePass
