/-
The rounding of `Verif.Go.Float64` is the rounding of IEEE 754: to the nearest float64, ties to even.
-/
import Verif.Spec.Numbers
import Verif.Go.FtoaExact

namespace OnePass
namespace F64
open Num Spec

theorem nearest_best (y : ℚ) (z : Int) (h : z ≠ nearest y) :
    |y - nearest y| < |y - z| ∨ |y - nearest y| = |y - z| ∧ nearest y % 2 = 0 := by
  have h1 := Int.floor_le y
  have h2 := Int.lt_floor_add_one y
  have key : z ≤ ⌊y⌋ ∨ ⌊y⌋ + 1 ≤ z := by omega
  have keyq : (z : ℚ) ≤ ⌊y⌋ ∨ (⌊y⌋ : ℚ) + 1 ≤ z := by
    rcases key with k | k
    · left; exact_mod_cast k
    · right; exact_mod_cast k
  have lowq : z ≠ ⌊y⌋ → (z : ℚ) + 1 ≤ ⌊y⌋ ∨ (⌊y⌋ : ℚ) + 1 ≤ z := by
    intro hne
    have : z + 1 ≤ ⌊y⌋ ∨ ⌊y⌋ + 1 ≤ z := by omega
    rcases this with k | k
    · left; exact_mod_cast k
    · right; exact_mod_cast k
  have highq : z ≠ ⌊y⌋ + 1 → (z : ℚ) ≤ ⌊y⌋ ∨ (⌊y⌋ : ℚ) + 2 ≤ z := by
    intro hne
    have : z ≤ ⌊y⌋ ∨ ⌊y⌋ + 2 ≤ z := by omega
    rcases this with k | k
    · left; exact_mod_cast k
    · right; exact_mod_cast k
  unfold nearest at h ⊢
  simp only at h ⊢
  generalize hf : ⌊y⌋ = f at *
  by_cases c1 : y - f < 1 / 2
  · simp only [if_pos c1] at h ⊢
    left
    rw [abs_of_nonneg (by linarith : (0 : ℚ) ≤ y - f)]
    rcases lowq h with k | k
    · rw [abs_of_nonneg (by linarith)]; linarith
    · rw [abs_of_nonpos (by linarith)]; linarith
  · simp only [if_neg c1] at h ⊢
    by_cases c2 : 1 / 2 < y - f
    · simp only [if_pos c2] at h ⊢
      left
      push_cast
      rw [abs_of_nonpos (by linarith : y - (f + 1 : ℚ) ≤ 0)]
      rcases highq h with k | k
      · rw [abs_of_nonneg (by linarith)]; linarith
      · rw [abs_of_nonpos (by linarith)]; linarith
    · simp only [if_neg c2] at h ⊢
      have ht : y - f = 1 / 2 := by linarith
      by_cases c3 : f % 2 = 0
      · simp only [if_pos c3] at h ⊢
        rw [abs_of_nonneg (by linarith : (0 : ℚ) ≤ y - f)]
        rcases lowq h with k | k
        · left; rw [abs_of_nonneg (by linarith)]; linarith
        · rw [abs_of_nonpos (by linarith : y - (z : ℚ) ≤ 0)]
          rcases lt_or_eq_of_le k with k | k
          · left; linarith
          · right; exact ⟨by linarith, c3⟩
      · simp only [if_neg c3] at h ⊢
        push_cast
        rw [abs_of_nonpos (by linarith : y - (f + 1 : ℚ) ≤ 0)]
        rcases highq h with k | k
        · rw [abs_of_nonneg (by linarith : (0 : ℚ) ≤ y - z)]
          rcases lt_or_eq_of_le k with k | k
          · left; linarith
          · right; exact ⟨by linarith, by omega⟩
        · left; rw [abs_of_nonpos (by linarith)]; linarith

theorem best_scaled {x : ℚ} (z : Int) (h : (z : ℚ) * 2 ^ ulp x ≠ rndPos x) :
    |x - rndPos x| < |x - z * 2 ^ ulp x| ∨
    |x - rndPos x| = |x - z * 2 ^ ulp x| ∧ nearest (x / 2 ^ ulp x) % 2 = 0 := by
  have hu := two_zpow_pos (ulp x)
  have hs : ∀ w : Int, |x - w * 2 ^ ulp x| = |x / 2 ^ ulp x - w| * 2 ^ ulp x := by
    intro w
    rw [← abs_of_pos hu, ← abs_mul, sub_mul, abs_of_pos hu, div_mul_cancel₀ _ hu.ne']
  have hne : z ≠ nearest (x / 2 ^ ulp x) := by
    rintro rfl
    exact h rfl
  rw [show rndPos x = (nearest (x / 2 ^ ulp x) : Int) * 2 ^ ulp x from rfl, hs, hs]
  rcases nearest_best (x / 2 ^ ulp x) z hne with k | ⟨k, k'⟩
  · exact .inl (mul_lt_mul_of_pos_right k hu)
  · exact .inr ⟨by rw [k], k'⟩

theorem log_le {x : ℚ} (hx : 0 < x) : (2 : ℚ) ^ Int.log 2 x ≤ x := by
  have := Int.zpow_log_le_self (b := 2) (by norm_num) hx
  exact_mod_cast this

theorem lt_log {x : ℚ} : x < (2 : ℚ) ^ (Int.log 2 x + 1) := by
  have := Int.lt_zpow_succ_log_self (b := 2) (by norm_num) x
  exact_mod_cast this

/-- The mantissa has 53 binary digits, or one more when it was rounded up to a power of two. -/
theorem mantissa {x : ℚ} (hx : 0 < x) :
    0 ≤ nearest (x / 2 ^ ulp x) ∧ nearest (x / 2 ^ ulp x) ≤ 2 ^ 53 ∧
    (ulp x = -1074 ∨ 2 ^ 52 ≤ nearest (x / 2 ^ ulp x)) := by
  have hu := two_zpow_pos (ulp x)
  refine ⟨le_nearest (by rw [Int.cast_zero]; positivity), nearest_le ?_, ?_⟩
  · rw [div_le_iff₀ hu]
    refine (lt_log (x := x)).le.trans ?_
    have : (2 : ℚ) ^ (Int.log 2 x + 1) ≤ 2 ^ (53 + ulp x) := zpow_le_zpow_right₀ (by norm_num) (by unfold ulp; omega)
    refine this.trans (le_of_eq ?_)
    rw [zpow_add₀ (by norm_num)]
    norm_num
  · by_cases h : ulp x = -1074
    · exact .inl h
    · right
      apply le_nearest
      rw [le_div_iff₀ hu]
      refine le_trans (le_of_eq ?_) (log_le hx)
      have : Int.log 2 x = 52 + ulp x := by unfold ulp at h ⊢; omega
      rw [this, zpow_add₀ (by norm_num)]
      norm_num

theorem rndPos_float {x : ℚ} (hx : 0 < x) : Float64 (rndPos x) ∧
    (nearest (x / 2 ^ ulp x) % 2 = 0 → EvenFloat64 (rndPos x)) := by
  obtain ⟨h0, h1, h2⟩ := mantissa hx
  have hul : -1074 ≤ ulp x := by unfold ulp; omega
  unfold rndPos
  generalize nearest (x / 2 ^ ulp x) = z at *
  rcases lt_or_eq_of_le h1 with h1 | h1
  · refine ⟨⟨z, _, by rwa [abs_of_nonneg h0], hul, rfl⟩, fun he => ⟨z, _, by rwa [abs_of_nonneg h0], hul, rfl, ?_, he⟩⟩
    rw [abs_of_nonneg h0]
    exact h2.symm
  · have e : (z : ℚ) * 2 ^ ulp x = ((2 ^ 52 : Int) : ℚ) * 2 ^ (ulp x + 1) := by
      rw [h1, zpow_add₀ (by norm_num)]
      push_cast
      ring
    have hm : |(2 ^ 52 : Int)| = 2 ^ 52 := by norm_num
    exact ⟨⟨2 ^ 52, ulp x + 1, by rw [hm]; norm_num, by omega, e⟩, fun _ =>
      ⟨2 ^ 52, ulp x + 1, by rw [hm]; norm_num, by omega, e, .inl hm.ge, by norm_num⟩⟩

theorem rndPos_nearest {x : ℚ} (hx : 0 < x) : NearestFloat64 x (rndPos x) := by
  obtain ⟨hf, he⟩ := rndPos_float hx
  refine ⟨hf, fun y hy hne => ?_⟩
  -- every float64 is a multiple of the unit, or below the power of two under x
  have hcase : (∃ z : Int, y = z * 2 ^ ulp x) ∨ (ulp x ≤ Int.log 2 x ∧ y < 2 ^ Int.log 2 x) := by
    obtain ⟨m, e, hm, hel, rfl⟩ := hy
    by_cases hue : ulp x ≤ e
    · obtain ⟨w, hw⟩ := two_zpow_int hue
      exact .inl ⟨m * w, by rw [hw]; push_cast; ring⟩
    · right
      have hux : ulp x = Int.log 2 x - 52 := by unfold ulp at hue ⊢; omega
      refine ⟨by omega, ?_⟩
      have h1 : (m : ℚ) < 2 ^ 53 := by
        have := (abs_lt.1 hm).2
        exact_mod_cast this
      have h2 : (m : ℚ) * 2 ^ e < 2 ^ 53 * 2 ^ e := mul_lt_mul_of_pos_right h1 (two_zpow_pos e)
      refine h2.trans_le ?_
      have h3 : (2 : ℚ) ^ (53 + e) ≤ 2 ^ Int.log 2 x := zpow_le_zpow_right₀ (by norm_num) (by omega)
      rw [zpow_add₀ (by norm_num)] at h3
      exact_mod_cast h3
  rcases hcase with ⟨z, rfl⟩ | ⟨hl, hlt⟩
  · rcases best_scaled z hne with k | ⟨k, k'⟩
    · exact .inl k
    · exact .inr ⟨k, he k'⟩
  · left
    have hx2 := log_le hx
    obtain ⟨w, hw⟩ := two_zpow_int hl
    have hle : |x - rndPos x| ≤ |x - 2 ^ Int.log 2 x| := by
      by_cases hq : (w : ℚ) * 2 ^ ulp x = rndPos x
      · rw [hw, hq]
      · rw [hw]
        rcases best_scaled w hq with k | ⟨k, -⟩
        · exact k.le
        · exact k.le
    refine hle.trans_lt ?_
    rw [abs_of_nonneg (by linarith : (0 : ℚ) ≤ x - 2 ^ Int.log 2 x), abs_of_nonneg (by linarith : (0 : ℚ) ≤ x - y)]
    linarith

theorem float_neg {x : ℚ} : Float64 (-x) ↔ Float64 x := by
  have : ∀ {x : ℚ}, Float64 x → Float64 (-x) := by
    rintro _ ⟨m, e, hm, he, rfl⟩
    exact ⟨-m, e, by rwa [abs_neg], he, by push_cast; ring⟩
  exact ⟨fun h => by simpa using this h, this⟩

theorem even_neg {x : ℚ} (h : EvenFloat64 x) : EvenFloat64 (-x) := by
  obtain ⟨m, e, hm, he, rfl, hn, h2⟩ := h
  exact ⟨-m, e, by rwa [abs_neg], he, by push_cast; ring, by rwa [abs_neg], by omega⟩

theorem nearest_neg {q x : ℚ} (h : NearestFloat64 q x) : NearestFloat64 (-q) (-x) := by
  refine ⟨float_neg.2 h.1, fun y hy hne => ?_⟩
  have hs : ∀ a b : ℚ, |-a - b| = |a - -b| := by
    intro a b
    rw [← abs_neg]; congr 1; ring
  have := h.2 (-y) (float_neg.2 hy) (fun e => hne (by rw [← e]; ring))
  rw [hs, hs, neg_neg]
  rcases this with k | ⟨k, k'⟩
  · exact .inl k
  · exact .inr ⟨k, even_neg k'⟩

/-- The rounding is the rounding of IEEE 754. -/
theorem rnd_nearest (q : ℚ) : NearestFloat64 q (rnd q) := by
  unfold rnd
  rcases lt_trichotomy q 0 with h | h | h
  · rw [if_pos h]
    have := nearest_neg (rndPos_nearest (x := -q) (by linarith))
    rwa [neg_neg] at this
  · subst h
    rw [if_neg (lt_irrefl 0), rndPos_zero]
    refine ⟨⟨0, 0, by norm_num, by norm_num, by simp⟩, fun y _ hy => .inl ?_⟩
    simpa using hy
  · rw [if_neg (not_lt.2 h.le)]
    exact rndPos_nearest h

/-- Between two float64s whose last digits are 0 there is another one. -/
theorem even_between {x y : ℚ} (hx : EvenFloat64 x) (hy : EvenFloat64 y) (h0 : 0 ≤ x) (h : x < y) :
    ∃ z, Float64 z ∧ x < z ∧ z < y := by
  obtain ⟨m, e, hm, he, rfl, hn, h2⟩ := hx
  obtain ⟨m', e', hm', he', rfl, hn', h2'⟩ := hy
  have hp := two_zpow_pos e
  have hp' := two_zpow_pos e'
  have hm0 : 0 ≤ m := by
    by_contra hc
    have : (m : ℚ) < 0 := by exact_mod_cast not_le.1 hc
    have := mul_neg_of_neg_of_pos this hp
    linarith
  have hm0' : 0 < m' := by
    have h1 : (0 : ℚ) < m' * 2 ^ e' := lt_of_le_of_lt h0 h
    by_contra hc
    have : (m' : ℚ) ≤ 0 := by exact_mod_cast not_lt.1 hc
    have := mul_nonpos_of_nonpos_of_nonneg this hp'.le
    linarith
  rw [abs_of_nonneg hm0] at hm hn
  rw [abs_of_nonneg hm0'.le] at hm' hn'
  have hee : e ≤ e' := by
    by_contra hc
    have hlt : e' + 1 ≤ e := by omega
    have hmn : 2 ^ 52 ≤ m := by
      rcases hn with k | k
      · exact k
      · omega
    have h1 : (m' : ℚ) < 2 ^ 53 := by exact_mod_cast hm'
    have h3 : (2 ^ 52 : ℚ) ≤ m := by exact_mod_cast hmn
    have h4 : (2 : ℚ) ^ (e' + 1) ≤ 2 ^ e := zpow_le_zpow_right₀ (by norm_num) hlt
    rw [zpow_add₀ (by norm_num), zpow_one] at h4
    have h5 : (m' : ℚ) * 2 ^ e' < 2 ^ 53 * 2 ^ e' := mul_lt_mul_of_pos_right h1 hp'
    have h6 : (2 : ℚ) ^ 52 * 2 ^ e ≤ m * 2 ^ e := mul_le_mul_of_nonneg_right h3 hp.le
    have h7 : (2 : ℚ) ^ 53 * 2 ^ e' = 2 ^ 52 * (2 ^ e' * 2) := by ring
    have h8 : (2 : ℚ) ^ 52 * (2 ^ e' * 2) ≤ 2 ^ 52 * 2 ^ e := mul_le_mul_of_nonneg_left h4 (by norm_num)
    linarith
  obtain ⟨n, hn⟩ := Int.eq_ofNat_of_zero_le (sub_nonneg.2 hee)
  have hw : (m' : ℚ) * 2 ^ e' = ((m' * 2 ^ n : Int) : ℚ) * 2 ^ e := by
    have : e' = n + e := by omega
    rw [this, zpow_add₀ (by norm_num), zpow_natCast]
    push_cast
    ring
  refine ⟨((m + 1 : Int) : ℚ) * 2 ^ e, ⟨m + 1, e, ?_, he, rfl⟩, ?_, ?_⟩
  · rw [abs_of_nonneg (by omega)]
    omega
  · push_cast; linarith
  · rw [hw] at h ⊢
    have h1 : (m : ℚ) < (m' * 2 ^ n : Int) := lt_of_mul_lt_mul_right h hp.le
    have h3 : m < m' * 2 ^ n := by exact_mod_cast h1
    have h4 : (m' * 2 ^ n) % 2 = 0 := by
      rw [Int.mul_emod, h2']; simp
    have h5 : m + 1 < m' * 2 ^ n := by omega
    exact mul_lt_mul_of_pos_right (by exact_mod_cast h5) hp

/-- There is one nearest float64. -/
theorem nearest_unique {q x y : ℚ} (hx : NearestFloat64 q x) (hy : NearestFloat64 q y) : x = y := by
  have main : ∀ {q x y : ℚ}, NearestFloat64 q x → NearestFloat64 q y → ¬ x < y := by
    intro q x y hx hy hlt
    obtain ⟨heq, ex, ey⟩ : |q - x| = |q - y| ∧ EvenFloat64 x ∧ EvenFloat64 y := by
      rcases hx.2 y hy.1 hlt.ne' with k | ⟨k, k'⟩ <;> rcases hy.2 x hx.1 hlt.ne with l | ⟨l, l'⟩
      · linarith
      · linarith
      · linarith
      · exact ⟨k, k', l'⟩
    obtain ⟨z, hz, h1, h2⟩ : ∃ z, Float64 z ∧ x < z ∧ z < y := by
      rcases le_or_gt 0 x with h0 | h0
      · exact even_between ex ey h0 hlt
      · rcases le_or_gt y 0 with h3 | h3
        · obtain ⟨z, hz, h4, h5⟩ := even_between (even_neg ey) (even_neg ex) (by linarith) (by linarith)
          exact ⟨-z, float_neg.2 hz, by linarith, by linarith⟩
        · exact ⟨0, ⟨0, 0, by norm_num, by norm_num, by simp⟩, h0, h3⟩
    have hmid : q - x = y - q := by
      rcases abs_eq_abs.1 heq with k | k <;> linarith
    have hd : |q - z| < |q - x| := by
      rw [abs_of_nonneg (by linarith : (0 : ℚ) ≤ q - x), abs_lt]
      constructor <;> linarith
    rcases hx.2 z hz h1.ne' with k | ⟨k, -⟩ <;> linarith
  exact le_antisymm (not_lt.1 (main hy hx)) (not_lt.1 (main hx hy))

/-- The rounding is the rounding of IEEE 754. -/
theorem nearest_iff {q x : ℚ} : NearestFloat64 q x ↔ x = rnd q :=
  ⟨fun h => nearest_unique h (rnd_nearest q), fun h => h ▸ rnd_nearest q⟩

example : NearestFloat64 (1 / 10) (3602879701896397 / 2 ^ 55) ∧ NearestFloat64 9007199254740993 9007199254740992 := by
  rw [nearest_iff, nearest_iff]
  decide +kernel

end F64
end OnePass
