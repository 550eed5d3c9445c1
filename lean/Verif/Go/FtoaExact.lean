/-
strconv ftoa.go: seventeen digits identify a float64, and what is printed stands for the number.
-/
import Verif.Go.FtoaFacts

namespace OnePass
namespace F64
open Num

theorem nearest_eq {y : ℚ} {z : Int} (h : |y - z| < 1 / 2) : nearest y = z := by
  have h1 := nearest_close y
  rw [abs_lt] at h
  rw [abs_le] at h1
  have h2 : ((nearest y : Int) : ℚ) < z + 1 := by linarith
  have h3 : (z : ℚ) < (nearest y : Int) + 1 := by linarith
  have h2' : nearest y < z + 1 := by exact_mod_cast h2
  have h3' : z < nearest y + 1 := by exact_mod_cast h3
  omega

/-- Two multiples of a unit that differ, differ by the unit. -/
theorem grid {e a b : Int} (h : (a : ℚ) * 2 ^ e < b * 2 ^ e) : (a : ℚ) * 2 ^ e + 2 ^ e ≤ b * 2 ^ e := by
  have hp := two_zpow_pos e
  have h1 : (a : ℚ) < b := lt_of_mul_lt_mul_right h hp.le
  have h2 : a + 1 ≤ b := by exact_mod_cast h1
  have h3 : ((a : ℚ) + 1) ≤ b := by exact_mod_cast h2
  have := mul_le_mul_of_nonneg_right h3 hp.le
  linarith

theorem rndPos_multiple {x : ℚ} (h : rndPos x = x) : ∃ z : Int, x = z * 2 ^ ulp x := ⟨_, h.symm⟩

/-- What is nearer to a float64 than half the way to the next one is rounded to it. -/
theorem rndPos_near {x c : ℚ} (hx : 0 < x) (hf : rndPos x = x) (hc : 0 < c) (h : |c - x| < 2 ^ ulp x / 2)
    (hp : c < x → x = 2 ^ Int.log 2 x → |c - x| < 2 ^ ulp x / 4) : rndPos c = x := by
  obtain ⟨z, hz⟩ := rndPos_multiple hf
  have hu := two_zpow_pos (ulp x)
  have hl1 : (2 : ℚ) ^ Int.log 2 x ≤ x := by
    have := Int.zpow_log_le_self (b := 2) (by norm_num) hx
    exact_mod_cast this
  have hl2 : x < 2 ^ (Int.log 2 x + 1) := by
    have := Int.lt_zpow_succ_log_self (b := 2) (by norm_num) x
    exact_mod_cast this
  -- the unit is not above the number
  have hxu : (2 : ℚ) ^ ulp x ≤ x := by
    have := grid (e := ulp x) (a := 0) (b := z) (by rw [← hz]; simpa using hx)
    rw [← hz] at this
    simpa using this
  have hul : ulp x ≤ Int.log 2 x := by
    rw [← Int.zpow_le_iff_le_log (R := ℚ) (b := 2) (by norm_num) hx]
    exact_mod_cast hxu
  have habs := abs_lt.1 h
  -- c is below the next power of two
  have hcu : c < 2 ^ (Int.log 2 x + 1) := by
    obtain ⟨w, hw⟩ := two_zpow_int (e := ulp x) (f := Int.log 2 x + 1) (by omega)
    have := grid (e := ulp x) (a := z) (b := w) (by rw [← hz, ← hw]; exact hl2)
    rw [← hz, ← hw] at this
    linarith
  have hlc : Int.log 2 c ≤ Int.log 2 x := by
    have : Int.log 2 c < Int.log 2 x + 1 := by
      rw [← Int.lt_zpow_iff_log_lt (R := ℚ) (b := 2) (by norm_num) hc]
      exact_mod_cast hcu
    omega
  have same : ulp c = ulp x → rndPos c = x := by
    intro he
    have hn : nearest (c / 2 ^ ulp x) = z := by
      apply nearest_eq
      have : c / 2 ^ ulp x - z = (c - x) / 2 ^ ulp x := by
        rw [sub_div]
        congr 1
        rw [eq_div_iff hu.ne']
        exact hz.symm
      rw [this, abs_div, abs_of_pos hu, div_lt_iff₀ hu]
      linarith
    unfold rndPos
    rw [he, hn, ← hz]
  by_cases hge : (2 : ℚ) ^ Int.log 2 x ≤ c
  · apply same
    have : Int.log 2 x ≤ Int.log 2 c := by
      rw [← Int.zpow_le_iff_le_log (R := ℚ) (b := 2) (by norm_num) hc]
      exact_mod_cast hge
    unfold ulp
    omega
  · have hlt := not_le.1 hge
    -- the number is the power of two
    have hx2 : x = 2 ^ Int.log 2 x := by
      obtain ⟨w, hw⟩ := two_zpow_int (e := ulp x) (f := Int.log 2 x) hul
      by_contra hne
      have h1 : (2 : ℚ) ^ Int.log 2 x < x := lt_of_le_of_ne hl1 (Ne.symm hne)
      have := grid (e := ulp x) (a := w) (b := z) (by rw [← hz, ← hw]; exact h1)
      rw [← hz, ← hw] at this
      linarith
    have h4 := hp (by linarith) hx2
    have h4' := abs_lt.1 h4
    have hlow : (2 : ℚ) ^ (Int.log 2 x - 1) ≤ c := by
      have e : (2 : ℚ) ^ (Int.log 2 x - 1) = 2 ^ Int.log 2 x / 2 := by
        rw [zpow_sub₀ (by norm_num)]; norm_num
      rw [e, ← hx2]
      linarith
    have hlc2 : Int.log 2 x - 1 ≤ Int.log 2 c := by
      rw [← Int.zpow_le_iff_le_log (R := ℚ) (b := 2) (by norm_num) hc]
      exact_mod_cast hlow
    have hcase : ulp c = ulp x ∨ ulp c = ulp x - 1 := by
      unfold ulp
      omega
    rcases hcase with he | he
    · exact same he
    · have hup : (2 : ℚ) ^ (ulp x - 1) = 2 ^ ulp x / 2 := by
        rw [zpow_sub₀ (by norm_num)]; norm_num
      have hn : nearest (c / 2 ^ (ulp x - 1)) = 2 * z := by
        apply nearest_eq
        have : c / 2 ^ (ulp x - 1) - (2 * z : Int) = (c - x) * 2 / 2 ^ ulp x := by
          rw [hup]
          push_cast
          rw [eq_div_iff hu.ne', sub_mul]
          rw [show (2 : ℚ) * z * 2 ^ ulp x = 2 * x by rw [mul_assoc, ← hz]]
          field_simp
        rw [this, abs_div, abs_of_pos hu, div_lt_iff₀ hu, abs_mul]
        rw [show |(2 : ℚ)| = 2 by norm_num]
        linarith
      have h2 : (2 : ℚ) * z * (2 ^ ulp x / 2) = z * 2 ^ ulp x := by ring
      unfold rndPos
      rw [he, hn, hup]
      push_cast
      rw [h2, ← hz]

/-- Seventeen digits are enough for every float64. -/
theorem attempt_17 {x : ℚ} (hx : 0 < x) (hf : rndPos x = x) : attempt x 17 ≠ none := by
  have hL : (10 : ℚ) ^ Int.log 10 x ≤ x := by
    have := Int.zpow_log_le_self (b := 10) (by norm_num) hx
    exact_mod_cast this
  obtain ⟨k, hk⟩ : ∃ k, k = Int.log 10 x + 1 - ((17 : Nat) : Int) := ⟨_, rfl⟩
  have hs : (0 : ℚ) < 10 ^ k := zpow_pos (by norm_num) k
  have hsx : (10 : ℚ) ^ k * 10000000000000000 ≤ x := by
    have : (10 : ℚ) ^ k * 10000000000000000 = 10 ^ Int.log 10 x := by
      have e : Int.log 10 x = k + 16 := by omega
      rw [e, zpow_add₀ (by norm_num)]
      norm_num
    rw [this]; exact hL
  have hl2 : x < 2 * 2 ^ Int.log 2 x := by
    have := Int.lt_zpow_succ_log_self (b := 2) (by norm_num) x
    have h2 : x < (2 : ℚ) ^ (Int.log 2 x + 1) := by exact_mod_cast this
    rw [zpow_add₀ (by norm_num)] at h2
    linarith
  have hu : (2 : ℚ) ^ Int.log 2 x / 4503599627370496 ≤ 2 ^ ulp x := by
    have h1 : (2 : ℚ) ^ (Int.log 2 x - 52) ≤ 2 ^ ulp x := zpow_le_zpow_right₀ (by norm_num) (by unfold ulp; omega)
    rw [zpow_sub₀ (by norm_num)] at h1
    have : (2 : ℚ) ^ (52 : Int) = 4503599627370496 := by norm_num
    rw [this] at h1
    exact h1
  have hlo1 : ((⌊x / 10 ^ k⌋₊ : Nat) : ℚ) * 10 ^ k ≤ x := by
    have := Nat.floor_le (show (0 : ℚ) ≤ x / 10 ^ k by positivity)
    rwa [le_div_iff₀ hs] at this
  have hlo2 : x < ((⌊x / 10 ^ k⌋₊ + 1 : Nat) : ℚ) * 10 ^ k := by
    have := Nat.lt_floor_add_one (x / 10 ^ k)
    rw [div_lt_iff₀ hs] at this
    exact_mod_cast this
  have hgap : ((⌊x / 10 ^ k⌋₊ + 1 : Nat) : ℚ) * 10 ^ k = ((⌊x / 10 ^ k⌋₊ : Nat) : ℚ) * 10 ^ k + 10 ^ k := by
    push_cast; ring
  have near : ∀ c : ℚ, |c - x| ≤ 10 ^ k / 2 → rndPos c = x := by
    intro c hc
    have h2 := abs_le.1 hc
    refine rndPos_near hx hf (by linarith) ?_ (fun _ hpow => ?_)
    · refine lt_of_le_of_lt hc ?_
      linarith
    · refine lt_of_le_of_lt hc ?_
      rw [← hpow] at hu
      linarith
  unfold attempt
  simp only [← hk]
  generalize ((⌊x / 10 ^ k⌋₊ : Nat) : ℚ) * 10 ^ k = a at hlo1 hgap
  generalize ((⌊x / 10 ^ k⌋₊ + 1 : Nat) : ℚ) * 10 ^ k = b at hlo2 hgap
  by_cases hcl : x - a ≤ 10 ^ k / 2
  · have h1 : rndPos a = x := near a (by rw [abs_le]; constructor <;> linarith)
    split
    · simp
    · rename_i h
      split
      · simp
      · rename_i h'
        exact absurd ⟨h1, .inl h'⟩ h
  · have h1 : rndPos b = x := near b (by rw [abs_le]; constructor <;> linarith)
    split
    · simp
    · simp

theorem attempt_sound {x : ℚ} {n c : Nat} {k : Int} (h : attempt x n = some (c, k)) : rndPos (c * 10 ^ k) = x := by
  unfold attempt at h
  simp only at h
  split at h
  · rename_i h1
    simp only [Option.some.injEq, Prod.mk.injEq] at h
    obtain ⟨rfl, rfl⟩ := h
    exact h1.1
  · split at h
    · rename_i h1
      simp only [Option.some.injEq, Prod.mk.injEq] at h
      obtain ⟨rfl, rfl⟩ := h
      exact h1
    · cases h

/-- The decimal that is found stands for the number. -/
theorem shortest_sound {x : ℚ} (hx : 0 < x) (hf : rndPos x = x) :
    rndPos ((shortest x 17 1).1 * 10 ^ (shortest x 17 1).2) = x := by
  have key : ∀ f n, n + f = 18 → 0 < f → rndPos ((shortest x f n).1 * 10 ^ (shortest x f n).2) = x := by
    intro f
    induction f with
    | zero => intro n _ h; omega
    | succ f ih =>
      intro n hn _
      rw [shortest]
      cases ha : attempt x n with
      | some r => obtain ⟨c, k⟩ := r; exact attempt_sound ha
      | none =>
        rw [Option.getD_none]
        by_cases hf0 : f = 0
        · subst hf0
          have : n = 17 := by omega
          subst this
          exact absurd ha (attempt_17 hx hf)
        · exact ih (n + 1) (by omega) (by omega)
  exact key 17 1 rfl (by norm_num)

end F64
end OnePass
