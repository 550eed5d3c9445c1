/-
The value of a number literal, and when it is beyond the range of float64.
-/
import Verif.Spec.Numbers
import Verif.Go.FloatFacts
import Mathlib.Tactic.Linarith
import Mathlib.Tactic.NormNum
import Mathlib.Tactic.Ring

namespace OnePass
namespace Num
open Json Spec

theorem natOf_eq (ds : Bytes) : natOf ds = decimal ds := rfl

theorem digits_all {i : Bytes} (hi : i = [48] ∨ ∃ b r, i = b :: r ∧ b ≠ 48 ∧ Str.isDigitA b = true ∧ Digits r) :
    Digits i ∧ i ≠ [] := by
  rcases hi with rfl | ⟨b, r, rfl, -, hb, hr⟩
  · exact ⟨by intro b hb; rw [List.mem_singleton] at hb; subst hb; decide, by simp⟩
  · refine ⟨fun x hx => ?_, by simp⟩
    rcases List.mem_cons.1 hx with rfl | hx
    · exact hb
    · exact hr x hx

theorem litExp_val {e : Bytes} {x : Int} (h : ExpVal e x) : litExp e = x ∧ NoDigit e := by
  rcases h with ⟨rfl, rfl⟩ | ⟨c, ds, hc, hne, hd, h⟩
  · exact ⟨rfl, trivial⟩
  · have hc' : Str.isDigitA c = false := by rcases hc with rfl | rfl <;> decide
    have hnd : ∀ e', NoDigit (c :: e') := fun e' => hc'
    obtain ⟨d, ds, rfl⟩ := List.exists_cons_of_ne_nil hne
    have h45 : d ≠ 45 ∧ d ≠ 43 := by
      have := hd d (by simp)
      constructor <;> (rintro rfl; revert this; decide)
    rcases h with ⟨rfl | rfl, rfl⟩ | ⟨rfl, rfl⟩
    · refine ⟨?_, hnd _⟩
      simp only [litExp, if_neg h45.1, if_neg h45.2, natOf_eq]
    · exact ⟨rfl, hnd _⟩
    · exact ⟨rfl, hnd _⟩

/-- The parts of a literal give its value. -/
theorem litParts_val {t : Bytes} {q : ℚ} (h : NumVal t q) :
    q = (if (litParts t).1 then -1 else 1) * ((litParts t).2.1 : ℚ) * 10 ^ (litParts t).2.2 := by
  obtain ⟨sign, i, fr, f, e, x, rfl, hs, hi, hf, he, rfl⟩ := h
  obtain ⟨hx, hn⟩ := litExp_val he
  obtain ⟨hid, hine⟩ := digits_all hi
  have hnf : NoDigit (fr ++ e) := by
    rcases hf with ⟨rfl, rfl⟩ | ⟨rfl, -, -⟩
    · exact hn
    · show Str.isDigitA 46 = false
      decide
  have hfr : litFrac (fr ++ e) = (f, e) := by
    rcases hf with ⟨rfl, rfl⟩ | ⟨rfl, hne, hd⟩
    · cases e with
      | nil => rfl
      | cons c e =>
        have : c ≠ 46 := by
          rcases he with ⟨h, -⟩ | ⟨c', ds, hc, -, -, h⟩
          · cases h
          · have : c = c' := by
              rcases h with ⟨h | h, -⟩ | ⟨h, -⟩ <;> (cases h; rfl)
            subst this
            rcases hc with rfl | rfl <;> decide
        simp [litFrac, this]
    · simp only [List.cons_append, litFrac, if_true]
      exact digits_append hd hn
  have hbody : digits (i ++ (fr ++ e)) = (i, fr ++ e) := digits_append hid hnf
  have hp : litParts (sign ++ i ++ fr ++ e) = (decide (sign ≠ []), natOf (i ++ f), x - f.length) := by
    have hhd : i.head? ≠ some 45 := by
      obtain ⟨b, r, rfl⟩ := List.exists_cons_of_ne_nil hine
      have := hid b (by simp)
      intro h
      simp only [List.head?_cons, Option.some.injEq] at h
      subst h
      revert this; decide
    have hl : ∀ t body neg, (t.head? == some 45) = neg → (if neg = true then t.tail else t) = body →
        litParts t = (neg, natOf ((digits body).1 ++ (litFrac (digits body).2).1),
          litExp (litFrac (digits body).2).2 - (litFrac (digits body).2).1.length) := by
      rintro t body neg rfl rfl; rfl
    rcases hs with rfl | rfl
    · have h1 : ((i ++ (fr ++ e)).head? == some 45) = false := by
        obtain ⟨b, r, rfl⟩ := List.exists_cons_of_ne_nil hine
        simpa using hhd
      have := hl (i ++ (fr ++ e)) (i ++ (fr ++ e)) false h1 rfl
      rw [hbody, hfr, hx] at this
      simpa using this
    · have := hl (45 :: (i ++ (fr ++ e))) (i ++ (fr ++ e)) true rfl rfl
      rw [hbody, hfr, hx] at this
      simpa using this
  rw [hp]
  rcases hs with rfl | rfl <;> simp [natOf_eq]

theorem floatLimit_cast : ((floatLimit : Nat) : ℚ) = 2 ^ 1024 - 2 ^ 970 := by
  unfold floatLimit
  rw [Nat.cast_sub (Nat.pow_le_pow_right (by decide) (by decide)), Nat.cast_pow, Nat.cast_pow, Nat.cast_ofNat]

theorem tooBig_val {t : Bytes} {q : ℚ} (h : NumVal t q) : tooBig t = true ↔ (2 : ℚ) ^ 1024 - 2 ^ 970 ≤ |q| := by
  have hv := litParts_val h
  rw [← floatLimit_cast]
  have hpos : (0 : ℚ) < floatLimit := by
    rw [floatLimit_cast, sub_pos]
    exact pow_lt_pow_right₀ (by norm_num) (by norm_num)
  unfold tooBig
  generalize floatLimit = L at hpos ⊢
  generalize litParts t = p at hv ⊢
  obtain ⟨s, m, e⟩ := p
  simp only at hv
  have habs : |q| = (m : ℚ) * 10 ^ e := by
    rw [hv, abs_mul, abs_mul]
    have h1 : |(if s = true then (-1 : ℚ) else 1)| = 1 := by split <;> simp
    have h2 : (0 : ℚ) < 10 ^ e := zpow_pos (by norm_num) e
    rw [h1, one_mul, Nat.abs_cast, abs_of_pos h2]
  rw [habs]
  cases m with
  | zero =>
    rw [Nat.cast_zero, zero_mul]
    exact ⟨(fun h => by cases h), fun h => absurd h (not_le.2 hpos)⟩
  | succ m =>
    cases e with
    | ofNat e =>
      show decide (L ≤ (m + 1) * 10 ^ e) = true ↔ _
      rw [decide_eq_true_eq, ← Nat.cast_le (α := ℚ), Int.ofNat_eq_natCast, zpow_natCast]
      push_cast
      rfl
    | negSucc e =>
      show decide (L * 10 ^ (e + 1) ≤ m + 1) = true ↔ _
      rw [decide_eq_true_eq, ← Nat.cast_le (α := ℚ), zpow_negSucc, ← div_eq_mul_inv, le_div_iff₀ (by positivity)]
      push_cast
      rfl

/-- Every number literal has a value. -/
theorem numVal_exists {t : Bytes} (h : NumR t) : ∃ q, NumVal t q := by
  obtain ⟨sign, i, fr, e, rfl, hs, hi, hf, he⟩ := h
  have hx : ∃ x, ExpVal e x := by
    rcases he with rfl | ⟨b, s, ds, rfl, hb, hs, hne, hd⟩
    · exact ⟨0, .inl ⟨rfl, rfl⟩⟩
    · rcases hs with rfl | rfl | rfl
      · exact ⟨_, .inr ⟨b, ds, hb, hne, hd, .inl ⟨.inl (by simp), rfl⟩⟩⟩
      · exact ⟨_, .inr ⟨b, ds, hb, hne, hd, .inl ⟨.inr (by simp), rfl⟩⟩⟩
      · exact ⟨_, .inr ⟨b, ds, hb, hne, hd, .inr ⟨by simp, rfl⟩⟩⟩
  obtain ⟨x, hx⟩ := hx
  rcases hf with rfl | ⟨f, rfl, hne, hd⟩
  · exact ⟨_, sign, i, [], [], e, x, by simp, hs, hi, .inl ⟨rfl, rfl⟩, hx, rfl⟩
  · exact ⟨_, sign, i, 46 :: f, f, e, x, by simp, hs, hi, .inr ⟨rfl, hne, hd⟩, hx, rfl⟩

end Num
end OnePass
