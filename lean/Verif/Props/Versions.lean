/-
Which versions are taken for newer, exactly: C52.
-/
import Verif.Props.Release

namespace OnePass
namespace Upd
open Spec

theorem decimal_concat (a b : Bytes) : decimal (a ++ b) = decimal a * 10 ^ b.length + decimal b := by
  induction b using List.reverseRecOn with
  | nil => simp [decimal]
  | append_singleton b d ih =>
    rw [← List.append_assoc, decimal_snoc, ih, decimal_snoc, List.length_append, List.length_singleton, Nat.pow_succ]
    ring

theorem decimal_bound {l : Bytes} (h : ∀ d ∈ l, 48 ≤ d ∧ d ≤ 57) : decimal l < 10 ^ l.length := by
  induction l using List.reverseRecOn with
  | nil => simp [decimal]
  | append_singleton b d ih =>
    have h1 := ih (fun e he => h e (by simp [he]))
    have h2 := UInt8.le_iff_toNat_le.1 (h d (by simp)).2
    rw [decimal_snoc, List.length_append, List.length_singleton, Nat.pow_succ]
    simp at h2
    omega

theorem above_digits {l : Bytes} (hl : l ≠ []) (hd : ∀ d ∈ l, 48 ≤ d ∧ d ≤ 57) : Above 131 l ↔ 131 < decimal l := by
  constructor
  · rintro ⟨pre, v, ⟨post, h1⟩, ⟨ds, k1, k2, (⟨rfl | rfl, rfl⟩ | ⟨rfl, rfl⟩)⟩, h3, h4⟩
    · rw [← h1, decimal_append]
      have := Num.onward_ge (decimal pre) post
      omega
    · exact absurd (hd 43 (by rw [← h1]; simp)) (by decide)
    · exfalso; omega
  · intro h
    exact ⟨_, _, List.prefix_rfl, ⟨_, hl, hd, .inl ⟨.inl rfl, rfl⟩⟩, by exact_mod_cast h, .inl rfl⟩

/-- A version of three numbers is taken for newer iff its digits, read as one number, are greater than 131. -/
theorem newer_iff {a b c : Bytes} (ha : a ≠ []) (hd : ∀ d ∈ a ++ b ++ c, 48 ≤ d ∧ d ≤ 57) :
    NewerTag (a ++ 46 :: (b ++ 46 :: c)) ↔ 131 < (decimal a * 10 ^ b.length + decimal b) * 10 ^ c.length + decimal c := by
  have hfil : ∀ l : Bytes, (∀ d ∈ l, 48 ≤ d ∧ d ≤ 57) → l.filter (fun b => decide (b ≠ 46)) = l := by
    intro l hl
    rw [List.filter_eq_self]
    intro d hdl
    simp only [decide_eq_true_eq]
    rintro rfl
    exact absurd (hl 46 hdl) (by decide)
  have hdl : dotless (a ++ 46 :: (b ++ 46 :: c)) = a ++ b ++ c := by
    unfold dotless
    rw [List.filter_append, List.filter_cons_of_neg (by simp), List.filter_append, List.filter_cons_of_neg (by simp),
      hfil a (fun d h => hd d (by simp [h])), hfil b (fun d h => hd d (by simp [h])), hfil c (fun d h => hd d (by simp [h])),
      List.append_assoc]
  unfold NewerTag
  rw [hdl, above_digits (by simp [ha]) hd, decimal_concat, decimal_concat]

theorem pow_cases {n : Nat} (h : 0 < n) : 10 ^ n = 10 ∨ 100 ≤ 10 ^ n := by
  obtain ⟨k, rfl⟩ := Nat.exists_eq_succ_of_ne_zero (Nat.pos_iff_ne_zero.1 h)
  rw [Nat.pow_succ]
  cases k with
  | zero => exact .inl rfl
  | succ k =>
    rw [Nat.pow_succ]
    have := Nat.one_le_pow k 10 (by omega)
    omega

theorem components_lt {x y z : Nat} : [1, 3, 1] < [x, y, z] ↔ 1 < x ∨ x = 1 ∧ (3 < y ∨ y = 3 ∧ 1 < z) := by
  simp only [List.cons_lt_cons_iff, List.lt_irrefl, and_false, or_false]
  omega

/-- C52: a newer version of three numbers is never missed. -/
theorem C52_never_missed (tag : Bytes) (x y z : Nat) (hv : IsVersion tag x y z) (h : [1, 3, 1] < [x, y, z]) : NewerTag tag := by
  obtain ⟨a, b, c, rfl, ⟨ha, hb, hc⟩, hd, rfl, rfl, rfl⟩ := hv
  rw [newer_iff ha hd]
  have hB := pow_cases (List.length_pos_iff.2 hb)
  have hC := pow_cases (List.length_pos_iff.2 hc)
  rw [components_lt] at h
  generalize decimal a = x at *
  generalize decimal b = y at *
  generalize decimal c = z at *
  generalize 10 ^ b.length = B at *
  generalize 10 ^ c.length = C at *
  have hC10 : 10 ≤ C := by omega
  rcases h with h | ⟨rfl, h⟩
  · have h1 : 2 * 10 ≤ x * B := Nat.mul_le_mul h (by omega)
    have h2 : 20 * 10 ≤ (x * B + y) * C := Nat.mul_le_mul (by omega) hC10
    omega
  · rw [Nat.one_mul]
    rcases h with h | ⟨rfl, h⟩
    · have h2 : 14 * 10 ≤ (B + y) * C := Nat.mul_le_mul (by omega) hC10
      omega
    · rcases hC with rfl | hC
      · omega
      · have h2 : 13 * 100 ≤ (B + 3) * C := Nat.mul_le_mul (by omega) hC
        omega

/-- The number is written without superfluous zeros. -/
def Plain (l : Bytes) : Prop := l.head? = some 48 → l = [48]

theorem plain_small {l : Bytes} (hl : l ≠ []) (hd : ∀ d ∈ l, 48 ≤ d ∧ d ≤ 57) (hp : Plain l) (h : decimal l < 10) : 10 ^ l.length = 10 := by
  cases l with
  | nil => exact absurd rfl hl
  | cons d r =>
    by_cases h0 : d = 48
    · have := hp (by rw [h0]; rfl)
      rw [this]; rfl
    · cases r with
      | nil => rfl
      | cons e r =>
        exfalso
        have h1 : decimal (d :: e :: r) = decimal [d] * 10 ^ (e :: r).length + decimal (e :: r) := decimal_concat [d] (e :: r)
        have h2 : decimal [d] = d.toNat - 48 := by simp [decimal]
        have h3 := UInt8.le_iff_toNat_le.1 (hd d (by simp)).1
        have h4 : d.toNat ≠ 48 := fun h => h0 (UInt8.toNat_inj.1 h)
        have h5 : 1 * 10 ≤ decimal [d] * 10 ^ (e :: r).length := by
          refine Nat.mul_le_mul ?_ ?_
          · rw [h2]; simp at h3; omega
          · rw [List.length_cons, Nat.pow_succ]
            have := Nat.one_le_pow r.length 10 (by omega)
            omega
        omega

/-- C52, all of it for versions of three numbers without superfluous zeros: the newer ones are offered, and also 1.0.10 and
what follows, 1.1.10 and what follows, 1.2.10 and what follows, and those that begin with 0 and have other digits that are, as
one number, greater than 131; no others. -/
theorem C52_exact (a b c : Bytes) (ha : a ≠ []) (hb : b ≠ []) (hc : c ≠ []) (hd : ∀ d ∈ a ++ b ++ c, 48 ≤ d ∧ d ≤ 57)
    (pb : Plain b) (pc : Plain c) :
    NewerTag (a ++ 46 :: (b ++ 46 :: c)) ↔ [1, 3, 1] < [decimal a, decimal b, decimal c] ∨
      decimal a = 1 ∧ decimal b ≤ 2 ∧ 10 ≤ decimal c ∨ decimal a = 0 ∧ 131 < decimal (b ++ c) := by
  have hB := pow_cases (List.length_pos_iff.2 hb)
  have hC := pow_cases (List.length_pos_iff.2 hc)
  have hd1 : ∀ d ∈ b, 48 ≤ d ∧ d ≤ 57 := fun d h => hd d (by simp [h])
  have hd2 : ∀ d ∈ c, 48 ≤ d ∧ d ≤ 57 := fun d h => hd d (by simp [h])
  have sb := plain_small hb hd1 pb
  have sc := plain_small hc hd2 pc
  have lc := decimal_bound hd2
  constructor
  · intro hn
    rw [newer_iff ha hd] at hn
    rw [components_lt, decimal_concat]
    generalize decimal a = x at *
    generalize decimal b = y at *
    generalize decimal c = z at *
    generalize 10 ^ b.length = B at *
    generalize 10 ^ c.length = C at *
    rcases Nat.lt_or_ge 1 x with h | h
    · exact .inl (.inl h)
    · obtain rfl | rfl : x = 0 ∨ x = 1 := by omega
      · rw [Nat.zero_mul, Nat.zero_add] at hn
        exact .inr (.inr ⟨rfl, hn⟩)
      · rw [Nat.one_mul] at hn
        rcases Nat.lt_or_ge 3 y with h3 | h3
        · exact .inl (.inr ⟨rfl, .inl h3⟩)
        · rw [sb (by omega)] at hn
          by_cases hz : z < 10
          · rw [sc hz] at hn
            omega
          · by_cases hy : y = 3
            · exact .inl (.inr ⟨rfl, .inr ⟨hy, by omega⟩⟩)
            · exact .inr (.inl ⟨rfl, by omega, by omega⟩)
  · rintro (h | ⟨h1, h2, h3⟩ | ⟨h1, h2⟩)
    · exact C52_never_missed _ _ _ _ ⟨a, b, c, rfl, ⟨ha, hb, hc⟩, hd, rfl, rfl, rfl⟩ h
    · rw [newer_iff ha hd, h1, sb (by omega)]
      generalize decimal b = y at *
      generalize decimal c = z at *
      generalize 10 ^ c.length = C at *
      have hC' : 100 ≤ C := by omega
      have : 10 * 100 ≤ (1 * 10 + y) * C := Nat.mul_le_mul (by omega) hC'
      omega
    · rw [newer_iff ha hd, h1, Nat.zero_mul, Nat.zero_add, ← decimal_concat]
      exact h2

/-- C52: 2.0.0 and 1.10.0 are offered, rightly; 1.2.10 and 0.13.2 too, wrongly; 1.2.9 and 0.13.1 are not. -/
example : NewerTag b!"2.0.0" ∧ NewerTag b!"1.10.0" :=
  ⟨C52_never_missed _ 2 0 0 ⟨b!"2", b!"0", b!"0", by decide +kernel⟩ (by decide),
   C52_never_missed _ 1 10 0 ⟨b!"1", b!"10", b!"0", by decide +kernel⟩ (by decide)⟩
example : NewerTag b!"0.13.2" ∧ ¬ NewerTag b!"0.13.1" ∧ ¬ NewerTag b!"1.2.9" := by
  have p : ∀ l : Bytes, l ∈ [b!"13", b!"2", b!"1", b!"9"] → Plain l := by
    intro l hl
    simp only [List.mem_cons, List.not_mem_nil, or_false] at hl
    rcases hl with rfl | rfl | rfl | rfl <;> · unfold Plain; decide
  refine ⟨(C52_exact b!"0" b!"13" b!"2" (by decide) (by decide) (by decide) (by decide +kernel) (p _ (by decide)) (p _ (by decide))).2 (by decide +kernel),
    fun h => absurd ((C52_exact b!"0" b!"13" b!"1" (by decide) (by decide) (by decide) (by decide +kernel) (p _ (by decide)) (p _ (by decide))).1 h) (by decide +kernel),
    fun h => absurd ((C52_exact b!"1" b!"2" b!"9" (by decide) (by decide) (by decide) (by decide +kernel) (p _ (by decide)) (p _ (by decide))).1 h) (by decide +kernel)⟩

end Upd
end OnePass
