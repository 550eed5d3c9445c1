/-
The float64 of an integer literal, and the instances of `Flt` made of real float64 arithmetic.
-/
import Verif.Go.Ftoa
import Verif.Go.NumberFacts
import Mathlib.Algebra.Order.Floor.Semifield
import Mathlib.Tactic.IntervalCases

namespace OnePass
namespace F64
open Num

theorem natDec_log (n : Nat) : (natDec n).length = Nat.log 10 n + 1 := by
  induction n using Nat.strongRecOn with
  | ind n ih =>
    by_cases h : n < 10
    · rw [natDec_lt h, Nat.log_of_lt h]; rfl
    · have h' : 10 ≤ n := by omega
      rw [natDec_ge h', List.length_append, ih (n / 10) (by omega), Nat.log_of_one_lt_of_le (by norm_num) h']
      rfl

theorem natDec_shift (c z : Nat) (hc : 0 < c) : natDec (c * 10 ^ z) = natDec c ++ List.replicate z 48 := by
  induction z with
  | zero => simp
  | succ z ih =>
    have hp : 0 < c * 10 ^ z := by positivity
    have e : c * 10 ^ (z + 1) = c * 10 ^ z * 10 := by ring
    rw [e, natDec_ge (by omega), Nat.mul_div_cancel _ (by norm_num), Nat.mul_mod_left, ih, List.replicate_succ',
      List.append_assoc]
    rfl

theorem natDec_last (c : Nat) (h : ¬ 10 ∣ c) : ∃ ds b, natDec c = ds ++ [b] ∧ b ≠ 48 := by
  have hd : ∀ m : Nat, m < 10 → m ≠ 0 → digit m ≠ 48 := by
    intro m hm h0
    interval_cases m <;> first | exact absurd rfl h0 | decide
  by_cases hc : c < 10
  · exact ⟨[], digit c, natDec_lt hc, hd c hc (by rintro rfl; exact h (dvd_zero _))⟩
  · exact ⟨natDec (c / 10), digit (c % 10), natDec_ge (by omega), hd _ (by omega) (by omega)⟩

theorem trimZeros_natDec (c z : Nat) (hc : 0 < c) (h : ¬ 10 ∣ c) : trimZeros (natDec (c * 10 ^ z)) = natDec c := by
  obtain ⟨ds, b, hb, hne⟩ := natDec_last c h
  rw [natDec_shift c z hc, trimZeros, List.reverse_append, List.reverse_replicate, hb, List.reverse_append]
  have : ∀ l : Bytes, (List.replicate z (48 : UInt8) ++ l).dropWhile (· == 48) = l.dropWhile (· == 48) := by
    intro l
    induction z with
    | zero => rfl
    | succ z ih => rw [List.replicate_succ, List.cons_append, List.dropWhile_cons_of_pos (by rfl), ih]
  rw [this]
  simp [hne]

/-- A number without its trailing zeros. -/
theorem exists_coeff (n : Nat) (h : 0 < n) : ∃ c z, n = c * 10 ^ z ∧ ¬ 10 ∣ c ∧ 0 < c := by
  induction n using Nat.strongRecOn with
  | ind n ih =>
    by_cases hd : 10 ∣ n
    · obtain ⟨m, rfl⟩ := hd
      obtain ⟨c, z, hm, hc, hp⟩ := ih m (by omega) (by omega)
      exact ⟨c, z + 1, by rw [hm]; ring, hc, hp⟩
    · exact ⟨n, 0, by simp, hd, h⟩

theorem rndPos_small (n : Nat) (h : n ≤ 9007199254740992) : rndPos (n : ℚ) = n := by
  have := rndPos_nat n 0 (by norm_num; exact h)
  simpa using this

theorem rndPos_even (n : Nat) (h : n ≤ 18014398509481984) (h2 : 2 ∣ n) : rndPos (n : ℚ) = n := by
  obtain ⟨m, rfl⟩ := h2
  have := rndPos_nat m 1 (by norm_num; omega)
  rw [pow_one, mul_comm] at this
  exact this

/-- An attempt with an exponent that is not negative, on an integer. -/
theorem attempt_nat (n j k : Nat) (hk : Nat.log 10 n + 1 = j + k) :
    attempt (n : ℚ) j =
      if rndPos ((n / 10 ^ k * 10 ^ k : Nat) : ℚ) = n ∧ (rndPos (((n / 10 ^ k + 1) * 10 ^ k : Nat) : ℚ) ≠ n ∨
        (n : ℚ) - (n / 10 ^ k * 10 ^ k : Nat) < ((n / 10 ^ k + 1) * 10 ^ k : Nat) - (n : ℚ) ∨
          ((n : ℚ) - (n / 10 ^ k * 10 ^ k : Nat) = ((n / 10 ^ k + 1) * 10 ^ k : Nat) - (n : ℚ) ∧ n / 10 ^ k % 2 = 0))
      then some (n / 10 ^ k, (k : Int))
      else if rndPos (((n / 10 ^ k + 1) * 10 ^ k : Nat) : ℚ) = n then some (n / 10 ^ k + 1, (k : Int)) else none := by
  have hl : Int.log 10 (n : ℚ) + 1 - j = k := by
    rw [Int.log_natCast]; omega
  have hf : ⌊(n : ℚ) / 10 ^ k⌋₊ = n / 10 ^ k := by
    have := Nat.floor_div_eq_div (K := ℚ) n (10 ^ k)
    push_cast at this
    exact this
  have hc : ∀ m : Nat, ((m * 10 ^ k : Nat) : ℚ) = m * 10 ^ k := by intro m; push_cast; rfl
  unfold attempt
  simp only [hl, zpow_natCast, hf, hc]

theorem attempt_fails (n c z j k : Nat) (hn : n ≤ 9007199254740992) (hc : n = c * 10 ^ z) (hd : ¬ 10 ∣ c)
    (hk : Nat.log 10 n + 1 = j + k) (hz : z < k) (hpos : 0 < n) : attempt (n : ℚ) j = none := by
  have hnd : ¬ 10 ^ k ∣ n := by
    rintro ⟨m, hm⟩
    apply hd
    have : 10 ^ k = 10 ^ z * (10 * 10 ^ (k - z - 1)) := by
      rw [← pow_succ', ← pow_add]; congr 1; omega
    rw [this] at hm
    have h1 : c * 10 ^ z = 10 ^ z * (10 * 10 ^ (k - z - 1) * m) := by rw [← hc, hm]; ring
    have h2 : c = 10 * 10 ^ (k - z - 1) * m := by
      have hp : 0 < 10 ^ z := by positivity
      apply Nat.eq_of_mul_eq_mul_right hp
      rw [h1]; ring
    exact ⟨_, by rw [h2, mul_assoc]⟩
  have hlog : n < 10 ^ (Nat.log 10 n + 1) := Nat.lt_pow_succ_log_self (by norm_num) n
  have hlog16 : Nat.log 10 n + 1 ≤ 16 := by
    have : Nat.log 10 n < 16 := Nat.log_lt_of_lt_pow (by omega) (by norm_num; omega)
    omega
  have hlo : rndPos ((n / 10 ^ k * 10 ^ k : Nat) : ℚ) ≠ n := by
    rw [rndPos_small _ ((Nat.div_mul_le_self n _).trans hn)]
    intro h
    exact hnd ⟨_, by rw [mul_comm]; exact (by exact_mod_cast h.symm)⟩
  have hhi : rndPos (((n / 10 ^ k + 1) * 10 ^ k : Nat) : ℚ) ≠ n := by
    have hb : (n / 10 ^ k + 1) * 10 ^ k ≤ 10 ^ (Nat.log 10 n + 1) := by
      have h1 : n / 10 ^ k < 10 ^ j := by
        rw [Nat.div_lt_iff_lt_mul (by positivity), ← pow_add, ← hk]; exact hlog
      calc (n / 10 ^ k + 1) * 10 ^ k ≤ 10 ^ j * 10 ^ k := Nat.mul_le_mul_right _ h1
        _ = 10 ^ (Nat.log 10 n + 1) := by rw [← pow_add, hk]
    have hb2 : (10 : Nat) ^ (Nat.log 10 n + 1) ≤ 10 ^ 16 := Nat.pow_le_pow_right (by norm_num) hlog16
    have he : 2 ∣ (n / 10 ^ k + 1) * 10 ^ k := by
      apply Dvd.dvd.mul_left
      exact (by norm_num : (2 : Nat) ∣ 10).trans (dvd_pow_self 10 (by omega))
    rw [rndPos_even _ (by norm_num at hb2; omega) he]
    intro h
    have h1 : (n / 10 ^ k + 1) * 10 ^ k = n := by exact_mod_cast h
    exact hnd ⟨_, by rw [mul_comm]; exact h1.symm⟩
  rw [attempt_nat n j k hk, if_neg (fun h => hlo h.1), if_neg hhi]

theorem attempt_succeeds (n c z j : Nat) (hn : n ≤ 9007199254740992) (hc : n = c * 10 ^ z) (hk : Nat.log 10 n + 1 = j + z) :
    attempt (n : ℚ) j = some (c, (z : Int)) := by
  have hp : 0 < 10 ^ z := by positivity
  have hdiv : n / 10 ^ z = c := by rw [hc]; exact Nat.mul_div_cancel _ hp
  rw [attempt_nat n j z hk, hdiv]
  rw [if_pos]
  refine ⟨by rw [← hc]; exact rndPos_small n hn, .inr (.inl ?_)⟩
  rw [← hc, sub_self, sub_pos]
  have : n < (c + 1) * 10 ^ z := by rw [hc]; exact Nat.mul_lt_mul_of_pos_right (Nat.lt_succ_self c) hp
  exact_mod_cast this

theorem shortest_int (n c z : Nat) (hn : n ≤ 9007199254740992) (hc : n = c * 10 ^ z) (hd : ¬ 10 ∣ c) (hpos : 0 < n) :
    shortest (n : ℚ) 17 1 = (c, (z : Int)) := by
  have hc0 : c ≠ 0 := by rintro rfl; exact hd (dvd_zero _)
  have hlog : Nat.log 10 n = Nat.log 10 c + z := by
    have h1 := natDec_log n
    rw [hc, natDec_shift c z (by omega), List.length_append, List.length_replicate, natDec_log c] at h1
    rw [hc]
    omega
  have hlog16 : Nat.log 10 n < 16 := Nat.log_lt_of_lt_pow (by omega) (by norm_num; omega)
  have key : ∀ f j, j + f = 18 → 0 < j → j ≤ Nat.log 10 c + 1 → shortest (n : ℚ) f j = (c, (z : Int)) := by
    intro f
    induction f with
    | zero => intro j h1 h2 h3; omega
    | succ f ih =>
      intro j h1 h2 h3
      rw [shortest]
      rcases Nat.lt_or_ge j (Nat.log 10 c + 1) with hlt | hge
      · rw [attempt_fails n c z j (Nat.log 10 n + 1 - j) hn hc hd (by omega) (by omega) hpos, Option.getD_none]
        exact ih (j + 1) (by omega) (by omega) hlt
      · rw [attempt_succeeds n c z j hn hc (by omega), Option.getD_some]
  exact key 17 1 rfl (by norm_num) (by omega)

theorem fmtG_int (n : Nat) (hn : n ≤ 9007199254740992) : fmtG (n : ℚ) = sprintFloatInt n := by
  rcases Nat.eq_zero_or_pos n with rfl | hpos
  · rfl
  obtain ⟨c, z, hc, hd, hc0⟩ := exists_coeff n hpos
  have hds : trimZeros (natDec n) = natDec c := by rw [hc]; exact trimZeros_natDec c z hc0 hd
  have hself : trimZeros (natDec c) = natDec c := by simpa using trimZeros_natDec c 0 hc0 hd
  have hlen : (natDec n).length = (natDec c).length + z := by rw [hc, natDec_shift c z hc0]; simp
  have hne : (n : ℚ) ≠ 0 := by exact_mod_cast hpos.ne'
  have hdec : decDigits (n : ℚ) = (natDec c, ((natDec n).length : Int)) := by
    unfold decDigits
    rw [shortest_int n c z hn hc hd hpos]
    simp only [hself, hlen]
    push_cast
    rfl
  have hpl : 0 < (natDec n).length := List.length_pos_iff.2 (natDec_ne_nil n)
  unfold fmtG sprintFloatInt
  rw [if_neg hne]
  simp only [hdec, Int.natAbs_natCast, hds]
  have hneg : ¬ ((n : Int) < 0) := by omega
  rw [if_neg hneg]
  by_cases h6 : (natDec n).length ≤ 6
  · rw [if_pos h6, if_neg (by omega)]
    unfold fmtF
    rw [if_neg (by omega), if_pos (by rw [Int.toNat_natCast]; omega), Int.toNat_natCast, hlen, Nat.add_sub_cancel_left]
    rw [hc, natDec_shift c z hc0]
  · rw [if_neg h6, if_pos (by omega)]
    unfold fmtE
    have he : ((natDec n).length : Int) - 1 = (((natDec n).length - 1 : Nat) : Int) := by omega
    rw [he, Int.natAbs_natCast, if_neg (by omega)]
    rfl

theorem litParts_intDec (n : Int) : litParts (intDec n) = (decide (n < 0), n.natAbs, 0) := by
  have hd := natDec_digits n.natAbs
  have hval : natOf (natDec n.natAbs) = n.natAbs := by
    generalize n.natAbs = m
    induction m using Nat.strongRecOn with
    | ind m ih =>
      have hdig : ∀ r : Nat, r < 10 → (digit r).toNat - 48 = r := by
        intro r hr
        interval_cases r <;> rfl
      by_cases h : m < 10
      · rw [natDec_lt h]
        show 10 * 0 + ((digit m).toNat - 48) = m
        rw [hdig m h]; omega
      · rw [natDec_ge (by omega)]
        have h1 := ih (m / 10) (by omega)
        unfold natOf at h1 ⊢
        rw [List.foldl_append, h1]
        show 10 * (m / 10) + ((digit (m % 10)).toNat - 48) = m
        rw [hdig _ (by omega)]; omega
  have hdg : Json.digits (natDec n.natAbs) = (natDec n.natAbs, []) := by
    have := Json.digits_append (l := natDec n.natAbs) (r := []) hd trivial
    simpa using this
  have hl : ∀ t body neg, (t.head? == some 45) = neg → (if neg = true then t.tail else t) = body →
      litParts t = (neg, natOf ((Json.digits body).1 ++ (litFrac (Json.digits body).2).1),
        litExp (litFrac (Json.digits body).2).2 - (litFrac (Json.digits body).2).1.length) := by
    rintro t body neg rfl rfl; rfl
  unfold intDec
  by_cases hn : n < 0
  · rw [if_pos hn, hl (45 :: natDec n.natAbs) (natDec n.natAbs) true rfl rfl, hdg]
    simp only [litFrac, List.append_nil, hval, hn, decide_true]
    rfl
  · have hh : ((natDec n.natAbs).head? == some 45) = false := by
      obtain ⟨b, r, hb⟩ := List.exists_cons_of_ne_nil (natDec_ne_nil n.natAbs)
      rw [hb] at hd ⊢
      have := hd b (by simp)
      rw [List.head?_cons, beq_eq_false_iff_ne]
      rintro h
      cases h
      revert this; decide
    rw [if_neg hn, hl (natDec n.natAbs) (natDec n.natAbs) false hh rfl, hdg]
    simp only [litFrac, List.append_nil, hval, hn, decide_false]
    rfl

theorem absLit_int (n : Int) (h : n.natAbs ≤ 9007199254740992) : absLit (intDec n) = (n.natAbs : ℚ) := by
  unfold absLit
  rw [litParts_intDec]
  simp only [zpow_zero, mul_one]
  exact rndPos_small _ h

end F64

/-- float64 as it is: IEEE 754 rounding, `int64` on amd64, shortest decimals. -/
def Flt.std : Flt where
  toInt := F64.toIntLit
  sprint := F64.sprintLit
  toInt_dec n h1 h2 := by
    unfold F64.toIntLit
    rw [F64.absLit_int n (by omega), F64.litParts_intDec]
    simp only [Int.floor_natCast, decide_eq_true_eq]
    by_cases hn : n < 0
    · simp only [if_pos hn]; rw [if_pos (by omega)]; omega
    · simp only [if_neg hn]; rw [if_pos (by omega)]; omega
  sprint_dec n h1 h2 := by
    unfold F64.sprintLit
    rw [F64.absLit_int n (by omega), F64.litParts_intDec, F64.fmtG_int _ (by omega)]
    by_cases hn : n < 0
    · rw [if_pos (by simpa using hn)]
      unfold Num.sprintFloatInt
      simp only [Int.natAbs_natCast, if_pos hn]
      rw [if_neg (by omega)]
    · rw [if_neg (by simpa using hn)]
      have : ((n.natAbs : Nat) : Int) = n := by omega
      rw [this]

end OnePass
