/-
C110: numbers in documents as the float64s they become.
-/
import Verif.Go.FtoaRead
import Verif.Props.Items

namespace OnePass
open Spec ItemSvc

/-- C110, whole numbers (creation and update times, iteration counts): the fraction of the nearest float64 is cut off. -/
theorem C110_int (t : Bytes) (q x : ℚ) (hv : NumVal t q) (hx : NearestFloat64 q x) (h : |x| < 2 ^ 63) (n : Int) :
    Flt.std.toInt t = n ↔ (0 ≤ x → (n : ℚ) ≤ x ∧ x < n + 1) ∧ (x ≤ 0 → (n : ℚ) - 1 < x ∧ x ≤ n) := by
  have hx' := (F64.nearest_iff.1 hx).trans (F64.absLit_val hv)
  obtain ⟨h0, -⟩ := F64.absLit_fixed t
  show F64.toIntLit t = n ↔ _
  unfold F64.toIntLit
  simp only
  have hf1 := Int.floor_le (F64.absLit t)
  have hf2 := Int.lt_floor_add_one (F64.absLit t)
  have hf0 : 0 ≤ ⌊F64.absLit t⌋ := Int.floor_nonneg.2 h0
  have hlt : ⌊F64.absLit t⌋ < 9223372036854775808 := by
    have ha : |x| = F64.absLit t := by
      rw [hx']
      split <;> simp [abs_of_nonneg h0]
    rw [ha] at h
    have : ((⌊F64.absLit t⌋ : Int) : ℚ) < 9223372036854775808 := by
      refine lt_of_le_of_lt hf1 (lt_of_lt_of_eq h (by norm_num))
    exact_mod_cast this
  have hz : ⌊F64.absLit t⌋ ≠ 0 → (1 : ℚ) ≤ F64.absLit t := by
    intro hne
    have : (1 : Int) ≤ ⌊F64.absLit t⌋ := by omega
    have h1 : (1 : ℚ) ≤ (⌊F64.absLit t⌋ : Int) := by exact_mod_cast this
    linarith
  generalize ⌊F64.absLit t⌋ = m at *
  generalize F64.absLit t = a at *
  by_cases hn : (Num.litParts t).1 = true
  · simp only [hn, if_true] at hx' ⊢
    rw [if_pos (by omega)]
    have hxa : x = -a := by rw [hx']; ring
    subst hxa
    constructor
    · rintro rfl
      push_cast
      refine ⟨fun hp => ?_, fun _ => ⟨by linarith, by linarith⟩⟩
      have ha : a = 0 := by linarith
      have hm : m = 0 := by
        by_contra hne
        have := hz hne
        linarith
      subst ha hm
      norm_num
    · rintro ⟨-, h2⟩
      obtain ⟨h3, h4⟩ := h2 (by linarith)
      have h5 : ((-m : Int) : ℚ) < n + 1 := by push_cast; linarith
      have h6 : ((n : Int) : ℚ) < (-m : Int) + 1 := by push_cast; linarith
      have h5' : -m < n + 1 := by exact_mod_cast h5
      have h6' : n < -m + 1 := by exact_mod_cast h6
      omega
  · simp only [Bool.not_eq_true] at hn
    simp only [hn, Bool.false_eq_true, if_false] at hx' ⊢
    rw [if_pos (by omega)]
    have hxa : x = a := by rw [hx']; ring
    subst hxa
    constructor
    · rintro rfl
      refine ⟨fun _ => ⟨hf1, hf2⟩, fun hp => ?_⟩
      have ha : x = 0 := by linarith
      have hm : m = 0 := by
        by_contra hne
        have := hz hne
        linarith
      subst ha hm
      norm_num
    · rintro ⟨h1, -⟩
      obtain ⟨h3, h4⟩ := h1 h0
      have h5 : ((m : Int) : ℚ) < n + 1 := by linarith
      have h6 : ((n : Int) : ℚ) < m + 1 := by linarith
      have h5' : m < n + 1 := by exact_mod_cast h5
      have h6' : n < m + 1 := by exact_mod_cast h6
      omega

example : Flt.std.toInt b!"1370129714.9999" = 1370129714 ∧ Flt.std.toInt b!"-0.5" = 0 ∧ Flt.std.toInt b!"25e3" = 25000 := by
  decide +kernel

/-- C110: what does not fit becomes the least integer, on either side. -/
theorem C110_overflow (t : Bytes) (q x : ℚ) (hv : NumVal t q) (hx : NearestFloat64 q x) (h : 2 ^ 63 ≤ |x|) :
    Flt.std.toInt t = -9223372036854775808 := by
  have hx' := (F64.nearest_iff.1 hx).trans (F64.absLit_val hv)
  obtain ⟨h0, -⟩ := F64.absLit_fixed t
  show F64.toIntLit t = _
  unfold F64.toIntLit
  have ha : |x| = F64.absLit t := by
    rw [hx']
    split
    · rw [neg_one_mul, abs_neg, abs_of_nonneg h0]
    · rw [one_mul, abs_of_nonneg h0]
  have hf : (9223372036854775808 : Int) ≤ ⌊F64.absLit t⌋ := by
    rw [Int.le_floor, ← ha]
    norm_num at h ⊢
    exact h
  simp only
  generalize ⌊F64.absLit t⌋ = n at hf
  split <;> split <;> omega

example : Flt.std.toInt b!"9223372036854775807" = -9223372036854775808 ∧ Flt.std.toInt b!"-1e300" = -9223372036854775808 := by
  decide +kernel

/-- C110, months: the field shows, with a dash behind the fourth byte, a number literal that stands for the same float64 – nothing is
lost beyond what float64 cannot hold; it has an exponent if it is large or very small; for an integer below a million it is its
digits. -/
theorem C110_month (E : Env) (hE : E.flt = Flt.std) (k : Bytes) (hk : SameLetters E.text b!"monthYear" k) (t : Bytes) (q x : ℚ)
    (hv : NumVal t q) (hx : NearestFloat64 q x) :
    ∃ s, (∀ o, ShownValue E k (.num t) o ↔
        (s.length ≤ 4 ∧ o = s ∨ ∃ a b, s = a ++ b ∧ a.length = 4 ∧ b ≠ [] ∧ o = a ++ [45] ++ b)) ∧
      (∃ q', NumVal s q' ∧ NearestFloat64 q' x ∧ (101 ∈ s ↔ F64.Scientific q')) ∧
      ∀ n : Nat, n < 1000000 → x = n → 0 < n → s = Num.natDec n := by
  obtain ⟨q', h1, h2, h3⟩ := F64.sprintLit_reads hv
  have hs : Fmt.sprint E.flt (.num t) = F64.sprintLit t := by rw [Fmt.sprint, hE]; rfl
  obtain ⟨d1, d2, d3, -⟩ := C39_data_types E.text k
  have nd : ¬ SameLetters E.text b!"date" k := fun h => by rw [d2.2 h] at d3; have := d3.2 hk; cases this
  have hmy : ∀ s o, DataType.parseMonthYear s = o ↔
      (s.length ≤ 4 ∧ o = s ∨ ∃ a b, s = a ++ b ∧ a.length = 4 ∧ b ≠ [] ∧ o = a ++ [45] ++ b) := by
    intro s o
    unfold DataType.parseMonthYear
    constructor
    · rintro rfl
      split
      · rename_i h
        refine .inr ⟨s.take 4, s.drop 4, (List.take_append_drop 4 s).symm, ?_, ?_, rfl⟩
        · rw [List.length_take]; omega
        · rw [← List.length_pos_iff, List.length_drop]; omega
      · rename_i h
        exact .inl ⟨by omega, rfl⟩
    · rintro (⟨h, rfl⟩ | ⟨a, b, rfl, ha, hb, rfl⟩)
      · rw [if_neg (by omega)]
      · have := List.length_pos_iff.2 hb
        rw [if_pos (by rw [List.length_append]; omega), List.take_left' ha, List.drop_left' ha]
  refine ⟨F64.sprintLit t, fun o => ?_, ⟨q', h1, F64.nearest_iff.2 ((F64.nearest_iff.1 hx).trans h2.symm), h3⟩, ?_⟩
  · rw [← hmy, ← hs]
    constructor
    · intro h
      cases h with
      | date h => exact absurd h nd
      | monthYear _ => rfl
    · rintro rfl
      exact .monthYear hk
  · intro n hn hxn hpos
    have hx' := (F64.nearest_iff.1 hx).trans (F64.absLit_val hv)
    obtain ⟨h0, -⟩ := F64.absLit_fixed t
    have hnq : (0 : ℚ) < n := by exact_mod_cast hpos
    unfold F64.sprintLit
    by_cases hneg : (Num.litParts t).1 = true
    · simp only [hneg, if_true] at hx'
      linarith
    · rw [if_neg hneg] at hx' ⊢
      have : F64.absLit t = n := by linarith
      rw [this, F64.fmtG_int n (by omega)]
      unfold Num.sprintFloatInt
      have hl : (Num.natDec n).length ≤ 6 := by
        rw [F64.natDec_log]
        have : Nat.log 10 n < 6 := Nat.log_lt_of_lt_pow' (by norm_num) (by norm_num; exact hn)
        omega
      simp [hl]

/-- C110: a month as it is meant, the same number written differently, and numbers that are no months. -/
example : DataType.parseMonthYear (Flt.std.sprint b!"201411") = b!"2014-11" ∧
    DataType.parseMonthYear (Flt.std.sprint b!"2.01411e5") = b!"2014-11" ∧
    DataType.parseMonthYear (Flt.std.sprint b!"20141100") = b!"2.01-411e+07" ∧
    DataType.parseMonthYear (Flt.std.sprint b!"0.1") = b!"0.1" ∧
    DataType.parseMonthYear (Flt.std.sprint b!"12345678901234567890") = b!"1.23-45678901234567e+19" := by decide +kernel

/-- C110, dates: the field shows the date of the number when that is – as a float64 – an integer below a million in absolute value,
and the date of the Unix time 0 for every other number. -/
theorem C110_date (E : Env) (hE : E.flt = Flt.std) (k : Bytes) (hk : SameLetters E.text b!"date" k) (t : Bytes) (q x : ℚ)
    (hv : NumVal t q) (hx : NearestFloat64 q x) (out : Bytes) :
    (∀ n : Int, |n| < 1000000 → x = n → InCalendar E n → (ShownValue E k (.num t) out ↔ DateText E n out)) ∧
    ((∀ n : Int, |n| < 1000000 → x ≠ n) → InCalendar E 0 → (ShownValue E k (.num t) out ↔ DateText E 0 out)) := by
  have hx' := (F64.nearest_iff.1 hx).trans (F64.absLit_val hv)
  obtain ⟨h0, hf⟩ := F64.absLit_fixed t
  have hs : Fmt.sprint E.flt (.num t) = F64.sprintLit t := by rw [Fmt.sprint, hE]; rfl
  obtain ⟨d1, d2, d3, -⟩ := C39_data_types E.text k
  have nm : ¬ SameLetters E.text b!"monthYear" k := fun h => by rw [d3.2 h] at d2; have := d2.2 hk; cases this
  have main : ∀ n : Int, (Num.parseInt (F64.sprintLit t)).1 = n → InCalendar E n →
      (ShownValue E k (.num t) out ↔ DateText E n out) := by
    intro n hn hc
    have hval := formatUnix_date E n hc
    have hp : DataType.parseDate E (Fmt.sprint E.flt (.num t)) = Time.formatUnix n (E.zone n) := by
      unfold DataType.parseDate
      rw [hs, hn]
    constructor
    · intro h
      cases h with
      | date _ => rw [hp]; exact hval
      | monthYear h => exact absurd h nm
    · intro h
      rw [h.unique hval, ← hp]
      exact .date hk
  constructor
  · intro n hn hxn hc
    refine main n ?_ hc
    rw [abs_lt] at hn
    by_cases hneg : (Num.litParts t).1 = true
    · simp only [hneg, if_true] at hx'
      have hle : (n : ℚ) ≤ 0 := by linarith
      have hle' : n ≤ 0 := by exact_mod_cast hle
      obtain ⟨m, hm⟩ := Int.eq_ofNat_of_zero_le (a := -n) (by omega)
      have hxm : F64.absLit t = m := by
        have : (-(n : ℚ)) = m := by exact_mod_cast hm
        linarith
      unfold F64.sprintLit
      rw [if_pos hneg, hxm, (F64.parseInt_small m (by omega)).2]
      omega
    · rw [if_neg hneg] at hx'
      have hge : (0 : ℚ) ≤ n := by linarith
      have hge' : 0 ≤ n := by exact_mod_cast hge
      obtain ⟨m, rfl⟩ := Int.eq_ofNat_of_zero_le hge'
      have hxm : F64.absLit t = m := by
        have : x = m := by exact_mod_cast hxn
        linarith
      unfold F64.sprintLit
      rw [if_neg hneg, hxm, (F64.parseInt_small m (by omega)).1]
  · intro hne hc
    refine main 0 ?_ hc
    have hno : ∀ n : Nat, n < 1000000 → F64.absLit t ≠ n := by
      intro n hn he
      by_cases hneg : (Num.litParts t).1 = true
      · simp only [hneg, if_true] at hx'
        refine hne (-(n : Int)) (by rw [abs_neg, abs_of_nonneg (by omega)]; omega) ?_
        push_cast
        linarith
      · rw [if_neg hneg] at hx'
        refine hne (n : Int) (by rw [abs_of_nonneg (by omega)]; omega) ?_
        push_cast
        linarith
    unfold F64.sprintLit
    split
    · exact F64.parseInt_other h0 hf hno [45] (.inr rfl)
    · exact F64.parseInt_other h0 hf hno [] (.inl rfl)

/-- C110: dates of numbers – 40000.0 is a day in January 1970, 1.5e5 is the next day; half a second, a negative time, and a day in
2014 as a number. -/
example : let E := { Env.toy with flt := Flt.std }
    DataType.parseDate E (Fmt.sprint E.flt (.num b!"40000.0")) = b!"1970-01-01" ∧
    DataType.parseDate E (Fmt.sprint E.flt (.num b!"1.5e5")) = b!"1970-01-02" ∧
    DataType.parseDate E (Fmt.sprint E.flt (.num b!"900000.5")) = b!"1970-01-01" ∧
    DataType.parseDate E (Fmt.sprint E.flt (.num b!"-1")) = b!"1969-12-31" ∧
    DataType.parseDate E (Fmt.sprint E.flt (.num b!"1400000000")) = b!"1970-01-01" := by decide +kernel

end OnePass
