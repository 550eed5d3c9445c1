/-
strconv ftoa.go: what is printed is a number literal, and reading it gives the float64 back; ParseInt of it.
-/
import Verif.Go.Float64Nearest
import Verif.Go.NumberFacts

namespace OnePass
namespace F64
open Num Spec
open Json (Digits)

theorem decimal_natDec (n : Nat) : decimal (natDec n) = n := by
  induction n using Nat.strongRecOn with
  | _ n ih =>
    by_cases h : n < 10
    · rw [natDec_lt h]
      simp [decimal, digit_toNat h]
    · rw [natDec_ge (by omega)]
      have := ih (n / 10) (by omega)
      unfold decimal at this ⊢
      rw [List.foldl_append, this]
      simp only [List.foldl_cons, List.foldl_nil, digit_toNat (show n % 10 < 10 by omega)]
      omega

theorem decimal_lead (k : Nat) (l : Bytes) : decimal (48 :: (List.replicate k 48 ++ l)) = decimal l := by
  have : ∀ k, decimal (List.replicate k 48 ++ l) = decimal l := by
    intro k
    induction k with
    | zero => rfl
    | succ k ih => rw [List.replicate_succ, List.cons_append]; exact ih
  exact this k

theorem natDec_head (c : Nat) (h : 0 < c) : ∃ b r, natDec c = b :: r ∧ b ≠ 48 ∧ Str.isDigitA b = true ∧ Digits r := by
  have hd := natDec_digits c
  obtain ⟨b, r, hb⟩ := List.exists_cons_of_ne_nil (natDec_ne_nil c)
  refine ⟨b, r, hb, ?_, hd b (by rw [hb]; simp), fun x hx => hd x (by rw [hb]; simp [hx])⟩
  have key : ∀ n, 0 < n → ∀ b r, natDec n = b :: r → b ≠ 48 := by
    intro n
    induction n using Nat.strongRecOn with
    | _ n ih =>
      intro hn b r hb
      by_cases h10 : n < 10
      · rw [natDec_lt h10] at hb
        cases hb
        interval_cases n <;> decide
      · rw [natDec_ge (by omega)] at hb
        obtain ⟨b', r', hb'⟩ := List.exists_cons_of_ne_nil (natDec_ne_nil (n / 10))
        rw [hb', List.cons_append] at hb
        cases hb
        exact ih (n / 10) (by omega) (by omega) _ _ hb'
  exact key c h b r hb

/-- The digits that are printed, as a number. -/
theorem decDigits_spec {x : ℚ} (hx : 0 < x) (hf : rndPos x = x) :
    ∃ (c : Nat) (k : Int), 0 < c ∧ ¬ 10 ∣ c ∧ decDigits x = (natDec c, (natDec c).length + k) ∧ rndPos (c * 10 ^ k) = x := by
  have hs := shortest_sound hx hf
  unfold decDigits
  generalize shortest x 17 1 = r at hs
  obtain ⟨n, k⟩ := r
  have hn : 0 < n := by
    rcases Nat.eq_zero_or_pos n with rfl | h
    · simp only [Nat.cast_zero, zero_mul, rndPos_zero] at hs
      exact absurd hs hx.ne
    · exact h
  obtain ⟨c, z, rfl, hd, hc⟩ := exists_coeff n hn
  refine ⟨c, z + k, hc, hd, ?_, ?_⟩
  · have e := trimZeros_natDec c z hc hd
    have l : (natDec (c * 10 ^ z)).length = (natDec c).length + z := by rw [natDec_shift c z hc]; simp
    simp only [e, l]
    push_cast
    rw [add_assoc]
  · rw [← hs, zpow_add₀ (by norm_num), zpow_natCast]
    push_cast
    rw [mul_assoc]

theorem expDec_digits (n : Nat) : expDec n ≠ [] ∧ Digits (expDec n) ∧ decimal (expDec n) = n := by
  unfold expDec
  split
  · refine ⟨by simp, fun b hb => ?_, ?_⟩
    · rcases List.mem_cons.1 hb with rfl | hb
      · decide
      · exact natDec_digits n b hb
    · have := decimal_lead 0 (natDec n)
      simpa [decimal_natDec] using this
  · exact ⟨natDec_ne_nil n, natDec_digits n, decimal_natDec n⟩

/-- What `fmtE` and `fmtF` print of the number `c` × 10^`k`. -/
theorem fmt_reads (c : Nat) (k : Int) (hc : 0 < c) (sign : Bytes) (hs : sign = [] ∨ sign = [45]) :
    NumVal (sign ++ fmtE (natDec c) ((natDec c).length + k - 1)) ((if sign = [] then 1 else -1) * c * 10 ^ k) ∧
    NumVal (sign ++ fmtF (natDec c) ((natDec c).length + k)) ((if sign = [] then 1 else -1) * c * 10 ^ k) := by
  obtain ⟨b, r, hb, h48, hbd, hr⟩ := natDec_head c hc
  have hval := decimal_natDec c
  have hall : Digits (natDec c) := natDec_digits c
  constructor
  · have hx : ∀ e : Int, ExpVal ((if e < 0 then [101, 45] else [101, 43]) ++ expDec e.natAbs) e := by
      intro e
      obtain ⟨d1, d2, d3⟩ := expDec_digits e.natAbs
      refine .inr ⟨101, expDec e.natAbs, .inl rfl, d1, d2, ?_⟩
      split
      · exact .inr ⟨rfl, by rw [d3]; omega⟩
      · exact .inl ⟨.inr rfl, by rw [d3]; omega⟩
    obtain ⟨fr, hfr, hfmt⟩ : ∃ fr, (fr = [] ∧ r = [] ∨ fr = 46 :: r ∧ r ≠ [] ∧ Digits r) ∧
        ∀ e : Int, fmtE (b :: r) e = ([b] ++ fr) ++ ((if e < 0 then [101, 45] else [101, 43]) ++ expDec e.natAbs) := by
      cases r with
      | nil => exact ⟨[], .inl ⟨rfl, rfl⟩, fun e => by simp [fmtE]⟩
      | cons a r => exact ⟨46 :: a :: r, .inr ⟨rfl, by simp, hr⟩, fun e => by simp [fmtE]⟩
    refine ⟨sign, [b], fr, r, _, _, ?_, hs, .inr ⟨b, [], rfl, h48, hbd, by simp [Digits]⟩,
      hfr, hx ((natDec c).length + k - 1), ?_⟩
    · conv_lhs => rw [hb, hfmt]
      rw [hb]
      simp only [List.append_assoc]
    · rw [show [b] ++ r = natDec c by rw [hb]; rfl, hval]
      have : ((natDec c).length : Int) + k - 1 - r.length = k := by rw [hb]; simp; omega
      rw [this]
  · unfold fmtF
    split
    · rename_i hdp
      obtain ⟨z, hz⟩ := Int.eq_ofNat_of_zero_le (a := -(((natDec c).length : Int) + k)) (by omega)
      rw [hz]
      refine ⟨sign, [48], 46 :: (List.replicate z 48 ++ natDec c), List.replicate z 48 ++ natDec c, [], 0, ?_, hs, .inl rfl,
        .inr ⟨rfl, by simp [natDec_ne_nil], ?_⟩, .inl ⟨rfl, rfl⟩, ?_⟩
      · simp
      · intro x hx
        rcases List.mem_append.1 hx with hx | hx
        · rw [(List.mem_replicate.1 hx).2]; decide
        · exact hall x hx
      · rw [List.singleton_append, decimal_lead, hval]
        have : (0 : Int) - (List.replicate z (48 : UInt8) ++ natDec c).length = k := by simp; omega
        rw [this]
    · rename_i hdp
      split
      · rename_i hlen
        obtain ⟨z, rfl⟩ := Int.eq_ofNat_of_zero_le (a := k) (by omega)
        have hz : (((natDec c).length : Int) + z).toNat - (natDec c).length = z := by omega
        rw [hz]
        refine ⟨sign, natDec c ++ List.replicate z 48, [], [], [], 0, by simp, hs,
          .inr ⟨b, r ++ List.replicate z 48, by rw [hb]; rfl, h48, hbd, ?_⟩, .inl ⟨rfl, rfl⟩, .inl ⟨rfl, rfl⟩, ?_⟩
        · intro x hx
          rcases List.mem_append.1 hx with hx | hx
          · exact hr x hx
          · rw [(List.mem_replicate.1 hx).2]; decide
        · rw [List.append_nil, ← natDec_shift c z hc, decimal_natDec]
          simp [mul_assoc]
      · rename_i hlen
        obtain ⟨p, hp⟩ : ∃ p : Nat, (((natDec c).length : Int) + k).toNat = p + 1 := ⟨_, (Nat.succ_pred (by omega)).symm⟩
        rw [hp] at hlen ⊢
        refine ⟨sign, (natDec c).take (p + 1), 46 :: (natDec c).drop (p + 1), (natDec c).drop (p + 1), [], 0, by simp, hs,
          .inr ⟨b, r.take p, by rw [hb]; rfl, h48, hbd, fun x hx => hr x (List.mem_of_mem_take hx)⟩,
          .inr ⟨rfl, ?_, fun x hx => hall x (List.mem_of_mem_drop hx)⟩, .inl ⟨rfl, rfl⟩, ?_⟩
        · rw [← List.length_pos_iff, List.length_drop]; omega
        · rw [List.take_append_drop, hval]
          have : (0 : Int) - ((natDec c).drop (p + 1)).length = k := by rw [List.length_drop]; omega
          rw [this]

/-- A number with `e` in it. -/
theorem fmtE_exp (ds : Bytes) (e : Int) : 101 ∈ fmtE ds e := by
  have h : (101 : UInt8) ∈ (if e < 0 then [101, 45] else [101, 43] : Bytes) := by split <;> simp
  exact List.mem_append_left _ (List.mem_append_right _ h)

theorem fmtF_plain (ds : Bytes) (hd : Digits ds) (dp : Int) : 101 ∉ fmtF ds dp := by
  have h : 101 ∉ ds := fun h => absurd (hd _ h) (by decide)
  unfold fmtF
  split
  · simp [h]
  · split
    · simp [h]
    · simp only [List.mem_append, List.mem_cons, not_or]
      exact ⟨fun h' => h (List.mem_of_mem_take h'), by decide, fun h' => h (List.mem_of_mem_drop h')⟩

/-- Where the point of a decimal is, in terms of its value. -/
theorem point_val (c : Nat) (k : Int) (hc : 0 < c) (m : Int) :
    (natDec c).length + k - 1 < m ↔ (c : ℚ) * 10 ^ k < 10 ^ m := by
  rw [natDec_log]
  have h1 : (10 : ℚ) ^ (Nat.log 10 c : Int) ≤ c := by exact_mod_cast Nat.pow_log_le_self 10 hc.ne'
  have h2 : (c : ℚ) < 10 ^ ((Nat.log 10 c : Int) + 1) := by exact_mod_cast Nat.lt_pow_succ_log_self (by norm_num) c
  have hk : (0 : ℚ) < 10 ^ k := zpow_pos (by norm_num) _
  constructor
  · intro h
    calc (c : ℚ) * 10 ^ k < 10 ^ ((Nat.log 10 c : Int) + 1) * 10 ^ k := mul_lt_mul_of_pos_right h2 hk
      _ = 10 ^ ((Nat.log 10 c : Int) + 1 + k) := (zpow_add₀ (by norm_num) _ _).symm
      _ ≤ 10 ^ m := zpow_le_zpow_right₀ (by norm_num) (by push_cast at h; omega)
  · intro h
    have : (10 : ℚ) ^ ((Nat.log 10 c : Int) + k) < 10 ^ m := by
      rw [zpow_add₀ (by norm_num)]
      exact lt_of_le_of_lt (mul_le_mul_of_nonneg_right h1 hk.le) h
    have := (zpow_lt_zpow_iff_right₀ (by norm_num : (1 : ℚ) < 10)).1 this
    push_cast
    omega

/-- Very small and large numbers are written with an exponent, the others without. -/
def Scientific (q : ℚ) : Prop := q ≠ 0 ∧ (|q| < 1 / 10000 ∨ 1000000 ≤ |q|)

/-- What is printed of a float64 is a number literal; read again it is the same float64. -/
theorem fmtG_reads {x : ℚ} (hx : 0 ≤ x) (hf : rndPos x = x) : ∃ q, 0 ≤ q ∧ rndPos q = x ∧ (101 ∈ fmtG x ↔ Scientific q) ∧
    ∀ sign, sign = [] ∨ sign = [45] → NumVal (sign ++ fmtG x) ((if sign = [] then 1 else -1) * q) := by
  rcases hx.eq_or_lt with rfl | hx
  · refine ⟨0, le_rfl, rndPos_zero, ?_, fun sign hs => ?_⟩
    · unfold fmtG Scientific
      simp
    unfold fmtG
    rw [if_pos rfl]
    exact ⟨sign, [48], [], [], [], 0, by simp, hs, .inl rfl, .inl ⟨rfl, rfl⟩, .inl ⟨rfl, rfl⟩, by simp [decimal]⟩
  · obtain ⟨c, k, hc, -, hd, hr⟩ := decDigits_spec hx hf
    have hq : (0 : ℚ) < c * 10 ^ k := mul_pos (by exact_mod_cast hc) (zpow_pos (by norm_num) _)
    refine ⟨c * 10 ^ k, hq.le, hr, ?_, fun sign hs => ?_⟩
    · have e1 := point_val c k hc (-4)
      have e2 := point_val c k hc 6
      have n1 : (10 : ℚ) ^ (-4 : Int) = 1 / 10000 := by norm_num
      have n2 : (10 : ℚ) ^ (6 : Int) = 1000000 := by norm_num
      rw [n1] at e1
      rw [n2] at e2
      unfold Scientific
      rw [abs_of_pos hq, ← e1, ← not_lt, ← e2]
      unfold fmtG
      rw [if_neg hx.ne']
      simp only [hd, not_lt, ne_eq, hq.ne', not_false_eq_true, true_and]
      split
      · rename_i h; exact iff_of_true (fmtE_exp _ _) h
      · rename_i h; exact iff_of_false (fmtF_plain _ (natDec_digits c) _) h
    obtain ⟨h1, h2⟩ := fmt_reads c k hc sign hs
    rw [mul_assoc] at h1 h2
    unfold fmtG
    rw [if_neg hx.ne']
    simp only [hd]
    split
    · exact h1
    · exact h2

theorem rndPos_idem {x : ℚ} (hx : 0 ≤ x) : rndPos (rndPos x) = rndPos x := by
  rcases hx.eq_or_lt with rfl | hx
  · rw [rndPos_zero, rndPos_zero]
  have h1 := (rndPos_nearest hx).1
  have h3 : NearestFloat64 (rndPos x) (rndPos x) := by
    refine ⟨h1, fun y _ hne => .inl ?_⟩
    rw [sub_self, abs_zero]
    exact abs_pos.2 (sub_ne_zero.2 hne.symm)
  have h4 := nearest_iff.1 h3
  unfold rnd at h4
  rw [if_neg (not_lt.2 (rndPos_nonneg hx.le))] at h4
  exact h4.symm

theorem rnd_neg (q : ℚ) : rnd (-q) = -rnd q := (nearest_iff.1 (nearest_neg (rnd_nearest q))).symm

/-- The float64 of a literal is the one nearest to the number it stands for. -/
theorem absLit_val {t : Bytes} {q : ℚ} (h : NumVal t q) : rnd q = (if (litParts t).1 then -1 else 1) * absLit t := by
  have hv := litParts_val h
  have hp : (0 : ℚ) ≤ (litParts t).2.1 * 10 ^ (litParts t).2.2 :=
    mul_nonneg (Nat.cast_nonneg _) (zpow_nonneg (by norm_num) _)
  unfold absLit
  rw [hv]
  have hr : rnd (((litParts t).2.1 : ℚ) * 10 ^ (litParts t).2.2) = rndPos ((litParts t).2.1 * 10 ^ (litParts t).2.2) := by
    unfold rnd
    rw [if_neg (not_lt.2 hp)]
  split
  · rw [mul_assoc, neg_one_mul, rnd_neg, hr, neg_one_mul]
  · rw [mul_assoc, one_mul, hr, one_mul]

theorem absLit_fixed (t : Bytes) : 0 ≤ absLit t ∧ rndPos (absLit t) = absLit t := by
  have hp : (0 : ℚ) ≤ (litParts t).2.1 * 10 ^ (litParts t).2.2 :=
    mul_nonneg (Nat.cast_nonneg _) (zpow_nonneg (by norm_num) _)
  exact ⟨rndPos_nonneg hp, rndPos_idem hp⟩

/-- What `fmt.Sprint` shows of the float64 of a literal is again a literal of that float64. -/
theorem sprintLit_reads {t : Bytes} {q : ℚ} (h : NumVal t q) :
    ∃ q', NumVal (sprintLit t) q' ∧ rnd q' = rnd q ∧ (101 ∈ sprintLit t ↔ Scientific q') := by
  obtain ⟨h0, hf⟩ := absLit_fixed t
  obtain ⟨r, hr0, hr, he, hs⟩ := fmtG_reads h0 hf
  have hrr : rnd r = absLit t := by
    unfold rnd
    rw [if_neg (not_lt.2 hr0), hr]
  rw [absLit_val h]
  unfold sprintLit
  split
  · exact ⟨_, hs [45] (.inr rfl), by simp [rnd_neg, hrr], by simp [he, Scientific]⟩
  · exact ⟨_, hs [] (.inl rfl), by simp [hrr], by simp [he, Scientific]⟩

/-! ### ParseInt of what is printed -/

theorem parseDigits_stop (ds : Bytes) (b : UInt8) (r : Bytes) (hd : Digits ds) (hb : Str.isDigitA b = false) :
    ∀ n, n * 10 ^ ds.length + decimal ds ≤ maxUint64 → parseDigits n (ds ++ b :: r) = .syntaxErr := by
  induction ds with
  | nil => intro n _; simp [parseDigits, hb]
  | cons d ds ih =>
    intro n hn
    have hacc : ∀ (l : Bytes) (a : Nat), l.foldl (fun a b => 10 * a + (b.toNat - 48)) a = a * 10 ^ l.length + decimal l := by
      intro l
      induction l with
      | nil => intro a; simp [decimal]
      | cons x l ih =>
        intro a
        unfold decimal
        rw [List.foldl_cons, List.foldl_cons, ih, ih, List.length_cons, Nat.pow_succ]
        ring
    have hdec : decimal (d :: ds) = (d.toNat - 48) * 10 ^ ds.length + decimal ds := by
      conv_lhs => unfold decimal
      rw [List.foldl_cons, hacc]
      simp
    have h1 : (n * 10 + (d.toNat - 48)) * 10 ^ ds.length + decimal ds ≤ maxUint64 := by
      refine le_trans (le_of_eq ?_) hn
      rw [hdec, List.length_cons, Nat.pow_succ]
      ring
    have h2 : ¬ n * 10 + (d.toNat - 48) > maxUint64 := by
      have : n * 10 + (d.toNat - 48) ≤ (n * 10 + (d.toNat - 48)) * 10 ^ ds.length :=
        Nat.le_mul_of_pos_right _ (by positivity)
      omega
    rw [List.cons_append, parseDigits, if_pos (hd d (by simp))]
    simp only [if_neg h2]
    exact ih (fun x hx => hd x (by simp [hx])) _ h1

theorem parseInt_stop (sign ds : Bytes) (b : UInt8) (r : Bytes) (hs : sign = [] ∨ sign = [45]) (hne : ds ≠ [])
    (hd : Digits ds) (hb : Str.isDigitA b = false) (hl : decimal ds ≤ maxUint64) : (parseInt (sign ++ (ds ++ b :: r))).1 = 0 := by
  have hu : parseUint (ds ++ b :: r) = .syntaxErr := by
    unfold parseUint
    rw [if_neg (by simp)]
    exact parseDigits_stop ds b r hd hb 0 (by simpa using hl)
  obtain ⟨d, ds', rfl⟩ := List.exists_cons_of_ne_nil hne
  have hd0 := hd d (by simp)
  unfold parseInt
  rcases hs with rfl | rfl
  · have h1 : d ≠ 43 := by rintro rfl; revert hd0; decide
    have h2 : d ≠ 45 := by rintro rfl; revert hd0; decide
    rw [List.nil_append]
    split
    rename_i neg body hm
    have : body = (d :: ds') ++ b :: r := by
      split at hm
      · rename_i h0; cases h0; exact absurd rfl h1
      · rename_i h0; cases h0; exact absurd rfl h2
      · cases hm; rfl
    rw [this, hu]
  · simp only [List.cons_append, List.nil_append] at hu ⊢
    rw [hu]

theorem decimal_take (c p : Nat) : decimal ((natDec c).take p) ≤ c := by
  have : ∀ (l m : Bytes), decimal l ≤ decimal (l ++ m) := by
    intro l m
    unfold decimal
    rw [List.foldl_append]
    generalize l.foldl (fun a b => 10 * a + (b.toNat - 48)) 0 = a
    induction m generalizing a with
    | nil => exact le_rfl
    | cons x m ih => exact le_trans (by omega) (ih (10 * a + (x.toNat - 48)))
  have h := this ((natDec c).take p) ((natDec c).drop p)
  rwa [List.take_append_drop, decimal_natDec] at h

theorem decimal_short (l : Bytes) (hd : Digits l) : decimal l < 10 ^ l.length := by
  induction l using List.reverseRecOn with
  | nil => simp [decimal]
  | append_singleton l b ih =>
    have h1 := ih (fun x hx => hd x (by simp [hx]))
    have hb := hd b (by simp)
    have hb' : b.toNat - 48 < 10 := by
      unfold Str.isDigitA at hb
      simp only [Bool.and_eq_true, decide_eq_true_eq] at hb
      have := UInt8.le_iff_toNat_le.1 hb.2
      simp at this
      omega
    unfold decimal at h1 ⊢
    rw [List.foldl_append, List.length_append]
    simp only [List.foldl_cons, List.foldl_nil, List.length_singleton, Nat.pow_succ]
    omega

/-- `ParseInt` of what is printed of an integer below a million is the integer. -/
theorem parseInt_small (n : Nat) (h : n < 1000000) :
    (parseInt (fmtG n)).1 = n ∧ (parseInt (45 :: fmtG n)).1 = -(n : Int) := by
  have hl : (natDec n).length ≤ 6 := by
    rw [natDec_log]
    have : Nat.log 10 n < 6 := Nat.log_lt_of_lt_pow' (by norm_num) (by norm_num; exact h)
    omega
  have hg : fmtG n = natDec n := by
    rw [fmtG_int n (by omega)]
    unfold sprintFloatInt
    simp [hl]
  rw [hg]
  constructor
  · have := parseInt_intDec n (by omega) (by omega)
    unfold intDec at this
    rw [if_neg (by omega), Int.natAbs_natCast] at this
    rw [this]
  · rcases Nat.eq_zero_or_pos n with rfl | hn
    · decide
    · have := parseInt_intDec (-(n : Int)) (by omega) (by omega)
      unfold intDec at this
      rw [if_pos (by omega), Int.natAbs_neg, Int.natAbs_natCast] at this
      rw [this]

/-- `ParseInt` of what is printed of any other float64 is 0. -/
theorem parseInt_other {x : ℚ} (hx : 0 ≤ x) (hf : rndPos x = x) (h : ∀ n : Nat, n < 1000000 → x ≠ n) (sign : Bytes)
    (hs : sign = [] ∨ sign = [45]) : (parseInt (sign ++ fmtG x)).1 = 0 := by
  have hx0 : 0 < x := lt_of_le_of_ne hx (fun e => h 0 (by norm_num) (by simpa using e.symm))
  obtain ⟨c, k, hc, hdv, hd, hr⟩ := decDigits_spec hx0 hf
  obtain ⟨b, r, hb, h48, hbd, hrd⟩ := natDec_head c hc
  have hall : Digits (natDec c) := natDec_digits c
  unfold fmtG
  rw [if_neg hx0.ne']
  simp only [hd]
  split
  · unfold fmtE
    have one : decimal [b] ≤ maxUint64 := by
      have := decimal_short [b] (by intro y hy; rw [List.mem_singleton] at hy; subst hy; exact hbd)
      have h10 : decimal [b] < 10 := by simpa using this
      unfold maxUint64
      omega
    have hdb : Digits [b] := by intro y hy; rw [List.mem_singleton] at hy; subst hy; exact hbd
    rw [hb]
    cases r with
    | nil =>
      have e : ∀ (p : Prop) [Decidable p] (l : Bytes), (if p then [101, 45] else [101, 43]) ++ l =
          (101 : UInt8) :: ((if p then [45] else [43]) ++ l) := by
        intro p _ l; split <;> rfl
      simp only [List.append_assoc, e]
      exact parseInt_stop sign [b] 101 _ hs (by simp) hdb (by decide) one
    | cons a r => exact parseInt_stop sign [b] 46 _ hs (by simp) hdb (by decide) one
  · rename_i hexp
    unfold fmtF
    split
    · exact parseInt_stop sign [48] 46 _ hs (by simp) (by intro y hy; rw [List.mem_singleton] at hy; subst hy; decide)
        (by decide) (by decide)
    · split
      · -- an integer below a million
        exfalso
        rename_i hdp hlen
        obtain ⟨z, hz⟩ := Int.eq_ofNat_of_zero_le (a := k) (by omega)
        have hv : (c : ℚ) * 10 ^ k = ((c * 10 ^ z : Nat) : ℚ) := by
          rw [hz]
          push_cast
          rfl
        have hlt : c * 10 ^ z < 1000000 := by
          have h1 := decimal_short (natDec (c * 10 ^ z)) (natDec_digits _)
          rw [decimal_natDec] at h1
          refine lt_of_lt_of_le h1 ?_
          have h2 : (natDec (c * 10 ^ z)).length ≤ 6 := by
            rw [natDec_shift c z hc]
            simp
            omega
          calc 10 ^ (natDec (c * 10 ^ z)).length ≤ 10 ^ 6 := Nat.pow_le_pow_right (by norm_num) h2
            _ = 1000000 := by norm_num
        rw [hv, rndPos_small _ (by omega)] at hr
        exact h _ hlt hr.symm
      · rename_i hdp hlen
        generalize hp : (((natDec c).length : Int) + k).toNat = p at *
        refine parseInt_stop sign ((natDec c).take p) 46 _ hs ?_ (fun y hy => hall y (List.mem_of_mem_take hy)) (by decide) ?_
        · rw [← List.length_pos_iff, List.length_take]; omega
        · have h1 := decimal_short ((natDec c).take p) (fun y hy => hall y (List.mem_of_mem_take hy))
          have h2 : ((natDec c).take p).length ≤ 6 := by rw [List.length_take]; omega
          have h3 : (10 : Nat) ^ ((natDec c).take p).length ≤ 10 ^ 6 := Nat.pow_le_pow_right (by norm_num) h2
          have h4 : (10 : Nat) ^ 6 ≤ maxUint64 := by decide
          omega

end F64
end OnePass
