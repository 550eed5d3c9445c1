/-
C76, C77: base64, and the grammar of the parser, are those of the RFCs.
-/
import Verif.Spec.Rfc
import Verif.Spec.Answers
import Verif.Go.JsonSound

set_option linter.unusedSimpArgs false

namespace OnePass
namespace Rfc
open Json (utf8Enc utf8Len hex4 hexVal isHigh isLow escChar WS StrR NumR ValR ElemsR MemsR DocR)
open OnePass.Str (Scalar)

theorem utf8_iff (c : Nat) (u : Bytes) : Utf8 c u ↔ Scalar c ∧ u = utf8Enc c := by
  constructor
  · intro h
    cases h with
    | one h => exact ⟨by unfold Scalar; omega, by unfold Json.utf8Enc; rw [if_pos h]⟩
    | @two x y h1 h2 h3 =>
      refine ⟨by unfold Scalar; omega, ?_⟩
      unfold Json.utf8Enc
      rw [if_neg (by omega), if_pos (by omega), show (64 * x + y) / 64 = x by omega, show (64 * x + y) % 64 = y by omega]
    | @three x y z h1 h2 h3 h4 h5 =>
      refine ⟨by unfold Scalar; omega, ?_⟩
      unfold Json.utf8Enc
      rw [if_neg (by omega), if_neg (by omega), if_pos (by omega), show (4096 * x + 64 * y + z) / 4096 = x by omega,
        show (4096 * x + 64 * y + z) / 64 % 64 = y by omega, show (4096 * x + 64 * y + z) % 64 = z by omega]
    | @four x y z v h1 h2 h3 h4 h5 h6 =>
      refine ⟨by unfold Scalar; omega, ?_⟩
      unfold Json.utf8Enc
      rw [if_neg (by omega), if_neg (by omega), if_neg (by omega),
        show (262144 * x + 4096 * y + 64 * z + v) / 262144 = x by omega,
        show (262144 * x + 4096 * y + 64 * z + v) / 4096 % 64 = y by omega,
        show (262144 * x + 4096 * y + 64 * z + v) / 64 % 64 = z by omega,
        show (262144 * x + 4096 * y + 64 * z + v) % 64 = v by omega]
  · rintro ⟨h, rfl⟩
    rcases Str.enc_cases h with ⟨h1, e⟩ | ⟨h1, h2, e⟩ | ⟨h1, h2, e⟩ | ⟨h1, h2, e⟩
    · rw [e]; exact .one h1
    · have := Utf8.two (x := c / 64) (y := c % 64) (by omega) (by omega) (by omega)
      rw [show 64 * (c / 64) + c % 64 = c by omega] at this
      rw [e]; exact this
    · unfold Scalar at h
      have := Utf8.three (x := c / 4096) (y := c / 64 % 64) (z := c % 64) (by omega) (by omega) (by omega) (by omega) (by omega)
      rw [show 4096 * (c / 4096) + 64 * (c / 64 % 64) + c % 64 = c by omega] at this
      rw [e]; exact this
    · have := Utf8.four (x := c / 262144) (y := c / 4096 % 64) (z := c / 64 % 64) (v := c % 64) (by omega) (by omega) (by omega)
        (by omega) (by omega) (by omega)
      rw [show 262144 * (c / 262144) + 4096 * (c / 4096 % 64) + 64 * (c / 64 % 64) + c % 64 = c by omega] at this
      rw [e]; exact this

theorem byte_eq {b : UInt8} {n : Nat} (h : b.toNat = n) : b = UInt8.ofNat n := by
  rw [← h]; exact UInt8.ofNat_toNat.symm

/-- The bytes that the parser takes for a character of two to four bytes. -/
theorem utf8Len_iff (u : Bytes) : (2 ≤ u.length ∧ utf8Len u = u.length) ↔ ∃ c, 128 ≤ c ∧ Utf8 c u := by
  constructor
  · rintro ⟨h2, h⟩
    have hcont : ∀ b : UInt8, Json.isCont b = true → ∃ y, y < 64 ∧ b.toNat = 128 + y := by
      intro b hb
      unfold Json.isCont at hb
      simp only [Bool.and_eq_true, decide_eq_true_eq, UInt8.le_iff_toNat_le] at hb
      obtain ⟨k1, k2⟩ := hb
      change 128 ≤ b.toNat at k1
      change b.toNat ≤ 191 at k2
      exact ⟨b.toNat - 128, by omega, by omega⟩
    match u with
    | [] => simp at h2
    | [_] => simp at h2
    | [a, b] =>
      simp only [utf8Len, List.length_cons, List.length_nil] at h
      split at h
      · rename_i ha
        split at h
        · rename_i hb
          obtain ⟨y, hy, hby⟩ := hcont b hb
          simp only [Bool.and_eq_true, decide_eq_true_eq, UInt8.le_iff_toNat_le] at ha
          obtain ⟨k1, k2⟩ := ha
          change 194 ≤ a.toNat at k1
          change a.toNat ≤ 223 at k2
          refine ⟨64 * (a.toNat - 192) + y, by omega, ?_⟩
          rw [byte_eq (show a.toNat = 192 + (a.toNat - 192) by omega), byte_eq hby, Str.ofNat_toNat (by omega)]
          have := Utf8.two (x := a.toNat - 192) (y := y) (by omega) hy (by omega)
          rwa [show 192 + (a.toNat - 192) - 192 = a.toNat - 192 by omega]
        · omega
      · omega
    | [a, b, c] =>
      simp only [utf8Len, List.length_cons, List.length_nil] at h
      have key : ∃ x y z, x < 16 ∧ y < 64 ∧ z < 64 ∧ a.toNat = 224 + x ∧ b.toNat = 128 + y ∧ c.toNat = 128 + z ∧
          2048 ≤ 4096 * x + 64 * y + z ∧ ¬ (55296 ≤ 4096 * x + 64 * y + z ∧ 4096 * x + 64 * y + z < 57344) := by
        split at h
        · split at h <;> omega
        split at h
        · rename_i ha
          split at h
          · rename_i hb
            simp only [Bool.and_eq_true, decide_eq_true_eq, UInt8.le_iff_toNat_le, beq_iff_eq] at hb ha
            obtain ⟨⟨k1, k2⟩, k3⟩ := hb
            obtain ⟨z, hz, hcz⟩ := hcont c k3
            subst ha
            change 160 ≤ b.toNat at k1
            change b.toNat ≤ 191 at k2
            exact ⟨0, b.toNat - 128, z, by omega, by omega, hz, rfl, by omega, hcz, by omega, by omega⟩
          · omega
        split at h
        · rename_i ha
          split at h
          · rename_i hb
            simp only [Bool.and_eq_true, decide_eq_true_eq, UInt8.le_iff_toNat_le, beq_iff_eq] at hb ha
            obtain ⟨⟨k1, k2⟩, k3⟩ := hb
            obtain ⟨z, hz, hcz⟩ := hcont c k3
            subst ha
            change 128 ≤ b.toNat at k1
            change b.toNat ≤ 159 at k2
            exact ⟨13, b.toNat - 128, z, by omega, by omega, hz, rfl, by omega, hcz, by omega, by omega⟩
          · omega
        rename_i n1 n2
        split at h
        · rename_i ha
          split at h
          · rename_i hb
            simp only [Bool.and_eq_true, decide_eq_true_eq, UInt8.le_iff_toNat_le, beq_iff_eq, ← UInt8.toNat_inj] at hb ha n1 n2
            obtain ⟨y, hy, hby⟩ := hcont b hb.1
            obtain ⟨z, hz, hcz⟩ := hcont c hb.2
            obtain ⟨k1, k2⟩ := ha
            change 225 ≤ a.toNat at k1
            change a.toNat ≤ 239 at k2
            change ¬ a.toNat = 224 at n1
            change ¬ a.toNat = 237 at n2
            exact ⟨a.toNat - 224, y, z, by omega, hy, hz, by omega, hby, hcz, by omega, by omega⟩
          · omega
        · omega
      obtain ⟨x, y, z, hx, hy, hz, ha, hb, hc, h1, h2⟩ := key
      exact ⟨4096 * x + 64 * y + z, by omega, by rw [byte_eq ha, byte_eq hb, byte_eq hc]; exact .three hx hy hz h1 h2⟩
    | [a, b, c, d] =>
      simp only [utf8Len, List.length_cons, List.length_nil] at h
      have key : ∃ x y z v, x < 8 ∧ y < 64 ∧ z < 64 ∧ v < 64 ∧ a.toNat = 240 + x ∧ b.toNat = 128 + y ∧ c.toNat = 128 + z ∧
          d.toNat = 128 + v ∧ 65536 ≤ 262144 * x + 4096 * y + 64 * z + v ∧ 262144 * x + 4096 * y + 64 * z + v < 1114112 := by
        split at h
        · split at h <;> omega
        split at h
        · split at h <;> omega
        split at h
        · split at h <;> omega
        split at h
        · split at h <;> omega
        split at h
        · rename_i ha
          split at h
          · rename_i hb
            simp only [Bool.and_eq_true, decide_eq_true_eq, UInt8.le_iff_toNat_le, beq_iff_eq] at hb ha
            obtain ⟨⟨⟨k1, k2⟩, k3⟩, k4⟩ := hb
            obtain ⟨z, hz, hcz⟩ := hcont c k3
            obtain ⟨v, hv, hdv⟩ := hcont d k4
            subst ha
            change 144 ≤ b.toNat at k1
            change b.toNat ≤ 191 at k2
            exact ⟨0, b.toNat - 128, z, v, by omega, by omega, hz, hv, rfl, by omega, hcz, hdv, by omega, by omega⟩
          · omega
        split at h
        · rename_i ha
          split at h
          · rename_i hb
            simp only [Bool.and_eq_true, decide_eq_true_eq, UInt8.le_iff_toNat_le, beq_iff_eq] at hb ha
            obtain ⟨⟨⟨k1, k2⟩, k3⟩, k4⟩ := hb
            obtain ⟨z, hz, hcz⟩ := hcont c k3
            obtain ⟨v, hv, hdv⟩ := hcont d k4
            subst ha
            change 128 ≤ b.toNat at k1
            change b.toNat ≤ 143 at k2
            exact ⟨4, b.toNat - 128, z, v, by omega, by omega, hz, hv, rfl, by omega, hcz, hdv, by omega, by omega⟩
          · omega
        split at h
        · rename_i ha
          split at h
          · rename_i hb
            simp only [Bool.and_eq_true, decide_eq_true_eq, UInt8.le_iff_toNat_le, beq_iff_eq] at hb ha
            obtain ⟨⟨k2, k3⟩, k4⟩ := hb
            obtain ⟨y, hy, hby⟩ := hcont b k2
            obtain ⟨z, hz, hcz⟩ := hcont c k3
            obtain ⟨v, hv, hdv⟩ := hcont d k4
            obtain ⟨k5, k6⟩ := ha
            change 241 ≤ a.toNat at k5
            change a.toNat ≤ 243 at k6
            exact ⟨a.toNat - 240, y, z, v, by omega, hy, hz, hv, by omega, hby, hcz, hdv, by omega, by omega⟩
          · omega
        · omega
      obtain ⟨x, y, z, v, hx, hy, hz, hv, ha, hb, hc, hd, h1, h2⟩ := key
      exact ⟨262144 * x + 4096 * y + 64 * z + v, by omega,
        by rw [byte_eq ha, byte_eq hb, byte_eq hc, byte_eq hd]; exact .four hx hy hz hv h1 h2⟩
    | b0 :: b1 :: b2 :: b3 :: b4 :: u =>
      have : utf8Len (b0 :: b1 :: b2 :: b3 :: b4 :: u) ≤ 4 := by
        simp only [utf8Len]
        repeat' split
        all_goals omega
      rw [h] at this
      simp at this
  · rintro ⟨c, h1, h⟩
    obtain ⟨h2, rfl⟩ := (utf8_iff c u).1 h
    have := Fmt.utf8Len_enc h2 h1
    exact ⟨this.2, this.1⟩

/-- A byte that begins no character. -/
theorem bad_iff (b : UInt8) (t : Bytes) : (128 ≤ b ∧ utf8Len (b :: t) = 0) ↔ ∀ c u r, Utf8 c u → b :: t ≠ u ++ r := by
  constructor
  · rintro ⟨h1, h2⟩ c u r hu he
    by_cases hc : 128 ≤ c
    · obtain ⟨h3, h4⟩ := (utf8Len_iff u).2 ⟨c, hc, hu⟩
      have := (Json.utf8Len_append (x := r) h3 h4).1
      rw [← he, h2] at this
      omega
    · obtain ⟨-, rfl⟩ := (utf8_iff c u).1 hu
      rw [Json.utf8Enc, if_pos (by omega)] at he
      simp only [List.cons_append, List.nil_append, List.cons.injEq] at he
      rw [he.1, UInt8.le_iff_toNat_le, Str.ofNat_toNat (by omega)] at h1
      exact hc h1
  · intro h
    constructor
    · by_contra hb
      have hb' : b.toNat < 128 := by
        rw [UInt8.le_iff_toNat_le] at hb
        change ¬ 128 ≤ b.toNat at hb
        omega
      refine h b.toNat [b] t ?_ rfl
      have := Utf8.one hb'
      rwa [UInt8.ofNat_toNat] at this
    · cases hn : utf8Len (b :: t) with
      | zero => rfl
      | succ n =>
        obtain ⟨h1, h2, h3⟩ := Json.utf8Len_take _ _ hn
        have hl : ((b :: t).take (n + 1)).length = n + 1 := by rw [List.length_take]; omega
        obtain ⟨c, -, hc⟩ := (utf8Len_iff ((b :: t).take (n + 1))).1 ⟨by omega, by rw [h3, hl]⟩
        exact absurd (List.take_append_drop (n + 1) (b :: t)).symm (h c _ _ hc)

theorem white_iff (w : Bytes) : WS w ↔ White w := by
  have : ∀ b : UInt8, Json.isWs b = true ↔ b ∈ b!" \t\n\r" := by decide +kernel
  unfold Json.WS White
  exact forall₂_congr fun b _ => this b

theorem hex_iff (b : UInt8) (v : Nat) : hexVal b = some v ↔ Hex b v := by
  constructor
  · intro h
    have : ∀ b : UInt8, ∀ v, hexVal b = some v → v < 16 := by
      intro b v h
      unfold Json.hexVal at h
      have := b.toNat_lt
      simp only [UInt8.le_iff_toNat_le] at h
      split at h
      · rename_i k; change 48 ≤ b.toNat ∧ b.toNat ≤ 57 at k; cases h; omega
      split at h
      · rename_i k; change 97 ≤ b.toNat ∧ b.toNat ≤ 102 at k; cases h; omega
      split at h
      · rename_i k; change 65 ≤ b.toNat ∧ b.toNat ≤ 70 at k; cases h; omega
      · cases h
    have key : ∀ v : Fin 16, ∀ b : UInt8, hexVal b = some v.1 →
        b!"0123456789abcdef"[v.1]? = some b ∨ b!"0123456789ABCDEF"[v.1]? = some b := by decide +kernel
    exact key ⟨v, this b v h⟩ b h
  · intro h
    have hv : v < 16 := by
      rcases h with h | h
      · exact (List.getElem?_eq_some_iff.1 h).1
      · exact (List.getElem?_eq_some_iff.1 h).1
    have key : ∀ v : Fin 16, ∀ b : UInt8, (b!"0123456789abcdef"[v.1]? = some b ∨ b!"0123456789ABCDEF"[v.1]? = some b) →
        hexVal b = some v.1 := by decide +kernel
    exact key ⟨v, hv⟩ b h

theorem code_iff (a b c d : UInt8) (n : Nat) : hex4 a b c d = some n ↔ Code a b c d n := by
  unfold Code
  constructor
  · intro h
    unfold Json.hex4 at h
    simp only [Option.bind_eq_bind, Option.pure_def, Option.bind_eq_some_iff, Option.some.injEq] at h
    obtain ⟨i, h1, j, h2, k, h3, l, h4, h5⟩ := h
    exact ⟨i, j, k, l, (hex_iff _ _).1 h1, (hex_iff _ _).1 h2, (hex_iff _ _).1 h3, (hex_iff _ _).1 h4, by omega⟩
  · rintro ⟨i, j, k, l, h1, h2, h3, h4, rfl⟩
    unfold Json.hex4
    rw [(hex_iff _ _).2 h1, (hex_iff _ _).2 h2, (hex_iff _ _).2 h3, (hex_iff _ _).2 h4]
    simp only [Option.bind_eq_bind, Option.bind_some, Option.pure_def, Option.some.injEq]
    omega

theorem code_lt {a b c d : UInt8} {n : Nat} (h : Code a b c d n) : n < 65536 := by
  obtain ⟨i, j, k, l, h1, h2, h3, h4, rfl⟩ := h
  have key : ∀ {b v}, Hex b v → v < 16 := by
    rintro b v (h | h)
    · exact (List.getElem?_eq_some_iff.1 h).1
    · exact (List.getElem?_eq_some_iff.1 h).1
  have := key h1; have := key h2; have := key h3; have := key h4
  omega

theorem esc_iff (e c : UInt8) : escChar e = some c ↔ (e, c) ∈ escapes := by
  unfold Json.escChar escapes
  simp only [List.mem_cons, Prod.mk.injEq, List.not_mem_nil, or_false]
  constructor
  · intro h
    repeat' split at h
    all_goals first | (cases h; done) | (cases h; simp_all)
  · rintro (⟨rfl, rfl⟩ | ⟨rfl, rfl⟩ | ⟨rfl, rfl⟩ | ⟨rfl, rfl⟩ | ⟨rfl, rfl⟩ | ⟨rfl, rfl⟩ | ⟨rfl, rfl⟩ | ⟨rfl, rfl⟩) <;> decide

theorem high_iff (n : Nat) : isHigh n = true ↔ ∃ x, x < 1024 ∧ n = 55296 + x := by
  unfold Json.isHigh
  simp only [Bool.and_eq_true, decide_eq_true_eq]
  exact ⟨fun h => ⟨n - 55296, by omega, by omega⟩, by rintro ⟨x, h, rfl⟩; omega⟩

theorem low_iff (n : Nat) : isLow n = true ↔ ∃ x, x < 1024 ∧ n = 56320 + x := by
  unfold Json.isLow
  simp only [Bool.and_eq_true, decide_eq_true_eq]
  exact ⟨fun h => ⟨n - 56320, by omega, by omega⟩, by rintro ⟨x, h, rfl⟩; omega⟩

theorem digits_iff (l : Bytes) : Json.Digits l ↔ Digits l := by
  have : ∀ b : UInt8, OnePass.Str.isDigitA b = true ↔ b ∈ b!"0123456789" := by decide +kernel
  unfold Json.Digits Digits
  exact forall₂_congr fun b _ => this b

theorem num_iff (t : Bytes) : NumR t ↔ Num t := by
  have h1 : ∀ b : UInt8, (b ≠ 48 ∧ OnePass.Str.isDigitA b = true) ↔ b ∈ b!"123456789" := by decide +kernel
  have h2 : ∀ b : UInt8, (b = 101 ∨ b = 69) ↔ b ∈ b!"eE" := by decide +kernel
  unfold Json.NumR Num
  simp only [← h1, ← h2, ← digits_iff, and_assoc]
  rfl

theorem str_of {t s : Bytes} (h : StrR t s) : Str t s := by
  induction h with
  | nil => exact .nil
  | @plain b t s h1 h2 h3 h4 _ ih =>
    have hb : b.toNat < 128 := UInt8.lt_iff_toNat_lt.1 h2
    have := Utf8.one hb
    rw [UInt8.ofNat_toNat] at this
    exact .char this (UInt8.le_iff_toNat_le.1 h1) (fun h => h3 (UInt8.toNat_inj.1 h)) (fun h => h4 (UInt8.toNat_inj.1 h)) ih
  | utf8 h1 h2 _ ih =>
    obtain ⟨c, hc, hu⟩ := (utf8Len_iff _).1 ⟨h1, h2⟩
    exact .char hu (by omega) (by omega) (by omega) ih
  | esc h _ ih => exact .esc ((esc_iff _ _).1 h) ih
  | @uni a b c d n t s h h1 h2 _ ih =>
    have hc := (code_iff _ _ _ _ _).1 h
    have hl := code_lt hc
    refine .code hc ((utf8_iff _ _).2 ⟨?_, rfl⟩) ih
    unfold Json.isHigh at h1
    unfold Json.isLow at h2
    simp only [Bool.and_eq_false_iff, decide_eq_false_iff_not] at h1 h2
    unfold Scalar
    omega
  | pair h1 h2 h3 h4 _ ih =>
    obtain ⟨x, hx, rfl⟩ := (high_iff _).1 h2
    obtain ⟨y, hy, rfl⟩ := (low_iff _).1 h4
    refine .pair hx hy ((code_iff _ _ _ _ _).1 h1) ((code_iff _ _ _ _ _).1 h3) ((utf8_iff _ _).2 ⟨by unfold Scalar; omega, ?_⟩) ih
    rw [show 0x10000 + (55296 + x - 0xD800) * 1024 + (56320 + y - 0xDC00) = 65536 + 1024 * x + y by omega]
  | badByte h1 h2 _ ih => exact .bad ((bad_iff _ _).1 ⟨h1, h2⟩) ih
  | loneHigh h1 h2 h3 _ ih =>
    obtain ⟨x, hx, rfl⟩ := (high_iff _).1 h2
    refine .high hx ((code_iff _ _ _ _ _).1 h1) (fun a' b' c' d' y t' hy hc he => ?_) ih
    have := h3 a' b' c' d' _ t' he ((code_iff _ _ _ _ _).2 hc)
    rw [(low_iff _).2 ⟨y, hy, rfl⟩] at this
    cases this
  | loneLow h1 h2 _ ih =>
    obtain ⟨y, hy, rfl⟩ := (low_iff _).1 h2
    exact .low hy ((code_iff _ _ _ _ _).1 h1) ih

theorem of_str {t s : Bytes} (h : Str t s) : StrR t s := by
  induction h with
  | nil => exact .nil
  | @char c u t s h1 h2 h3 h4 _ ih =>
    by_cases hc : 128 ≤ c
    · obtain ⟨k1, k2⟩ := (utf8Len_iff u).2 ⟨c, hc, h1⟩
      exact .utf8 k1 k2 ih
    · obtain ⟨-, rfl⟩ := (utf8_iff c u).1 h1
      rw [Json.utf8Enc, if_pos (by omega)]
      have e := Str.ofNat_toNat (n := c) (by omega)
      refine .plain (UInt8.le_iff_toNat_le.2 (by rw [e]; exact h2)) (UInt8.lt_iff_toNat_lt.2 (by rw [e]; exact not_le.1 hc)) ?_ ?_ ih
      · intro h; apply h3; rw [← e, h]; rfl
      · intro h; apply h4; rw [← e, h]; rfl
  | esc h _ ih => exact .esc ((esc_iff _ _).2 h) ih
  | @code a b c d n u t s h1 h2 _ ih =>
    obtain ⟨k1, rfl⟩ := (utf8_iff _ _).1 h2
    refine .uni ((code_iff _ _ _ _ _).2 h1) ?_ ?_ ih
    · rw [Bool.eq_false_iff]; intro h; obtain ⟨x, hx, rfl⟩ := (high_iff _).1 h; unfold Scalar at k1; omega
    · rw [Bool.eq_false_iff]; intro h; obtain ⟨x, hx, rfl⟩ := (low_iff _).1 h; unfold Scalar at k1; omega
  | @pair a b c d a' b' c' d' x y u t s hx hy h1 h2 h3 _ ih =>
    obtain ⟨-, rfl⟩ := (utf8_iff _ _).1 h3
    have := StrR.pair ((code_iff _ _ _ _ _).2 h1) ((high_iff _).2 ⟨x, hx, rfl⟩) ((code_iff _ _ _ _ _).2 h2) ((low_iff _).2 ⟨y, hy, rfl⟩) ih
    rwa [show 0x10000 + (55296 + x - 0xD800) * 1024 + (56320 + y - 0xDC00) = 65536 + 1024 * x + y by omega] at this
  | bad h _ ih =>
    obtain ⟨h1, h2⟩ := (bad_iff _ _).2 h
    exact .badByte h1 h2 ih
  | @high a b c d x t s hx h1 h2 _ ih =>
    refine .loneHigh ((code_iff _ _ _ _ _).2 h1) ((high_iff _).2 ⟨x, hx, rfl⟩) (fun a' b' c' d' n' t' he hc => ?_) ih
    rw [Bool.eq_false_iff]
    intro h
    obtain ⟨y, hy, rfl⟩ := (low_iff _).1 h
    exact h2 a' b' c' d' y t' hy ((code_iff _ _ _ _ _).1 hc) he
  | @low a b c d y t s hy h1 _ ih => exact .loneLow ((code_iff _ _ _ _ _).2 h1) ((low_iff _).2 ⟨y, hy, rfl⟩) ih

theorem str_iff (t s : Bytes) : StrR t s ↔ Str t s := ⟨str_of, of_str⟩

mutual

theorem val_of : ∀ {d t j}, ValR d t j → Val d t j
  | _, _, _, .null => .null
  | _, _, _, .tru => .tru
  | _, _, _, .fls => .fls
  | _, _, _, .num h => .num ((num_iff _).1 h)
  | _, _, _, .str h => .str (str_of h)
  | _, _, _, .arr0 h => .arr0 ((white_iff _).1 h)
  | _, _, _, .arr h h' => .arr ((white_iff _).1 h) (elems_of h')
  | _, _, _, .obj0 h => .obj0 ((white_iff _).1 h)
  | _, _, _, .obj h h' => .obj ((white_iff _).1 h) (mems_of h')

theorem elems_of : ∀ {d t l}, ElemsR d t l → Elems d t l
  | _, _, _, .one h h' => .one (val_of h) ((white_iff _).1 h')
  | _, _, _, @ElemsR.cons d t j w w' ts l h h1 h2 h' => by
    have := Elems.cons (val_of h) ((white_iff _).1 h1) ((white_iff _).1 h2) (elems_of h')
    simpa only [List.append_assoc, List.cons_append, List.nil_append] using this

theorem mems_of : ∀ {d t m}, MemsR d t m → Mems d t m
  | _, _, _, .one h h1 h2 h' h3 => by
    have := Mems.one (str_of h) ((white_iff _).1 h1) ((white_iff _).1 h2) (val_of h') ((white_iff _).1 h3)
    simpa only [List.append_assoc, List.cons_append, List.nil_append] using this
  | _, _, _, .cons h h1 h2 h' h3 h4 h5 => by
    have := Mems.cons (str_of h) ((white_iff _).1 h1) ((white_iff _).1 h2) (val_of h') ((white_iff _).1 h3) ((white_iff _).1 h4) (mems_of h5)
    simpa only [List.append_assoc, List.cons_append, List.nil_append] using this

end

mutual

theorem of_val : ∀ {d t j}, Val d t j → ValR d t j
  | _, _, _, .null => .null
  | _, _, _, .tru => .tru
  | _, _, _, .fls => .fls
  | _, _, _, .num h => .num ((num_iff _).2 h)
  | _, _, _, .str h => .str (of_str h)
  | _, _, _, .arr0 h => .arr0 ((white_iff _).2 h)
  | _, _, _, .arr h h' => .arr ((white_iff _).2 h) (of_elems h')
  | _, _, _, .obj0 h => .obj0 ((white_iff _).2 h)
  | _, _, _, .obj h h' => .obj ((white_iff _).2 h) (of_mems h')

theorem of_elems : ∀ {d t l}, Elems d t l → ElemsR d t l
  | _, _, _, .one h h' => .one (of_val h) ((white_iff _).2 h')
  | _, _, _, .cons h h1 h2 h' => by
    have := ElemsR.cons (of_val h) ((white_iff _).2 h1) ((white_iff _).2 h2) (of_elems h')
    simpa only [List.append_assoc, List.cons_append, List.nil_append] using this

theorem of_mems : ∀ {d t m}, Mems d t m → MemsR d t m
  | _, _, _, .one h h1 h2 h' h3 => by
    have := MemsR.one (of_str h) ((white_iff _).2 h1) ((white_iff _).2 h2) (of_val h') ((white_iff _).2 h3)
    simpa only [List.append_assoc, List.cons_append, List.nil_append] using this
  | _, _, _, .cons h h1 h2 h' h3 h4 h5 => by
    have := MemsR.cons (of_str h) ((white_iff _).2 h1) ((white_iff _).2 h2) (of_val h') ((white_iff _).2 h3) ((white_iff _).2 h4) (of_mems h5)
    simpa only [List.append_assoc, List.cons_append, List.nil_append] using this

end

theorem doc_iff (t : Bytes) (j : Json) : DocR t j ↔ Doc t j := by
  unfold Json.DocR Doc
  simp only [white_iff]
  constructor
  · rintro ⟨w1, t', w2, h1, h2, h3, h4⟩; exact ⟨w1, t', w2, h1, h2, val_of h3, h4⟩
  · rintro ⟨w1, t', w2, h1, h2, h3, h4⟩; exact ⟨w1, t', w2, h1, h2, of_val h3, h4⟩

/-- C77: a text is accepted exactly if it is a document of RFC 8259 in UTF-8 (up to what Go tolerates inside strings), and gives the
document it is a rendering of. -/
theorem C77_rfc (t : Bytes) (j : Json) : Json.parse t = some j ↔ Doc t j := (Json.parse_iff t j).trans (doc_iff t j)

/-- Example: four spaces of the RFC around a value, an escaped character beyond U+FFFF, and a lone first half. -/
example : Doc b!" \t\n\r\"\\uD83D\\ude00\\ud800\\n\"" (.str [240, 159, 152, 128, 239, 191, 189, 10]) :=
  (C77_rfc _ _).1 (by rfl)

/-- Example: a form feed is no white space, a leading zero is no number, a control character no part of a string. -/
example : (∀ j, ¬ Doc b!"\x0c1" j) ∧ (∀ j, ¬ Doc b!"01" j) ∧ ∀ j, ¬ Doc b!"\"\x1f\"" j := by
  refine ⟨fun j h => ?_, fun j h => ?_, fun j h => ?_⟩
  · have := (C77_rfc _ _).2 h
    rw [show Json.parse b!"\x0c1" = none by rfl] at this
    cases this
  · have := (C77_rfc _ _).2 h
    rw [show Json.parse b!"01" = none by rfl] at this
    cases this
  · have := (C77_rfc _ _).2 h
    rw [show Json.parse b!"\"\x1f\"" = none by rfl] at this
    cases this

/-! ### C76: base64 -/

theorem digit_iff (b : UInt8) (v : Nat) : B64.val b = some v ↔ Digit b v := by
  unfold Digit
  constructor
  · intro h
    have key : ∀ v : Fin 64, ∀ b : UInt8, B64.val b = some v.1 →
        b!"ABCDEFGHIJKLMNOPQRSTUVWXYZabcdefghijklmnopqrstuvwxyz0123456789+/"[v.1]? = some b := by decide +kernel
    exact key ⟨v, B64.val_lt h⟩ b h
  · intro h
    have hv : v < 64 := (List.getElem?_eq_some_iff.1 h).1
    have key : ∀ v : Fin 64, ∀ b : UInt8,
        b!"ABCDEFGHIJKLMNOPQRSTUVWXYZabcdefghijklmnopqrstuvwxyz0123456789+/"[v.1]? = some b → B64.val b = some v.1 := by
      decide +kernel
    exact key ⟨v, hv⟩ b h

theorem digit_lt {b : UInt8} {v : Nat} (h : Digit b v) : v < 64 := (List.getElem?_eq_some_iff.1 h).1

theorem pad_none : B64.val 61 = none := by decide

theorem base64_of {q s : Bytes} (h : Base64 q s) : B64.quanta q = (s, false) := by
  induction h with
  | nil => rfl
  | @four a b c d x y z i j k l t s h1 h2 h3 h4 he _ ih =>
    have := digit_lt h1; have := digit_lt h2; have := digit_lt h3; have := digit_lt h4
    have := x.toNat_lt; have := y.toNat_lt; have := z.toNat_lt
    have e0 : B64.byte0 i j = x := by apply UInt8.toNat_inj.1; unfold B64.byte0; rw [Str.ofNat_toNat] <;> omega
    have e1 : B64.byte1 j k = y := by apply UInt8.toNat_inj.1; unfold B64.byte1; rw [Str.ofNat_toNat] <;> omega
    have e2 : B64.byte2 k l = z := by apply UInt8.toNat_inj.1; unfold B64.byte2; rw [Str.ofNat_toNat] <;> omega
    simp only [B64.quanta, (digit_iff _ _).2 h1, (digit_iff _ _).2 h2, (digit_iff _ _).2 h3, (digit_iff _ _).2 h4, ih, e0, e1, e2]
  | @three a b c x y i j k r h1 h2 h3 hr he =>
    have := digit_lt h1; have := digit_lt h2; have := digit_lt h3
    have := x.toNat_lt; have := y.toNat_lt
    have e0 : B64.byte0 i j = x := by apply UInt8.toNat_inj.1; unfold B64.byte0; rw [Str.ofNat_toNat] <;> omega
    have e1 : B64.byte1 j k = y := by apply UInt8.toNat_inj.1; unfold B64.byte1; rw [Str.ofNat_toNat] <;> omega
    simp only [B64.quanta, (digit_iff _ _).2 h1, (digit_iff _ _).2 h2, (digit_iff _ _).2 h3, pad_none, e0, e1]
    rfl
  | @two a b x i j r h1 h2 hr he =>
    have := digit_lt h1; have := digit_lt h2
    have := x.toNat_lt
    have e0 : B64.byte0 i j = x := by apply UInt8.toNat_inj.1; unfold B64.byte0; rw [Str.ofNat_toNat] <;> omega
    simp only [B64.quanta, (digit_iff _ _).2 h1, (digit_iff _ _).2 h2, pad_none, e0]
    rfl

theorem of_base64 (n : Nat) : ∀ q s : Bytes, q.length ≤ n → B64.quanta q = (s, false) → Base64 q s := by
  induction n with
  | zero =>
    intro q s hn h
    obtain rfl := List.length_eq_zero_iff.1 (Nat.le_zero.1 hn)
    cases h
    exact .nil
  | succ n ih =>
    intro q s hn h
    match q, h, hn with
    | [], h, _ => cases h; exact .nil
    | [c0], h, _ => unfold B64.quanta at h; split at h <;> cases h
    | [c0, c1], h, _ => 
      unfold B64.quanta at h
      split at h
      · cases h
      · simp only at h; split at h <;> cases h
    | c0 :: c1 :: c2 :: r2, h, hn =>
      unfold B64.quanta at h
      split at h
      · cases h
      rename_i i h0
      have l0 := B64.val_lt h0
      simp only at h
      split at h
      · cases h
      rename_i j h1
      have l1 := B64.val_lt h1
      split at h
      · split at h
        · rename_i hc
          subst hc
          split at h
          · rename_i r3
            simp only [Prod.mk.injEq, Bool.not_eq_eq_eq_not, Bool.not_false, List.isEmpty_iff] at h
            obtain ⟨rfl, rfl⟩ := h
            refine .two (r := j % 16) ((digit_iff _ _).1 h0) ((digit_iff _ _).1 h1) (by omega) ?_
            unfold B64.byte0
            rw [Str.ofNat_toNat (by omega)]
            omega
          · cases h
        · cases h
      · rename_i k h2
        have l2 := B64.val_lt h2
        split at h
        · cases h
        · rename_i c3 r3
          split at h
          · split at h
            · rename_i hc
              subst hc
              simp only [Prod.mk.injEq, Bool.not_eq_eq_eq_not, Bool.not_false, List.isEmpty_iff] at h
              obtain ⟨rfl, rfl⟩ := h
              refine .three (r := k % 4) ((digit_iff _ _).1 h0) ((digit_iff _ _).1 h1) ((digit_iff _ _).1 h2) (by omega) ?_
              unfold B64.byte0 B64.byte1
              rw [Str.ofNat_toNat (by omega), Str.ofNat_toNat (by omega)]
              omega
            · cases h
          · rename_i l h3
            have l3 := B64.val_lt h3
            simp only [Prod.mk.injEq] at h
            obtain ⟨rfl, h'⟩ := h
            refine .four ((digit_iff _ _).1 h0) ((digit_iff _ _).1 h1) ((digit_iff _ _).1 h2) ((digit_iff _ _).1 h3) ?_
              (ih r3 _ (by simp only [List.length_cons] at hn; omega) (Prod.ext rfl h'))
            unfold B64.byte0 B64.byte1 B64.byte2
            rw [Str.ofNat_toNat (by omega), Str.ofNat_toNat (by omega), Str.ofNat_toNat (by omega)]
            omega

/-- C76: a text is decoded without error, to the bytes `s`, exactly if it is, line breaks left out, base64 of `s` after RFC 4648. -/
theorem C76_rfc (t s : Bytes) :
    ((B64.decodeString t).1.data = s ∧ (B64.decodeString t).2 = false) ↔ Base64 (t.filter fun c => c ∉ b!"\r\n") s := by
  have hf : (t.filter fun c => c ∉ b!"\r\n") = t.filter (fun c => !B64.isNL c) := by
    apply List.filter_congr
    have : ∀ c : UInt8, decide (c ∉ b!"\r\n") = !B64.isNL c := by decide +kernel
    exact fun c _ => this c
  rw [hf, B64.decodeString_data]
  constructor
  · rintro ⟨h1, h2⟩
    exact of_base64 _ _ _ (le_refl _) (Prod.ext h1 h2)
  · intro h
    have := base64_of h
    exact ⟨by rw [this], by simp only [B64.decodeString, this]⟩

/-- Example: "hello" broken over two lines, with bits left over in the last group; nothing stands behind the padding. -/
example : Base64 b!"aGVsbG9=" b!"hello" ∧ ∀ s, ¬ Base64 b!"aGVsbG8=aGVs" s := by
  refine ⟨(C76_rfc b!"aGVs\r\nbG9=" _).1 (by decide), fun s h => ?_⟩
  have := base64_of h
  rw [show B64.quanta b!"aGVsbG8=aGVs" = (b!"hello", true) by decide] at this
  cases this

end Rfc
end OnePass
