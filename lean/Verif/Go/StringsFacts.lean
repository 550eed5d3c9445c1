/-
White space in UTF-8 texts.
-/
import Verif.Go.Json

set_option linter.unusedSimpArgs false

namespace OnePass
namespace Str
open Json (utf8Enc utf8Len)

/-- A code point that UTF-8 can encode. -/
def Scalar (c : Nat) : Prop := c < 0xD800 ∨ (0xE000 ≤ c ∧ c < 0x110000)

instance (c : Nat) : Decidable (Scalar c) := by unfold Scalar; infer_instance

/-- White space (Unicode's White_Space property). -/
def White (c : Nat) : Prop :=
  (9 ≤ c ∧ c ≤ 13) ∨ c = 0x20 ∨ c = 0x85 ∨ c = 0xA0 ∨ c = 0x1680 ∨ (0x2000 ≤ c ∧ c ≤ 0x200A) ∨ c = 0x2028 ∨ c = 0x2029 ∨
  c = 0x202F ∨ c = 0x205F ∨ c = 0x3000

instance (c : Nat) : Decidable (White c) := by unfold White; infer_instance

/-- A text in UTF-8. -/
def utf8 (cs : List Nat) : Bytes := cs.flatMap utf8Enc

theorem ofNat_toNat {n : Nat} (h : n < 256) : (UInt8.ofNat n).toNat = n := by
  rw [UInt8.toNat_ofNat']
  exact Nat.mod_eq_of_lt h

theorem eq_lit {n : Nat} (h : n < 256) (m : UInt8) : UInt8.ofNat n = m ↔ n = m.toNat := by
  rw [← UInt8.toNat_inj, ofNat_toNat h]

theorem enc_cases {c : Nat} (h : Scalar c) :
    (c < 0x80 ∧ utf8Enc c = [UInt8.ofNat c]) ∨
    (0x80 ≤ c ∧ c < 0x800 ∧ utf8Enc c = [UInt8.ofNat (0xC0 + c / 64), UInt8.ofNat (0x80 + c % 64)]) ∨
    (0x800 ≤ c ∧ c < 0x10000 ∧
      utf8Enc c = [UInt8.ofNat (0xE0 + c / 4096), UInt8.ofNat (0x80 + c / 64 % 64), UInt8.ofNat (0x80 + c % 64)]) ∨
    (0x10000 ≤ c ∧ c < 0x110000 ∧
      utf8Enc c = [UInt8.ofNat (0xF0 + c / 262144), UInt8.ofNat (0x80 + c / 4096 % 64),
        UInt8.ofNat (0x80 + c / 64 % 64), UInt8.ofNat (0x80 + c % 64)]) := by
  unfold Json.utf8Enc
  unfold Scalar at h
  split
  · exact .inl ⟨by omega, rfl⟩
  · split
    · exact .inr (.inl ⟨by omega, by omega, rfl⟩)
    · split
      · exact .inr (.inr (.inl ⟨by omega, by omega, rfl⟩))
      · exact .inr (.inr (.inr ⟨by omega, by omega, rfl⟩))

theorem isSpaceA_ofNat {n : Nat} (h : n < 256) : isSpaceA (UInt8.ofNat n) = true ↔ (9 ≤ n ∧ n ≤ 13) ∨ n = 32 := by
  unfold isSpaceA
  simp only [Bool.or_eq_true, Bool.and_eq_true, decide_eq_true_eq, beq_iff_eq, UInt8.le_iff_toNat_le, ofNat_toNat h, eq_lit h]
  rfl

/-- White space at the beginning of a text is recognised, whatever follows, and nothing else is taken for it. -/
theorem spaceLen_enc {c : Nat} (h : Scalar c) (x : Bytes) :
    spaceLen (utf8Enc c ++ x) = if White c then (utf8Enc c).length else 0 := by
  rcases enc_cases h with ⟨h1, e⟩ | ⟨h1, h2, e⟩ | ⟨h1, h2, e⟩ | ⟨h1, h2, e⟩
  · rw [e]
    have hs := isSpaceA_ofNat (n := c) (by omega)
    by_cases hw : isSpaceA (UInt8.ofNat c) = true
    · have : White c := by unfold White; have := hs.1 hw; omega
      rw [if_pos this]
      simp [spaceLen, hw]
    · have : ¬ White c := by
        unfold White
        have hn : ¬ ((9 ≤ c ∧ c ≤ 13) ∨ c = 32) := fun h => hw (hs.2 h)
        omega
      rw [if_neg this]
      have k1 : UInt8.ofNat c ≠ 0xC2 := by rw [Ne, eq_lit (by omega)]; show c ≠ 194; omega
      have k2 : UInt8.ofNat c ≠ 0xE1 := by rw [Ne, eq_lit (by omega)]; show c ≠ 225; omega
      have k3 : UInt8.ofNat c ≠ 0xE2 := by rw [Ne, eq_lit (by omega)]; show c ≠ 226; omega
      have k4 : UInt8.ofNat c ≠ 0xE3 := by rw [Ne, eq_lit (by omega)]; show c ≠ 227; omega
      rw [List.singleton_append, spaceLen.eq_def]
      simp only [hw, beq_eq_false_iff_ne.2 k1, beq_eq_false_iff_ne.2 k2, beq_eq_false_iff_ne.2 k3,
        beq_eq_false_iff_ne.2 k4]
      cases x with
      | nil => rfl
      | cons b x => cases x <;> rfl
  · rw [e]
    have b1 : 0xC0 + c / 64 < 256 := by omega
    have b2 : 0x80 + c % 64 < 256 := by omega
    have hs : isSpaceA (UInt8.ofNat (0xC0 + c / 64)) = false := by
      rw [← Bool.not_eq_true, isSpaceA_ofNat b1]; omega
    have k2 : UInt8.ofNat (0xC0 + c / 64) ≠ 0xE1 := by rw [Ne, eq_lit b1]; show _ ≠ 225; omega
    have k3 : UInt8.ofNat (0xC0 + c / 64) ≠ 0xE2 := by rw [Ne, eq_lit b1]; show _ ≠ 226; omega
    have k4 : UInt8.ofNat (0xC0 + c / 64) ≠ 0xE3 := by rw [Ne, eq_lit b1]; show _ ≠ 227; omega
    have hc : (UInt8.ofNat (0xC0 + c / 64) == 0xC2 && (UInt8.ofNat (0x80 + c % 64) == 0x85 || UInt8.ofNat (0x80 + c % 64) == 0xA0)) =
        decide (White c) := by
      rw [Bool.eq_iff_iff]
      simp only [Bool.or_eq_true, Bool.and_eq_true, decide_eq_true_eq, beq_iff_eq, eq_lit b1, eq_lit b2]
      show _ = 194 ∧ (_ = 133 ∨ _ = 160) ↔ _
      unfold White
      omega
    rw [List.cons_append, List.singleton_append, spaceLen.eq_def]
    simp only [hs, hc, beq_eq_false_iff_ne.2 k2, beq_eq_false_iff_ne.2 k3, beq_eq_false_iff_ne.2 k4]
    by_cases hw : White c
    · simp [hw]
    · cases x <;> simp [hw]
  · rw [e]
    have b1 : 0xE0 + c / 4096 < 256 := by omega
    have b2 : 0x80 + c / 64 % 64 < 256 := by omega
    have b3 : 0x80 + c % 64 < 256 := by omega
    have hs : isSpaceA (UInt8.ofNat (0xE0 + c / 4096)) = false := by
      rw [← Bool.not_eq_true, isSpaceA_ofNat b1]; omega
    have k1 : UInt8.ofNat (0xE0 + c / 4096) ≠ 0xC2 := by rw [Ne, eq_lit b1]; show _ ≠ 194; omega
    rw [List.cons_append, List.cons_append, List.singleton_append, spaceLen.eq_def]
    simp only [hs, beq_eq_false_iff_ne.2 k1, Bool.false_and, Bool.false_eq_true, if_false]
    have hc : ∀ p : Bool, (p = true ↔ White c) → (if p = true then 3 else 0) = if White c then 3 else 0 := by
      intro p hp
      by_cases hw : White c
      · rw [if_pos hw, if_pos (hp.2 hw)]
      · rw [if_neg hw, if_neg (fun h => hw (hp.1 h))]
    refine hc _ ?_
    simp only [Bool.or_eq_true, Bool.and_eq_true, decide_eq_true_eq, beq_iff_eq, eq_lit b1, eq_lit b2, eq_lit b3,
      UInt8.le_iff_toNat_le, ofNat_toNat b3]
    show ((((_ = 225 ∧ _ = 154) ∧ _ = 128) ∨ ((_ = 226 ∧ _ = 128) ∧ ((((128 ≤ _ ∧ _ ≤ 138) ∨ _ = 168) ∨ _ = 169) ∨ _ = 175))) ∨
      ((_ = 226 ∧ _ = 129) ∧ _ = 159)) ∨ ((_ = 227 ∧ _ = 128) ∧ _ = 128) ↔ _
    unfold White
    omega
  · rw [e]
    have b1 : 0xF0 + c / 262144 < 256 := by omega
    have hs : isSpaceA (UInt8.ofNat (0xF0 + c / 262144)) = false := by
      rw [← Bool.not_eq_true, isSpaceA_ofNat b1]; omega
    have k1 : UInt8.ofNat (0xF0 + c / 262144) ≠ 0xC2 := by rw [Ne, eq_lit b1]; show _ ≠ 194; omega
    have k2 : UInt8.ofNat (0xF0 + c / 262144) ≠ 0xE1 := by rw [Ne, eq_lit b1]; show _ ≠ 225; omega
    have k3 : UInt8.ofNat (0xF0 + c / 262144) ≠ 0xE2 := by rw [Ne, eq_lit b1]; show _ ≠ 226; omega
    have k4 : UInt8.ofNat (0xF0 + c / 262144) ≠ 0xE3 := by rw [Ne, eq_lit b1]; show _ ≠ 227; omega
    have hw : ¬ White c := by unfold White; omega
    rw [if_neg hw]
    simp only [List.cons_append, List.nil_append]
    rw [spaceLen.eq_def]
    simp only [hs, beq_eq_false_iff_ne.2 k1, beq_eq_false_iff_ne.2 k2, beq_eq_false_iff_ne.2 k3,
      beq_eq_false_iff_ne.2 k4, Bool.false_and, Bool.false_eq_true, if_false, Bool.or_false]

/-- Bytes that begin white space of more than one byte. -/
theorem spaceLen_three {a b c : UInt8} {x : Bytes} (h : spaceLen (a :: b :: c :: x) = 3) : 128 ≤ c ∧ 128 ≤ b ∧ b < 192 ∧ 225 ≤ a := by
  rw [spaceLen.eq_def] at h
  simp only at h
  split at h
  · cases h
  · split at h
    · cases h
    · split at h
      · rename_i h3
        simp only [Bool.or_eq_true, Bool.and_eq_true, decide_eq_true_eq, beq_iff_eq] at h3
        rcases h3 with ((⟨⟨rfl, rfl⟩, rfl⟩ | ⟨⟨rfl, rfl⟩, h3⟩) | ⟨⟨rfl, rfl⟩, rfl⟩) | ⟨⟨rfl, rfl⟩, rfl⟩
        · decide
        · refine ⟨?_, by decide, by decide, by decide⟩
          rcases h3 with ((⟨h3, -⟩ | rfl) | rfl) | rfl
          · exact h3
          · decide
          · decide
          · decide
        · decide
        · decide
      · cases h

theorem spaceLen_two {a b : UInt8} {x : Bytes} (h : spaceLen (a :: b :: x) = 2) : 128 ≤ b ∧ a = 0xC2 := by
  rw [spaceLen.eq_def] at h
  simp only at h
  split at h
  · cases h
  · split at h
    · rename_i h3
      simp only [Bool.or_eq_true, Bool.and_eq_true, decide_eq_true_eq, beq_iff_eq] at h3
      obtain ⟨rfl, rfl | rfl⟩ := h3
      · decide
      · decide
    · split at h
      · cases h
      · split at h <;> cases h

theorem spaceLen_one (a : UInt8) : spaceLen [a] = 1 ↔ isSpaceA a = true := by
  rw [spaceLen.eq_def]
  cases h : isSpaceA a <;> simp [h]

theorem spaceLen_short (s : Bytes) : spaceLen s ≤ s.length := by
  cases s with
  | nil => exact Nat.le_refl _
  | cons a s =>
    rw [spaceLen.eq_def]
    simp only
    split
    · simp
    · cases s with
      | nil => simp
      | cons b s =>
        simp only
        split
        · simp
        · cases s with
          | nil => simp
          | cons c s =>
            simp only
            split <;> simp

theorem not_space_high {b : UInt8} (h : 128 ≤ b) : isSpaceA b = false := by
  revert b; decide +kernel

/-- White space at the end. -/
theorem spaceLenBack_enc {c : Nat} (h : Scalar c) (y : Bytes) :
    spaceLenBack ((utf8Enc c).reverse ++ y) = if White c then (utf8Enc c).length else 0 := by
  have hl := spaceLen_enc h []
  rw [List.append_nil] at hl
  have two : ∀ (b : UInt8) (z : Bytes), ¬ 128 ≤ b → spaceLen ((b :: z).take 2).reverse ≠ 2 := by
    intro b z hb h2
    cases z with
    | nil => have := spaceLen_short [b]; simp only [List.take, List.reverse_singleton] at h2; simp at this; omega
    | cons a z => exact hb (spaceLen_two (by simpa using h2)).1
  have three : ∀ (b : UInt8) (z : Bytes), ¬ 128 ≤ b → spaceLen ((b :: z).take 3).reverse ≠ 3 := by
    intro b z hb h2
    have := spaceLen_short ((b :: z).take 3).reverse
    cases z with
    | nil => simp at this h2; omega
    | cons a z =>
      cases z with
      | nil => simp at this h2; omega
      | cons a' z => exact hb (spaceLen_three (by simpa using h2)).1
  have high : ∀ n, 128 ≤ n → n < 256 → 128 ≤ UInt8.ofNat n := by
    intro n h1 h2
    rw [UInt8.le_iff_toNat_le, ofNat_toNat h2]
    exact h1
  unfold spaceLenBack
  rcases enc_cases h with ⟨h1, e⟩ | ⟨h1, h2, e⟩ | ⟨h1, h2, e⟩ | ⟨h1, h2, e⟩
  · rw [e] at hl ⊢
    have hb : ¬ 128 ≤ UInt8.ofNat c := by
      rw [UInt8.le_iff_toNat_le, ofNat_toNat (by omega)]; show ¬ 128 ≤ c; omega
    simp only [List.reverse_singleton, List.singleton_append, List.take_succ_cons, List.take_zero, hl]
    by_cases hw : White c
    · simp [hw]
    · have k2 := two (UInt8.ofNat c) y hb
      have k3 := three (UInt8.ofNat c) y hb
      simp only [List.take_succ_cons, List.reverse_cons] at k2 k3
      simp [hw, k2, k3]
  · rw [e] at hl ⊢
    have k1 := not_space_high (high (0x80 + c % 64) (by omega) (by omega))
    have k1' : spaceLen [UInt8.ofNat (0x80 + c % 64)] ≠ 1 := by rw [Ne, spaceLen_one, k1]; simp
    simp only [List.reverse_cons, List.reverse_nil, List.nil_append, List.singleton_append, List.cons_append,
      List.take_succ_cons, List.take_zero, k1', if_false, hl]
    by_cases hw : White c
    · simp [hw]
    · have k3 : spaceLen (UInt8.ofNat (128 + c % 64) :: UInt8.ofNat (192 + c / 64) :: y.take 1).reverse ≠ 3 := by
        intro h3
        cases y with
        | nil => have := spaceLen_short [UInt8.ofNat (192 + c / 64), UInt8.ofNat (128 + c % 64)]; simp at this h3; omega
        | cons a y =>
          have := (spaceLen_three (x := []) (show spaceLen [a, UInt8.ofNat (192 + c / 64), UInt8.ofNat (128 + c % 64)] = 3 from h3)).2.2.1
          rw [UInt8.lt_iff_toNat_lt, ofNat_toNat (by omega)] at this
          have e : (192 : UInt8).toNat = 192 := rfl
          omega
      simp only [List.reverse_cons, List.reverse_nil, List.nil_append, List.append_assoc, List.singleton_append] at k3
      simp [hw, k3, -UInt8.ofNat_add]
  · rw [e] at hl ⊢
    have k1 := not_space_high (high (0x80 + c % 64) (by omega) (by omega))
    have k1' : spaceLen [UInt8.ofNat (0x80 + c % 64)] ≠ 1 := by rw [Ne, spaceLen_one, k1]; simp
    have k2 : spaceLen [UInt8.ofNat (0x80 + c / 64 % 64), UInt8.ofNat (0x80 + c % 64)] ≠ 2 := by
      intro h2
      have := (spaceLen_two h2).2
      rw [eq_lit (by omega)] at this
      have e : (194 : UInt8).toNat = 194 := rfl
      omega
    simp only [List.reverse_cons, List.reverse_nil, List.nil_append, List.singleton_append, List.cons_append,
      List.take_succ_cons, List.take_zero, k1', k2, if_false, hl]
    by_cases hw : White c <;> simp [hw]
  · rw [e] at hl ⊢
    have k1 := not_space_high (high (0x80 + c % 64) (by omega) (by omega))
    have k1' : spaceLen [UInt8.ofNat (0x80 + c % 64)] ≠ 1 := by rw [Ne, spaceLen_one, k1]; simp
    have k2 : spaceLen [UInt8.ofNat (0x80 + c / 64 % 64), UInt8.ofNat (0x80 + c % 64)] ≠ 2 := by
      intro h2
      have := (spaceLen_two h2).2
      rw [eq_lit (by omega)] at this
      have e : (194 : UInt8).toNat = 194 := rfl
      omega
    have k3 : spaceLen [UInt8.ofNat (0x80 + c / 4096 % 64), UInt8.ofNat (0x80 + c / 64 % 64), UInt8.ofNat (0x80 + c % 64)] ≠ 3 := by
      intro h2
      have := (spaceLen_three h2).2.2.2
      rw [UInt8.le_iff_toNat_le, ofNat_toNat (by omega)] at this
      have e : (225 : UInt8).toNat = 225 := rfl
      omega
    have hw : ¬ White c := by unfold White; omega
    simp only [List.reverse_cons, List.reverse_nil, List.nil_append, List.singleton_append, List.cons_append,
      List.take_succ_cons, List.take_zero, k1', k2, k3, if_false, hw]

/-! ### TrimSpace -/

/-- A list without what satisfies `p` at its ends. -/
def trim {α : Type} (p : α → Bool) (l : List α) : List α := ((l.dropWhile p).reverse.dropWhile p).reverse

def whiteB (c : Nat) : Bool := decide (White c)

theorem enc_ne (c : Nat) : utf8Enc c ≠ [] := by
  unfold Json.utf8Enc
  split
  · simp
  · split
    · simp
    · split <;> simp

theorem utf8_cons (c : Nat) (cs : List Nat) : utf8 (c :: cs) = utf8Enc c ++ utf8 cs := rfl
theorem utf8_append (a b : List Nat) : utf8 (a ++ b) = utf8 a ++ utf8 b := List.flatMap_append

theorem spaceLen_nil : spaceLen [] = 0 := rfl

theorem trimLeft_utf8 (cs : List Nat) (h : ∀ c ∈ cs, Scalar c) (n : Nat) (hn : cs.length ≤ n) :
    trimLeft n (utf8 cs) = utf8 (cs.dropWhile whiteB) := by
  induction cs generalizing n with
  | nil => cases n <;> rfl
  | cons c cs ih =>
    cases n with
    | zero => simp at hn
    | succ n =>
      rw [trimLeft, utf8_cons, spaceLen_enc (h c (by simp))]
      by_cases hw : White c
      · have hne : (utf8Enc c).length ≠ 0 := by simpa using enc_ne c
        rw [if_pos hw, if_neg hne, List.drop_left, ih (fun c hc => h c (by simp [hc])) n (by simpa using hn)]
        simp [List.dropWhile, whiteB, hw]
      · rw [if_neg hw, if_pos rfl]
        simp [List.dropWhile, whiteB, hw, utf8_cons]

theorem trimBack_utf8 (cs : List Nat) (h : ∀ c ∈ cs, Scalar c) (n : Nat) (hn : cs.length ≤ n) :
    trimBack n (utf8 cs.reverse).reverse = (utf8 (cs.dropWhile whiteB).reverse).reverse := by
  induction cs generalizing n with
  | nil => cases n <;> rfl
  | cons c cs ih =>
    cases n with
    | zero => simp at hn
    | succ n =>
      have e : (utf8 (c :: cs).reverse).reverse = (utf8Enc c).reverse ++ (utf8 cs.reverse).reverse := by
        rw [List.reverse_cons, utf8_append, List.reverse_append]
        simp [utf8]
      rw [trimBack, e, spaceLenBack_enc (h c (by simp))]
      by_cases hw : White c
      · have hne : (utf8Enc c).length ≠ 0 := by simpa using enc_ne c
        have hd : ((utf8Enc c).reverse ++ (utf8 cs.reverse).reverse).drop (utf8Enc c).length = (utf8 cs.reverse).reverse :=
          List.drop_left' (by simp)
        rw [if_pos hw, if_neg hne, hd, ih (fun c hc => h c (by simp [hc])) n (by simpa using hn)]
        simp [List.dropWhile, whiteB, hw]
      · rw [if_neg hw, if_pos rfl, ← e]
        simp [List.dropWhile, whiteB, hw]

theorem utf8_length (cs : List Nat) : cs.length ≤ (utf8 cs).length := by
  induction cs with
  | nil => exact Nat.le_refl _
  | cons c cs ih =>
    have := List.length_pos_iff.2 (enc_ne c)
    rw [utf8_cons, List.length_append, List.length_cons]
    omega

/-- The bytes of ASCII text. -/
theorem ascii_utf8 {cs : List Nat} (h : ∀ c ∈ cs, Scalar c) (ha : isAscii (utf8 cs) = true) :
    (∀ c ∈ cs, c < 128) ∧ utf8 cs = cs.map UInt8.ofNat := by
  induction cs with
  | nil => exact ⟨by simp, rfl⟩
  | cons c cs ih =>
    rw [isAscii_iff, utf8_cons] at ha
    obtain ⟨h1, h2⟩ := ih (fun c hc => h c (by simp [hc])) (isAscii_iff.2 fun b hb => ha b (by simp [hb]))
    have key : c < 128 ∧ utf8Enc c = [UInt8.ofNat c] := by
      rcases enc_cases (h c (by simp)) with k | ⟨k1, k2, e⟩ | ⟨k1, k2, e⟩ | ⟨k1, k2, e⟩
      · exact k
      all_goals
        exfalso
        have := ha (UInt8.ofNat (0x80 + c % 64)) (by simp [e])
        rw [UInt8.lt_iff_toNat_lt, ofNat_toNat (by omega)] at this
        have e : (128 : UInt8).toNat = 128 := rfl
        omega
    refine ⟨?_, by rw [utf8_cons, key.2, h2]; rfl⟩
    intro c' hc'
    rcases List.mem_cons.1 hc' with rfl | hc'
    · exact key.1
    · exact h1 _ hc'

theorem dropWhile_congr' {α : Type} {p q : α → Bool} {l : List α} (h : ∀ a ∈ l, p a = q a) : l.dropWhile p = l.dropWhile q := by
  induction l with
  | nil => rfl
  | cons a l ih =>
    rw [List.dropWhile, List.dropWhile, h a (by simp), ih fun a ha => h a (by simp [ha])]

theorem mem_of_dropWhile {α : Type} {p : α → Bool} {l : List α} {a : α} (h : a ∈ l.dropWhile p) : a ∈ l :=
  (List.dropWhile_sublist p).subset h

/-- `TrimSpace` takes the white space off both ends of a text. -/
theorem trimSpace_utf8 (cs : List Nat) (h : ∀ c ∈ cs, Scalar c) : trimSpace (utf8 cs) = utf8 (trim whiteB cs) := by
  unfold trimSpace
  split
  · rename_i ha
    obtain ⟨h1, h2⟩ := ascii_utf8 h ha
    have hb : ∀ l : List Nat, (∀ c ∈ l, c < 128) → utf8 l = l.map UInt8.ofNat := by
      intro l hl
      induction l with
      | nil => rfl
      | cons c l ih =>
        rw [utf8_cons, ih fun c hc => hl c (by simp [hc])]
        have := hl c (by simp)
        simp only [Json.utf8Enc, show c < 0x80 from this, if_true]
        rfl
    have hd : ∀ l : List Nat, (∀ c ∈ l, c < 128) → (l.map UInt8.ofNat).dropWhile isSpaceA = (l.dropWhile whiteB).map UInt8.ofNat := by
      intro l hl
      rw [List.dropWhile_map]
      congr 1
      refine dropWhile_congr' fun c hc => ?_
      have := hl c hc
      have k := isSpaceA_ofNat (n := c) (by omega)
      show isSpaceA (UInt8.ofNat c) = decide (White c)
      rw [Bool.eq_iff_iff, k, decide_eq_true_eq]
      unfold White
      omega
    have h3 : ∀ c ∈ (cs.dropWhile whiteB).reverse, c < 128 := fun c hc => h1 c (mem_of_dropWhile (List.mem_reverse.1 hc))
    rw [h2, hd cs h1, ← List.map_reverse, hd _ h3, ← List.map_reverse]
    refine (hb _ fun c hc => h3 c (mem_of_dropWhile (List.mem_reverse.1 hc))).symm
  · simp only
    rw [trimLeft_utf8 cs h _ (utf8_length cs)]
    have hs : ∀ c ∈ (cs.dropWhile whiteB).reverse, Scalar c := fun c hc => h c (mem_of_dropWhile (List.mem_reverse.1 hc))
    have := trimBack_utf8 (cs.dropWhile whiteB).reverse hs (utf8 (cs.dropWhile whiteB)).length
      (by rw [List.length_reverse]; exact utf8_length _)
    rw [List.reverse_reverse] at this
    rw [this, List.reverse_reverse]
    rfl

/-! ### Fields -/

/-- What is recognised as white space is white space. -/
theorem spaceLen_white {s : Bytes} (h : spaceLen s ≠ 0) : ∃ c, White c ∧ s = utf8Enc c ++ s.drop (spaceLen s) ∧
    (utf8Enc c).length = spaceLen s := by
  have lit : ∀ (b : UInt8) (n : Nat), b.toNat = n → b = UInt8.ofNat n := by
    rintro b n rfl; exact (UInt8.ofNat_toNat).symm
  cases s with
  | nil => exact absurd rfl h
  | cons a s =>
    rw [spaceLen.eq_def] at h ⊢
    simp only at h ⊢
    by_cases h1 : isSpaceA a = true
    · rw [if_pos h1]
      have h2 : a = UInt8.ofNat a.toNat := lit a _ rfl
      have h3 : a.toNat < 256 := a.toNat_lt
      have h4 := (isSpaceA_ofNat h3).1 (h2 ▸ h1)
      refine ⟨a.toNat, by unfold White; omega, ?_⟩
      simp only [Json.utf8Enc, show a.toNat < 0x80 by omega, if_true, ← h2]
      exact ⟨rfl, rfl⟩
    · rw [if_neg h1] at h ⊢
      cases s with
      | nil => exact absurd rfl h
      | cons b s =>
        simp only at h ⊢
        by_cases h2 : (a == 0xC2 && (b == 0x85 || b == 0xA0)) = true
        · rw [if_pos h2]
          simp only [Bool.or_eq_true, Bool.and_eq_true, beq_iff_eq] at h2
          obtain ⟨rfl, rfl | rfl⟩ := h2
          · exact ⟨0x85, by decide, rfl, rfl⟩
          · exact ⟨0xA0, by decide, rfl, rfl⟩
        · rw [if_neg h2] at h ⊢
          cases s with
          | nil => exact absurd rfl h
          | cons c s =>
            simp only at h ⊢
            split at h
            · rename_i h3
              rw [if_pos h3]
              simp only [Bool.or_eq_true, Bool.and_eq_true, decide_eq_true_eq, beq_iff_eq] at h3
              rcases h3 with ((⟨⟨rfl, rfl⟩, rfl⟩ | ⟨⟨rfl, rfl⟩, ((⟨h3, h4⟩ | rfl) | rfl) | rfl⟩) | ⟨⟨rfl, rfl⟩, rfl⟩) | ⟨⟨rfl, rfl⟩, rfl⟩
              · exact ⟨0x1680, by decide, rfl, rfl⟩
              · have k1 : 128 ≤ c.toNat := UInt8.le_iff_toNat_le.1 h3
                have k2 : c.toNat ≤ 138 := UInt8.le_iff_toNat_le.1 h4
                have e : c = UInt8.ofNat c.toNat := lit c _ rfl
                have k3 : ∀ n, 128 ≤ n → n ≤ 138 → utf8Enc (0x2000 + (n - 128)) = [0xE2, 0x80, UInt8.ofNat n] := by
                  intro n k1 k2
                  have : n ∈ List.range' 128 11 := by rw [List.mem_range']; exact ⟨n - 128, by omega, by omega⟩
                  have all : ∀ n ∈ List.range' 128 11, utf8Enc (0x2000 + (n - 128)) = [0xE2, 0x80, UInt8.ofNat n] := by
                    decide
                  exact all n this
                refine ⟨0x2000 + (c.toNat - 128), by unfold White; omega, ?_⟩
                rw [k3 _ k1 k2, ← e]
                exact ⟨rfl, rfl⟩
              · exact ⟨0x2028, by decide, rfl, rfl⟩
              · exact ⟨0x2029, by decide, rfl, rfl⟩
              · exact ⟨0x202F, by decide, rfl, rfl⟩
              · exact ⟨0x205F, by decide, rfl, rfl⟩
              · exact ⟨0x3000, by decide, rfl, rfl⟩
            · exact absurd rfl h

theorem white_scalar {c : Nat} (h : White c) : Scalar c := by unfold White at h; unfold Scalar; omega

theorem spaceLen_enc_white {c : Nat} (h : White c) (x : Bytes) : spaceLen (utf8Enc c ++ x) = (utf8Enc c).length := by
  rw [spaceLen_enc (white_scalar h), if_pos h]

/-- The bytes up to the first white space. -/
def untilSpace : Bytes → Bytes
  | [] => []
  | b :: r => if spaceLen (b :: r) = 0 then b :: untilSpace r else []

theorem untilSpace_prefix (s : Bytes) : untilSpace s <+: s := by
  induction s with
  | nil => exact List.prefix_refl _
  | cons b r ih =>
    rw [untilSpace]
    split
    · exact (List.cons_prefix_cons).2 ⟨rfl, ih⟩
    · exact List.nil_prefix

/-- No white space in a text. -/
def NoWhite (w : Bytes) : Prop := ∀ c, White c → ¬ utf8Enc c <:+: w

/-- A text is empty or begins with white space. -/
def Stops (s : Bytes) : Prop := s = [] ∨ ∃ c x, White c ∧ s = utf8Enc c ++ x

theorem untilSpace_noWhite (s : Bytes) : NoWhite (untilSpace s) := by
  intro c hc h
  induction s with
  | nil => exact enc_ne c (List.infix_nil.1 h)
  | cons b r ih =>
    rw [untilSpace] at h
    split at h
    · rename_i h0
      rcases List.infix_cons_iff.1 h with h | h
      · obtain ⟨x, hx⟩ := h.trans ((List.cons_prefix_cons).2 ⟨rfl, untilSpace_prefix r⟩)
        rw [← hx, spaceLen_enc_white hc] at h0
        exact enc_ne c (List.length_eq_zero_iff.1 h0)
      · exact ih h
    · exact enc_ne c (List.infix_nil.1 h)

theorem untilSpace_stops (s : Bytes) : ∃ post, s = untilSpace s ++ post ∧ Stops post := by
  induction s with
  | nil => exact ⟨[], rfl, .inl rfl⟩
  | cons b r ih =>
    rw [untilSpace]
    split
    · obtain ⟨post, h1, h2⟩ := ih
      exact ⟨post, by rw [List.cons_append, ← h1], h2⟩
    · rename_i h0
      obtain ⟨c, h1, h2, -⟩ := spaceLen_white h0
      exact ⟨b :: r, rfl, .inr ⟨c, _, h1, h2⟩⟩

/-- The first byte of a character is no continuation byte; all others are. -/
theorem enc_shape {c : Nat} (h : Scalar c) : ∃ a t, utf8Enc c = a :: t ∧ (a < 128 ∨ 192 ≤ a) ∧ ∀ b ∈ t, 128 ≤ b ∧ b < 192 := by
  have cont : ∀ n, 128 ≤ n → n < 192 → 128 ≤ UInt8.ofNat n ∧ UInt8.ofNat n < 192 := by
    intro n k1 k2
    rw [UInt8.le_iff_toNat_le, UInt8.lt_iff_toNat_lt, ofNat_toNat (by omega)]
    exact ⟨k1, k2⟩
  have high : ∀ n, 192 ≤ n → n < 256 → 192 ≤ UInt8.ofNat n := by
    intro n k1 k2
    rw [UInt8.le_iff_toNat_le, ofNat_toNat k2]
    exact k1
  rcases enc_cases h with ⟨h1, e⟩ | ⟨h1, h2, e⟩ | ⟨h1, h2, e⟩ | ⟨h1, h2, e⟩
  · refine ⟨_, _, e, .inl ?_, by simp⟩
    rw [UInt8.lt_iff_toNat_lt, ofNat_toNat (by omega)]
    exact h1
  · refine ⟨_, _, e, .inr (high _ (by omega) (by omega)), ?_⟩
    intro b hb
    rw [List.mem_singleton.1 hb]
    exact cont _ (by omega) (by omega)
  · refine ⟨_, _, e, .inr (high _ (by omega) (by omega)), ?_⟩
    intro b hb
    simp only [List.mem_cons, List.not_mem_nil, or_false] at hb
    rcases hb with rfl | rfl
    · exact cont _ (by omega) (by omega)
    · exact cont _ (by omega) (by omega)
  · refine ⟨_, _, e, .inr (high _ (by omega) (by omega)), ?_⟩
    intro b hb
    simp only [List.mem_cons, List.not_mem_nil, or_false] at hb
    rcases hb with rfl | rfl | rfl
    · exact cont _ (by omega) (by omega)
    · exact cont _ (by omega) (by omega)
    · exact cont _ (by omega) (by omega)

theorem untilSpace_append {w post : Bytes} (hw : NoWhite w) (hp : Stops post) : untilSpace (w ++ post) = w := by
  induction w with
  | nil =>
    rcases hp with rfl | ⟨c, x, hc, rfl⟩
    · rfl
    · obtain ⟨a, t, e, -, -⟩ := enc_shape (white_scalar hc)
      have := spaceLen_enc_white hc x
      rw [List.nil_append]
      rw [e, List.cons_append] at this ⊢
      rw [untilSpace, if_neg (by rw [this]; simp)]
  | cons b w ih =>
    have hw' : NoWhite w := fun c hc h => hw c hc (List.infix_cons h)
    rw [List.cons_append, untilSpace, ih hw', if_pos]
    by_contra h0
    obtain ⟨c, hc, h1, h2⟩ := spaceLen_white h0
    rcases List.prefix_or_prefix_of_prefix (⟨_, h1.symm⟩ : utf8Enc c <+: b :: (w ++ post)) (⟨post, rfl⟩ : b :: w <+: b :: (w ++ post)) with k | ⟨y, k⟩
    · exact hw c hc k.isInfix
    · -- the word is the beginning of the white space character
      have hy : y ≠ [] := by
        rintro rfl
        rw [List.append_nil] at k
        exact hw c hc (k ▸ List.infix_refl _)
      have hpost : post = y ++ (b :: (w ++ post)).drop (spaceLen (b :: (w ++ post))) := by
        rw [← k, List.append_assoc, ← List.cons_append] at h1
        exact List.append_cancel_left h1
      obtain ⟨d, y', rfl⟩ := List.exists_cons_of_ne_nil hy
      obtain ⟨a, t, e, -, ht⟩ := enc_shape (white_scalar hc)
      have hd : 128 ≤ d ∧ d < 192 := by
        rw [e, List.cons_append] at k
        injection k with k1 k2
        exact ht d (by rw [← k2]; simp)
      rcases hp with rfl | ⟨c', x, hc', rfl⟩
      · simp at hpost
      · obtain ⟨a', t', e', ha', -⟩ := enc_shape (white_scalar hc')
        rw [e', List.cons_append, List.cons_append] at hpost
        injection hpost with k1 k2
        subst k1
        simp only [UInt8.le_iff_toNat_le, UInt8.lt_iff_toNat_lt] at hd ha'
        omega

theorem fieldsUni_cur (n : Nat) (cur s : Bytes) (hn : s.length ≤ n) (hc : cur ≠ []) :
    (fieldsUni cur n s).head? = some (cur.reverse ++ untilSpace s) := by
  induction n generalizing cur s with
  | zero =>
    have : s = [] := List.length_eq_zero_iff.1 (by omega)
    subst this
    simp [fieldsUni, hc, untilSpace]
  | succ n ih =>
    cases s with
    | nil => simp [fieldsUni, hc, untilSpace]
    | cons b r =>
      rw [fieldsUni]
      by_cases h0 : spaceLen (b :: r) = 0
      · rw [if_pos h0, ih _ _ (by simpa using hn) (by simp), untilSpace, if_pos h0]
        simp
      · rw [if_neg h0, untilSpace, if_neg h0]
        simp [hc]

/-- The first word of a text. -/
def First (s w : Bytes) : Prop :=
  ∃ (pre : List Nat) (post : Bytes), s = utf8 pre ++ w ++ post ∧ (∀ c ∈ pre, White c) ∧ w ≠ [] ∧ NoWhite w ∧ Stops post

theorem fieldsUni_first (n : Nat) (s : Bytes) (hn : s.length ≤ n) :
    (∃ ws : List Nat, (∀ c ∈ ws, White c) ∧ s = utf8 ws ∧ fieldsUni [] n s = []) ∨
    (∃ (pre : List Nat) (t : Bytes), (∀ c ∈ pre, White c) ∧ s = utf8 pre ++ t ∧ untilSpace t ≠ [] ∧
      (fieldsUni [] n s).head? = some (untilSpace t)) := by
  induction n generalizing s with
  | zero =>
    have : s = [] := List.length_eq_zero_iff.1 (by omega)
    subst this
    exact .inl ⟨[], by simp, rfl, rfl⟩
  | succ n ih =>
    cases s with
    | nil => exact .inl ⟨[], by simp, rfl, rfl⟩
    | cons b r =>
      rw [fieldsUni]
      by_cases h0 : spaceLen (b :: r) = 0
      · right
        refine ⟨[], b :: r, by simp, rfl, by rw [untilSpace, if_pos h0]; simp, ?_⟩
        rw [if_pos h0, fieldsUni_cur n _ _ (by simpa using hn) (by simp), untilSpace, if_pos h0]
        rfl
      · obtain ⟨c, h1, h2, h3⟩ := spaceLen_white h0
        rw [if_neg h0]
        simp only [List.isEmpty_nil, if_true]
        have hl : ((b :: r).drop (spaceLen (b :: r))).length ≤ n := by
          rw [List.length_drop]; omega
        rcases ih _ hl with ⟨ws, k1, k2, k3⟩ | ⟨pre, t, k1, k2, k3, k4⟩
        · refine .inl ⟨c :: ws, ?_, ?_, k3⟩
          · intro c' hc'
            rcases List.mem_cons.1 hc' with rfl | hc'
            · exact h1
            · exact k1 _ hc'
          · rw [utf8_cons, ← k2]; exact h2
        · refine .inr ⟨c :: pre, t, ?_, ?_, k3, k4⟩
          · intro c' hc'
            rcases List.mem_cons.1 hc' with rfl | hc'
            · exact h1
            · exact k1 _ hc'
          · rw [utf8_cons, List.append_assoc, ← k2]; exact h2

theorem fieldsUni_skip (pre : List Nat) (h : ∀ c ∈ pre, White c) (t : Bytes) (n : Nat) (hn : (utf8 pre ++ t).length ≤ n) :
    ∃ m, t.length ≤ m ∧ fieldsUni [] n (utf8 pre ++ t) = fieldsUni [] m t := by
  induction pre generalizing n with
  | nil => exact ⟨n, hn, rfl⟩
  | cons c pre ih =>
    have hc := h c (by simp)
    have hl := spaceLen_enc_white hc (utf8 pre ++ t)
    have hpos := List.length_pos_iff.2 (enc_ne c)
    rw [utf8_cons, List.append_assoc] at hn ⊢
    rw [List.length_append] at hn
    cases n with
    | zero => omega
    | succ n =>
      obtain ⟨m, k1, k2⟩ := ih (fun c hc => h c (by simp [hc])) n (by omega)
      refine ⟨m, k1, ?_⟩
      rw [fieldsUni.eq_def]
      simp only
      cases hu : utf8Enc c ++ (utf8 pre ++ t) with
      | nil => rw [← List.length_eq_zero_iff, List.length_append] at hu; omega
      | cons b r =>
        rw [hu] at hl
        simp only
        rw [hl, if_neg (by omega)]
        simp only [List.isEmpty_nil, if_true]
        rw [← hu, List.drop_left, k2]

/-- The first field is the first word. -/
theorem fieldsUni_iff (s w : Bytes) (n : Nat) (hn : s.length ≤ n) : (fieldsUni [] n s).head? = some w ↔ First s w := by
  constructor
  · intro h
    rcases fieldsUni_first n s hn with ⟨ws, -, -, k3⟩ | ⟨pre, t, k1, k2, k3, k4⟩
    · rw [k3] at h; cases h
    · rw [k4] at h
      injection h with h
      obtain ⟨post, h1, h2⟩ := untilSpace_stops t
      exact ⟨pre, post, by rw [k2, List.append_assoc, ← h, ← h1], k1, h ▸ k3, h ▸ untilSpace_noWhite t, h2⟩
  · rintro ⟨pre, post, rfl, h1, h2, h3, h4⟩
    rw [List.append_assoc] at hn ⊢
    obtain ⟨m, k1, k2⟩ := fieldsUni_skip pre h1 (w ++ post) n hn
    rw [k2]
    have hu := untilSpace_append h3 h4
    obtain ⟨b, w', rfl⟩ := List.exists_cons_of_ne_nil h2
    rw [List.cons_append] at hu k1 ⊢
    cases m with
    | zero => simp at k1
    | succ m =>
      rw [fieldsUni]
      rw [untilSpace] at hu
      by_cases h0 : spaceLen (b :: (w' ++ post)) = 0
      · rw [if_pos h0] at hu
        injection hu with _ hu
        rw [if_pos h0, fieldsUni_cur _ _ _ (by simpa using k1) (by simp), hu]
        rfl
      · rw [if_neg h0] at hu
        cases hu

theorem fieldsUni_nil (s : Bytes) (n : Nat) (hn : s.length ≤ n) :
    fieldsUni [] n s = [] ↔ ∃ ws : List Nat, (∀ c ∈ ws, White c) ∧ s = utf8 ws := by
  constructor
  · intro h
    rcases fieldsUni_first n s hn with ⟨ws, k1, k2, -⟩ | ⟨pre, t, -, -, -, k4⟩
    · exact ⟨ws, k1, k2⟩
    · rw [h] at k4; cases k4
  · rintro ⟨ws, h1, rfl⟩
    obtain ⟨m, -, k⟩ := fieldsUni_skip ws h1 [] n (by simpa using hn)
    rw [List.append_nil] at k
    rw [k]
    cases m <;> rfl

theorem spaceLen_ascii {a : UInt8} {s : Bytes} (ha : a < 128) : spaceLen (a :: s) = if isSpaceA a then 1 else 0 := by
  have n1 : a ≠ 0xC2 := by rintro rfl; exact absurd ha (by decide)
  have n2 : a ≠ 0xE1 := by rintro rfl; exact absurd ha (by decide)
  have n3 : a ≠ 0xE2 := by rintro rfl; exact absurd ha (by decide)
  have n4 : a ≠ 0xE3 := by rintro rfl; exact absurd ha (by decide)
  rw [spaceLen.eq_def]
  simp only [beq_eq_false_iff_ne.2 n1, beq_eq_false_iff_ne.2 n2, beq_eq_false_iff_ne.2 n3, beq_eq_false_iff_ne.2 n4,
    Bool.false_and, Bool.or_false, Bool.false_eq_true, if_false]
  split
  · rfl
  · cases s with
    | nil => rfl
    | cons b s => cases s <;> rfl

theorem fields_uni (s : Bytes) : fields s = fieldsUni [] s.length s := by
  have key : ∀ (s cur : Bytes) (n : Nat), (∀ b ∈ s, b < 128) → s.length ≤ n → fieldsFrom cur s = fieldsUni cur n s := by
    intro s
    induction s with
    | nil => intro cur n _ _; cases n <;> rfl
    | cons b r ih =>
      intro cur n hs hn
      cases n with
      | zero => simp at hn
      | succ n =>
        have hr : ∀ b ∈ r, b < 128 := fun b hb => hs b (by simp [hb])
        have hl : r.length ≤ n := by simpa using hn
        rw [fieldsFrom, fieldsUni, spaceLen_ascii (hs b (by simp))]
        by_cases hb : isSpaceA b = true
        · simp only [hb, if_true, List.drop_succ_cons, List.drop_zero, ih [] n hr hl]
          simp
        · simp only [hb, Bool.false_eq_true, if_false, if_true, ih (b :: cur) n hr hl]
  unfold fields
  split
  · rename_i h
    exact key s [] s.length (isAscii_iff.1 h) (Nat.le_refl _)
  · rfl

/-! ### TrimSpace of any string -/

theorem trimLeft_split (n : Nat) (s : Bytes) : ∃ pre : List Nat, (∀ c ∈ pre, White c) ∧ s = utf8 pre ++ trimLeft n s := by
  induction n generalizing s with
  | zero => exact ⟨[], by simp, rfl⟩
  | succ n ih =>
    rw [trimLeft]
    split
    · exact ⟨[], by simp, rfl⟩
    · rename_i h0
      obtain ⟨c, h1, h2, -⟩ := spaceLen_white h0
      obtain ⟨pre, k1, k2⟩ := ih (s.drop (spaceLen s))
      refine ⟨c :: pre, ?_, ?_⟩
      · intro c' hc'
        rcases List.mem_cons.1 hc' with rfl | hc'
        · exact h1
        · exact k1 _ hc'
      · rw [utf8_cons, List.append_assoc, ← k2]; exact h2

theorem spaceLenBack_white {s : Bytes} (h : spaceLenBack s ≠ 0) : ∃ c, White c ∧ s = (utf8Enc c).reverse ++ s.drop (spaceLenBack s) := by
  have main : ∀ n, spaceLen (s.take n).reverse = n → n ≠ 0 → ∃ c, White c ∧ s = (utf8Enc c).reverse ++ s.drop n := by
    intro n h1 h2
    obtain ⟨c, k1, k2, k3⟩ := spaceLen_white (s := (s.take n).reverse) (by rw [h1]; exact h2)
    refine ⟨c, k1, ?_⟩
    have hl : (s.take n).reverse.drop n = [] := by
      apply List.drop_eq_nil_of_le
      simp
      omega
    rw [h1, hl, List.append_nil] at k2
    rw [← k2, List.reverse_reverse, List.take_append_drop]
  unfold spaceLenBack at h ⊢
  split
  · rename_i h1
    refine main 1 ?_ (by omega)
    cases s with
    | nil => exact h1
    | cons a s => exact h1
  · split
    · rename_i h1; exact main 2 h1 (by omega)
    · split
      · rename_i h1; exact main 3 h1 (by omega)
      · rename_i h1 h2 h3; simp [h1, h2, h3] at h

theorem trimBack_split (n : Nat) (s : Bytes) : ∃ post : List Nat, (∀ c ∈ post, White c) ∧ s = (utf8 post).reverse ++ trimBack n s := by
  induction n generalizing s with
  | zero => exact ⟨[], by simp, rfl⟩
  | succ n ih =>
    rw [trimBack]
    split
    · exact ⟨[], by simp, rfl⟩
    · rename_i h0
      obtain ⟨c, h1, h2⟩ := spaceLenBack_white h0
      obtain ⟨post, k1, k2⟩ := ih (s.drop (spaceLenBack s))
      refine ⟨post ++ [c], ?_, ?_⟩
      · intro c' hc'
        rcases List.mem_append.1 hc' with hc' | hc'
        · exact k1 _ hc'
        · rw [List.mem_singleton.1 hc']; exact h1
      · have e : utf8 [c] = utf8Enc c := by simp [utf8]
        rw [utf8_append, List.reverse_append, e, List.append_assoc, ← k2]; exact h2

theorem isSpaceA_white {b : UInt8} (h : isSpaceA b = true) : White b.toNat ∧ utf8Enc b.toNat = [b] := by
  have e : b = UInt8.ofNat b.toNat := (UInt8.ofNat_toNat).symm
  have := (isSpaceA_ofNat b.toNat_lt).1 (e ▸ h)
  refine ⟨by unfold White; omega, ?_⟩
  simp only [Json.utf8Enc, show b.toNat < 0x80 by omega, if_true, ← e]

theorem whites (l : Bytes) (h : ∀ b ∈ l, isSpaceA b = true) : ∃ ws : List Nat, (∀ c ∈ ws, White c) ∧ l = utf8 ws := by
  induction l with
  | nil => exact ⟨[], by simp, rfl⟩
  | cons b l ih =>
    obtain ⟨ws, k1, k2⟩ := ih (fun b hb => h b (by simp [hb]))
    obtain ⟨k3, k4⟩ := isSpaceA_white (h b (by simp))
    refine ⟨b.toNat :: ws, ?_, by rw [utf8_cons, k4, ← k2]; rfl⟩
    intro c hc
    rcases List.mem_cons.1 hc with rfl | hc
    · exact k3
    · exact k1 _ hc

/-- Trimming takes white space off, nothing else. -/
theorem trimSpace_split (s : Bytes) : ∃ pre post : List Nat, (∀ c ∈ pre, White c) ∧ (∀ c ∈ post, White c) ∧
    s = utf8 pre ++ trimSpace s ++ utf8 post := by
  unfold trimSpace
  split
  · have take : ∀ l : Bytes, ∀ b ∈ l.takeWhile isSpaceA, isSpaceA b = true := by
      intro l
      induction l with
      | nil => simp
      | cons a l ih =>
        intro b hb
        rw [List.takeWhile] at hb
        split at hb
        · rcases List.mem_cons.1 hb with rfl | hb
          · assumption
          · exact ih b hb
        · simp at hb
    obtain ⟨pre, k1, k2⟩ := whites (s.takeWhile isSpaceA) (take s)
    obtain ⟨post, k3, k4⟩ := whites ((s.dropWhile isSpaceA).reverse.takeWhile isSpaceA).reverse
      (fun b hb => take _ b (List.mem_reverse.1 hb))
    refine ⟨pre, post, k1, k3, ?_⟩
    rw [← k2, ← k4, List.append_assoc, ← List.reverse_append, List.takeWhile_append_dropWhile, List.reverse_reverse,
      List.takeWhile_append_dropWhile]
  · simp only
    obtain ⟨pre, k1, k2⟩ := trimLeft_split s.length s
    obtain ⟨post, k3, k4⟩ := trimBack_split (trimLeft s.length s).length (trimLeft s.length s).reverse
    refine ⟨pre, post, k1, k3, ?_⟩
    have : trimLeft s.length s = (trimBack (trimLeft s.length s).length (trimLeft s.length s).reverse).reverse ++ utf8 post := by
      conv_lhs => rw [← List.reverse_reverse (trimLeft s.length s), k4]
      rw [List.reverse_append, List.reverse_reverse]
    rw [List.append_assoc, ← this]
    exact k2

/-- The first field of a trimmed text is the first word of the text. -/
theorem fields_trim (s w : Bytes) : (fields (trimSpace s)).head? = some w ↔ First s w := by
  obtain ⟨pre, post, h1, h2, h3⟩ := trimSpace_split s
  generalize trimSpace s = t at h3
  have up : ∀ w, First t w → First s w := by
    rintro w ⟨p, q, rfl, k1, k2, k3, k4⟩
    refine ⟨pre ++ p, q ++ utf8 post, ?_, ?_, k2, k3, ?_⟩
    · rw [h3, utf8_append]; simp only [List.append_assoc]
    · intro c hc
      rcases List.mem_append.1 hc with hc | hc
      · exact h1 c hc
      · exact k1 c hc
    · rcases k4 with rfl | ⟨c, x, hc, rfl⟩
      · cases post with
        | nil => exact .inl rfl
        | cons c post => exact .inr ⟨c, utf8 post, h2 c (by simp), rfl⟩
      · exact .inr ⟨c, x ++ utf8 post, hc, by rw [List.append_assoc]⟩
  rw [fields_uni, fieldsUni_iff _ _ _ (Nat.le_refl _)]
  refine ⟨up w, fun h => ?_⟩
  cases hf : fieldsUni [] t.length t with
  | nil =>
    obtain ⟨ws, k1, k2⟩ := (fieldsUni_nil t _ (Nat.le_refl _)).1 hf
    have : fieldsUni [] s.length s = [] := by
      refine (fieldsUni_nil s _ (Nat.le_refl _)).2 ⟨pre ++ ws ++ post, ?_, ?_⟩
      · intro c hc
        simp only [List.mem_append] at hc
        rcases hc with (hc | hc) | hc
        · exact h1 c hc
        · exact k1 c hc
        · exact h2 c hc
      · rw [utf8_append, utf8_append, ← k2]; exact h3
    have k := (fieldsUni_iff s w _ (Nat.le_refl _)).2 h
    rw [this] at k
    cases k
  | cons v vs =>
    have hv : First t v := (fieldsUni_iff t v _ (Nat.le_refl _)).1 (by rw [hf]; rfl)
    have k1 := (fieldsUni_iff s v _ (Nat.le_refl _)).2 (up v hv)
    have k2 := (fieldsUni_iff s w _ (Nat.le_refl _)).2 h
    rw [k1] at k2
    injection k2 with k2
    exact k2 ▸ hv

/-- There is no field iff there is nothing but white space. -/
theorem fields_trim_nil (s : Bytes) : fields (trimSpace s) = [] ↔ ∃ ws : List Nat, (∀ c ∈ ws, White c) ∧ s = utf8 ws := by
  obtain ⟨pre, post, h1, h2, h3⟩ := trimSpace_split s
  constructor
  · intro h
    rw [fields_uni, fieldsUni_nil _ _ (Nat.le_refl _)] at h
    obtain ⟨ws, k1, k2⟩ := h
    refine ⟨pre ++ ws ++ post, ?_, ?_⟩
    · intro c hc
      simp only [List.mem_append] at hc
      rcases hc with (hc | hc) | hc
      · exact h1 c hc
      · exact k1 c hc
      · exact h2 c hc
    · rw [utf8_append, utf8_append, ← k2]; exact h3
  · rintro ⟨ws, k1, rfl⟩
    cases hf : fields (trimSpace (utf8 ws)) with
    | nil => rfl
    | cons v vs =>
      have := (fields_trim (utf8 ws) v).1 (by rw [hf]; rfl)
      have k := (fieldsUni_iff _ v _ (Nat.le_refl _)).2 this
      rw [(fieldsUni_nil _ _ (Nat.le_refl _)).2 ⟨ws, k1, rfl⟩] at k
      cases k

end Str
end OnePass
