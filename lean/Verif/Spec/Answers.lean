/-
What the user types: lines of input, numerals, and the settings meant by them.
-/
import Verif.Model.World
import Verif.Go.StringsFacts
import Verif.Go.JsonFacts

namespace OnePass
namespace Spec

/-- Decimal value of a string of digits. -/
def decimal (ds : Bytes) : Nat := ds.foldl (fun a b => 10 * a + (b.toNat - 48)) 0

/-- `s` is a decimal numeral of `n`: digits, possibly with a sign. -/
def Numeral (s : Bytes) (n : Int) : Prop :=
  ∃ ds : Bytes, ds ≠ [] ∧ (∀ b ∈ ds, 48 ≤ b ∧ b ≤ 57) ∧
    ((s = ds ∨ s = 43 :: ds) ∧ n = decimal ds ∨ s = 45 :: ds ∧ n = -(decimal ds : Int))

open Str (Scalar White utf8)

/-- White space other than the line feed. -/
def Blank (c : Nat) : Prop := White c ∧ c ≠ 10

/-- Letters, digits and all other characters but white space. -/
def Letter (c : Nat) : Prop := Scalar c ∧ ¬ White c

instance (c : Nat) : Decidable (Blank c) := by unfold Blank; infer_instance
instance (c : Nat) : Decidable (Letter c) := by unfold Letter; infer_instance

/-- The next line of the input `s` consists of the single word `a` (nothing if `a` is empty), blanks around it
aside; `rest` is the input after it. The last line may lack its line feed. -/
def Types (s a rest : Bytes) : Prop :=
  ∃ pre post word : List Nat, (∀ c ∈ pre, Blank c) ∧ (∀ c ∈ post, Blank c) ∧ (∀ c ∈ word, Letter c) ∧ a = utf8 word ∧
    (s = utf8 pre ++ a ++ utf8 post ++ 10 :: rest ∨ s = utf8 pre ++ a ++ utf8 post ∧ rest = [])

/-- What a numeric answer does: a numeral between `lo` and `hi` is taken, anything else changes nothing. -/
def Chosen (lo hi : Int) (a : Bytes) (old new : Int) : Prop :=
  (∃ n, Numeral a n ∧ lo ≤ n ∧ n ≤ hi ∧ new = n) ∨ ((¬ ∃ n, Numeral a n ∧ lo ≤ n ∧ n ≤ hi) ∧ new = old)

end Spec

namespace Num
open Spec

theorem isDigitA_iff (b : UInt8) : Str.isDigitA b = true ↔ 48 ≤ b ∧ b ≤ 57 := by
  unfold Str.isDigitA; simp

/-- Value of digits read after the value `m`. -/
def onward (m : Nat) (ds : Bytes) : Nat := ds.foldl (fun a b => 10 * a + (b.toNat - 48)) m

theorem onward_ge (m : Nat) (ds : Bytes) : m ≤ onward m ds := by
  induction ds generalizing m with
  | nil => exact Nat.le_refl _
  | cons b r ih => exact Nat.le_trans (by omega) (ih (10 * m + (b.toNat - 48)))

theorem parseDigits_iff (m v : Nat) (ds : Bytes) (hm : m ≤ maxUint64) :
    parseDigits m ds = .ok v ↔ (∀ b ∈ ds, 48 ≤ b ∧ b ≤ 57) ∧ v = onward m ds ∧ v ≤ maxUint64 := by
  induction ds generalizing m with
  | nil => simp [parseDigits, onward]; constructor
           · rintro rfl; exact ⟨rfl, hm⟩
           · rintro ⟨rfl, _⟩; rfl
  | cons b r ih =>
    rw [parseDigits]
    by_cases hd : Str.isDigitA b = true
    · rw [if_pos hd]
      have e : onward m (b :: r) = onward (m * 10 + (b.toNat - 48)) r := by
        simp only [onward, List.foldl_cons]; congr 1; omega
      simp only
      by_cases hbig : m * 10 + (b.toNat - 48) > maxUint64
      · rw [if_pos hbig]
        constructor
        · intro h; cases h
        · rintro ⟨-, h2, h3⟩
          have := onward_ge (m * 10 + (b.toNat - 48)) r
          rw [← e, ← h2] at this
          omega
      · rw [if_neg hbig, ih _ (by omega), e]
        have hd' := (isDigitA_iff b).1 hd
        simp only [List.forall_mem_cons, hd', and_self, true_and]
    · rw [if_neg hd]
      constructor
      · intro h; cases h
      · rintro ⟨h1, -⟩
        exact absurd ((isDigitA_iff b).2 (h1 b (by simp))) hd

theorem parseUint_iff (v : Nat) (ds : Bytes) :
    parseUint ds = .ok v ↔ ds ≠ [] ∧ (∀ b ∈ ds, 48 ≤ b ∧ b ≤ 57) ∧ v = decimal ds ∧ v ≤ maxUint64 := by
  unfold parseUint
  by_cases h : ds = []
  · simp [h]
  · rw [if_neg h, parseDigits_iff 0 v ds (by decide)]
    simp [h, onward, decimal]

/-- `ParseInt` accepts exactly the decimal numerals of int64 values. -/
theorem parseInt_iff (s : Bytes) (v : Int) : parseInt s = (v, false) ↔
    Numeral s v ∧ -9223372036854775808 ≤ v ∧ v < 9223372036854775808 := by
  have main : ∀ (neg : Bool) (body : Bytes),
      (match parseUint body with
        | .syntaxErr => ((0 : Int), true)
        | .rangeErr => if neg then (-9223372036854775808, true) else (9223372036854775808 - 1, true)
        | .ok un =>
          if !neg && un ≥ 9223372036854775808 then (9223372036854775808 - 1, true)
          else if neg && un > 9223372036854775808 then (-9223372036854775808, true)
          else (if neg then -(un : Int) else un, false)) = (v, false) ↔
      (body ≠ [] ∧ (∀ b ∈ body, 48 ≤ b ∧ b ≤ 57) ∧ v = (if neg then -(decimal body : Int) else decimal body)) ∧
        -9223372036854775808 ≤ v ∧ v < 9223372036854775808 := by
    intro neg body
    cases hp : parseUint body with
    | syntaxErr =>
      constructor
      · intro h; cases h
      · rintro ⟨⟨h1, h2, h3⟩, h4, h5⟩
        have : parseUint body = .ok (decimal body) := (parseUint_iff _ _).2 ⟨h1, h2, rfl, by
          unfold maxUint64; cases neg <;> simp at h3 <;> omega⟩
        rw [this] at hp; cases hp
    | rangeErr =>
      constructor
      · intro h; cases neg <;> cases h
      · rintro ⟨⟨h1, h2, h3⟩, h4, h5⟩
        have : parseUint body = .ok (decimal body) := (parseUint_iff _ _).2 ⟨h1, h2, rfl, by
          unfold maxUint64; cases neg <;> simp at h3 <;> omega⟩
        rw [this] at hp; cases hp
    | ok un =>
      obtain ⟨h1, h2, h3, h4⟩ := (parseUint_iff _ _).1 hp
      subst h3
      cases neg with
      | false =>
        simp only [Bool.not_false, Bool.true_and, decide_eq_true_eq, Bool.false_and, Bool.false_eq_true, if_false]
        by_cases hb : decimal body ≥ 9223372036854775808
        · simp only [hb, if_true]
          constructor
          · intro h; cases h
          · rintro ⟨⟨-, -, h5⟩, h6⟩; omega
        · simp only [hb, if_false, Prod.mk.injEq, and_true]
          constructor
          · intro h; exact ⟨⟨h1, h2, h.symm⟩, by omega, by omega⟩
          · rintro ⟨⟨-, -, h5⟩, -⟩; exact h5.symm
      | true =>
        simp only [Bool.not_true, Bool.true_and, decide_eq_true_eq, Bool.false_and, Bool.false_eq_true, if_false, if_true]
        by_cases hb : decimal body > 9223372036854775808
        · simp only [hb, if_true]
          constructor
          · intro h; cases h
          · rintro ⟨⟨-, -, h5⟩, h6⟩; omega
        · simp only [hb, if_false, Prod.mk.injEq, and_true]
          constructor
          · intro h; exact ⟨⟨h1, h2, h.symm⟩, by omega, by omega⟩
          · rintro ⟨⟨-, -, h5⟩, -⟩; exact h5.symm
  unfold parseInt
  split
  rename_i neg body heq
  split at heq
  · rename_i r
    cases heq
    refine Iff.trans (main false _) ?_
    refine and_congr_left (fun _ => ?_)
    constructor
    · rintro ⟨h1, h2, h3⟩; exact ⟨body, h1, h2, .inl ⟨.inr rfl, by simpa using h3⟩⟩
    · rintro ⟨ds, h1, h2, (⟨rfl | h3, h4⟩ | ⟨h3, h4⟩)⟩
      · exact absurd (h2 43 (by simp)) (by decide)
      · cases h3; exact ⟨h1, h2, by simpa using h4⟩
      · cases h3
  · rename_i r
    cases heq
    refine Iff.trans (main true _) ?_
    refine and_congr_left (fun _ => ?_)
    constructor
    · rintro ⟨h1, h2, h3⟩; exact ⟨body, h1, h2, .inr ⟨rfl, by simpa using h3⟩⟩
    · rintro ⟨ds, h1, h2, (⟨rfl | h3, h4⟩ | ⟨h3, h4⟩)⟩
      · exact absurd (h2 45 (by simp)) (by decide)
      · cases h3
      · cases h3; exact ⟨h1, h2, by simpa using h4⟩
  · rename_i n1 n2
    cases heq
    refine Iff.trans (main false _) ?_
    refine and_congr_left (fun _ => ?_)
    constructor
    · rintro ⟨h1, h2, h3⟩; exact ⟨s, h1, h2, .inl ⟨.inl rfl, by simpa using h3⟩⟩
    · rintro ⟨ds, h1, h2, (⟨rfl | h3, h4⟩ | ⟨h3, h4⟩)⟩
      · exact ⟨h1, h2, by simpa using h4⟩
      · exact absurd h3 (n1 ds)
      · exact absurd h3 (n2 ds)

end Num

namespace Fmt
open Spec
open Str (Scalar White utf8 utf8_cons enc_cases spaceLen_enc ofNat_toNat eq_lit)
open Json (utf8Enc utf8Len)

theorem utf8Len_enc {c : Nat} (h : Scalar c) (h1 : 128 ≤ c) : utf8Len (utf8Enc c) = (utf8Enc c).length ∧ 2 ≤ (utf8Enc c).length := by
  have cont : ∀ n, 128 ≤ n → n < 192 → Json.isCont (UInt8.ofNat n) = true := by
    intro n k1 k2
    unfold Json.isCont
    simp only [Bool.and_eq_true, decide_eq_true_eq, UInt8.le_iff_toNat_le, ofNat_toNat (show n < 256 by omega)]
    exact ⟨k1, show n ≤ 191 by omega⟩
  rcases enc_cases h with ⟨h2, e⟩ | ⟨-, h2, e⟩ | ⟨h0, h2, e⟩ | ⟨h0, h2, e⟩
  · omega
  · rw [e]
    have b1 : 0xC0 + c / 64 < 256 := by omega
    have k : (0xC2 ≤ UInt8.ofNat (0xC0 + c / 64) && UInt8.ofNat (0xC0 + c / 64) ≤ 0xDF) = true := by
      simp only [Bool.and_eq_true, decide_eq_true_eq, UInt8.le_iff_toNat_le, ofNat_toNat b1]
      exact ⟨show 194 ≤ 0xC0 + c / 64 by omega, show 0xC0 + c / 64 ≤ 223 by omega⟩
    unfold Json.utf8Len
    simp only [k, cont _ (show 128 ≤ 0x80 + c % 64 by omega) (by omega), if_true]
    exact ⟨rfl, by simp⟩
  · rw [e]
    have b1 : 0xE0 + c / 4096 < 256 := by omega
    have b2 : 0x80 + c / 64 % 64 < 256 := by omega
    have k0 : (0xC2 ≤ UInt8.ofNat (0xE0 + c / 4096) && UInt8.ofNat (0xE0 + c / 4096) ≤ 0xDF) = false := by
      rw [← Bool.not_eq_true]
      simp only [Bool.and_eq_true, decide_eq_true_eq, UInt8.le_iff_toNat_le, ofNat_toNat b1]
      intro ⟨_, k⟩
      have : 0xE0 + c / 4096 ≤ 223 := k
      omega
    have k1 : UInt8.ofNat (0xE0 + c / 4096) = 0xE0 ↔ c < 4096 := by rw [eq_lit b1]; show _ = 224 ↔ _; omega
    have k2 : UInt8.ofNat (0xE0 + c / 4096) = 0xED ↔ 53248 ≤ c ∧ c < 57344 := by rw [eq_lit b1]; show _ = 237 ↔ _; omega
    have k3 : (0xE1 ≤ UInt8.ofNat (0xE0 + c / 4096) && UInt8.ofNat (0xE0 + c / 4096) ≤ 0xEF) = true ↔ 4096 ≤ c := by
      simp only [Bool.and_eq_true, decide_eq_true_eq, UInt8.le_iff_toNat_le, ofNat_toNat b1]
      show 225 ≤ _ ∧ _ ≤ 239 ↔ _
      omega
    have k4 : (0xA0 ≤ UInt8.ofNat (0x80 + c / 64 % 64) && UInt8.ofNat (0x80 + c / 64 % 64) ≤ 0xBF) = true ↔ 32 ≤ c / 64 % 64 := by
      simp only [Bool.and_eq_true, decide_eq_true_eq, UInt8.le_iff_toNat_le, ofNat_toNat b2]
      show 160 ≤ _ ∧ _ ≤ 191 ↔ _
      omega
    have k5 : (0x80 ≤ UInt8.ofNat (0x80 + c / 64 % 64) && UInt8.ofNat (0x80 + c / 64 % 64) ≤ 0x9F) = true ↔ c / 64 % 64 < 32 := by
      simp only [Bool.and_eq_true, decide_eq_true_eq, UInt8.le_iff_toNat_le, ofNat_toNat b2]
      show 128 ≤ _ ∧ _ ≤ 159 ↔ _
      omega
    have c2 := cont _ (show 128 ≤ 0x80 + c / 64 % 64 by omega) (by omega)
    have c3 := cont _ (show 128 ≤ 0x80 + c % 64 by omega) (by omega)
    refine ⟨?_, by simp⟩
    unfold Json.utf8Len
    simp only [k0, c2, c3, Bool.and_true, Bool.false_eq_true, if_false, beq_iff_eq, List.length_cons, List.length_nil]
    unfold Scalar at h
    by_cases hA : c < 4096
    · rw [if_pos (k1.2 hA), if_pos (k4.2 (by omega))]
    · rw [if_neg (fun h => hA (k1.1 h))]
      by_cases hB : 53248 ≤ c ∧ c < 57344
      · rw [if_pos (k2.2 hB), if_pos (k5.2 (by omega))]
      · rw [if_neg (fun h => hB (k2.1 h)), if_pos (k3.2 (by omega))]
        simp
  · rw [e]
    have b1 : 0xF0 + c / 262144 < 256 := by omega
    have b2 : 0x80 + c / 4096 % 64 < 256 := by omega
    have k0 : (0xC2 ≤ UInt8.ofNat (0xF0 + c / 262144) && UInt8.ofNat (0xF0 + c / 262144) ≤ 0xDF) = false := by
      rw [← Bool.not_eq_true]
      simp only [Bool.and_eq_true, decide_eq_true_eq, UInt8.le_iff_toNat_le, ofNat_toNat b1]
      intro ⟨_, k⟩
      have : 0xF0 + c / 262144 ≤ 223 := k
      omega
    have k1 : ¬ UInt8.ofNat (0xF0 + c / 262144) = 0xE0 := by rw [eq_lit b1]; show ¬ _ = 224; omega
    have k2 : ¬ UInt8.ofNat (0xF0 + c / 262144) = 0xED := by rw [eq_lit b1]; show ¬ _ = 237; omega
    have k3 : (0xE1 ≤ UInt8.ofNat (0xF0 + c / 262144) && UInt8.ofNat (0xF0 + c / 262144) ≤ 0xEF) = false := by
      rw [← Bool.not_eq_true]
      simp only [Bool.and_eq_true, decide_eq_true_eq, UInt8.le_iff_toNat_le, ofNat_toNat b1]
      show ¬ (225 ≤ _ ∧ _ ≤ 239)
      omega
    have k4 : UInt8.ofNat (0xF0 + c / 262144) = 0xF0 ↔ c < 262144 := by rw [eq_lit b1]; show _ = 240 ↔ _; omega
    have k5 : UInt8.ofNat (0xF0 + c / 262144) = 0xF4 ↔ 1048576 ≤ c := by rw [eq_lit b1]; show _ = 244 ↔ _; omega
    have k6 : (0xF1 ≤ UInt8.ofNat (0xF0 + c / 262144) && UInt8.ofNat (0xF0 + c / 262144) ≤ 0xF3) = true ↔
        262144 ≤ c ∧ c < 1048576 := by
      simp only [Bool.and_eq_true, decide_eq_true_eq, UInt8.le_iff_toNat_le, ofNat_toNat b1]
      show 241 ≤ _ ∧ _ ≤ 243 ↔ _
      omega
    have k7 : (0x90 ≤ UInt8.ofNat (0x80 + c / 4096 % 64) && UInt8.ofNat (0x80 + c / 4096 % 64) ≤ 0xBF) = true ↔ 16 ≤ c / 4096 % 64 := by
      simp only [Bool.and_eq_true, decide_eq_true_eq, UInt8.le_iff_toNat_le, ofNat_toNat b2]
      show 144 ≤ _ ∧ _ ≤ 191 ↔ _
      omega
    have k8 : (0x80 ≤ UInt8.ofNat (0x80 + c / 4096 % 64) && UInt8.ofNat (0x80 + c / 4096 % 64) ≤ 0x8F) = true ↔ c / 4096 % 64 < 16 := by
      simp only [Bool.and_eq_true, decide_eq_true_eq, UInt8.le_iff_toNat_le, ofNat_toNat b2]
      show 128 ≤ _ ∧ _ ≤ 143 ↔ _
      omega
    have c2 := cont _ (show 128 ≤ 0x80 + c / 4096 % 64 by omega) (by omega)
    have c3 := cont _ (show 128 ≤ 0x80 + c / 64 % 64 by omega) (by omega)
    have c4 := cont _ (show 128 ≤ 0x80 + c % 64 by omega) (by omega)
    refine ⟨?_, by simp⟩
    unfold Json.utf8Len
    simp only [k0, k3, c2, c3, c4, Bool.and_true, Bool.false_eq_true, if_false, beq_iff_eq, k1, k2, List.length_cons, List.length_nil]
    by_cases hA : c < 262144
    · rw [if_pos (k4.2 hA), if_pos (k7.2 (by omega))]
    · rw [if_neg (fun h => hA (k4.1 h))]
      by_cases hB : 1048576 ≤ c
      · rw [if_pos (k5.2 hB), if_pos (k8.2 (by omega))]
      · rw [if_neg (fun h => hB (k5.1 h)), if_pos (k6.2 (by omega))]
        simp

/-- Characters are read one by one. -/
theorem readRune_enc {c : Nat} (h : Scalar c) (x : Bytes) : readRune (utf8Enc c ++ x) = some (utf8Enc c, x) := by
  by_cases h1 : c < 128
  · have e : utf8Enc c = [UInt8.ofNat c] := by simp only [Json.utf8Enc, h1, if_true]
    have hb : UInt8.ofNat c < 128 := by
      rw [UInt8.lt_iff_toNat_lt, ofNat_toNat (by omega)]; exact h1
    rw [e, List.singleton_append, readRune, if_pos hb]
  · obtain ⟨h2, h3⟩ := utf8Len_enc h (by omega)
    obtain ⟨h4, h5⟩ := Json.utf8Len_append (x := x) h3 h2
    cases hu : utf8Enc c with
    | nil => rw [hu] at h3; simp at h3
    | cons b u =>
      have hb : ¬ b < 128 := by
        have := h5 b u hu
        rw [UInt8.lt_iff_toNat_lt]
        rw [UInt8.le_iff_toNat_le] at this
        omega
      rw [hu] at h4
      rw [List.cons_append] at h4 ⊢
      rw [readRune, if_neg hb, if_neg (by rw [h4]; simp), h4]
      rw [← List.cons_append, List.take_left, List.drop_left]

theorem blank_scalar {c : Nat} (h : White c) : Scalar c := by unfold White at h; unfold Scalar; omega

theorem spaceLen_white {c : Nat} (h : White c) : Str.spaceLen (utf8Enc c) ≠ 0 := by
  have := spaceLen_enc (blank_scalar h) []
  rw [List.append_nil, if_pos h] at this
  rw [this]
  simpa using Str.enc_ne c

theorem spaceLen_letter {c : Nat} (h : Letter c) : Str.spaceLen (utf8Enc c) = 0 := by
  have := spaceLen_enc h.1 []
  rwa [List.append_nil, if_neg h.2] at this

theorem enc_newline {c : Nat} (h : Scalar c) : utf8Enc c = [10] ↔ c = 10 := by
  constructor
  · intro hc
    rcases enc_cases h with ⟨h1, e⟩ | ⟨h1, h2, e⟩ | ⟨h1, h2, e⟩ | ⟨h1, h2, e⟩
    · rw [e] at hc
      have := (eq_lit (by omega) 10).1 (List.singleton_inj.1 hc)
      exact this
    all_goals rw [e] at hc; simp at hc
  · rintro rfl; rfl

theorem afterWord_blanks (post : List Nat) (r : Bytes) (h : ∀ c ∈ post, Blank c) (n : Nat) (hn : post.length < n) :
    afterWord n (utf8 post ++ 10 :: r) = r := by
  induction post generalizing n with
  | nil =>
    cases n with
    | zero => omega
    | succ n => rfl
  | cons c post ih =>
    cases n with
    | zero => omega
    | succ n =>
      have hc := h c (by simp)
      rw [utf8_cons, List.append_assoc, afterWord, readRune_enc (blank_scalar hc.1)]
      simp only
      rw [if_neg (fun e => hc.2 ((enc_newline (blank_scalar hc.1)).1 e)), if_neg (spaceLen_white hc.1)]
      exact ih (fun c hc => h c (by simp [hc])) n (by simpa using hn)

theorem afterWord_eof (post : List Nat) (h : ∀ c ∈ post, Blank c) (n : Nat) (hn : post.length ≤ n) : afterWord n (utf8 post) = [] := by
  induction post generalizing n with
  | nil => cases n <;> rfl
  | cons c post ih =>
    cases n with
    | zero => simp at hn
    | succ n =>
      have hc := h c (by simp)
      rw [utf8_cons, afterWord, readRune_enc (blank_scalar hc.1)]
      simp only
      rw [if_neg (fun e => hc.2 ((enc_newline (blank_scalar hc.1)).1 e)), if_neg (spaceLen_white hc.1)]
      exact ih (fun c hc => h c (by simp [hc])) n (by simpa using hn)

theorem scanFrom_skip (pre : List Nat) (s : Bytes) (h : ∀ c ∈ pre, Blank c) (n : Nat) :
    scanFrom (pre.length + n) (utf8 pre ++ s) = scanFrom n s := by
  induction pre with
  | nil => simp [utf8]
  | cons c pre ih =>
    have hc := h c (by simp)
    rw [List.length_cons, show pre.length + 1 + n = (pre.length + n) + 1 by omega, utf8_cons, List.append_assoc, scanFrom,
      readRune_enc (blank_scalar hc.1)]
    simp only
    rw [if_neg (fun e => hc.2 ((enc_newline (blank_scalar hc.1)).1 e)), if_neg (spaceLen_white hc.1)]
    exact ih (fun c hc => h c (by simp [hc]))

theorem takeWord_word (word : List Nat) (s : Bytes) (h : ∀ c ∈ word, Letter c)
    (hs : s = [] ∨ ∃ c x, s = utf8Enc c ++ x ∧ White c) (n : Nat) (hn : word.length ≤ n) :
    takeWord n (utf8 word ++ s) = (utf8 word, s) := by
  induction word generalizing n with
  | nil =>
    show takeWord n s = ([], s)
    cases n with
    | zero => rfl
    | succ n =>
      rcases hs with rfl | ⟨c, x, rfl, hc⟩
      · rfl
      · rw [takeWord, readRune_enc (blank_scalar hc)]
        simp only
        rw [if_neg (spaceLen_white hc)]
  | cons c word ih =>
    cases n with
    | zero => simp at hn
    | succ n =>
      have hc := h c (by simp)
      rw [utf8_cons, List.append_assoc, takeWord, readRune_enc hc.1]
      simp only
      rw [if_pos (spaceLen_letter hc), ih (fun c hc => h c (by simp [hc])) n (by simpa using hn)]

theorem scanFrom_word (word : List Nat) (s : Bytes) (hw : word ≠ []) (h : ∀ c ∈ word, Letter c)
    (hs : s = [] ∨ ∃ c x, s = utf8Enc c ++ x ∧ White c) (n : Nat) (hn : 0 < n) :
    scanFrom n (utf8 word ++ s) = (utf8 word, afterWord (utf8 word ++ s).length s) := by
  have ht := takeWord_word word s h hs (utf8 word ++ s).length
    (by have := Str.utf8_length word; rw [List.length_append]; omega)
  cases n with
  | zero => omega
  | succ n =>
    cases word with
    | nil => exact absurd rfl hw
    | cons c word =>
      have hc := h c (by simp)
      rw [scanFrom, ht]
      rw [show readRune (utf8 (c :: word) ++ s) = some (utf8Enc c, utf8 word ++ s) by
        rw [utf8_cons, List.append_assoc, readRune_enc hc.1]]
      simp only
      rw [if_neg, if_pos (spaceLen_letter hc)]
      intro e
      have := (enc_newline hc.1).1 e
      subst this
      exact hc.2 (by decide)

/-- `Scanln` reads a line of one word. -/
theorem scanWord_types {s a rest : Bytes} (h : Types s a rest) : scanWord s = (a, rest) := by
  obtain ⟨pre, post, word, h1, h2, h3, rfl, h4⟩ := h
  have lens := fun l => Str.utf8_length l
  have hsp : ∀ tail : Bytes, (tail = [] ∨ ∃ r, tail = 10 :: r) → (utf8 post ++ tail = [] ∨ ∃ c x, utf8 post ++ tail = utf8Enc c ++ x ∧ White c) := by
    intro tail ht
    cases post with
    | nil =>
      rcases ht with rfl | ⟨r, rfl⟩
      · exact .inl rfl
      · exact .inr ⟨10, r, rfl, by decide⟩
    | cons c post => exact .inr ⟨c, utf8 post ++ tail, by rw [utf8_cons, List.append_assoc], (h2 c (by simp)).1⟩
  unfold scanWord
  rcases h4 with rfl | ⟨rfl, rfl⟩
  · rw [List.append_assoc, List.append_assoc]
    obtain ⟨n, hn⟩ : ∃ n, (utf8 pre ++ (utf8 word ++ (utf8 post ++ 10 :: rest))).length = pre.length + (post.length + (n + 1)) := by
      refine ⟨(utf8 pre).length + (utf8 word).length + (utf8 post).length + rest.length - pre.length - post.length, ?_⟩
      have := lens pre; have := lens post
      simp only [List.length_append, List.length_cons]
      omega
    rw [hn, scanFrom_skip pre _ h1]
    by_cases hw : word = []
    · subst hw
      show scanFrom _ (utf8 post ++ 10 :: rest) = _
      rw [scanFrom_skip post _ h2]
      rfl
    · rw [scanFrom_word word _ hw h3 (hsp _ (.inr ⟨rest, rfl⟩)) _ (by omega), afterWord_blanks post rest h2]
      have := lens post
      simp only [List.length_append, List.length_cons]
      omega
  · rw [List.append_assoc]
    obtain ⟨n, hn⟩ : ∃ n, (utf8 pre ++ (utf8 word ++ utf8 post)).length = pre.length + n :=
      ⟨(utf8 pre).length - pre.length + (utf8 word).length + (utf8 post).length, by
        have := lens pre
        simp only [List.length_append]
        omega⟩
    rw [hn, scanFrom_skip pre _ h1]
    have hn2 : (utf8 word).length + (utf8 post).length ≤ n := by
      simp only [List.length_append] at hn
      have := lens pre
      omega
    by_cases hw : word = []
    · subst hw
      show scanFrom _ (utf8 post) = _
      have := scanFrom_skip post [] h2 (n - post.length)
      rw [List.append_nil, Nat.add_sub_cancel' (by have := lens post; omega)] at this
      rw [this]
      cases n - post.length <;> rfl
    · have := hsp [] (.inl rfl)
      rw [List.append_nil] at this
      have hp : 0 < word.length := List.length_pos_iff.2 hw
      rw [scanFrom_word word _ hw h3 this _ (by have := lens word; omega), afterWord_eof post h2]
      have := lens post
      simp only [List.length_append]
      omega

end Fmt
end OnePass
