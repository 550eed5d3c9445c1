/-
The parser reads every rendering of a document as that document.
-/
import Verif.Go.Json

set_option linter.unusedSimpArgs false

namespace OnePass
namespace Json

/-- What may follow a value: nothing, white space, a comma or a closing bracket. -/
def Delim : Bytes → Prop
  | [] => True
  | b :: _ => isWs b = true ∨ b = 44 ∨ b = 93 ∨ b = 125

/-- The text does not start with white space. -/
def NoWs : Bytes → Prop
  | [] => True
  | b :: _ => isWs b = false

theorem skipWs_append {w r : Bytes} (hw : WS w) (hr : NoWs r) : skipWs (w ++ r) = r := by
  induction w with
  | nil =>
    cases r with
    | nil => rfl
    | cons b r => simp only [NoWs] at hr; simp [skipWs, hr]
  | cons b w ih =>
    have hb : isWs b = true := hw b (by simp)
    have := ih (fun x hx => hw x (by simp [hx]))
    simp only [skipWs, List.cons_append, List.dropWhile_cons, hb, if_true]
    exact this

theorem skipWs_all {w : Bytes} (hw : WS w) : skipWs w = [] := by
  simpa using skipWs_append (r := []) hw trivial

theorem ws_delim {w r : Bytes} (hw : WS w) (hr : Delim r) : Delim (w ++ r) := by
  cases w with
  | nil => simpa using hr
  | cons b w => exact .inl (hw b (by simp))

/-! ### Strings -/

theorem utf8Len_append {u x : Bytes} (h2 : 2 ≤ u.length) (h : utf8Len u = u.length) :
    utf8Len (u ++ x) = u.length ∧ ∀ b r, u = b :: r → 128 ≤ b := by
  match u with
  | [] => simp at h2
  | [_] => simp at h2
  | [b0, b1] =>
    simp only [utf8Len, List.length_cons, List.length_nil] at h
    have hc : (0xC2 ≤ b0 && b0 ≤ 0xDF) = true := by
      by_contra hc
      simp [hc] at h
    refine ⟨?_, ?_⟩
    · simp only [hc, if_true] at h
      simpa [utf8Len, hc] using h
    · intro b r hb
      cases hb
      simp only [Bool.and_eq_true, decide_eq_true_eq] at hc
      have : (0xC2 : UInt8).toNat ≤ b0.toNat := hc.1
      show (128 : UInt8).toNat ≤ b0.toNat
      simp at this ⊢; omega
  | [b0, b1, b2] =>
    have key : ∀ b0 : UInt8, (0xE0 ≤ b0 ∧ b0 ≤ 0xEF) → 128 ≤ b0 ∧ (0xC2 ≤ b0 && b0 ≤ 0xDF) = false := by
      intro b; revert b; decide +kernel
    simp only [utf8Len, List.length_cons, List.length_nil] at h
    have hr : 0xE0 ≤ b0 ∧ b0 ≤ 0xEF := by
      by_contra hc
      have e1 : (b0 == 0xE0) = false := by
        by_contra h'; simp at h'; subst h'; exact hc (by decide)
      have e2 : (b0 == 0xED) = false := by
        by_contra h'; simp at h'; subst h'; exact hc (by decide)
      have e3 : (0xE1 ≤ b0 && b0 ≤ 0xEF) = false := by
        by_contra h'
        simp only [Bool.not_eq_false, Bool.and_eq_true, decide_eq_true_eq] at h'
        refine hc ⟨?_, h'.2⟩
        exact Nat.le_trans (by decide) h'.1
      rw [e1, e2, e3] at h
      revert h
      split
      · split <;> simp
      · simp
    refine ⟨?_, fun b r hb => by cases hb; exact (key _ hr).1⟩
    rw [(key _ hr).2] at h
    simp only [utf8Len, List.cons_append, List.nil_append, (key _ hr).2]
    revert h
    cases (b0 == 0xE0) <;> cases (b0 == 0xED) <;> cases (0xE1 ≤ b0 && b0 ≤ 0xEF) <;>
      simp
  | [b0, b1, b2, b3] =>
    have key : ∀ b0 : UInt8, (0xF0 ≤ b0 ∧ b0 ≤ 0xF4) → 128 ≤ b0 ∧ (0xC2 ≤ b0 && b0 ≤ 0xDF) = false ∧
        (b0 == 0xE0) = false ∧ (b0 == 0xED) = false ∧ (0xE1 ≤ b0 && b0 ≤ 0xEF) = false := by
      intro b; revert b; decide +kernel
    simp only [utf8Len, List.length_cons, List.length_nil] at h
    have hr : 0xF0 ≤ b0 ∧ b0 ≤ 0xF4 := by
      by_contra hc
      have e1 : (b0 == 0xF0) = false := by
        by_contra h'; simp at h'; subst h'; exact hc (by decide)
      have e2 : (b0 == 0xF4) = false := by
        by_contra h'; simp at h'; subst h'; exact hc (by decide)
      have e3 : (0xF1 ≤ b0 && b0 ≤ 0xF3) = false := by
        by_contra h'
        simp only [Bool.not_eq_false, Bool.and_eq_true, decide_eq_true_eq] at h'
        exact hc ⟨Nat.le_trans (by decide) h'.1, Nat.le_trans h'.2 (by decide)⟩
      rw [e1, e2, e3] at h
      revert h
      split
      · split <;> simp
      · split
        · split <;> simp
        · split
          · split <;> simp
          · split
            · split <;> simp
            · simp
    obtain ⟨k1, k2, k3, k4, k5⟩ := key _ hr
    refine ⟨?_, fun b r hb => by cases hb; exact k1⟩
    rw [k2, k3, k4, k5] at h
    simp only [utf8Len, List.cons_append, List.nil_append, k2, k3, k4, k5]
    exact h
  | b0 :: b1 :: b2 :: b3 :: b4 :: u =>
    exfalso
    have : utf8Len (b0 :: b1 :: b2 :: b3 :: b4 :: u) ≤ 4 := by
      simp only [utf8Len]
      repeat' split
      all_goals omega
    rw [h] at this
    simp at this

theorem escChar_some {e c : UInt8} (h : escChar e = some c) : e ≠ 117 := by
  rintro rfl
  revert h
  have : escChar 117 = none := by decide
  simp [this]

theorem isCont_34 : isCont 34 = false := by decide

/-- The closing quote completes no UTF-8 sequence. -/
theorem utf8Len_quote (b : UInt8) (t r : Bytes) : utf8Len (b :: t ++ 34 :: r) = utf8Len (b :: t) := by
  match t with
  | [] =>
    have e1 : (160 ≤ (34 : UInt8)) = False := by decide
    have e2 : (128 ≤ (34 : UInt8)) = False := by decide
    have e3 : (144 ≤ (34 : UInt8)) = False := by decide
    show utf8Len (b :: 34 :: r) = 0
    simp only [utf8Len]
    split
    · simp [isCont_34]
    · cases r with
      | nil => rfl
      | cons b2 r =>
        simp only [isCont_34, e1, e2, decide_false, Bool.false_and, Bool.false_eq_true, if_false]
        repeat' split
        all_goals first | rfl | simp_all
  | [b1] =>
    show utf8Len (b :: b1 :: 34 :: r) = utf8Len [b, b1]
    simp only [utf8Len, isCont_34]
    split
    · rfl
    · simp only [Bool.and_false, Bool.false_eq_true, if_false]
      repeat' split
      all_goals first | rfl | simp_all
  | [b1, b2] =>
    show utf8Len (b :: b1 :: b2 :: 34 :: r) = utf8Len [b, b1, b2]
    simp only [utf8Len, isCont_34]
    split
    · rfl
    · simp only [Bool.and_false, Bool.false_eq_true, if_false]
      repeat' split
      all_goals first | rfl | simp_all
  | b1 :: b2 :: b3 :: t => rfl

theorem hexVal_34 : hexVal 34 = none := by decide

/-- Nor an escape. -/
theorem getu4_quote (t r : Bytes) : getu4 (t ++ 34 :: r) = (getu4 t).map (fun x => (x.1, x.2 ++ 34 :: r)) := by
  match t with
  | [] => rfl
  | [x] => unfold getu4; split <;> simp_all
  | [x, y] =>
    have hn : getu4 [x, y] = none := by unfold getu4; split <;> simp_all
    rw [hn]
    show getu4 (x :: y :: 34 :: r) = none
    unfold getu4
    split
    · rename_i h
      simp only [List.cons.injEq] at h
      obtain ⟨-, -, rfl, -⟩ := h
      simp [hex4, hexVal_34]
    · rfl
  | [x, y, z] =>
    have hn : getu4 [x, y, z] = none := by unfold getu4; split <;> simp_all
    rw [hn]
    show getu4 (x :: y :: z :: 34 :: r) = none
    unfold getu4
    split
    · rename_i h
      simp only [List.cons.injEq] at h
      obtain ⟨-, -, -, rfl, -⟩ := h
      cases hexVal z <;> simp [hex4, hexVal_34, *]
    · rfl
  | [x, y, z, u] =>
    have hn : getu4 [x, y, z, u] = none := by unfold getu4; split <;> simp_all
    rw [hn]
    show getu4 (x :: y :: z :: u :: 34 :: r) = none
    unfold getu4
    split
    · rename_i h
      simp only [List.cons.injEq] at h
      obtain ⟨-, -, rfl, rfl, rfl, -⟩ := h
      simp [hex4, hexVal_34]
    · rfl
  | [x, y, z, u, v] =>
    have hn : getu4 [x, y, z, u, v] = none := by unfold getu4; split <;> simp_all
    rw [hn]
    show getu4 (x :: y :: z :: u :: v :: 34 :: r) = none
    unfold getu4
    split
    · rename_i h
      simp only [List.cons.injEq] at h
      obtain ⟨-, -, rfl, rfl, rfl, rfl, -⟩ := h
      simp [hex4, hexVal_34]
    · rfl
  | x :: y :: z :: u :: v :: w :: t =>
    show getu4 (x :: y :: z :: u :: v :: w :: (t ++ 34 :: r)) = _
    by_cases hx : x = 92 ∧ y = 117
    · obtain ⟨rfl, rfl⟩ := hx
      simp only [getu4, Option.map_map]
      rfl
    · have : ∀ l, getu4 (x :: y :: z :: u :: v :: w :: l) = none := by
        intro l
        unfold getu4
        split
        · rename_i h
          simp only [List.cons.injEq] at h
          exact absurd ⟨h.1, h.2.1⟩ hx
        · rfl
      rw [this, this]; rfl

theorem getu4_some {t r : Bytes} {n : Nat} (h : getu4 t = some (n, r)) :
    ∃ a b c d, t = 92 :: 117 :: a :: b :: c :: d :: r ∧ hex4 a b c d = some n := by
  unfold getu4 at h
  split at h
  · rename_i a b c d r'
    cases hh : hex4 a b c d with
    | none => simp [hh] at h
    | some m =>
      simp only [hh, Option.map_some, Option.some.injEq, Prod.mk.injEq] at h
      obtain ⟨rfl, rfl⟩ := h
      exact ⟨a, b, c, d, rfl, hh⟩
  · cases h

theorem isHigh_not_low {n : Nat} (h : isLow n = true) : isHigh n = false := by
  simp only [isLow, isHigh, Bool.and_eq_true, decide_eq_true_eq, Bool.and_eq_false_iff, decide_eq_false_iff_not] at h ⊢
  omega

theorem pStr_complete {t s : Bytes} (h : StrR t s) :
    ∀ (f : Nat) (r : Bytes), t.length + 1 ≤ f → pStr f (t ++ 34 :: r) = some (s, r) := by
  induction h with
  | nil =>
    intro f r hf
    obtain ⟨f, rfl⟩ : ∃ g, f = g + 1 := ⟨f - 1, by omega⟩
    simp [pStr]
  | @plain b t s h1 h2 h3 h4 _ ih =>
    intro f r hf
    obtain ⟨f, rfl⟩ : ∃ g, f = g + 1 := ⟨f - 1, by omega⟩
    have h1' : ¬ b < 32 := by exact Nat.not_lt.2 h1
    simp [pStr, h3, h4, h1', h2, ih f r (by simp only [List.length_append, List.length_cons, List.length_nil] at hf ⊢; omega)]
  | @utf8 u t s h1 h2 _ ih =>
    intro f r hf
    obtain ⟨f, rfl⟩ : ∃ g, f = g + 1 := ⟨f - 1, by omega⟩
    have hu := utf8Len_append (x := t ++ 34 :: r) h1 h2
    have := ih f r (by simp only [List.length_append, List.length_cons, List.length_nil] at hf ⊢; omega)
    cases hc : u with
    | nil => simp [hc] at h1
    | cons b u' =>
      have hb : 128 ≤ b := hu.2 b u' hc
      have n34 : b ≠ 34 := by rintro rfl; revert hb; decide
      have n92 : b ≠ 92 := by rintro rfl; revert hb; decide
      have n32 : ¬ b < 32 := by
        intro h'; have h1 : b.toNat < 32 := h'; have h2 : 128 ≤ b.toNat := hb; omega
      have n128 : ¬ b < 128 := by
        intro h'; have h1 : b.toNat < 128 := h'; have h2 : 128 ≤ b.toNat := hb; omega
      have hl : utf8Len (b :: (u' ++ (t ++ 34 :: r))) = u'.length + 1 := by
        have := hu.1; rw [hc] at this; simpa using this
      simp only [List.cons_append, List.append_assoc, pStr, n34, n92, n32, n128, if_false, hl]
      simp [this]
  | @esc e c t s h1 _ ih =>
    intro f r hf
    obtain ⟨f, rfl⟩ : ∃ g, f = g + 1 := ⟨f - 1, by omega⟩
    simp [pStr, escChar_some h1, h1, ih f r (by simp only [List.length_append, List.length_cons, List.length_nil] at hf ⊢; omega)]
  | @uni a b c d n t s h1 h2 h3 _ ih =>
    intro f r hf
    obtain ⟨f, rfl⟩ : ∃ g, f = g + 1 := ⟨f - 1, by omega⟩
    simp [pStr, getu4, h1, h2, h3, ih f r (by simp only [List.length_append, List.length_cons, List.length_nil] at hf ⊢; omega)]
  | @pair a b c d a' b' c' d' n n' t s h1 h2 h3 h4 _ ih =>
    intro f r hf
    obtain ⟨f, rfl⟩ : ∃ g, f = g + 1 := ⟨f - 1, by omega⟩
    simp [pStr, getu4, h1, h2, h3, h4, ih f r (by simp only [List.length_append, List.length_cons, List.length_nil] at hf ⊢; omega)]
  | @badByte b t s hb h0 _ ih =>
    intro f r hf
    obtain ⟨f, rfl⟩ : ∃ g, f = g + 1 := ⟨f - 1, by omega⟩
    have n34 : b ≠ 34 := by rintro rfl; revert hb; decide
    have n92 : b ≠ 92 := by rintro rfl; revert hb; decide
    have n32 : ¬ b < 32 := by
      intro h'; have h1 : b.toNat < 32 := h'; have h2 : 128 ≤ b.toNat := hb; omega
    have n128 : ¬ b < 128 := by
      intro h'; have h1 : b.toNat < 128 := h'; have h2 : 128 ≤ b.toNat := hb; omega
    have hl : utf8Len (b :: (t ++ 34 :: r)) = 0 := (utf8Len_quote b t r).trans h0
    simp only [List.cons_append, pStr, n34, n92, n32, n128, if_false, hl,
      ih f r (by simp only [List.length_append, List.length_cons, List.length_nil] at hf ⊢; omega), Option.map_some]
  | @loneHigh a b c d n t s h1 h2 h3 _ ih =>
    intro f r hf
    obtain ⟨f, rfl⟩ : ∃ g, f = g + 1 := ⟨f - 1, by omega⟩
    have hi := ih f r (by simp only [List.length_append, List.length_cons, List.length_nil] at hf ⊢; omega)
    have hg : getu4 (92 :: 117 :: a :: b :: c :: d :: (t ++ 34 :: r)) = some (n, t ++ 34 :: r) := by simp [getu4, h1]
    have e34 : ((92 : UInt8) = 34) = False := by decide
    simp only [List.cons_append, pStr, e34, if_false, if_true, hg, h2]
    cases hq : getu4 (t ++ 34 :: r) with
    | none => simp only [hi, Option.map_some]
    | some q =>
      obtain ⟨n2, r2⟩ := q
      rw [getu4_quote] at hq
      cases hq' : getu4 t with
      | none => rw [hq'] at hq; cases hq
      | some q' =>
        rw [hq'] at hq
        simp only [Option.map_some, Option.some.injEq, Prod.mk.injEq] at hq
        obtain ⟨rfl, rfl⟩ := hq
        obtain ⟨a', b', c', d', ht, hh⟩ := getu4_some hq'
        have := h3 _ _ _ _ _ _ ht hh
        simp only [this, Bool.false_eq_true, if_false, hi, Option.map_some]
  | @loneLow a b c d n t s h1 h2 _ ih =>
    intro f r hf
    obtain ⟨f, rfl⟩ : ∃ g, f = g + 1 := ⟨f - 1, by omega⟩
    simp [pStr, getu4, h1, h2, isHigh_not_low h2,
      ih f r (by simp only [List.length_append, List.length_cons, List.length_nil] at hf ⊢; omega)]

/-! ### Numbers -/

/-- The text does not go on with a digit. -/
def NoDigit : Bytes → Prop
  | [] => True
  | b :: _ => Str.isDigitA b = false

theorem digits_append {l r : Bytes} (hl : Digits l) (hr : NoDigit r) : digits (l ++ r) = (l, r) := by
  induction l with
  | nil =>
    cases r with
    | nil => rfl
    | cons b r => simp only [NoDigit] at hr; simp [digits, hr]
  | cons b l ih =>
    have hb : Str.isDigitA b = true := hl b (by simp)
    have := ih (fun x hx => hl x (by simp [hx]))
    simp only [digits, Prod.mk.injEq] at this
    simp [digits, hb, this.1, this.2]

theorem delim_noDigit {r : Bytes} (h : Delim r) : NoDigit r := by
  cases r with
  | nil => trivial
  | cons b r =>
    have : ∀ b : UInt8, (isWs b = true ∨ b = 44 ∨ b = 93 ∨ b = 125) → Str.isDigitA b = false := by
      intro b; revert b; decide +kernel
    exact this b h

theorem number_complete {t r : Bytes} (ht : NumR t) (hr : Delim r) : number (t ++ r) = some (t, r) := by
  obtain ⟨sign, i, fr, e, rfl, hs, hi, hf, he⟩ := ht
  -- the exponent
  have hexp : expPart (e ++ r) = some (e, r) := by
    rcases he with rfl | ⟨b, s, ds, rfl, hb, hs, hne, hd⟩
    · cases r with
      | nil => rfl
      | cons b r =>
        have : ∀ b : UInt8, (isWs b = true ∨ b = 44 ∨ b = 93 ∨ b = 125) → ¬ (b = 101 ∨ b = 69) := by
          intro b; revert b; decide +kernel
        simp [expPart, this b hr]
    · have hsg : expSign (s ++ ds ++ r) = (s, ds ++ r) := by
        rcases hs with rfl | rfl | rfl
        · cases ds with
          | nil => exact absurd rfl hne
          | cons x ds =>
            have hx := hd x (by simp)
            have key : ∀ x : UInt8, Str.isDigitA x = true → ¬ (x = 43 ∨ x = 45) := by
              intro x; revert x; decide +kernel
            simp [expSign, key x hx]
        · simp [expSign]
        · simp [expSign]
      have hdg := digits_append hd (delim_noDigit hr)
      have : ds.isEmpty = false := by simpa using hne
      simp only [List.append_assoc] at hsg
      simp only [List.cons_append, List.append_assoc, expPart, hb, if_true, hsg, hdg, this]
      rfl
  -- what follows the fraction
  have hfr : fracPart (fr ++ (e ++ r)) = some (fr, e ++ r) := by
    have ne46 : ∀ b : UInt8, (isWs b = true ∨ b = 44 ∨ b = 93 ∨ b = 125) → b ≠ 46 := by
      intro b; revert b; decide +kernel
    have nd : NoDigit (e ++ r) := by
      rcases he with rfl | ⟨b, s, ds, rfl, hb, -⟩
      · exact delim_noDigit hr
      · rcases hb with rfl | rfl <;> simp [NoDigit] <;> decide
    rcases hf with rfl | ⟨ds, rfl, hne, hd⟩
    · have : ∀ rr, e ++ r ≠ 46 :: rr := by
        intro rr hrr
        rcases he with rfl | ⟨b, s, ds, rfl, hb, -⟩
        · simp at hrr; rw [hrr] at hr; exact ne46 46 hr rfl
        · simp at hrr; rcases hb with rfl | rfl
          · exact absurd hrr.1 (by decide)
          · exact absurd hrr.1 (by decide)
      simp only [List.nil_append]
      unfold fracPart
      split
      · rename_i rr heq; exact absurd heq (this rr)
      · rfl
    · have hdg := digits_append hd nd
      simp [fracPart, hdg, hne]
  have hint : intPart (i ++ (fr ++ (e ++ r))) = some (i, fr ++ (e ++ r)) := by
    have nd : NoDigit (fr ++ (e ++ r)) := by
      rcases hf with rfl | ⟨ds, rfl, -⟩
      · rcases he with rfl | ⟨b, s, ds, rfl, hb, -⟩
        · exact delim_noDigit hr
        · rcases hb with rfl | rfl <;> simp [NoDigit] <;> decide
      · simp [NoDigit]; decide
    rcases hi with rfl | ⟨b, ds, rfl, hb, hb', hd⟩
    · simp [intPart]
    · have hdg := digits_append hd nd
      simp [intPart, hb, hb', hdg]
  rcases hs with rfl | rfl
  · have hh : ∀ rr, i ++ (fr ++ (e ++ r)) ≠ 45 :: rr := by
      intro rr hrr
      rcases hi with rfl | ⟨b, ds, rfl, -, hb', -⟩
      · simp at hrr
      · simp at hrr; rw [hrr.1] at hb'; revert hb'; decide
    have : number ([] ++ i ++ fr ++ e ++ r) = number (i ++ (fr ++ (e ++ r))) := by simp
    rw [this]
    unfold number
    split
    rename_i sg s0 heq
    split at heq
    · rename_i rr h'; exact absurd h' (hh rr)
    · cases heq
      simp [hint, hfr, hexp]
  · have : number ([45] ++ i ++ fr ++ e ++ r) = number (45 :: (i ++ (fr ++ (e ++ r)))) := by simp
    rw [this]
    simp [number, hint, hfr, hexp]

/-! ### Values -/

/-- A byte a value can start with. -/
def Start (b : UInt8) : Prop :=
  b = 110 ∨ b = 116 ∨ b = 102 ∨ b = 34 ∨ b = 91 ∨ b = 123 ∨ b = 45 ∨ Str.isDigitA b = true

instance (b : UInt8) : Decidable (Start b) := by unfold Start; infer_instance

theorem start_facts : ∀ b : UInt8, Start b → isWs b = false ∧ b ≠ 93 ∧ b ≠ 125 := by
  intro b; unfold Start; revert b; decide +kernel

theorem valR_head {d : Nat} {t : Bytes} {j : Json} (h : ValR d t j) : ∃ b r, t = b :: r ∧ Start b := by
  cases h with
  | null => exact ⟨_, _, rfl, by decide⟩
  | tru => exact ⟨_, _, rfl, by decide⟩
  | fls => exact ⟨_, _, rfl, by decide⟩
  | num h =>
    obtain ⟨sign, i, fr, e, rfl, hs, hi, -, -⟩ := h
    rcases hs with rfl | rfl
    · rcases hi with rfl | ⟨b, ds, rfl, -, hb', -⟩
      · exact ⟨_, _, rfl, by decide⟩
      · exact ⟨b, ds ++ fr ++ e, by simp, by simp [Start, hb']⟩
    · exact ⟨45, i ++ fr ++ e, by simp, by simp [Start]⟩
  | str _ => exact ⟨_, _, rfl, by decide⟩
  | arr0 _ => exact ⟨_, _, rfl, by decide⟩
  | arr _ _ => exact ⟨_, _, rfl, by decide⟩
  | obj0 _ => exact ⟨_, _, rfl, by decide⟩
  | obj _ _ => exact ⟨_, _, rfl, by decide⟩

theorem elemsR_head {d : Nat} {t : Bytes} {l : List Json} (h : ElemsR d t l) :
    ∃ b r, t = b :: r ∧ Start b := by
  cases h with
  | one h _ => obtain ⟨b, r, rfl, hb⟩ := valR_head h; exact ⟨b, _, rfl, hb⟩
  | cons h _ _ _ => obtain ⟨b, r, rfl, hb⟩ := valR_head h; exact ⟨b, _, rfl, hb⟩

theorem memsR_head {d : Nat} {t : Bytes} {m : Members} (h : MemsR d t m) : ∃ r, t = 34 :: r := by
  cases h <;> exact ⟨_, rfl⟩

theorem number_value {t : Bytes} (ht : NumR t) (f d : Nat) (r : Bytes) (hr : Delim r) :
    pValue (f + 1) d (t ++ r) = some (.num t, r) := by
  have hn := number_complete ht hr
  have : ∃ b t', t = b :: t' ∧ (b = 45 ∨ Str.isDigitA b = true) := by
    obtain ⟨sign, i, fr, e, rfl, hs, hi, -, -⟩ := ht
    rcases hs with rfl | rfl
    · rcases hi with rfl | ⟨b, ds, rfl, -, hb', -⟩
      · exact ⟨_, _, rfl, by decide⟩
      · exact ⟨b, ds ++ fr ++ e, by simp, .inr hb'⟩
    · exact ⟨45, i ++ fr ++ e, by simp, by simp⟩
  obtain ⟨b, t', rfl, hb⟩ := this
  have key : ∀ b : UInt8, (b = 45 ∨ Str.isDigitA b = true) →
      b ≠ 34 ∧ b ≠ 123 ∧ b ≠ 91 ∧ b ≠ 110 ∧ b ≠ 116 ∧ b ≠ 102 := by
    intro b; revert b; decide +kernel
  obtain ⟨k1, k2, k3, k4, k5, k6⟩ := key b hb
  simp only [List.cons_append] at hn ⊢
  unfold pValue
  split
  · rename_i h; simp at h; exact absurd h.1 k1
  · rename_i h; simp at h; exact absurd h.1 k2
  · rename_i h; simp at h; exact absurd h.1 k3
  · rename_i h; simp at h; exact absurd h.1 k4
  · rename_i h; simp at h; exact absurd h.1 k5
  · rename_i h; simp at h; exact absurd h.1 k6
  · simp [hn]

theorem noWs_of_start {b : UInt8} {r : Bytes} (h : Start b) : NoWs (b :: r) := (start_facts b h).1

theorem delim_bracket (r : Bytes) : Delim (93 :: r) := .inr (.inr (.inl rfl))
theorem delim_brace (r : Bytes) : Delim (125 :: r) := .inr (.inr (.inr rfl))
theorem delim_comma (r : Bytes) : Delim (44 :: r) := .inr (.inl rfl)

theorem noWs_93 (r : Bytes) : NoWs (93 :: r) := by show isWs 93 = false; decide
theorem noWs_125 (r : Bytes) : NoWs (125 :: r) := by show isWs 125 = false; decide
theorem noWs_44 (r : Bytes) : NoWs (44 :: r) := by show isWs 44 = false; decide
theorem noWs_58 (r : Bytes) : NoWs (58 :: r) := by show isWs 58 = false; decide
theorem noWs_34 (r : Bytes) : NoWs (34 :: r) := by show isWs 34 = false; decide

mutual

theorem pValue_complete {d : Nat} {t : Bytes} {j : Json} (h : ValR d t j) (f : Nat) (r : Bytes)
    (hf : t.length + 1 ≤ f) (hr : Delim r) : pValue f d (t ++ r) = some (j, r) := by
  obtain ⟨f, rfl⟩ : ∃ g, f = g + 1 := ⟨f - 1, by omega⟩
  match h with
  | .null => simp [pValue]
  | .tru => simp [pValue]
  | .fls => simp [pValue]
  | .num hn => exact number_value hn f d r hr
  | .str hs =>
    rename_i t s
    have := pStr_complete hs (t.length + (r.length + 1) + 1) r (by omega)
    simp [pValue, this]
  | .arr0 hw =>
    rename_i w
    simp [pValue, skipWs_append hw (noWs_93 r)]
  | .arr hw he =>
    rename_i d w t l
    have ih := pElems_complete he f r (by simp only [List.length_append, List.length_cons, List.length_nil] at hf ⊢; omega)
    obtain ⟨b, t', rfl, hb⟩ := elemsR_head he
    have hsk : skipWs (w ++ (b :: t' ++ 93 :: r)) = b :: t' ++ 93 :: r :=
      skipWs_append hw (noWs_of_start hb)
    have h93 := (start_facts b hb).2.1
    simp only [List.cons_append, List.append_assoc, List.nil_append, pValue] at hsk ih ⊢
    rw [hsk]
    split
    · rename_i heq; simp at heq; exact absurd heq.1 h93
    · simp [ih]
  | .obj0 hw =>
    rename_i w
    simp [pValue, skipWs_append hw (noWs_125 r)]
  | .obj hw hm =>
    rename_i d w t m
    have ih := pMembers_complete hm f r (by simp only [List.length_append, List.length_cons, List.length_nil] at hf ⊢; omega)
    obtain ⟨t', rfl⟩ := memsR_head hm
    have hsk : skipWs (w ++ (34 :: t' ++ 125 :: r)) = 34 :: t' ++ 125 :: r :=
      skipWs_append hw (noWs_34 _)
    simp only [List.cons_append, List.append_assoc, List.nil_append, pValue] at hsk ih ⊢
    rw [hsk]
    simp [ih]
termination_by structural h

theorem pElems_complete {d : Nat} {t : Bytes} {l : List Json} (h : ElemsR d t l) (f : Nat) (r : Bytes)
    (hf : t.length + 2 ≤ f) : pElems f d (t ++ 93 :: r) = some (l, r) := by
  obtain ⟨f, rfl⟩ : ∃ g, f = g + 1 := ⟨f - 1, by omega⟩
  match h with
  | .one hv hw =>
    rename_i t j w
    have ih := pValue_complete hv f (w ++ 93 :: r) (by simp only [List.length_append, List.length_cons, List.length_nil] at hf ⊢; omega) (ws_delim hw (delim_bracket r))
    simp only [List.append_assoc, pElems]
    rw [ih]
    simp [skipWs_append hw (noWs_93 r)]
  | .cons hv hw hw' he =>
    rename_i t j w w' ts l
    have ih := pValue_complete hv f (w ++ 44 :: (w' ++ (ts ++ 93 :: r))) (by simp only [List.length_append, List.length_cons, List.length_nil] at hf ⊢; omega)
      (ws_delim hw (delim_comma _))
    have ih2 := pElems_complete he f r (by simp only [List.length_append, List.length_cons, List.length_nil] at hf ⊢; omega)
    obtain ⟨b, t', rfl, hb⟩ := elemsR_head he
    simp only [List.append_assoc, List.cons_append, pElems] at ih ih2 ⊢
    rw [ih]
    simp only []
    rw [skipWs_append hw (noWs_44 _)]
    simp only []
    rw [skipWs_append hw' (noWs_of_start hb), ih2]
    rfl
termination_by structural h

theorem pMembers_complete {d : Nat} {t : Bytes} {m : Members} (h : MemsR d t m) (f : Nat) (r : Bytes)
    (hf : t.length + 2 ≤ f) : pMembers f d (t ++ 125 :: r) = some (m, r) := by
  obtain ⟨f, rfl⟩ : ∃ g, f = g + 1 := ⟨f - 1, by omega⟩
  match h with
  | .one hk hw1 hw2 hv hw3 =>
    rename_i kt k w1 w2 t j w3
    have ih := pValue_complete hv f (w3 ++ 125 :: r) (by simp only [List.length_append, List.length_cons, List.length_nil] at hf ⊢; omega) (ws_delim hw3 (delim_brace r))
    have hs := pStr_complete hk ((kt ++ 34 :: (w1 ++ 58 :: (w2 ++ (t ++ (w3 ++ 125 :: r))))).length + 1)
      (w1 ++ 58 :: (w2 ++ (t ++ (w3 ++ 125 :: r)))) (by simp only [List.length_append, List.length_cons]; omega)
    obtain ⟨b, t', rfl, hb⟩ := valR_head hv
    simp only [List.append_assoc, List.cons_append, pMembers] at ih hs ⊢
    rw [hs]
    simp only []
    rw [skipWs_append hw1 (noWs_58 _)]
    simp only []
    rw [skipWs_append hw2 (noWs_of_start hb), ih]
    simp only []
    rw [skipWs_append hw3 (noWs_125 _)]
    rfl
  | .cons hk hw1 hw2 hv hw3 hw4 hm =>
    rename_i kt k w1 w2 t j w3 w4 ts m
    have ih := pValue_complete hv f (w3 ++ 44 :: (w4 ++ (ts ++ 125 :: r))) (by simp only [List.length_append, List.length_cons, List.length_nil] at hf ⊢; omega)
      (ws_delim hw3 (delim_comma _))
    have ih2 := pMembers_complete hm f r (by simp only [List.length_append, List.length_cons, List.length_nil] at hf ⊢; omega)
    have hs := pStr_complete hk
      ((kt ++ 34 :: (w1 ++ 58 :: (w2 ++ (t ++ (w3 ++ 44 :: (w4 ++ (ts ++ 125 :: r))))))).length + 1)
      (w1 ++ 58 :: (w2 ++ (t ++ (w3 ++ 44 :: (w4 ++ (ts ++ 125 :: r)))))) (by simp only [List.length_append, List.length_cons]; omega)
    obtain ⟨b, t', rfl, hb⟩ := valR_head hv
    obtain ⟨ts', rfl⟩ := memsR_head hm
    simp only [List.append_assoc, List.cons_append, pMembers] at ih ih2 hs ⊢
    rw [hs]
    simp only []
    rw [skipWs_append hw1 (noWs_58 _)]
    simp only []
    rw [skipWs_append hw2 (noWs_of_start hb), ih]
    simp only []
    rw [skipWs_append hw3 (noWs_44 _)]
    simp only []
    rw [skipWs_append hw4 (noWs_34 _), ih2]
    rfl
termination_by structural h

end

/-- Every rendering of a document is parsed as that document. -/
theorem parse_complete {t : Bytes} {j : Json} (h : DocR t j) : parse t = some j := by
  obtain ⟨w1, t', w2, hw1, hw2, hv, rfl⟩ := h
  obtain ⟨b, t'', rfl, hb⟩ := valR_head hv
  have hd : Delim w2 := by
    have := ws_delim hw2 (r := []) trivial
    simpa using this
  have := pValue_complete hv ((w1 ++ (b :: t'' ++ w2)).length + 1) w2 (by simp; omega) hd
  simp only [parse, List.append_assoc]
  have hsk : skipWs (w1 ++ (b :: t'' ++ w2)) = b :: t'' ++ w2 := skipWs_append hw1 (noWs_of_start hb)
  rw [hsk, this]
  simp [skipWs_all hw2]

/-! ### The map view of an object -/

theorem get_append (a b : Members) (k : Bytes) :
    get (a ++ b) k = match get b k with | some x => some x | none => get a k := by
  induction a with
  | nil => simp [get]; cases get b k <;> rfl
  | cons e a ih =>
    obtain ⟨k', v⟩ := e
    simp only [List.cons_append, get, ih]
    cases get b k <;> rfl

theorem get_some_mem {m : Members} {k : Bytes} {v : Json} (h : get m k = some v) : (k, v) ∈ m := by
  induction m with
  | nil => simp [get] at h
  | cons e m ih =>
    obtain ⟨k', v'⟩ := e
    simp only [get] at h
    split at h
    · rename_i x hx; cases h; exact List.mem_cons_of_mem _ (ih hx)
    · split at h
      · rename_i hk; cases h; subst hk; simp
      · cases h

theorem get_none_iff {m : Members} {k : Bytes} : get m k = none ↔ k ∉ m.map (·.1) := by
  induction m with
  | nil => simp [get]
  | cons e m ih =>
    obtain ⟨k', v'⟩ := e
    simp only [get, List.map_cons, List.mem_cons, not_or]
    cases hg : get m k with
    | some x =>
      simp only [hg, reduceCtorEq, false_iff] at ih ⊢
      push Not at ih ⊢
      exact fun _ => ih
    | none =>
      simp only [hg, true_iff] at ih
      by_cases hk : k' = k
      · simp [hk]
      · simp [hk, ih]; exact fun h => hk h.symm

/-- The entries of the map are exactly its key/value pairs. -/
theorem mem_entries {m : Members} {k : Bytes} {v : Json} : (k, v) ∈ entries m ↔ get m k = some v := by
  induction m with
  | nil => simp [entries, get]
  | cons e m ih =>
    obtain ⟨k', v'⟩ := e
    have hany : m.any (fun e => e.1 == k') = true ↔ k' ∈ m.map (·.1) := by
      simp [List.any_eq_true]
    simp only [entries, get]
    by_cases h : m.any (fun e => e.1 == k') = true
    · rw [if_pos h, ih]
      have hk' : get m k' ≠ none := by
        intro hn; exact (get_none_iff.1 hn) (hany.1 h)
      cases hg : get m k with
      | some x => simp
      | none =>
        by_cases hk : k' = k
        · subst hk; exact absurd hg hk'
        · simp [hk]
    · rw [if_neg h]
      have hk' : get m k' = none := get_none_iff.2 (fun hm => h (hany.2 hm))
      simp only [List.mem_cons, Prod.mk.injEq, ih]
      cases hg : get m k with
      | some x =>
        constructor
        · rintro (⟨rfl, rfl⟩ | h)
          · rw [hk'] at hg; cases hg
          · exact h
        · intro h; exact .inr h
      | none =>
        by_cases hk : k' = k
        · subst hk; simp [eq_comm]
        · simp [hk]; intro h; exact absurd h.symm hk

/-- Keys of a map are distinct. -/
theorem entries_nodup (m : Members) : ((entries m).map (·.1)).Nodup := by
  induction m with
  | nil => simp [entries]
  | cons e m ih =>
    obtain ⟨k, v⟩ := e
    simp only [entries]
    split
    · exact ih
    · rename_i h
      simp only [List.map_cons, List.nodup_cons]
      refine ⟨?_, ih⟩
      intro hm
      obtain ⟨⟨k1, v1⟩, h1, h2⟩ := List.mem_map.1 hm
      simp only at h2; subst h2
      have := get_some_mem (mem_entries.1 h1)
      exact h (List.any_eq_true.2 ⟨_, this, by simp⟩)

end Json
end OnePass
