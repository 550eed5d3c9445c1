/-
`filepath.Match` decides whether the name fits the terms of the pattern.
-/
import Verif.Go.PathFacts
import Verif.Spec.Pattern

set_option linter.unusedSimpArgs false

namespace OnePass
namespace Path
open Spec

/-- The character belongs to one of the ranges. -/
def inRanges (rs : List (UInt8 × UInt8)) (b : UInt8) : Bool := rs.any (fun r => r.1 ≤ b && b ≤ r.2)

def takes : Term → UInt8 → Bool
  | .star, _ => false
  | .any, _ => true
  | .one c, b => b == c
  | .cls neg rs, b => inRanges rs b != neg

theorem takes_iff (t : Term) (b : UInt8) : takes t b = true ↔ t.Takes b := by
  have h : ∀ rs : List (UInt8 × UInt8), inRanges rs b = true ↔ ∃ r ∈ rs, r.1 ≤ b ∧ b ≤ r.2 := by
    intro rs; simp [inRanges]
  cases t with
  | star => simp [takes, Term.Takes]
  | any => simp [takes, Term.Takes]
  | one c => simp [takes, Term.Takes]
  | cls neg rs =>
    simp only [takes, Term.Takes, ← h]
    cases neg <;> cases inRanges rs b <;> simp

/-- The beginning of the name fits terms without stars: the rest of the name. -/
def take? : List Term → Bytes → Option Bytes
  | [], s => some s
  | _ :: _, [] => none
  | t :: ts, b :: s => if takes t b then take? ts s else none

theorem take?_length {ts : List Term} {s t : Bytes} (h : take? ts s = some t) :
    ∃ x, s = x ++ t ∧ x.length = ts.length := by
  induction ts generalizing s with
  | nil => simp [take?] at h; exact ⟨[], by simp [h], rfl⟩
  | cons a ts ih =>
    cases s with
    | nil => simp [take?] at h
    | cons b s =>
      simp only [take?] at h
      split at h
      · obtain ⟨x, hx, hl⟩ := ih h
        exact ⟨b :: x, by simp [hx], by simp [hl]⟩
      · cases h

def NoStar (ts : List Term) : Prop := ∀ t ∈ ts, t ≠ .star

theorem fits_append {ts us : List Term} (h : NoStar ts) (n : Bytes) :
    FitsName (ts ++ us) n ↔ ∃ t, take? ts n = some t ∧ FitsName us t := by
  induction ts generalizing n with
  | nil => simp [take?]
  | cons a ts ih =>
    have ih := ih (fun t ht => h t (by simp [ht]))
    constructor
    · intro hf
      cases n with
      | nil =>
        generalize hx : (a :: ts) ++ us = l at hf
        generalize hn : ([] : Bytes) = m at hf
        cases hf with
        | nil => simp at hx
        | char h1 h2 => cases hn
        | star x h2 =>
          simp at hx
          exact absurd hx.1 (h a (by simp))
      | cons b n =>
        generalize hx : (a :: ts) ++ us = l at hf
        generalize hn : b :: n = m at hf
        cases hf with
        | nil => simp at hx
        | char h1 h2 =>
          simp only [List.cons_append, List.cons.injEq] at hx hn
          obtain ⟨rfl, rfl⟩ := hx
          obtain ⟨rfl, rfl⟩ := hn
          rw [← takes_iff] at h1
          simp only [take?, h1, if_true]
          exact (ih _).1 h2
        | star x h2 =>
          simp at hx
          exact absurd hx.1 (h a (by simp))
    · rintro ⟨t, ht, hu⟩
      cases n with
      | nil => simp [take?] at ht
      | cons b n =>
        simp only [take?] at ht
        split at ht
        · rename_i hb
          exact .char ((takes_iff _ _).1 hb) ((ih _).2 ⟨t, ht, hu⟩)
        · cases ht

theorem fits_star {ts : List Term} {n : Bytes} : FitsName (.star :: ts) n ↔ ∃ z, z <:+ n ∧ FitsName ts z := by
  constructor
  · intro h
    generalize hx : Term.star :: ts = l at h
    cases h with
    | nil => cases hx
    | char h1 h2 =>
      simp only [List.cons.injEq] at hx
      obtain ⟨rfl, rfl⟩ := hx
      simp [Term.Takes] at h1
    | star x h2 =>
      simp only [List.cons.injEq, true_and] at hx
      subst hx
      exact ⟨_, List.suffix_append _ _, h2⟩
  · rintro ⟨z, ⟨x, rfl⟩, h⟩
    exact .star x h

theorem fits_nil {n : Bytes} : FitsName [] n ↔ n = [] := by
  constructor
  · intro h; cases h; rfl
  · rintro rfl; exact .nil

/-- More may be put in front of a name that fits a pattern starting with a star. -/
theorem fits_star_mono {ts : List Term} {z n : Bytes} (hz : z <:+ n) (h : FitsName (.star :: ts) z) :
    FitsName (.star :: ts) n := by
  rw [fits_star] at h ⊢
  obtain ⟨y, hy, hf⟩ := h
  exact ⟨y, hy.trans hz, hf⟩

theorem decodeRune_ascii {b : UInt8} {s : Bytes} (h : b < 128) : decodeRune (b :: s) = (b.toNat, 1) := by
  simp [decodeRune, h]

theorem getEsc_char {t r : Bytes} {c : UInt8} (h : CharR t c r) (hr : r ≠ []) : getEsc t = some (c.toNat, r) := by
  have hn : ∀ c : UInt8, c < 128 → ¬ (c.toNat = 0xFFFD ∧ (1 : Nat) = 1) := by
    intro c hc
    have : c.toNat < 128 := by simpa [UInt8.lt_iff_toNat_lt] using hc
    omega
  cases h with
  | plain _ _ h1 h2 h3 h4 =>
    simp only [getEsc, h1, h2, h3, or_self, if_false]
    rw [if_neg (by simp), decodeRune_ascii h4]
    rw [if_neg (hn c h4)]
    simp [hr]
  | escaped _ _ h4 =>
    rw [getEsc, if_neg (by decide)]
    simp only [if_true]
    rw [if_neg (by simp), decodeRune_ascii h4]
    rw [if_neg (hn c h4)]
    simp [hr]

theorem char_length {t r : Bytes} {c : UInt8} (h : CharR t c r) : r.length < t.length := by
  cases h <;> simp only [List.length_cons] <;> omega

theorem ranges_ne_nil {t p : Bytes} {rs : List (UInt8 × UInt8)} (h : RangesR t rs p) : t ≠ [] := by
  cases h with
  | close => simp
  | single h _ _ => cases h <;> simp
  | range h _ _ => cases h <;> simp

theorem ranges_length {t p : Bytes} {rs : List (UInt8 × UInt8)} (h : RangesR t rs p) : p.length < t.length := by
  induction h with
  | close => simp
  | single h _ _ ih => have := char_length h; omega
  | range h h' _ ih =>
    have := char_length h
    have := char_length h'
    simp at *
    omega

theorem char_head {t r : Bytes} {c : UInt8} (h : CharR t c r) : t.head? ≠ some 93 := by
  cases h with
  | plain _ _ h1 h2 h3 => simpa using h3
  | escaped => simp

theorem ranges_spec {t p : Bytes} {rs : List (UInt8 × UInt8)} (h : RangesR t rs p) (b : UInt8) (f : Nat)
    (hf : t.length ≤ f) (m any : Bool) (ha : any = true ∨ rs ≠ []) :
    ranges b.toNat f t m any = some (m || inRanges rs b, p) := by
  have hle : ∀ lo hi : UInt8, (decide (lo.toNat ≤ b.toNat) && decide (b.toNat ≤ hi.toNat)) = (decide (lo ≤ b) && decide (b ≤ hi)) := by
    intro lo hi; simp [UInt8.le_iff_toNat_le]
  induction h generalizing f m any with
  | close p =>
    cases f with
    | zero => simp at hf
    | succ f =>
      rcases ha with rfl | h
      · simp [ranges, inRanges]
      · exact absurd rfl h
  | @single t r p c rs hc hd hr ih =>
    cases f with
    | zero => have := char_length hc; omega
    | succ f =>
      rw [ranges, if_neg (fun h => char_head hc h.1), getEsc_char hc (ranges_ne_nil hr)]
      have hl := char_length hc
      dsimp only
      split
      · simp at hd
      · rw [ih f (by omega) _ true (.inl rfl), hle]
        simp [inRanges, Bool.or_assoc]
  | @range t r r' p lo hi rs hc hc' hr ih =>
    cases f with
    | zero => have := char_length hc; omega
    | succ f =>
      rw [ranges, if_neg (fun h => char_head hc h.1), getEsc_char hc (by simp)]
      have hl := char_length hc
      have hl' := char_length hc'
      simp only [List.length_cons] at hl
      dsimp only
      split
      · rename_i ch2 heq
        simp only [List.cons.injEq, true_and] at heq
        subst heq
        rw [getEsc_char hc' (ranges_ne_nil hr)]
        dsimp only
        rw [ih f (by omega) _ true (.inl rfl), hle]
        simp [inRanges, Bool.or_assoc]
      · rename_i h
        exact absurd rfl (h r)

/-- What is needed of the name: ASCII, unless the pattern has only stars and single characters. -/
def Readable (ts : List Term) (n : Bytes) : Prop := StarsOnly ts ∨ ∀ b ∈ n, b < 128

theorem matchChunk_spec {p : Bytes} {ts : List Term} (h : PatternR p ts) (hs : NoStar ts) (f : Nat) (hf : p.length < f)
    (n : Bytes) (hn : (47 : UInt8) ∉ n) (hr : Readable ts n) : matchChunk f p n = some (take? ts n) := by
  induction h generalizing f n with
  | nil =>
    cases f with
    | zero => omega
    | succ f => simp [matchChunk, take?]
  | star _ _ => exact absurd rfl (hs .star (by simp))
  | @any p ts hp ih =>
    cases f with
    | zero => omega
    | succ f =>
      cases n with
      | nil => simp [matchChunk, take?]
      | cons b n =>
        have hb : b < 128 := by
          rcases hr with h | h
          · rcases h .any (by simp) with h | ⟨c, h⟩ <;> cases h
          · exact h b (by simp)
        have hr' : Readable ts n := by
          rcases hr with h | h
          · exact .inl (fun t ht => h t (by simp [ht]))
          · exact .inr (fun t ht => h t (by simp [ht]))
        simp only [List.mem_cons, not_or] at hn
        rw [matchChunk.eq_def]
        simp only [show ((63 : UInt8) = 91) = False by simp, if_false, if_true, if_neg (Ne.symm hn.1),
          decodeRune_ascii hb, List.drop_succ_cons, List.drop_zero]
        rw [ih (fun t ht => hs t (by simp [ht])) f (by simp at hf; omega) n hn.2 hr']
        simp [take?, takes]
  | @one p ts c h1 h2 h3 h4 hp ih =>
    cases f with
    | zero => omega
    | succ f =>
      cases n with
      | nil => simp [matchChunk, take?]
      | cons b n =>
        have hr' : Readable ts n := by
          rcases hr with h | h
          · exact .inl (fun t ht => h t (by simp [ht]))
          · exact .inr (fun t ht => h t (by simp [ht]))
        simp only [List.mem_cons, not_or] at hn
        rw [matchChunk.eq_def]
        simp only [h2, h3, h4, if_false]
        rw [ih (fun t ht => hs t (by simp [ht])) f (by simp at hf; omega) n hn.2 hr']
        simp only [take?, takes]
        by_cases hc : c = b
        · simp [hc]
        · simp [hc, Ne.symm hc]
  | @escaped p ts c hp ih =>
    cases f with
    | zero => omega
    | succ f =>
      cases n with
      | nil => simp [matchChunk, take?]
      | cons b n =>
        have hr' : Readable ts n := by
          rcases hr with h | h
          · exact .inl (fun t ht => h t (by simp [ht]))
          · exact .inr (fun t ht => h t (by simp [ht]))
        simp only [List.mem_cons, not_or] at hn
        rw [matchChunk.eq_def]
        simp only [show ((92 : UInt8) = 91) = False by simp, show ((92 : UInt8) = 63) = False by simp, if_false, if_true]
        rw [ih (fun t ht => hs t (by simp [ht])) f (by simp at hf; omega) n hn.2 hr']
        simp only [take?, takes]
        by_cases hc : c = b
        · simp [hc]
        · simp [hc, Ne.symm hc]
  | @cls q p ts rs hq hrs hne hp ih =>
    cases f with
    | zero => omega
    | succ f =>
      cases n with
      | nil => simp [matchChunk, take?]
      | cons b n =>
        have hb : b < 128 := by
          rcases hr with h | h
          · rcases h (.cls false rs) (by simp) with h | ⟨c, h⟩ <;> cases h
          · exact h b (by simp)
        have hr' : Readable ts n := by
          rcases hr with h | h
          · exact .inl (fun t ht => h t (by simp [ht]))
          · exact .inr (fun t ht => h t (by simp [ht]))
        simp only [List.mem_cons, not_or] at hn
        have hl := ranges_length hrs
        simp only [List.length_cons] at hf
        have ih' := ih (fun t ht => hs t (by simp [ht])) f (by omega) n hn.2 hr'
        cases q with
        | nil => exact absurd rfl (ranges_ne_nil hrs)
        | cons c1 q =>
          have hc1 : c1 ≠ 94 := by simpa using hq
          rw [matchChunk.eq_def]
          simp only [if_true, hc1, if_false, decodeRune_ascii hb]
          rw [ranges_spec hrs b f (by omega) false false (.inr hne)]
          simp only [Bool.false_or, List.drop_succ_cons, List.drop_zero, ih', take?, takes,
            show (c1 == 94) = false by simpa using hc1]
          rcases Bool.eq_false_or_eq_true (inRanges rs b) with h | h <;> simp [h]
  | @neg q p ts rs hrs hne hp ih =>
    cases f with
    | zero => omega
    | succ f =>
      cases n with
      | nil => simp [matchChunk, take?]
      | cons b n =>
        have hb : b < 128 := by
          rcases hr with h | h
          · rcases h (.cls true rs) (by simp) with h | ⟨c, h⟩ <;> cases h
          · exact h b (by simp)
        have hr' : Readable ts n := by
          rcases hr with h | h
          · exact .inl (fun t ht => h t (by simp [ht]))
          · exact .inr (fun t ht => h t (by simp [ht]))
        simp only [List.mem_cons, not_or] at hn
        have hl := ranges_length hrs
        simp only [List.length_cons] at hf
        have ih' := ih (fun t ht => hs t (by simp [ht])) f (by omega) n hn.2 hr'
        rw [matchChunk.eq_def]
        simp only [if_true, decodeRune_ascii hb]
        rw [ranges_spec hrs b f (by omega) false false (.inr hne)]
        simp only [Bool.false_or, List.drop_succ_cons, List.drop_zero, ih', take?, takes, beq_self_eq_true]
        rcases Bool.eq_false_or_eq_true (inRanges rs b) with h | h <;> simp [h]

/-- The text of a class up to its closing bracket does not depend on what follows. -/
theorem char_split {t r : Bytes} {c : UInt8} (h : CharR t c r) :
    ∃ pre, t = pre ++ r ∧ ∀ x, CharR (pre ++ x) c x := by
  cases h with
  | plain _ _ h1 h2 h3 h4 => exact ⟨[c], rfl, fun x => .plain c x h1 h2 h3 h4⟩
  | escaped _ _ h => exact ⟨[92, c], rfl, fun x => .escaped c x h⟩

theorem scan_char {t r : Bytes} {c : UInt8} (h : CharR t c r) :
    ∃ pre, t = pre ++ r ∧ pre ≠ [] ∧ (∀ x, CharR (pre ++ x) c x) ∧
      ∀ x, scan true (pre ++ x) = (pre ++ (scan true x).1, (scan true x).2) := by
  cases h with
  | plain _ _ h1 h2 h3 h4 =>
    refine ⟨[c], rfl, by simp, fun x => .plain c x h1 h2 h3 h4, fun x => ?_⟩
    simp only [List.cons_append, List.nil_append]
    rw [scan.eq_def]
    simp only [h1, h3, if_false]
    by_cases h91 : c = 91
    · simp [h91]
    · simp [h91]
  | escaped _ _ h =>
    refine ⟨[92, c], rfl, by simp, fun x => .escaped c x h, fun x => ?_⟩
    simp only [List.cons_append, List.nil_append]
    rw [scan.eq_def]
    simp

theorem scan_ranges {t p : Bytes} {rs : List (UInt8 × UInt8)} (h : RangesR t rs p) :
    ∃ pre, t = pre ++ p ∧ pre ≠ [] ∧ (∀ x, RangesR (pre ++ x) rs x) ∧
      ∀ x, scan true (pre ++ x) = (pre ++ (scan false x).1, (scan false x).2) := by
  induction h with
  | close p => exact ⟨[93], rfl, by simp, fun x => .close x, fun x => by rw [List.cons_append, List.nil_append, scan.eq_def]; simp⟩
  | @single t r p c rs hc hd hr ih =>
    obtain ⟨a, ha, hane, hax, has⟩ := scan_char hc
    obtain ⟨e, he, hene, hex, hes⟩ := ih
    refine ⟨a ++ e, by simp [ha, he], by simp [hane], fun x => ?_, fun x => ?_⟩
    · rw [List.append_assoc]
      refine .single (hax _) ?_ (hex x)
      cases e with
      | nil => exact absurd rfl hene
      | cons b e => rw [he] at hd; simpa using hd
    · rw [List.append_assoc, has, hes]; simp
  | @range t r r' p lo hi rs hc hc' hr ih =>
    obtain ⟨a, ha, hane, hax, has⟩ := scan_char hc
    obtain ⟨d, hd, hdne, hdx, hds⟩ := scan_char hc'
    obtain ⟨e, he, hene, hex, hes⟩ := ih
    refine ⟨a ++ 45 :: (d ++ e), by simp [ha, he, hd], by simp [hane], fun x => ?_, fun x => ?_⟩
    · rw [List.append_assoc, List.cons_append, List.append_assoc]
      exact .range (hax _) (hdx _) (hex x)
    · rw [List.append_assoc, List.cons_append, List.append_assoc, has]
      have : ∀ y : Bytes, scan true (45 :: y) = (45 :: (scan true y).1, (scan true y).2) := by
        intro y; rw [scan.eq_def]; simp
      rw [this, hds, hes]; simp

/-- The pattern up to the next star. -/
theorem scan_spec {p : Bytes} {ts : List Term} (h : PatternR p ts) :
    ∃ us vs, ts = us ++ vs ∧ NoStar us ∧ PatternR (scan false p).1 us ∧ PatternR (scan false p).2 vs ∧
      (((scan false p).2 = [] ∧ vs = []) ∨ ((scan false p).2 ≠ [] ∧ ∃ vs', vs = .star :: vs')) ∧
      p = (scan false p).1 ++ (scan false p).2 := by
  induction h with
  | nil => exact ⟨[], [], rfl, by simp [NoStar], .nil, .nil, .inl ⟨rfl, rfl⟩, rfl⟩
  | @star p ts hp ih =>
    have e : scan false (42 :: p) = ([], 42 :: p) := by rw [scan.eq_def]; simp
    rw [e]
    exact ⟨[], .star :: ts, rfl, by simp [NoStar], .nil, .star hp, .inr ⟨by simp, ts, rfl⟩, rfl⟩
  | @any p ts hp ih =>
    obtain ⟨us, vs, h1, h2, h3, h4, h5, h6⟩ := ih
    have e : scan false (63 :: p) = (63 :: (scan false p).1, (scan false p).2) := by rw [scan.eq_def]; simp
    rw [e]
    refine ⟨.any :: us, vs, by simp [h1], ?_, .any h3, h4, h5, congrArg _ h6⟩
    intro t ht
    rcases List.mem_cons.1 ht with rfl | ht
    · simp
    · exact h2 t ht
  | @one p ts c c1 c2 c3 c4 hp ih =>
    obtain ⟨us, vs, h1, h2, h3, h4, h5, h6⟩ := ih
    have e : scan false (c :: p) = (c :: (scan false p).1, (scan false p).2) := by
      rw [scan.eq_def]
      by_cases h93 : c = 93
      · simp [h93]
      · simp [c1, c3, c4, h93]
    rw [e]
    refine ⟨.one c :: us, vs, by simp [h1], ?_, .one c c1 c2 c3 c4 h3, h4, h5, congrArg _ h6⟩
    intro t ht
    rcases List.mem_cons.1 ht with rfl | ht
    · simp
    · exact h2 t ht
  | @escaped p ts c hp ih =>
    obtain ⟨us, vs, h1, h2, h3, h4, h5, h6⟩ := ih
    have e : scan false (92 :: c :: p) = (92 :: c :: (scan false p).1, (scan false p).2) := by rw [scan.eq_def]; simp
    rw [e]
    refine ⟨.one c :: us, vs, by simp [h1], ?_, .escaped c h3, h4, h5, congrArg (92 :: c :: ·) h6⟩
    intro t ht
    rcases List.mem_cons.1 ht with rfl | ht
    · simp
    · exact h2 t ht
  | @cls q p ts rs hq hrs hne hp ih =>
    obtain ⟨us, vs, h1, h2, h3, h4, h5, h6⟩ := ih
    obtain ⟨pre, hpre, hprene, hx, hs⟩ := scan_ranges hrs
    subst hpre
    have e : scan false (91 :: (pre ++ p)) = (91 :: (pre ++ (scan false p).1), (scan false p).2) := by
      rw [scan.eq_def]; simp [hs]
    rw [e]
    refine ⟨.cls false rs :: us, vs, by simp [h1], ?_, .cls ?_ (hx _) hne h3, h4, h5, ?_⟩
    · intro t ht
      rcases List.mem_cons.1 ht with rfl | ht
      · simp
      · exact h2 t ht
    · cases pre with
      | nil => exact absurd rfl hprene
      | cons b e => simpa using hq
    · simp only [List.cons_append, List.append_assoc, ← h6]
  | @neg q p ts rs hrs hne hp ih =>
    obtain ⟨us, vs, h1, h2, h3, h4, h5, h6⟩ := ih
    obtain ⟨pre, hpre, hprene, hx, hs⟩ := scan_ranges hrs
    subst hpre
    have e' : scan true (94 :: (pre ++ p)) = (94 :: (scan true (pre ++ p)).1, (scan true (pre ++ p)).2) := by
      rw [scan.eq_def]; simp
    have e : scan false (91 :: 94 :: (pre ++ p)) = (91 :: 94 :: (pre ++ (scan false p).1), (scan false p).2) := by
      rw [scan.eq_def]; simp [hs, e']
    rw [e]
    refine ⟨.cls true rs :: us, vs, by simp [h1], ?_, .neg (hx _) hne h3, h4, h5, ?_⟩
    · intro t ht
      rcases List.mem_cons.1 ht with rfl | ht
      · simp
      · exact h2 t ht
    · simp only [List.cons_append, List.append_assoc, ← h6]

theorem readable_suffix {ts us vs : List Term} {n z : Bytes} (h : Readable (us ++ ts ++ vs) n) (hz : z <:+ n) :
    Readable ts z := by
  rcases h with h | h
  · exact .inl (fun t ht => h t (by simp [ht]))
  · exact .inr (fun b hb => h b (hz.subset hb))

/-- The last chunk must fit the end of the name. -/
theorem skip_last {p : Bytes} {ts : List Term} (h : PatternR p ts) (hs : NoStar ts) (hne : ts ≠ [])
    (n : Bytes) (hn : (47 : UInt8) ∉ n) (hr : Readable ts n) :
    ∃ o, skipMatch p true n = some o ∧ (o = none ∨ o = some []) ∧
      (o = some [] ↔ ∃ z, z <:+ n.tail ∧ take? ts z = some []) := by
  induction n with
  | nil =>
    refine ⟨none, rfl, .inl rfl, by simp, ?_⟩
    rintro ⟨z, hz, ht⟩
    have : z = [] := by simpa using hz
    subst this
    cases ts with
    | nil => exact absurd rfl hne
    | cons a ts => simp [take?] at ht
  | cons c n ih =>
    simp only [List.mem_cons, not_or] at hn
    have hr' : Readable ts n := readable_suffix (us := []) (vs := []) (by simpa using hr) (List.suffix_cons _ _)
    obtain ⟨o, ho, h1, h2⟩ := ih hn.2 hr'
    have hsuf : ∀ z, z <:+ n ↔ z = n ∨ z <:+ n.tail := by
      intro z
      cases n with
      | nil => simp
      | cons b n => simp [List.suffix_cons_iff]
    simp only [skipMatch, if_neg (Ne.symm hn.1), matchChunk_spec h hs (p.length + 1) (by omega) n hn.2 hr', List.tail_cons]
    cases ht : take? ts n with
    | none =>
      refine ⟨o, ho, h1, h2.trans ⟨?_, ?_⟩⟩
      · rintro ⟨z, hz, hz'⟩; exact ⟨z, (hsuf z).2 (.inr hz), hz'⟩
      · rintro ⟨z, hz, hz'⟩
        rcases (hsuf z).1 hz with rfl | hz
        · rw [ht] at hz'; cases hz'
        · exact ⟨z, hz, hz'⟩
    | some t =>
      dsimp only
      cases t with
      | nil =>
        refine ⟨some [], by simp, .inr rfl, ?_⟩
        simp only [true_iff]
        exact ⟨n, List.suffix_refl _, ht⟩
      | cons b t =>
        refine ⟨o, by simpa using ho, h1, h2.trans ⟨?_, ?_⟩⟩
        · rintro ⟨z, hz, hz'⟩; exact ⟨z, (hsuf z).2 (.inr hz), hz'⟩
        · rintro ⟨z, hz, hz'⟩
          rcases (hsuf z).1 hz with rfl | hz
          · rw [ht] at hz'; cases hz'
          · exact ⟨z, hz, hz'⟩

/-- The first place where the chunk fits leaves the longest rest. -/
theorem take?_suffix {ts : List Term} {n z t t' : Bytes} (hz : z <:+ n) (h : take? ts n = some t)
    (h' : take? ts z = some t') : t' <:+ t := by
  obtain ⟨x, rfl, hx⟩ := take?_length h
  obtain ⟨x', rfl, hx'⟩ := take?_length h'
  have h1 : t' <:+ x ++ t := (List.suffix_append _ _).trans hz
  have hl := hz.length_le
  simp only [List.length_append] at hl
  exact List.suffix_of_suffix_length_le h1 (List.suffix_append _ _) (by omega)

theorem skip_first {p : Bytes} {ts : List Term} (h : PatternR p ts) (hs : NoStar ts)  (hne : ts ≠ [])
    (n : Bytes) (hn : (47 : UInt8) ∉ n) (hr : Readable ts n) :
    ∃ o, skipMatch p false n = some o ∧ (o = none → ∀ z, z <:+ n.tail → take? ts z = none) ∧
      (∀ t, o = some t → (∃ z, z <:+ n.tail ∧ take? ts z = some t) ∧
        ∀ z t', z <:+ n.tail → take? ts z = some t' → t' <:+ t) := by
  induction n with
  | nil =>
    refine ⟨none, rfl, fun _ z hz => ?_, by simp⟩
    have : z = [] := by simpa using hz
    subst this
    cases ts with
    | nil => exact absurd rfl hne
    | cons a ts => rfl
  | cons c n ih =>
    simp only [List.mem_cons, not_or] at hn
    have hr' : Readable ts n := readable_suffix (us := []) (vs := []) (by simpa using hr) (List.suffix_cons _ _)
    obtain ⟨o, ho, h1, h2⟩ := ih hn.2 hr'
    have hsuf : ∀ z, z <:+ n ↔ z = n ∨ z <:+ n.tail := by
      intro z
      cases n with
      | nil => simp
      | cons b n => simp [List.suffix_cons_iff]
    simp only [skipMatch, if_neg (Ne.symm hn.1), matchChunk_spec h hs (p.length + 1) (by omega) n hn.2 hr', List.tail_cons]
    cases ht : take? ts n with
    | none =>
      refine ⟨o, ho, fun hn z hz => ?_, fun t hot => ⟨?_, fun z t' hz hz' => ?_⟩⟩
      · rcases (hsuf z).1 hz with rfl | hz
        · exact ht
        · exact h1 hn z hz
      · obtain ⟨z, hz, hz'⟩ := (h2 t hot).1
        exact ⟨z, (hsuf z).2 (.inr hz), hz'⟩
      · rcases (hsuf z).1 hz with rfl | hz
        · rw [ht] at hz'; cases hz'
        · exact (h2 t hot).2 z t' hz hz'
    | some t =>
      refine ⟨some t, by simp, by simp, fun t1 h1 => ?_⟩
      cases h1
      exact ⟨⟨n, List.suffix_refl _, ht⟩, fun z t' hz hz' => take?_suffix hz ht hz'⟩

theorem pattern_nil {ts : List Term} : PatternR [] ts ↔ ts = [] := by
  constructor
  · intro h; cases h; rfl
  · rintro rfl; exact .nil

theorem pattern_ne_nil {p : Bytes} {ts : List Term} (h : PatternR p ts) (hp : p ≠ []) : ts ≠ [] := by
  cases h <;> simp at hp ⊢

/-- Leading stars. -/
theorem dropWhile_spec {p : Bytes} {ts : List Term} (h : PatternR p ts) :
    ∃ us, PatternR (p.dropWhile (· == 42)) us ∧ (p.dropWhile (· == 42)).head? ≠ some 42 ∧
      (p.head? ≠ some 42 → us = ts ∧ p.dropWhile (· == 42) = p) ∧
      (p.head? = some 42 → (∃ a, ts = a ++ us) ∧ (p.dropWhile (· == 42)).length < p.length ∧
        ∀ n, FitsName ts n ↔ FitsName (.star :: us) n) := by
  have other : ∀ {c : UInt8} {p : Bytes} {ts : List Term}, c ≠ 42 → PatternR (c :: p) ts →
      ∃ us, PatternR ((c :: p).dropWhile (· == 42)) us ∧ ((c :: p).dropWhile (· == 42)).head? ≠ some 42 ∧
      ((c :: p).head? ≠ some 42 → us = ts ∧ (c :: p).dropWhile (· == 42) = c :: p) ∧
      ((c :: p).head? = some 42 → (∃ a, ts = a ++ us) ∧ ((c :: p).dropWhile (· == 42)).length < (c :: p).length ∧
        ∀ n, FitsName ts n ↔ FitsName (.star :: us) n) := by
    intro c p ts hc h
    have e : (c :: p).dropWhile (· == 42) = c :: p := by rw [List.dropWhile_cons, if_neg (by simpa using hc)]
    rw [e]
    exact ⟨ts, h, by simpa using hc, fun _ => ⟨rfl, rfl⟩, fun h => absurd (by simpa using h) hc⟩
  induction h with
  | nil => exact ⟨[], .nil, by simp, by simp, by simp⟩
  | @star p ts hp ih =>
    obtain ⟨us, h1, h2, h3, h4⟩ := ih
    have e : (42 :: p).dropWhile (· == 42) = p.dropWhile (· == 42) := by simp [List.dropWhile]
    rw [e]
    refine ⟨us, h1, h2, by simp, fun _ => ?_⟩
    by_cases hh : p.head? = some 42
    · obtain ⟨⟨a, ha⟩, hb, hc⟩ := h4 hh
      refine ⟨⟨.star :: a, by simp [ha]⟩, by simp; omega, fun n => ?_⟩
      constructor
      · intro h
        obtain ⟨z, hz, h⟩ := fits_star.1 h
        exact fits_star_mono hz ((hc z).1 h)
      · intro h
        exact fits_star.2 ⟨n, List.suffix_refl _, (hc n).2 h⟩
    · obtain ⟨rfl, hb⟩ := h3 hh
      rw [hb]
      exact ⟨⟨[.star], rfl⟩, by simp, fun _ => Iff.rfl⟩
  | any hp _ => exact other (by decide) (.any hp)
  | one c c1 c2 c3 c4 hp _ => exact other c1 (.one c c1 c2 c3 c4 hp)
  | escaped c hp _ => exact other (by decide) (.escaped c hp)
  | cls hq hrs hne hp _ => exact other (by decide) (.cls hq hrs hne hp)
  | neg hrs hne hp _ => exact other (by decide) (.neg hrs hne hp)

open Classical in
theorem matchP_spec (f : Nat) {p : Bytes} {ts : List Term} (h : PatternR p ts) (hf : p.length < f) (n : Bytes)
    (hn : (47 : UInt8) ∉ n) (hr : Readable ts n) : matchP f p n = some (decide (FitsName ts n)) := by
  induction f generalizing p ts n with
  | zero => omega
  | succ f ih =>
    by_cases hp : p = []
    · subst hp
      obtain rfl := pattern_nil.1 h
      simp only [matchP, if_true, fits_nil]
      cases n <;> simp
    rw [matchP, if_neg hp]
    obtain ⟨us, hu1, hu2, hu3, hu4⟩ := dropWhile_spec h
    obtain ⟨as, bs, hab, has, ha, hb, hrest, hcat⟩ := scan_spec hu1
    obtain ⟨star, chunk, rest, hsc⟩ : ∃ star chunk rest, scanChunk p = (star, chunk, rest) := ⟨_, _, _, rfl⟩
    rw [hsc]
    dsimp only
    simp only [scanChunk, Prod.mk.injEq] at hsc
    obtain ⟨hstar, hsc⟩ := hsc
    generalize hq : p.dropWhile (· == 42) = q at *
    rw [hsc] at ha hb hrest hcat
    dsimp only at ha hb hrest hcat
    have hsub : ∃ a, ts = a ++ as ++ bs := by
      by_cases hh : p.head? = some 42
      · obtain ⟨⟨a, ha⟩, _⟩ := hu4 hh
        exact ⟨a, by rw [ha, hab, List.append_assoc]⟩
      · exact ⟨[], by rw [← (hu3 hh).1, hab]; rfl⟩
    obtain ⟨a, hsub⟩ := hsub
    have hra : ∀ z, z <:+ n → Readable as z := fun z hz => readable_suffix (hsub ▸ hr) hz
    have hrb : ∀ z, z <:+ n → Readable bs z := fun z hz =>
      readable_suffix (us := a ++ as) (vs := []) (by rw [List.append_nil, ← hsub]; exact hr) hz
    have hnz : ∀ z, z <:+ n → (47 : UInt8) ∉ z := fun z hz h => hn (hz.subset h)
    have hnil : chunk = [] → q = [] := by
      intro hc
      subst hc
      simp only [List.nil_append] at hcat
      subst hcat
      rcases hrest with ⟨h, _⟩ | ⟨h, vs', hv⟩
      · exact h
      · subst hv
        cases hb with
        | star => simp at hu2
    have hfit : FitsName us = FitsName (as ++ bs) := by rw [hab]
    have hmono : ∀ z t, z <:+ t → rest ≠ [] → FitsName bs z → FitsName bs t := by
      intro z t hz hne hf
      rcases hrest with ⟨h, _⟩ | ⟨_, vs', rfl⟩
      · exact absurd h hne
      · exact fits_star_mono hz hf
    have hbnil : rest = [] → bs = [] := by
      intro h
      rcases hrest with ⟨_, h'⟩ | ⟨h', _⟩
      · exact h'
      · exact absurd h h'
    by_cases hh : p.head? = some 42
    · obtain ⟨⟨a', ha'⟩, hlen, hF⟩ := hu4 hh
      have hrl : rest.length < f := by
        have : q.length = chunk.length + rest.length := by rw [hcat]; simp
        omega
      obtain rfl : star = true := by rw [← hstar]; simp [hh]
      by_cases hc : chunk = []
      · have hq0 := hnil hc
        subst hq0
        obtain rfl := pattern_nil.1 hu1
        rw [if_pos (by simp [hc])]
        have hfn : FitsName ts n := (hF n).2 (fits_star.2 ⟨[], by simp, .nil⟩)
        simp [hfn, hn]
      · rw [if_neg (by simp [hc]), matchChunk_spec ha has _ (by omega) n hn (hra n (List.suffix_refl _))]
        have hane : as ≠ [] := pattern_ne_nil ha hc
        have hF' : FitsName ts n ↔ ∃ z, z <:+ n ∧ ∃ t, take? as z = some t ∧ FitsName bs t := by
          rw [hF, fits_star, hfit]
          simp only [fits_append has]
        have hsuf : ∀ z, z <:+ n ↔ z = n ∨ z <:+ n.tail := by
          intro z
          cases n with
          | nil => simp
          | cons b n => simp [List.suffix_cons_iff]
        have htail : n.tail <:+ n := List.tail_suffix n
        dsimp only
        -- the search after the star, when the first place does not settle it
        have search : (take? as n = none ∨ (rest = [] ∧ take? as n ≠ some [])) →
            (match skipMatch chunk rest.isEmpty n with
              | none => none
              | some none => some false
              | some (some t) => matchP f rest t) = some (decide (FitsName ts n)) := by
          intro h0
          by_cases hre0 : rest = []
          · have hb0 := hbnil hre0
            subst hre0
            subst hb0
            obtain ⟨o, ho, h1, h2⟩ := skip_last ha has hane n hn (hra n (List.suffix_refl _))
            have hn0 : take? as n ≠ some [] := by
              rcases h0 with h0 | h0
              · simp [h0]
              · exact h0.2
            have key : FitsName ts n ↔ o = some [] := by
              rw [hF', h2]
              constructor
              · rintro ⟨z, hz, t, ht, hb⟩
                obtain rfl := fits_nil.1 hb
                rcases (hsuf z).1 hz with rfl | hz
                · exact absurd ht hn0
                · exact ⟨z, hz, ht⟩
              · rintro ⟨z, hz, ht⟩
                exact ⟨z, hz.trans htail, [], ht, .nil⟩
            simp only [List.isEmpty_nil, ho]
            rcases h1 with rfl | rfl
            · simp [key]
            · dsimp only
              cases f with
              | zero => simp at hrl
              | succ f => simp [matchP, key]
          · obtain ⟨o, ho, h1, h2⟩ := skip_first ha has hane n hn (hra n (List.suffix_refl _))
            have hn0 : take? as n = none := by
              rcases h0 with h0 | h0
              · exact h0
              · exact absurd h0.1 hre0
            simp only [show rest.isEmpty = false by simpa using hre0, ho]
            cases o with
            | none =>
              have : ¬ FitsName ts n := by
                rw [hF']
                rintro ⟨z, hz, t, ht, hb⟩
                rcases (hsuf z).1 hz with rfl | hz
                · rw [hn0] at ht; cases ht
                · rw [h1 rfl z hz] at ht; cases ht
              simp [this]
            | some t =>
              obtain ⟨⟨z, hz, ht⟩, hmax⟩ := h2 t rfl
              have hts : t <:+ n := by
                obtain ⟨x, hx, _⟩ := take?_length ht
                exact (show t <:+ z from ⟨x, hx.symm⟩).trans (hz.trans htail)
              dsimp only
              rw [ih hb hrl t (hnz t hts) (hrb t hts)]
              congr 1
              rw [decide_eq_decide, hF']
              constructor
              · intro hbt
                exact ⟨z, hz.trans htail, t, ht, hbt⟩
              · rintro ⟨z', hz', t', ht', hb'⟩
                rcases (hsuf z').1 hz' with rfl | hz'
                · rw [hn0] at ht'; cases ht'
                · exact hmono t' t (hmax z' t' hz' ht') hre0 hb'
        cases ht : take? as n with
        | none =>
          simp only [if_true]
          exact search (.inl ht)
        | some t =>
          have hts : t <:+ n := by
            obtain ⟨x, hx, _⟩ := take?_length ht
            exact ⟨x, hx.symm⟩
          dsimp only
          split
          · rename_i hcond
            rw [ih hb hrl t (hnz t hts) (hrb t hts)]
            congr 1
            rw [decide_eq_decide, hF']
            constructor
            · intro hbt
              exact ⟨n, List.suffix_refl _, t, ht, hbt⟩
            · rintro ⟨z', hz', t', ht', hb'⟩
              by_cases hre0 : rest = []
              · have hb0 := hbnil hre0
                subst hb0
                simp [hre0] at hcond
                subst hcond
                exact .nil
              · exact hmono t' t (take?_suffix hz' ht ht') hre0 hb'
          · rename_i hcond
            simp only [if_true]
            simp at hcond
            exact search (.inr ⟨hcond.2, by rw [ht]; simpa using hcond.1⟩)
    · obtain ⟨rfl, hpq⟩ := hu3 hh
      have hpq' : q = p := hpq
      have hc : chunk ≠ [] := fun hc => hp (by rw [← hpq']; exact hnil hc)
      have hrl : rest.length < f := by
        have : q.length = chunk.length + rest.length := by rw [hcat]; simp
        have := List.length_pos_iff.2 hc
        rw [hpq'] at *
        omega
      obtain rfl : star = false := by rw [← hstar]; simpa using hh
      rw [if_neg (by simp), matchChunk_spec ha has _ (by omega) n hn (hra n (List.suffix_refl _))]
      dsimp only
      rw [hfit]
      cases ht : take? as n with
      | none =>
        have : ¬ FitsName (as ++ bs) n := by rw [fits_append has]; rintro ⟨t, ht', _⟩; rw [ht] at ht'; cases ht'
        simp [this]
      | some t =>
        have hts : t <:+ n := by
          obtain ⟨x, hx, _⟩ := take?_length ht
          exact ⟨x, hx.symm⟩
        have hiff : FitsName (as ++ bs) n ↔ FitsName bs t := by
          rw [fits_append has]
          constructor
          · rintro ⟨t', ht', h⟩; rw [ht] at ht'; cases ht'; exact h
          · intro h; exact ⟨t, ht, h⟩
        dsimp only
        split
        · rw [ih hb hrl t (hnz t hts) (hrb t hts)]
          simp [hiff]
        · rename_i hcond
          simp at hcond
          have hb0 := hbnil hcond.2
          subst hb0
          have : ¬ FitsName [] t := by rw [fits_nil]; exact hcond.1
          rw [List.append_nil] at hiff ⊢
          simp [hiff, this]

/-- `filepath.Match`. -/
theorem match?_iff {p : Bytes} {ts : List Term} (h : PatternR p ts) (n : Bytes) (hn : (47 : UInt8) ∉ n)
    (hr : Readable ts n) : match? p n ≠ none ∧ (match? p n = some true ↔ FitsName ts n) := by
  classical
  rw [match?, matchP_spec _ h (by omega) n hn hr]
  simp

end Path
end OnePass
