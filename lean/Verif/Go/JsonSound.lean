/-
The JSON parser accepts nothing but the grammar of Verif/Go/Json.lean: soundness of `Json.parse`, the
converse of `Json.parse_complete`.
-/
import Verif.Go.JsonFacts

set_option linter.unusedSimpArgs false

namespace OnePass
namespace Json

/-! ### White space -/

theorem skipWs_split (s : Bytes) : ∃ w, s = w ++ skipWs s ∧ WS w := by
  refine ⟨s.takeWhile isWs, (List.takeWhile_append_dropWhile).symm, ?_⟩
  intro b hb
  exact List.all_eq_true.mp (List.all_takeWhile (p := isWs) (l := s)) b hb

/-! ### Strings -/

theorem utf8Len_take (s : Bytes) (n : Nat) (h : utf8Len s = n + 1) :
    2 ≤ n + 1 ∧ n + 1 ≤ s.length ∧ utf8Len (s.take (n + 1)) = n + 1 := by
  match s with
  | [] => cases h
  | [_] => cases h
  | b0 :: b1 :: r =>
    have h0 := h
    simp only [utf8Len] at h
    split at h
    · rename_i hc
      split at h
      · rename_i hd
        obtain rfl : n = 1 := by omega
        refine ⟨by omega, by simp, ?_⟩
        simp [utf8Len, hc, hd]
      · cases h
    · rename_i hc
      match r with
      | [] => cases h
      | b2 :: r' =>
        simp only at h
        have key : n + 1 = 3 ∨ (∃ b3 r'', r' = b3 :: r'' ∧ n + 1 = 4) := by
          revert h
          repeat' split
          all_goals first
            | (intro h; left; omega)
            | (intro h; exact absurd h (by omega))
            | (intro h; right; exact ⟨_, _, rfl, by omega⟩)
        rcases key with hk | ⟨b3, r'', rfl, hk⟩
        · obtain rfl : n = 2 := by omega
          refine ⟨by omega, by simp, ?_⟩
          show utf8Len [b0, b1, b2] = 3
          simp only [utf8Len]
          rw [if_neg hc]
          revert h
          repeat' split
          all_goals first | (intro h; rfl) | (intro h; omega) | (intro h; simp_all)
        · obtain rfl : n = 3 := by omega
          exact ⟨by omega, by simp, h0⟩

theorem pStr_sound : ∀ (f : Nat) (s x r : Bytes), pStr f s = some (x, r) → ∃ t, s = t ++ 34 :: r ∧ StrR t x := by
  intro f
  induction f with
  | zero => intro s x r h; cases h
  | succ f ih =>
    have next : ∀ {g : Bytes} {s x r : Bytes}, (pStr f s).map (fun y => (g ++ y.1, y.2)) = some (x, r) →
        ∃ t y, s = t ++ 34 :: r ∧ StrR t y ∧ x = g ++ y := by
      intro g s x r h
      cases hp : pStr f s with
      | none => rw [hp] at h; cases h
      | some q =>
        rw [hp] at h
        simp only [Option.map_some, Option.some.injEq, Prod.mk.injEq] at h
        obtain ⟨rfl, rfl⟩ := h
        obtain ⟨t, h1, h2⟩ := ih s q.1 q.2 hp
        exact ⟨t, q.1, h1, h2, rfl⟩
    intro s x r h
    cases s with
    | nil => cases h
    | cons b s =>
      simp only [pStr] at h
      split at h
      · rename_i hb
        simp only [Option.some.injEq, Prod.mk.injEq] at h
        obtain ⟨rfl, rfl⟩ := h
        exact ⟨[], by rw [hb]; rfl, .nil⟩
      rename_i n34
      split at h
      · rename_i h92
        subst h92
        cases s with
        | nil => cases h
        | cons e s =>
          simp only at h
          split at h
          · rename_i h117
            subst h117
            cases hg : getu4 (92 :: 117 :: s) with
            | none => rw [hg] at h; cases h
            | some q =>
              obtain ⟨c, r2⟩ := q
              rw [hg] at h
              obtain ⟨a', b', c', d', ht, hh⟩ := getu4_some hg
              simp only [List.cons.injEq, true_and] at ht
              subst ht
              simp only at h
              split at h
              · rename_i hhi
                have lone : (∀ a1 b1 c1 d1 n' t', r2 = 92 :: 117 :: a1 :: b1 :: c1 :: d1 :: t' →
                      hex4 a1 b1 c1 d1 = some n' → isLow n' = false) →
                    (pStr f r2).map (fun y => (replacement ++ y.1, y.2)) = some (x, r) →
                    ∃ t, 92 :: 117 :: a' :: b' :: c' :: d' :: r2 = t ++ 34 :: r ∧ StrR t x := by
                  intro hl hm
                  obtain ⟨t, y, rfl, hs, rfl⟩ := next hm
                  exact ⟨92 :: 117 :: a' :: b' :: c' :: d' :: t, rfl,
                    .loneHigh hh hhi (fun a1 b1 c1 d1 n' t' he => hl a1 b1 c1 d1 n' (t' ++ 34 :: r) (by rw [he]; rfl)) hs⟩
                cases hg2 : getu4 r2 with
                | none =>
                  rw [hg2] at h
                  refine lone ?_ h
                  rintro a1 b1 c1 d1 n' t' rfl hx
                  simp [getu4, hx] at hg2
                | some q2 =>
                  obtain ⟨c2, r3⟩ := q2
                  rw [hg2] at h
                  obtain ⟨a1, b1, c1, d1, rfl, hh2⟩ := getu4_some hg2
                  simp only at h
                  split at h
                  · rename_i hlo
                    obtain ⟨t, y, hr3, hs, hy⟩ := next (g := utf8Enc (0x10000 + (c - 0xD800) * 1024 + (c2 - 0xDC00))) h
                    rw [hr3, hy]
                    refine ⟨92 :: 117 :: a' :: b' :: c' :: d' :: 92 :: 117 :: a1 :: b1 :: c1 :: d1 :: t, rfl, ?_⟩
                    exact StrR.pair hh hhi hh2 hlo hs
                  · rename_i hlo
                    refine lone ?_ h
                    intro a3 b3 c3 d3 n' t' he hx
                    simp only [List.cons.injEq, true_and] at he
                    obtain ⟨rfl, rfl, rfl, rfl, -⟩ := he
                    rw [hh2] at hx
                    cases hx
                    simpa using hlo
              · rename_i hhi
                split at h
                · rename_i hlo
                  obtain ⟨t, y, rfl, hs, rfl⟩ := next h
                  exact ⟨92 :: 117 :: a' :: b' :: c' :: d' :: t, rfl, .loneLow hh hlo hs⟩
                · rename_i hlo
                  obtain ⟨t, y, rfl, hs, rfl⟩ := next h
                  exact ⟨92 :: 117 :: a' :: b' :: c' :: d' :: t, rfl,
                    .uni hh (by simpa using hhi) (by simpa using hlo) hs⟩
          · cases he : escChar e with
            | none => rw [he] at h; cases h
            | some c =>
              rw [he] at h
              obtain ⟨t, y, rfl, hs, rfl⟩ := next (g := [c]) h
              exact ⟨92 :: e :: t, rfl, .esc he hs⟩
      rename_i n92
      split at h
      · cases h
      rename_i n32
      split at h
      · rename_i h128
        obtain ⟨t, y, rfl, hs, rfl⟩ := next (g := [b]) h
        refine ⟨b :: t, rfl, ?_⟩
        refine .plain ?_ h128 n34 n92 hs
        · have : ¬ b.toNat < 32 := n32
          show (32 : UInt8).toNat ≤ b.toNat
          show 32 ≤ b.toNat
          omega
      · rename_i n128
        have h128 : 128 ≤ b := by
          have : ¬ b.toNat < 128 := n128
          show 128 ≤ b.toNat
          omega
        split at h
        · rename_i hl
          obtain ⟨t, y, rfl, hs, rfl⟩ := next h
          refine ⟨b :: t, rfl, .badByte h128 ?_ hs⟩
          rw [← utf8Len_quote b t r]; exact hl
        · rename_i n hn
          cases hm : utf8Len (b :: s) with
          | zero => exact absurd hm (by assumption)
          | succ m =>
            obtain ⟨k2, kl, kt⟩ := utf8Len_take _ _ hm
            rw [hm] at h
            obtain ⟨t, y, hd, hs, rfl⟩ := next h
            have hlen : ((b :: s).take (m + 1)).length = m + 1 := by
              rw [List.length_take]; omega
            refine ⟨(b :: s).take (m + 1) ++ t, ?_, ?_⟩
            · rw [List.append_assoc, ← hd, List.take_append_drop]
            · exact .utf8 (by rw [hlen]; omega) (by rw [hlen, kt]) hs

/-! ### Numbers -/

theorem digits_split (s : Bytes) : s = (digits s).1 ++ (digits s).2 ∧ Digits (digits s).1 := by
  refine ⟨(List.takeWhile_append_dropWhile).symm, ?_⟩
  intro b hb
  exact List.all_eq_true.mp (List.all_takeWhile (p := Str.isDigitA) (l := s)) b hb

theorem intPart_sound {s i r : Bytes} (h : intPart s = some (i, r)) :
    s = i ++ r ∧ (i = [48] ∨ ∃ b t, i = b :: t ∧ b ≠ 48 ∧ Str.isDigitA b = true ∧ Digits t) := by
  cases s with
  | nil => cases h
  | cons b s =>
    simp only [intPart] at h
    split at h
    · rename_i hb
      simp only [Option.some.injEq, Prod.mk.injEq] at h
      obtain ⟨rfl, rfl⟩ := h
      exact ⟨by rw [hb]; rfl, .inl rfl⟩
    · rename_i hb
      split at h
      · rename_i hd
        simp only [Option.some.injEq, Prod.mk.injEq] at h
        obtain ⟨rfl, rfl⟩ := h
        exact ⟨by rw [List.cons_append, ← (digits_split s).1], .inr ⟨b, _, rfl, hb, hd, (digits_split s).2⟩⟩
      · cases h

theorem fracPart_sound {s t r : Bytes} (h : fracPart s = some (t, r)) :
    s = t ++ r ∧ (t = [] ∨ ∃ l, t = 46 :: l ∧ l ≠ [] ∧ Digits l) := by
  unfold fracPart at h
  split at h
  · rename_i q
    split at h
    · cases h
    · rename_i hd
      simp only [Option.some.injEq, Prod.mk.injEq] at h
      obtain ⟨rfl, rfl⟩ := h
      refine ⟨by rw [List.cons_append, ← (digits_split q).1], .inr ⟨_, rfl, ?_, (digits_split q).2⟩⟩
      intro he; rw [he] at hd; exact hd rfl
  · simp only [Option.some.injEq, Prod.mk.injEq] at h
    obtain ⟨rfl, rfl⟩ := h
    exact ⟨rfl, .inl rfl⟩

theorem expSign_split (s : Bytes) :
    s = (expSign s).1 ++ (expSign s).2 ∧ ((expSign s).1 = [] ∨ (expSign s).1 = [43] ∨ (expSign s).1 = [45]) := by
  cases s with
  | nil => exact ⟨rfl, .inl rfl⟩
  | cons b s =>
    simp only [expSign]
    split
    · rename_i hb
      rcases hb with rfl | rfl
      · exact ⟨rfl, .inr (.inl rfl)⟩
      · exact ⟨rfl, .inr (.inr rfl)⟩
    · exact ⟨rfl, .inl rfl⟩

theorem expPart_sound {s t r : Bytes} (h : expPart s = some (t, r)) :
    s = t ++ r ∧ (t = [] ∨ ∃ b g l, t = b :: g ++ l ∧ (b = 101 ∨ b = 69) ∧ (g = [] ∨ g = [43] ∨ g = [45]) ∧
      l ≠ [] ∧ Digits l) := by
  cases s with
  | nil =>
    simp only [expPart, Option.some.injEq, Prod.mk.injEq] at h
    obtain ⟨rfl, rfl⟩ := h
    exact ⟨rfl, .inl rfl⟩
  | cons b s =>
    simp only [expPart] at h
    split at h
    · rename_i hb
      split at h
      · cases h
      · rename_i hd
        simp only [Option.some.injEq, Prod.mk.injEq] at h
        obtain ⟨rfl, rfl⟩ := h
        refine ⟨?_, .inr ⟨b, _, _, rfl, hb, (expSign_split s).2, ?_, (digits_split _).2⟩⟩
        · rw [List.cons_append, List.cons_append, List.append_assoc, ← (digits_split _).1, ← (expSign_split s).1]
        · intro he; rw [he] at hd; exact hd rfl
    · simp only [Option.some.injEq, Prod.mk.injEq] at h
      obtain ⟨rfl, rfl⟩ := h
      exact ⟨rfl, .inl rfl⟩

theorem number_sound {s t r : Bytes} (h : number s = some (t, r)) : s = t ++ r ∧ NumR t := by
  have core : ∀ (sign s0 : Bytes), s = sign ++ s0 → (sign = [] ∨ sign = [45]) →
      (match intPart s0 with
        | none => none
        | some (i, s1) =>
          match fracPart s1 with
          | none => none
          | some (fr, s2) =>
            match expPart s2 with
            | none => none
            | some (e, s3) => some (sign ++ i ++ fr ++ e, s3)) = some (t, r) → s = t ++ r ∧ NumR t := by
    intro sign s0 hs hsign h
    cases hi : intPart s0 with
    | none => rw [hi] at h; cases h
    | some q =>
      obtain ⟨i, s1⟩ := q
      rw [hi] at h
      simp only at h
      cases hf : fracPart s1 with
      | none => rw [hf] at h; cases h
      | some q =>
        obtain ⟨fr, s2⟩ := q
        rw [hf] at h
        simp only at h
        cases he : expPart s2 with
        | none => rw [he] at h; cases h
        | some q =>
          obtain ⟨e, s3⟩ := q
          rw [he] at h
          simp only [Option.some.injEq, Prod.mk.injEq] at h
          obtain ⟨rfl, rfl⟩ := h
          obtain ⟨h1, k1⟩ := intPart_sound hi
          obtain ⟨h2, k2⟩ := fracPart_sound hf
          obtain ⟨h3, k3⟩ := expPart_sound he
          exact ⟨by rw [hs, h1, h2, h3]; simp only [List.append_assoc], sign, i, fr, e, rfl, hsign, k1, k2, k3⟩
  unfold number at h
  split at h
  rename_i sign s0 he
  split at he
  · simp only [Prod.mk.injEq] at he
    obtain ⟨rfl, rfl⟩ := he
    exact core _ _ rfl (.inr rfl) h
  · simp only [Prod.mk.injEq] at he
    obtain ⟨rfl, rfl⟩ := he
    exact core _ _ rfl (.inl rfl) h

/-! ### Values -/

theorem pAll_sound (f : Nat) :
    (∀ d s j r, pValue f d s = some (j, r) → ∃ t, s = t ++ r ∧ ValR d t j) ∧
    (∀ d s l r, pElems f d s = some (l, r) → ∃ t, s = t ++ 93 :: r ∧ ElemsR d t l) ∧
    (∀ d s m r, pMembers f d s = some (m, r) → ∃ t, s = t ++ 125 :: r ∧ MemsR d t m) := by
  induction f with
  | zero =>
    refine ⟨fun d s j r h => ?_, fun d s l r h => ?_, fun d s m r h => ?_⟩
    · rw [pValue] at h; cases h
    · rw [pElems] at h; cases h
    · rw [pMembers] at h; cases h
  | succ f ih =>
    obtain ⟨ihv, ihe, ihm⟩ := ih
    refine ⟨fun d s j r h => ?_, fun d s l r h => ?_, fun d s m r h => ?_⟩
    · rw [pValue.eq_def] at h
      simp only at h
      split at h
      · rename_i q
        cases hp : pStr (q.length + 1) q with
        | none => rw [hp] at h; cases h
        | some x =>
          rw [hp] at h
          simp only [Option.map_some, Option.some.injEq, Prod.mk.injEq] at h
          obtain ⟨rfl, rfl⟩ := h
          obtain ⟨t, ht, hs⟩ := pStr_sound _ _ x.1 x.2 hp
          exact ⟨34 :: t ++ [34], by rw [ht]; simp, .str hs⟩
      · rename_i q
        cases d with
        | zero => cases h
        | succ d =>
          obtain ⟨w, hw, ws⟩ := skipWs_split q
          simp only at h
          split at h
          · rename_i r' hq
            simp only [Option.some.injEq, Prod.mk.injEq] at h
            obtain ⟨rfl, rfl⟩ := h
            exact ⟨123 :: w ++ [125], by rw [hw, hq]; simp, .obj0 ws⟩
          · cases hp : pMembers f d (skipWs q) with
            | none => rw [hp] at h; cases h
            | some x =>
              rw [hp] at h
              simp only [Option.map_some, Option.some.injEq, Prod.mk.injEq] at h
              obtain ⟨rfl, rfl⟩ := h
              obtain ⟨t, ht, hs⟩ := ihm d _ x.1 x.2 hp
              exact ⟨123 :: w ++ t ++ [125], by rw [hw, ht]; simp, .obj ws hs⟩
      · rename_i q
        cases d with
        | zero => cases h
        | succ d =>
          obtain ⟨w, hw, ws⟩ := skipWs_split q
          simp only at h
          split at h
          · rename_i r' hq
            simp only [Option.some.injEq, Prod.mk.injEq] at h
            obtain ⟨rfl, rfl⟩ := h
            exact ⟨91 :: w ++ [93], by rw [hw, hq]; simp, .arr0 ws⟩
          · cases hp : pElems f d (skipWs q) with
            | none => rw [hp] at h; cases h
            | some x =>
              rw [hp] at h
              simp only [Option.map_some, Option.some.injEq, Prod.mk.injEq] at h
              obtain ⟨rfl, rfl⟩ := h
              obtain ⟨t, ht, hs⟩ := ihe d _ x.1 x.2 hp
              exact ⟨91 :: w ++ t ++ [93], by rw [hw, ht]; simp, .arr ws hs⟩
      · simp only [Option.some.injEq, Prod.mk.injEq] at h
        obtain ⟨rfl, rfl⟩ := h
        exact ⟨_, rfl, .null⟩
      · simp only [Option.some.injEq, Prod.mk.injEq] at h
        obtain ⟨rfl, rfl⟩ := h
        exact ⟨_, rfl, .tru⟩
      · simp only [Option.some.injEq, Prod.mk.injEq] at h
        obtain ⟨rfl, rfl⟩ := h
        exact ⟨_, rfl, .fls⟩
      · cases hp : number s with
        | none => rw [hp] at h; cases h
        | some x =>
          rw [hp] at h
          simp only [Option.map_some, Option.some.injEq, Prod.mk.injEq] at h
          obtain ⟨rfl, rfl⟩ := h
          obtain ⟨h1, h2⟩ := number_sound (t := x.1) (r := x.2) hp
          exact ⟨x.1, h1, .num h2⟩
    · rw [pElems] at h
      cases hv : pValue f d s with
      | none => rw [hv] at h; cases h
      | some q =>
        obtain ⟨j, s1⟩ := q
        rw [hv] at h
        obtain ⟨t, rfl, hj⟩ := ihv d s j s1 hv
        obtain ⟨w, hw, ws⟩ := skipWs_split s1
        simp only at h
        split at h
        · rename_i r' hq
          obtain ⟨w', hw', ws'⟩ := skipWs_split r'
          cases hp : pElems f d (skipWs r') with
          | none => rw [hp] at h; cases h
          | some x =>
            rw [hp] at h
            simp only [Option.map_some, Option.some.injEq, Prod.mk.injEq] at h
            obtain ⟨rfl, rfl⟩ := h
            obtain ⟨ts, ht, hs⟩ := ihe d _ x.1 x.2 hp
            refine ⟨t ++ w ++ 44 :: w' ++ ts, ?_, .cons hj ws ws' hs⟩
            rw [hw, hq, hw', ht]; simp
        · rename_i r' hq
          simp only [Option.some.injEq, Prod.mk.injEq] at h
          obtain ⟨rfl, rfl⟩ := h
          exact ⟨t ++ w, by rw [hw, hq]; simp, .one hj ws⟩
        · cases h
    · rw [pMembers.eq_def] at h
      simp only at h
      split at h
      · rename_i q
        cases hk : pStr (q.length + 1) q with
        | none => rw [hk] at h; cases h
        | some x =>
          obtain ⟨k, r1⟩ := x
          rw [hk] at h
          obtain ⟨kt, rfl, hkt⟩ := pStr_sound _ _ _ _ hk
          obtain ⟨w1, hw1, ws1⟩ := skipWs_split r1
          simp only at h
          split at h
          · rename_i r2 hq
            obtain ⟨w2, hw2, ws2⟩ := skipWs_split r2
            cases hv : pValue f d (skipWs r2) with
            | none => rw [hv] at h; cases h
            | some y =>
              obtain ⟨j, r3⟩ := y
              rw [hv] at h
              obtain ⟨t, ht, hj⟩ := ihv d _ j r3 hv
              obtain ⟨w3, hw3, ws3⟩ := skipWs_split r3
              simp only at h
              split at h
              · rename_i r4 hq4
                obtain ⟨w4, hw4, ws4⟩ := skipWs_split r4
                cases hp : pMembers f d (skipWs r4) with
                | none => rw [hp] at h; cases h
                | some x =>
                  rw [hp] at h
                  simp only [Option.map_some, Option.some.injEq, Prod.mk.injEq] at h
                  obtain ⟨rfl, rfl⟩ := h
                  obtain ⟨ts, hts, hs⟩ := ihm d _ x.1 x.2 hp
                  refine ⟨34 :: kt ++ 34 :: w1 ++ 58 :: w2 ++ t ++ w3 ++ 44 :: w4 ++ ts, ?_,
                    .cons hkt ws1 ws2 hj ws3 ws4 hs⟩
                  rw [hw1, hq, hw2, ht, hw3, hq4, hw4, hts]; simp
              · rename_i r4 hq4
                simp only [Option.some.injEq, Prod.mk.injEq] at h
                obtain ⟨rfl, rfl⟩ := h
                refine ⟨34 :: kt ++ 34 :: w1 ++ 58 :: w2 ++ t ++ w3, ?_, .one hkt ws1 ws2 hj ws3⟩
                rw [hw1, hq, hw2, ht, hw3, hq4]; simp
              · cases h
          · cases h
      · cases h

/-- Whatever is accepted is a document of the grammar, and the value is the one it denotes. -/
theorem parse_sound {t : Bytes} {j : Json} (h : parse t = some j) : DocR t j := by
  unfold parse at h
  cases hv : pValue (t.length + 1) maxDepth (skipWs t) with
  | none => rw [hv] at h; cases h
  | some q =>
    obtain ⟨j', r⟩ := q
    rw [hv] at h
    simp only at h
    split at h
    · rename_i he
      cases h
      obtain ⟨t', ht', hj⟩ := (pAll_sound _).1 _ _ _ _ hv
      obtain ⟨w1, hw1, ws1⟩ := skipWs_split t
      obtain ⟨w2, hw2, ws2⟩ := skipWs_split r
      rw [List.isEmpty_iff.mp he, List.append_nil] at hw2
      exact ⟨w1, t', w2, ws1, ws2, hj, by rw [List.append_assoc, ← hw2, ← ht', ← hw1]⟩
    · cases h

theorem parse_iff (t : Bytes) (j : Json) : parse t = some j ↔ DocR t j := ⟨parse_sound, parse_complete⟩

end Json
end OnePass
