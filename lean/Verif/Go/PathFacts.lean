/-
Lemmas about paths, directories and patterns.
-/
import Verif.Go.Glob
import Mathlib.Data.List.Induction

namespace OnePass
namespace Path

/-- A plain file or directory name. -/
def Simple (c : Bytes) : Prop := c ≠ [] ∧ c ≠ [46] ∧ c ≠ [46, 46] ∧ (47 : UInt8) ∉ c

instance (c : Bytes) : Decidable (Simple c) := by unfold Simple; infer_instance

theorem split_ne_nil (p : Bytes) : split p ≠ [] := by
  cases p with
  | nil => simp [split]
  | cons b r =>
    simp only [split]
    split
    · simp
    · cases split r <;> simp

theorem split_append (x y : Bytes) : split (x ++ 47 :: y) = split x ++ split y := by
  induction x with
  | nil => simp [split]
  | cons b x ih =>
    simp only [List.cons_append, split]
    split
    · simp [ih]
    · rw [ih]
      have := split_ne_nil x
      cases hx : split x with
      | nil => exact absurd hx this
      | cons h t => simp

theorem split_simple {c : Bytes} (h : (47 : UInt8) ∉ c) : split c = [c] := by
  induction c with
  | nil => simp [split]
  | cons b c ih =>
    have hb : b ≠ 47 := fun hb => h (by simp [hb])
    simp only [split, hb, if_false, ih (fun hc => h (by simp [hc]))]

theorem split_noSlash (p : Bytes) : ∀ c ∈ split p, (47 : UInt8) ∉ c := by
  induction p with
  | nil => simp [split]
  | cons b r ih =>
    simp only [split]
    split
    · intro c hc
      rcases List.mem_cons.1 hc with rfl | hc
      · simp
      · exact ih c hc
    · rename_i hb
      cases hs : split r with
      | nil => simp; exact fun h => hb h.symm
      | cons h t =>
        intro c hc
        rw [hs] at ih
        rcases List.mem_cons.1 hc with rfl | hc
        · intro hm
          rcases List.mem_cons.1 hm with h1 | h1
          · exact hb h1.symm
          · exact ih h (by simp) h1
        · exact ih c (by simp [hc])

theorem split_bytes (p : Bytes) : ∀ c ∈ split p, ∀ b ∈ c, b ∈ p := by
  induction p with
  | nil => simp [split]
  | cons a r ih =>
    simp only [split]
    split
    · intro c hc b hb
      rcases List.mem_cons.1 hc with rfl | hc
      · simp at hb
      · exact List.mem_cons_of_mem _ (ih c hc b hb)
    · cases hs : split r with
      | nil => exact absurd hs (split_ne_nil r)
      | cons h t =>
        rw [hs] at ih
        intro c hc b hb
        rcases List.mem_cons.1 hc with rfl | hc
        · rcases List.mem_cons.1 hb with rfl | hb
          · simp
          · exact List.mem_cons_of_mem _ (ih h (by simp) b hb)
        · exact List.mem_cons_of_mem _ (ih c (by simp [hc]) b hb)

theorem joinSlash_append (l : List Bytes) (b : Bytes) (h : l ≠ []) :
    joinSlash (l ++ [b]) = joinSlash l ++ 47 :: b := by
  induction l with
  | nil => exact absurd rfl h
  | cons a l ih =>
    cases l with
    | nil => simp [joinSlash]
    | cons a' l =>
      have := ih (by simp)
      simp only [List.cons_append, joinSlash, List.append_assoc] at this ⊢
      rw [this]

theorem split_joinSlash {l : List Bytes} (h : l ≠ []) (hs : ∀ c ∈ l, (47 : UInt8) ∉ c) :
    split (joinSlash l) = l := by
  induction l with
  | nil => exact absurd rfl h
  | cons a l ih =>
    cases l with
    | nil => simp [joinSlash, split_simple (hs a (by simp))]
    | cons a' l =>
      rw [joinSlash]
      · rw [split_append, split_simple (hs a (by simp)), ih (by simp) (fun c hc => hs c (by simp [hc]))]
        rfl
      · simp

/-- Stack elements are proper names or `..`. -/
theorem foldl_clean_mem (rooted : Bool) (cs : List Bytes) (st : List Bytes) :
    ∀ c ∈ cs.foldl (cleanStep rooted) st, c ∈ st ∨ (c ∈ cs ∧ c ≠ [] ∧ c ≠ [46] ∧ (c = [46, 46] → rooted = false)) ∨
      (c = [46, 46] ∧ rooted = false) ∨ (c = [46, 46] ∧ c ∈ st) := by
  induction cs generalizing st with
  | nil => intro c hc; exact .inl hc
  | cons x cs ih =>
    intro c hc
    rcases ih _ c hc with h | h | h | h
    · unfold cleanStep at h
      split at h
      · exact .inl h
      · rename_i hx
        split at h
        · split at h
          · split at h
            · simp at h
            · rename_i hr
              simp at h
              exact .inr (.inr (.inl ⟨h, by simpa using hr⟩))
          · rename_i top rest
            split at h
            · rename_i htop
              rcases List.mem_cons.1 h with rfl | h
              · exact .inr (.inr (.inr ⟨rfl, by simp [htop]⟩))
              · exact .inl h
            · exact .inl (by simp [h])
        · rename_i hx2
          rcases List.mem_cons.1 h with rfl | h
          · refine .inr (.inl ⟨by simp, fun h => hx (.inl h), fun h => hx (.inr h), fun h => absurd h hx2⟩)
          · exact .inl h
    · exact .inr (.inl ⟨by simp [h.1], h.2⟩)
    · exact .inr (.inr (.inl h))
    · obtain ⟨rfl, h⟩ := h
      unfold cleanStep at h
      split at h
      · exact .inr (.inr (.inr ⟨rfl, h⟩))
      · split at h
        · split at h
          · split at h
            · simp at h
            · rename_i hr
              exact .inr (.inr (.inl ⟨rfl, by simpa using hr⟩))
          · rename_i top rest
            split at h
            · rename_i htop
              exact .inr (.inr (.inr ⟨rfl, by simp [htop]⟩))
            · exact .inr (.inr (.inr ⟨rfl, by simp [h]⟩))
        · rename_i hx2
          rcases List.mem_cons.1 h with h | h
          · exact absurd h.symm hx2
          · exact .inr (.inr (.inr ⟨rfl, h⟩))

theorem comps_mem (p : Bytes) : ∀ c ∈ comps p, c ≠ [] ∧ c ≠ [46] ∧ (47 : UInt8) ∉ c ∧ (isAbs p = true → Simple c) := by
  intro c hc
  unfold comps at hc
  rw [List.mem_reverse] at hc
  rcases foldl_clean_mem _ _ _ c hc with h | h | h | h
  · simp at h
  · have hn := split_noSlash p c h.1
    refine ⟨h.2.1, h.2.2.1, hn, fun ha => ⟨h.2.1, h.2.2.1, fun h2 => ?_, hn⟩⟩
    have := h.2.2.2 h2
    rw [ha] at this; cases this
  · obtain ⟨rfl, hr⟩ := h
    refine ⟨by decide, by decide, by decide, fun ha => ?_⟩
    rw [ha] at hr; cases hr
  · simp at h

theorem cleanStep_simple {c : Bytes} (h : Simple c) (r : Bool) (st : List Bytes) : cleanStep r st c = c :: st := by
  unfold cleanStep
  rw [if_neg (by simp [h.1, h.2.1]), if_neg h.2.2.1]

theorem foldl_simple {cs : List Bytes} (h : ∀ c ∈ cs, Simple c) (r : Bool) (st : List Bytes) :
    cs.foldl (cleanStep r) st = cs.reverse ++ st := by
  induction cs generalizing st with
  | nil => rfl
  | cons c cs ih =>
    rw [List.foldl_cons, cleanStep_simple (h c (by simp)), ih (fun x hx => h x (by simp [hx]))]
    simp

/-- Cleaning first does not change where a relative path leads. -/
theorem foldl_clean_clean (cs : List Bytes) (st : List Bytes) :
    cs.foldl (cleanStep true) st = (cs.foldl (cleanStep false) []).reverse.foldl (cleanStep true) st := by
  induction cs using List.reverseRecOn with
  | nil => rfl
  | append_singleton cs c ih =>
    have hmem := foldl_clean_mem false cs []
    rw [List.foldl_append, List.foldl_append, List.foldl_cons, List.foldl_nil, List.foldl_cons, List.foldl_nil, ih]
    generalize cs.foldl (cleanStep false) [] = S at hmem
    by_cases h0 : c = [] ∨ c = [46]
    · have e : ∀ r s, cleanStep r s c = s := fun r s => by unfold cleanStep; rw [if_pos h0]
      rw [e, e]
    by_cases h1 : c = [46, 46]
    · subst h1
      cases S with
      | nil => rfl
      | cons top rest =>
        by_cases h2 : top = [46, 46]
        · have e : cleanStep false (top :: rest) [46, 46] = [46, 46] :: top :: rest := by simp [cleanStep, h2]
          rw [e, List.reverse_cons (as := top :: rest), List.foldl_append, List.foldl_cons, List.foldl_nil]
        · have e : cleanStep false (top :: rest) [46, 46] = rest := by simp [cleanStep, h2]
          have ht := hmem top (by simp)
          simp only [List.not_mem_nil, false_or, and_false, or_false] at ht
          have htop : top ≠ [] ∧ top ≠ [46] := by
            rcases ht with h | h
            · exact ⟨h.2.1, h.2.2.1⟩
            · exact absurd h.1 h2
          have e2 : ∀ s, cleanStep true s top = top :: s := by
            intro s
            unfold cleanStep
            rw [if_neg (by simp [htop]), if_neg h2]
          rw [e, List.reverse_cons, List.foldl_append, List.foldl_cons, List.foldl_nil, e2]
          simp [cleanStep, h2]
    · have e : ∀ r s, cleanStep r s c = c :: s := by
        intro r s
        unfold cleanStep
        rw [if_neg h0, if_neg h1]
      rw [e false, List.reverse_cons, List.foldl_append, List.foldl_cons, List.foldl_nil]

theorem isAbs_append {v : Bytes} (h : v ≠ []) (y : Bytes) : isAbs (v ++ y) = isAbs v := by
  cases v with
  | nil => exact absurd rfl h
  | cons b v => rfl

theorem isAbs_joinSlash {l : List Bytes} (h : ∀ c ∈ l, c ≠ [] ∧ (47 : UInt8) ∉ c) : isAbs (joinSlash l) = false := by
  cases l with
  | nil => rfl
  | cons a l =>
    obtain ⟨h1, h2⟩ := h a (by simp)
    cases a with
    | nil => exact absurd rfl h1
    | cons b a =>
      have hb : b ≠ 47 := fun hb => h2 (by simp [hb])
      cases l with
      | nil => simp [joinSlash, isAbs, hb]
      | cons a' l => simp [joinSlash, isAbs, hb]

/-- `Clean` does not change where a path leads. -/
theorem resolve_clean (cwd : List Bytes) (p : Bytes) : resolve cwd (clean p) = resolve cwd p := by
  have hm := comps_mem p
  unfold clean
  by_cases ha : isAbs p = true
  · rw [if_pos ha]
    have h1 : isAbs (47 :: joinSlash (comps p)) = true := rfl
    simp only [resolve, h1, ha, if_true]
    clear h1
    generalize comps p = C at hm
    unfold comps
    have h1 : isAbs (47 :: joinSlash C) = true := rfl
    rw [h1]
    have hs : ∀ c ∈ C, Simple c := fun c hc => (hm c hc).2.2.2 ha
    have : split (47 :: joinSlash C) = [] :: split (joinSlash C) := by simp [split]
    rw [this, List.foldl_cons]
    have h0 : cleanStep true [] [] = [] := rfl
    rw [h0]
    by_cases hC : C = []
    · subst hC; rfl
    · rw [split_joinSlash hC (fun c hc => (hm c hc).2.2.1), foldl_simple hs]
      simp
  · rw [if_neg ha]
    have ha' : isAbs p = false := by simpa using ha
    have hrhs : resolve cwd p = ((comps p).foldl (cleanStep true) cwd.reverse).reverse := by
      simp only [resolve, ha', Bool.false_eq_true, if_false, comps]
      rw [foldl_clean_clean]
    rw [hrhs]
    by_cases hC : comps p = []
    · rw [if_pos hC, hC]
      rfl
    · rw [if_neg hC]
      have h1 : isAbs (joinSlash (comps p)) = false :=
        isAbs_joinSlash (fun c hc => ⟨(hm c hc).1, (hm c hc).2.2.1⟩)
      simp only [resolve, h1, Bool.false_eq_true, if_false]
      rw [split_joinSlash hC (fun c hc => (hm c hc).2.2.1)]

theorem resolve_slash (cwd : List Bytes) {v : Bytes} (hv : v ≠ []) {cs : List Bytes} (hcs : cs ≠ [])
    (h : ∀ c ∈ cs, Simple c) : resolve cwd (v ++ 47 :: joinSlash cs) = resolve cwd v ++ cs := by
  have hsp : split (v ++ 47 :: joinSlash cs) = split v ++ cs := by
    rw [split_append, split_joinSlash hcs (fun c hc => (h c hc).2.2.2)]
  unfold resolve
  rw [isAbs_append hv]
  split
  · rename_i ha
    unfold comps
    rw [isAbs_append hv, ha, hsp, List.foldl_append, foldl_simple h]
    simp
  · rw [hsp, List.foldl_append, foldl_simple h]
    simp

/-- Where `filepath.Join(v, names…)` leads. -/
theorem resolve_join (cwd : List Bytes) {v : Bytes} (hv : v ≠ []) {cs : List Bytes} (hcs : cs ≠ [])
    (h : ∀ c ∈ cs, Simple c) : resolve cwd (join (v :: cs)) = resolve cwd v ++ cs := by
  have hj : join (v :: cs) = clean (v ++ 47 :: joinSlash cs) := by
    unfold join
    have : (v :: cs).dropWhile List.isEmpty = v :: cs := by
      simp [List.dropWhile, show v.isEmpty = false by simpa using hv]
    rw [this]
    cases cs with
    | nil => exact absurd rfl hcs
    | cons a l => simp [joinSlash]
  rw [hj, resolve_clean, resolve_slash cwd hv hcs h]

theorem comps_slash {v : Bytes} (hv : v ≠ []) {cs : List Bytes} (hcs : cs ≠ [])
    (h : ∀ c ∈ cs, Simple c) : comps (v ++ 47 :: joinSlash cs) = comps v ++ cs := by
  unfold comps
  rw [isAbs_append hv, split_append, split_joinSlash hcs (fun c hc => (h c hc).2.2.2), List.foldl_append, foldl_simple h]
  simp

/-- Joining one more name. -/
theorem join_snoc {v : Bytes} (hv : v ≠ []) {cs : List Bytes} {b : Bytes} (hcs : cs ≠ [])
    (h : ∀ c ∈ cs, Simple c) (hb : Simple b) : join (v :: (cs ++ [b])) = join (v :: cs) ++ 47 :: b := by
  have hj : ∀ cs : List Bytes, cs ≠ [] → join (v :: cs) = clean (v ++ 47 :: joinSlash cs) := by
    intro cs hcs
    unfold join
    have : (v :: cs).dropWhile List.isEmpty = v :: cs := by
      simp [List.dropWhile, show v.isEmpty = false by simpa using hv]
    rw [this]
    cases cs with
    | nil => exact absurd rfl hcs
    | cons a l => simp [joinSlash]
  have hall : ∀ c ∈ cs ++ [b], Simple c := by
    intro c hc
    rcases List.mem_append.1 hc with hc | hc
    · exact h c hc
    · simp at hc; subst hc; exact hb
  rw [hj _ (by simp), hj _ hcs]
  unfold clean
  rw [isAbs_append hv, isAbs_append hv, comps_slash hv (by simp) hall, comps_slash hv hcs h]
  have hne : comps v ++ cs ≠ [] := by simp [hcs]
  have hne2 : comps v ++ (cs ++ [b]) ≠ [] := by simp
  have : joinSlash (comps v ++ (cs ++ [b])) = joinSlash (comps v ++ cs) ++ 47 :: b := by
    rw [← List.append_assoc, joinSlash_append _ _ hne]
  rw [this, if_neg hne, if_neg hne2]
  split
  · simp
  · rfl

theorem comps_bytes (p : Bytes) : ∀ c ∈ comps p, ∀ b ∈ c, b ∈ p ∨ b = 46 := by
  intro c hc b hb
  unfold comps at hc
  rw [List.mem_reverse] at hc
  rcases foldl_clean_mem _ _ _ c hc with h | h | h | h
  · simp at h
  · exact .inl (split_bytes p c h.1 b hb)
  · rw [h.1] at hb; simp at hb; exact .inr hb
  · simp at h

theorem joinSlash_bytes (l : List Bytes) : ∀ b ∈ joinSlash l, b = 47 ∨ ∃ c ∈ l, b ∈ c := by
  induction l with
  | nil => simp [joinSlash]
  | cons a l ih =>
    cases l with
    | nil => intro b hb; exact .inr ⟨a, by simp, hb⟩
    | cons a' l =>
      intro b hb
      simp only [joinSlash, List.mem_append, List.mem_cons] at hb
      rcases hb with hb | rfl | hb
      · exact .inr ⟨a, by simp, hb⟩
      · exact .inl rfl
      · rcases ih b hb with h | ⟨c, hc, hb⟩
        · exact .inl h
        · exact .inr ⟨c, by simp only [List.mem_cons] at hc ⊢; exact .inr hc, hb⟩

/-- A cleaned path is never empty. -/
theorem clean_ne_nil (p : Bytes) : clean p ≠ [] := by
  unfold clean
  split
  · simp
  · split
    · simp
    · rename_i h0 h
      intro hj
      cases hc : comps p with
      | nil => exact h hc
      | cons a r =>
        rw [hc] at hj
        cases r with
        | nil =>
          have ha : a ≠ [] := (comps_mem p a (by rw [hc]; simp)).1
          exact ha hj
        | cons b t => simp [joinSlash] at hj

/-- `Clean` adds no bytes but slash and dot. -/
theorem clean_bytes (p : Bytes) : ∀ b ∈ clean p, b ∈ p ∨ b = 46 ∨ b = 47 := by
  intro b hb
  have key : ∀ b ∈ joinSlash (comps p), b ∈ p ∨ b = 46 ∨ b = 47 := by
    intro b hb
    rcases joinSlash_bytes _ b hb with h | ⟨c, hc, hb⟩
    · exact .inr (.inr h)
    · rcases comps_bytes p c hc b hb with h | h
      · exact .inl h
      · exact .inr (.inl h)
  unfold clean at hb
  split at hb
  · rcases List.mem_cons.1 hb with rfl | hb
    · exact .inr (.inr rfl)
    · exact key b hb
  · split at hb
    · simp at hb; exact .inr (.inl hb)
    · exact key b hb

theorem hasMeta_join {v : Bytes} (hv : v ≠ []) (hm : hasMeta v = false) {cs : List Bytes}
    (h : ∀ c ∈ cs, Simple c ∧ hasMeta c = false) (hcs : cs ≠ []) : hasMeta (join (v :: cs)) = false := by
  have hj : join (v :: cs) = clean (v ++ 47 :: joinSlash cs) := by
    unfold join
    have : (v :: cs).dropWhile List.isEmpty = v :: cs := by
      simp [List.dropWhile, show v.isEmpty = false by simpa using hv]
    rw [this]
    cases cs with
    | nil => exact absurd rfl hcs
    | cons a l => simp [joinSlash]
  rw [hj]
  unfold hasMeta
  rw [List.any_eq_false]
  intro b hb
  have hnot : ∀ l : Bytes, hasMeta l = false → b ∈ l → ¬ (b == 42 || b == 63 || b == 91 || b == 92) = true := by
    intro l hl hb
    unfold hasMeta at hl
    rw [List.any_eq_false] at hl
    exact hl b hb
  rcases clean_bytes _ b hb with hb | rfl | rfl
  · rcases List.mem_append.1 hb with hb | hb
    · exact hnot v hm hb
    · rcases List.mem_cons.1 hb with rfl | hb
      · decide
      · rcases joinSlash_bytes _ b hb with rfl | ⟨c, hc, hb⟩
        · decide
        · exact hnot c (h c hc).2 hb
  · decide
  · decide

/-! ### Patterns -/

/-- A byte with no special meaning in a pattern. -/
def Literal (l : Bytes) : Prop := ∀ b ∈ l, b ≠ 91 ∧ b ≠ 63 ∧ b ≠ 92

instance (l : Bytes) : Decidable (Literal l) := by unfold Literal; infer_instance

theorem matchChunk_literal {chunk : Bytes} (h : Literal chunk) (f : Nat) (hf : chunk.length < f) (s : Bytes) :
    matchChunk f chunk s = some (if chunk <+: s then some (s.drop chunk.length) else none) := by
  induction chunk generalizing f s with
  | nil =>
    obtain ⟨f, rfl⟩ : ∃ g, f = g + 1 := ⟨f - 1, by simp at hf; omega⟩
    simp [matchChunk]
  | cons c chunk ih =>
    obtain ⟨f, rfl⟩ : ∃ g, f = g + 1 := ⟨f - 1, by simp at hf; omega⟩
    cases s with
    | nil => simp [matchChunk]
    | cons b s =>
      obtain ⟨h1, h2, h3⟩ := h c (by simp)
      simp only [matchChunk, h1, h2, h3, if_false]
      by_cases hcb : c = b
      · subst hcb
        rw [if_neg (by simp), ih (fun x hx => h x (by simp [hx])) f (by simp at hf; omega)]
        simp [List.cons_prefix_cons]
      · simp [hcb, List.cons_prefix_cons]

/-- A band file name. -/
def IsBand (n : Bytes) : Prop := ∃ x, n = b!"band_" ++ x ++ b!".js"

theorem skipMatch_js {name : Bytes} (h : (47 : UInt8) ∉ name) :
    skipMatch b!".js" true name =
      some (if b!".js" <:+ name.tail then some [] else none) := by
  induction name with
  | nil => simp [skipMatch]
  | cons c rest ih =>
    have hc : c ≠ 47 := fun hc => h (by simp [hc])
    have hr : (47 : UInt8) ∉ rest := fun hr => h (by simp [hr])
    have hlit : Literal b!".js" := by decide +kernel
    unfold skipMatch
    rw [if_neg hc, matchChunk_literal hlit _ (by decide)]
    by_cases hp : b!".js" <+: rest
    · rw [if_pos hp]
      obtain ⟨t, rfl⟩ := hp
      simp only [List.tail_cons]
      have hd : (b!".js" ++ t).drop 3 = t := rfl
      have hlen : (b!".js").length = 3 := rfl
      rw [hlen, hd]
      by_cases ht : t = []
      · subst ht
        simp
      · have : (true && !t.isEmpty) = true := by simpa using ht
        simp only [this, if_true]
        rw [ih hr]
        congr 2
        have : b!".js" <:+ (b!".js" ++ t).tail ↔ b!".js" <:+ b!".js" ++ t := by
          constructor
          · intro hs; exact hs.trans (List.tail_suffix _)
          · rintro ⟨z, hz⟩
            cases z with
            | nil =>
              have hl := congrArg List.length hz
              simp at hl
              exact absurd hl ht
            | cons y z =>
              refine ⟨z, ?_⟩
              rw [← hz]; rfl
        simp only [this]
    · rw [if_neg hp]
      simp only [List.tail_cons]
      rw [ih hr]
      congr 2
      have : b!".js" <:+ rest.tail ↔ b!".js" <:+ rest := by
        constructor
        · intro hs; exact hs.trans (List.tail_suffix _)
        · rintro ⟨z, hz⟩
          cases z with
          | nil => exact absurd ⟨[], by rw [← hz]; rfl⟩ hp
          | cons y z => exact ⟨z, by rw [← hz]; rfl⟩
      simp only [this]

/-- The pattern `band_*.js` matches exactly the band file names. -/
theorem match_band {n : Bytes} (h : (47 : UInt8) ∉ n) : ∃ r, match? b!"band_*.js" n = some r ∧ (r = true ↔ IsBand n) := by
  have hb1 : scanChunk b!"band_*.js" = (false, b!"band_", b!"*.js") := by decide
  have hb2 : scanChunk b!"*.js" = (true, b!".js", []) := by decide
  have l1 : Literal b!"band_" := by decide +kernel
  have l2 : Literal b!".js" := by decide +kernel
  have e1 : match? b!"band_*.js" n = matchP 10 b!"band_*.js" n := rfl
  rw [e1]
  unfold matchP
  rw [if_neg (by decide), hb1]
  simp only [Bool.false_and, Bool.false_eq_true, if_false]
  rw [matchChunk_literal l1 _ (by decide)]
  by_cases hp : b!"band_" <+: n
  swap
  · rw [if_neg hp]
    refine ⟨false, rfl, by simp, fun hb => ?_⟩
    obtain ⟨x, rfl⟩ := hb
    exact absurd ⟨x ++ b!".js", by simp⟩ hp
  rw [if_pos hp]
  obtain ⟨t, rfl⟩ := hp
  have hd : (b!"band_" ++ t).drop (b!"band_").length = t := rfl
  rw [hd]
  have ht : (47 : UInt8) ∉ t := fun h' => h (by simp [h'])
  simp only [show (!(b!"*.js").isEmpty) = true from rfl, Bool.or_true, if_true]
  unfold matchP
  rw [if_neg (by decide), hb2]
  simp only [Bool.true_and, show (b!".js").isEmpty = false from rfl, Bool.false_eq_true, if_false,
    show ([] : Bytes).isEmpty = true from rfl, Bool.not_true, Bool.or_false, if_true]
  rw [matchChunk_literal l2 _ (by decide), skipMatch_js ht]
  have hband : IsBand (b!"band_" ++ t) ↔ b!".js" <:+ t := by
    constructor
    · rintro ⟨x, hx⟩
      exact ⟨x, by simpa using hx.symm⟩
    · rintro ⟨x, rfl⟩
      exact ⟨x, by simp⟩
  rw [hband]
  have hsuf : b!".js" <:+ t ↔ t = b!".js" ∨ b!".js" <:+ t.tail := by
    constructor
    · rintro ⟨z, rfl⟩
      cases z with
      | nil => exact .inl rfl
      | cons y z => exact .inr ⟨z, rfl⟩
    · rintro (rfl | h')
      · exact List.suffix_rfl
      · exact h'.trans (List.tail_suffix _)
  have done : ∀ f, matchP (f + 1) [] [] = some true := fun f => by simp [matchP]
  by_cases hp : b!".js" <+: t
  · rw [if_pos hp]
    simp only
    obtain ⟨u, rfl⟩ := hp
    have hd : (b!".js" ++ u).drop (b!".js").length = u := rfl
    rw [hd]
    by_cases hu : u = []
    · subst hu
      refine ⟨true, ?_, by simp⟩
      simp [done]
    · rw [if_neg (by simpa using hu)]
      by_cases hs : b!".js" <:+ (b!".js" ++ u).tail
      · rw [if_pos hs]
        exact ⟨true, by simp [done], fun _ => hsuf.2 (.inr hs), fun _ => rfl⟩
      · rw [if_neg hs]
        refine ⟨false, rfl, by simp, fun h' => ?_⟩
        rcases hsuf.1 h' with h' | h'
        · have hl := congrArg List.length h'
          simp at hl
          exact absurd hl hu
        · exact absurd h' hs
  · rw [if_neg hp]
    simp only
    by_cases hs : b!".js" <:+ t.tail
    · rw [if_pos hs]
      exact ⟨true, by simp [done], fun _ => hsuf.2 (.inr hs), fun _ => rfl⟩
    · rw [if_neg hs]
      refine ⟨false, rfl, by simp, fun h' => ?_⟩
      rcases hsuf.1 h' with h' | h'
      · exact absurd ⟨[], by simp [h']⟩ hp
      · exact absurd h' hs

theorem splitFile_slash (d f : Bytes) (h : (47 : UInt8) ∉ f) : splitFile (d ++ 47 :: f) = (d ++ [47], f) := by
  have ht : ∀ b ∈ f.reverse, (b != 47) = true := by
    intro b hb
    rw [List.mem_reverse] at hb
    simp only [bne_iff_ne, ne_eq]
    rintro rfl; exact h hb
  have hr : (d ++ 47 :: f).reverse = f.reverse ++ (47 :: d.reverse) := by simp
  unfold splitFile
  rw [hr, List.dropWhile_append_of_pos ht, List.takeWhile_append_of_pos ht]
  simp

end Path
end OnePass
