/-
What `strings.TrimSpace` returns: text that neither begins nor ends with white space.
-/
import Verif.Go.StringsFacts

namespace OnePass
namespace Str
open Json (utf8Enc)

/-- A text that neither begins nor ends with white space. -/
def Bare (s : Bytes) : Prop := ∀ c, White c → ¬ utf8Enc c <+: s ∧ ¬ utf8Enc c <:+ s

theorem trimLeft_front (n : Nat) (s : Bytes) (hn : s.length ≤ n) : spaceLen (trimLeft n s) = 0 := by
  induction n generalizing s with
  | zero =>
    have : s = [] := List.length_eq_zero_iff.1 (by omega)
    subst this
    rfl
  | succ n ih =>
    rw [trimLeft]
    split
    · assumption
    · exact ih _ (by rw [List.length_drop]; omega)

theorem trimBack_front (n : Nat) (s : Bytes) (hn : s.length ≤ n) : spaceLenBack (trimBack n s) = 0 := by
  induction n generalizing s with
  | zero =>
    have : s = [] := List.length_eq_zero_iff.1 (by omega)
    subst this
    rfl
  | succ n ih =>
    rw [trimBack]
    split
    · assumption
    · exact ih _ (by rw [List.length_drop]; omega)

theorem no_prefix {s : Bytes} (h : spaceLen s = 0) {c : Nat} (hc : White c) : ¬ utf8Enc c <+: s := by
  rintro ⟨x, rfl⟩
  rw [spaceLen_enc_white hc] at h
  exact enc_ne c (List.length_eq_zero_iff.1 h)

theorem no_suffix {s : Bytes} (h : spaceLenBack s.reverse = 0) {c : Nat} (hc : White c) : ¬ utf8Enc c <:+ s := by
  rintro ⟨x, rfl⟩
  rw [List.reverse_append, spaceLenBack_enc (white_scalar hc), if_pos hc] at h
  exact enc_ne c (List.length_eq_zero_iff.1 h)

theorem dropWhile_head {p : UInt8 → Bool} {s : Bytes} {a : UInt8} {r : Bytes} (h : s.dropWhile p = a :: r) : p a = false := by
  have hne : s.dropWhile p ≠ [] := by rw [h]; simp
  have := List.head_dropWhile_not (p := p) (l := s) hne
  simpa only [h, List.head_cons] using this

theorem mem_dropWhile {p : UInt8 → Bool} {s : Bytes} {b : UInt8} (h : b ∈ s.dropWhile p) : b ∈ s :=
  (List.dropWhile_sublist _).mem h

theorem spaceLen_dropWhile {s : Bytes} (hs : ∀ b ∈ s, b < 128) : spaceLen (s.dropWhile isSpaceA) = 0 := by
  cases h : s.dropWhile isSpaceA with
  | nil => rfl
  | cons a r => rw [spaceLen_ascii (hs a (mem_dropWhile (p := isSpaceA) (by rw [h]; simp))), dropWhile_head h]; rfl

theorem spaceLenBack_dropWhile {s : Bytes} (hs : ∀ b ∈ s, b < 128) : spaceLenBack (s.dropWhile isSpaceA) = 0 := by
  have hm : ∀ b ∈ s.dropWhile isSpaceA, b < 128 := fun b hb => hs b (mem_dropWhile hb)
  cases h : s.dropWhile isSpaceA with
  | nil => rfl
  | cons a r =>
    rw [h] at hm
    have small : ∀ n, spaceLen ((a :: r).take n).reverse ≤ 1 := by
      intro n
      cases hl : ((a :: r).take n).reverse with
      | nil => simp [spaceLen]
      | cons b t =>
        have hb : b ∈ a :: r := List.mem_of_mem_take (List.mem_reverse.1 (by rw [hl]; simp))
        rw [spaceLen_ascii (hm b hb)]
        split <;> omega
    have h1 : spaceLen ((a :: r).take 1) = 0 := by
      show spaceLen [a] = 0
      rw [spaceLen_ascii (hm a (by simp)), dropWhile_head h]
      rfl
    have h2 := small 2
    have h3 := small 3
    unfold spaceLenBack
    rw [if_neg (by omega), if_neg (by omega), if_neg (by omega)]

/-- What is trimmed is bare. -/
theorem trimSpace_bare (s : Bytes) : Bare (trimSpace s) := by
  -- the end is trimmed last; a beginning of the rest is a beginning of what it was trimmed from
  have key : ∀ t u : Bytes, spaceLen t = 0 → u <:+ t.reverse → spaceLenBack u = 0 → Bare u.reverse := by
    intro t u h1 h2 h3 c hc
    refine ⟨fun h => ?_, no_suffix (by rw [List.reverse_reverse]; exact h3) hc⟩
    have : u.reverse <+: t := by
      have := List.reverse_prefix.2 h2
      rwa [List.reverse_reverse] at this
    exact no_prefix h1 hc (h.trans this)
  unfold trimSpace
  split
  · rename_i ha
    have hs := isAscii_iff.1 ha
    refine key _ _ (spaceLen_dropWhile hs) (List.dropWhile_suffix _) (spaceLenBack_dropWhile ?_)
    intro b hb
    exact hs b (mem_dropWhile (List.mem_reverse.1 hb))
  · simp only
    obtain ⟨post, -, h⟩ := trimBack_split (trimLeft s.length s).length (trimLeft s.length s).reverse
    exact key _ _ (trimLeft_front _ _ (Nat.le_refl _)) ⟨_, h.symm⟩ (trimBack_front _ _ (by rw [List.length_reverse]; exact Nat.le_refl _))

/-- What is bare stays. -/
theorem trimSpace_of_bare {s : Bytes} (h : Bare s) : trimSpace s = s := by
  obtain ⟨pre, post, h1, h2, h3⟩ := trimSpace_split s
  cases pre with
  | cons c pre =>
    refine absurd ?_ (h c (h1 c (by simp))).1
    refine ⟨utf8 pre ++ trimSpace s ++ utf8 post, ?_⟩
    conv_rhs => rw [h3]
    rw [utf8_cons]
    simp only [List.append_assoc]
  | nil =>
    cases hp : post.reverse with
    | nil =>
      rw [List.reverse_eq_nil_iff] at hp
      subst hp
      rw [show utf8 [] = [] from rfl, List.nil_append, List.append_nil] at h3
      exact h3.symm
    | cons c q =>
      have hq : post = q.reverse ++ [c] := by rw [← List.reverse_cons, ← hp, List.reverse_reverse]
      refine absurd ?_ (h c (h2 c (by rw [hq]; simp))).2
      refine ⟨trimSpace s ++ utf8 q.reverse, ?_⟩
      conv_rhs => rw [h3, hq, utf8_append]
      simp [utf8]

theorem bare_iff (s : Bytes) : Bare s ↔ trimSpace s = s :=
  ⟨trimSpace_of_bare, fun h => h ▸ trimSpace_bare s⟩

/-- A trimmed text is what is left when white space is taken off both ends. -/
theorem trimSpace_around {pre post : List Nat} {p : Bytes} (h1 : ∀ c ∈ pre, White c) (h2 : ∀ c ∈ post, White c) (hp : Bare p)
    (hne : p ≠ []) : trimSpace (utf8 pre ++ p ++ utf8 post) = p := by
  obtain ⟨pre', post', k1, k2, k3⟩ := trimSpace_split (utf8 pre ++ p ++ utf8 post)
  have hb := trimSpace_bare (utf8 pre ++ p ++ utf8 post)
  generalize trimSpace (utf8 pre ++ p ++ utf8 post) = t at k3 hb
  -- the two ways to take white space off the front agree
  have front : ∀ (a b : List Nat) (x y : Bytes), (∀ c ∈ a, White c) → (∀ c ∈ b, White c) → utf8 a ++ x = utf8 b ++ y →
      (∀ c, White c → ¬ utf8Enc c <+: x) → (∀ c, White c → ¬ utf8Enc c <+: y) → x = y := by
    intro a
    induction a with
    | nil =>
      intro b x y _ hb h hx _
      cases b with
      | nil => exact h
      | cons c b =>
        refine absurd ?_ (hx c (hb c (by simp)))
        exact ⟨utf8 b ++ y, by rw [← List.append_assoc, ← utf8_cons]; exact h.symm⟩
    | cons d a ih =>
      intro b x y ha hb h hx hy
      cases b with
      | nil =>
        refine absurd ?_ (hy d (ha d (by simp)))
        exact ⟨utf8 a ++ x, by rw [← List.append_assoc, ← utf8_cons]; exact h⟩
      | cons c b =>
        rw [utf8_cons, utf8_cons, List.append_assoc, List.append_assoc] at h
        have hd := ha d (by simp)
        have hc := hb c (by simp)
        have hl : (utf8Enc d).length = (utf8Enc c).length := by
          rw [← spaceLen_enc_white hd (utf8 a ++ x), h, spaceLen_enc_white hc]
        obtain ⟨_, h'⟩ := List.append_inj h hl
        exact ih b x y (fun c hc => ha c (by simp [hc])) (fun c hc => hb c (by simp [hc])) h' hx hy
  have back : ∀ (a b : List Nat) (x y : Bytes), (∀ c ∈ a, White c) → (∀ c ∈ b, White c) → x ++ utf8 a.reverse = y ++ utf8 b.reverse →
      (∀ c, White c → ¬ utf8Enc c <:+ x) → (∀ c, White c → ¬ utf8Enc c <:+ y) → x = y := by
    have one : ∀ c : Nat, utf8 [c] = utf8Enc c := by intro c; simp [utf8]
    intro a
    induction a with
    | nil =>
      intro b x y _ hb h hx _
      cases b with
      | nil => simpa using h
      | cons c b =>
        refine absurd ?_ (hx c (hb c (by simp)))
        rw [List.reverse_cons, utf8_append, one, ← List.append_assoc] at h
        exact ⟨y ++ utf8 b.reverse, by simpa [utf8] using h.symm⟩
    | cons d a ih =>
      intro b x y ha hb h hx hy
      cases b with
      | nil =>
        refine absurd ?_ (hy d (ha d (by simp)))
        rw [List.reverse_cons, utf8_append, one, ← List.append_assoc] at h
        exact ⟨x ++ utf8 a.reverse, by simpa [utf8] using h⟩
      | cons c b =>
        have hd := ha d (by simp)
        have hc := hb c (by simp)
        rw [List.reverse_cons, List.reverse_cons, utf8_append, utf8_append, one, one, ← List.append_assoc, ← List.append_assoc] at h
        have hl : (utf8Enc d).length = (utf8Enc c).length := by
          have e1 := spaceLenBack_enc (white_scalar hd) (x ++ utf8 a.reverse).reverse
          have e2 := spaceLenBack_enc (white_scalar hc) (y ++ utf8 b.reverse).reverse
          rw [← List.reverse_append, if_pos hd] at e1
          rw [← List.reverse_append, if_pos hc] at e2
          rw [← e1, h, e2]
        obtain ⟨h', _⟩ := List.append_inj' h hl
        exact ih b x y (fun c hc => ha c (by simp [hc])) (fun c hc => hb c (by simp [hc])) h' hx hy
  have nofront : ∀ (z : List Nat) (x : Bytes), x ≠ [] → (∀ c ∈ z, White c) → (∀ c, White c → ¬ utf8Enc c <+: x) →
      ∀ c, White c → ¬ utf8Enc c <+: x ++ utf8 z := by
    intro z x hx0 hz hx c hc hpre
    have hs : spaceLen (x ++ utf8 z) ≠ 0 := by
      obtain ⟨q, hq⟩ := hpre
      rw [← hq, spaceLen_enc_white hc]
      exact fun h => enc_ne c (List.length_eq_zero_iff.1 h)
    -- take the characters of `x` up to its first white space
    have hu : untilSpace x ≠ [] := by
      obtain ⟨a, r, rfl⟩ := List.exists_cons_of_ne_nil hx0
      rw [untilSpace]
      split
      · simp
      · rename_i h0
        obtain ⟨c', k1, k2, -⟩ := spaceLen_white h0
        exact absurd ⟨_, k2.symm⟩ (hx c' k1)
    obtain ⟨rest, e1, e2⟩ := untilSpace_stops x
    have hst : Stops (rest ++ utf8 z) := by
      rcases e2 with rfl | ⟨c', q, k1, rfl⟩
      · cases z with
        | nil => exact .inl rfl
        | cons c' z => exact .inr ⟨c', utf8 z, hz c' (by simp), rfl⟩
      · exact .inr ⟨c', q ++ utf8 z, k1, by rw [List.append_assoc]⟩
    have := untilSpace_append (untilSpace_noWhite x) hst
    rw [← List.append_assoc, ← e1] at this
    rw [← this] at hu
    cases hxz : x ++ utf8 z with
    | nil => rw [hxz] at hu; exact hu rfl
    | cons a r =>
      rw [hxz] at hu hs
      rw [untilSpace, if_neg hs] at hu
      exact hu rfl
  by_cases ht : t = []
  · -- then all of it is white space, but `p` is there
    subst ht
    rw [List.append_nil, ← utf8_append, List.append_assoc] at k3
    have hw : ∀ c ∈ pre' ++ post', White c := by
      intro c hc
      rcases List.mem_append.1 hc with hc | hc
      · exact k1 c hc
      · exact k2 c hc
    have := front pre (pre' ++ post') (p ++ utf8 post) [] h1 hw (by rw [List.append_nil]; exact k3)
      (nofront post p hne h2 (fun c hc => (hp c hc).1)) (fun c _ h => enc_ne c (List.prefix_nil.1 h))
    simp at this
    exact absurd this.1 hne
  · rw [List.append_assoc, List.append_assoc] at k3
    have e := front pre pre' _ _ h1 k1 k3 (nofront post p hne h2 (fun c hc => (hp c hc).1))
      (nofront post' t ht k2 (fun c hc => (hb c hc).1))
    have := back post.reverse post'.reverse p t (fun c hc => h2 c (List.mem_reverse.1 hc))
      (fun c hc => k2 c (List.mem_reverse.1 hc)) (by rw [List.reverse_reverse, List.reverse_reverse]; exact e)
      (fun c hc => (hp c hc).2) (fun c hc => (hb c hc).2)
    exact this.symm

end Str
end OnePass
