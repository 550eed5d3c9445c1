/-
C79: paths with brackets or backslashes never stand for themselves.
-/
import Verif.Props.Glob

namespace OnePass
open Spec

/-- Without stars a name has as many characters as the pattern has terms. -/
theorem fits_count {ts : List Term} {n : Bytes} (h : FitsName ts n) (hs : Term.star ∉ ts) : n.length = ts.length := by
  induction h with
  | nil => rfl
  | char _ _ ih => simp [ih (fun h => hs (List.mem_cons_of_mem _ h))]
  | star x _ _ => exact absurd List.mem_cons_self hs

/-- A pattern is at least as long as it has terms, and longer if it has a bracket or a backslash. -/
theorem pattern_count {p : Bytes} {ts : List Term} (h : PatternR p ts) :
    ts.length ≤ p.length ∧ ((91 ∈ p ∨ 92 ∈ p) → ts.length < p.length) := by
  induction h with
  | nil => simp
  | star _ ih => simp at ih ⊢; omega
  | any _ ih => simp at ih ⊢; omega
  | one c h1 h2 h3 h4 _ ih =>
    simp only [List.length_cons, List.mem_cons]
    refine ⟨by omega, ?_⟩
    rintro ((h | h) | (h | h))
    · exact absurd h.symm h3
    · have := ih.2 (.inl h); omega
    · exact absurd h.symm h4
    · have := ih.2 (.inr h); omega
  | escaped c _ ih => simp only [List.length_cons]; omega
  | cls _ hr _ _ ih => have := Path.ranges_length hr; simp only [List.length_cons]; omega
  | neg hr _ _ ih => have := Path.ranges_length hr; simp only [List.length_cons]; omega

/-- C79: an absolute path of well-formed patterns without stars, in which a bracket or a backslash occurs, never stands for
the directory of this name: no file in it is read, whatever else is on the disk. -/
theorem C79_never_own (d : Disk) (v : Bytes) (tss : List (List Term)) (hd : d.Tree) (ha : Path.isAbs v = true)
    (hp : List.Forall₂ PatternR (Path.comps v) tss) (hstar : ∀ ts ∈ tss, Term.star ∉ ts)
    (hb : ∃ c ∈ Path.comps v, 91 ∈ c ∨ 92 ∈ c) (hr : ∀ ts ∈ tss, StarsOnly ts ∨ d.Ascii) :
    ∃ l, bandLocations d v = some l ∧ ∀ x ∈ l, ¬ Path.resolve d.cwd v <+: x := by
  obtain ⟨l, h1, -, h2⟩ := C79_which_bands d v tss hd ha hp hr
  refine ⟨l, h1, fun x hx ⟨z, hz⟩ => ?_⟩
  have hres : Path.resolve d.cwd v = Path.comps v := by unfold Path.resolve; rw [ha, if_pos rfl]
  obtain ⟨-, xs, n, h3, h4, -⟩ := (h2 x).1 hx
  have hl : xs.length = (Path.comps v).length := by rw [hp.length_eq, h4.length_eq]
  have hxs : Path.comps v = xs := by
    rw [hres, h3] at hz
    exact (List.append_inj hz hl.symm).1
  rw [← hxs] at h4
  clear hr h1 h2 h3 hz hl hxs hres
  obtain ⟨c, hc, hb⟩ := hb
  generalize Path.comps v = cs at hp h4 hc
  induction hp with
  | nil => cases hc
  | @cons a ts cs tss hpa _ ih =>
    obtain ⟨h5, h6⟩ := List.forall₂_cons.1 h4
    rcases List.mem_cons.1 hc with rfl | hc
    · have e1 := fits_count h5 (hstar _ (by simp))
      have e2 := (pattern_count hpa).2 hb
      omega
    · exact ih (fun t ht => hstar t (by simp [ht])) h6 hc

/-- C79: if no directory on the disk fits the pattern either, the vault counts as one without items: whatever is in it, nothing
is loaded and nothing is reported. -/
theorem C79_seems_empty (E : Env) (O : MapOrder) (d : Disk) (v : Bytes) (tss : List (List Term)) (hd : d.Tree)
    (ha : Path.isAbs v = true) (hp : List.Forall₂ PatternR (Path.comps v) tss) (hr : ∀ ts ∈ tss, StarsOnly ts ∨ d.Ascii)
    (hno : ∀ xs, List.Forall₂ FitsName tss xs → d.at? xs = none) : Repo.loadItems E O d v = .ret [] := by
  obtain ⟨l, h1, -, h2⟩ := C79_which_bands d v tss hd ha hp hr
  have hl : l = [] := by
    refine List.eq_nil_iff_forall_not_mem.2 (fun x hx => ?_)
    obtain ⟨h3, xs, n, rfl, h4, -⟩ := (h2 x).1 hx
    have h5 := (hd.below (xs ++ [b!"default"]) n (by simpa using h3)).2
    have h6 := (hd.below xs b!"default" (by rw [h5]; simp)).2
    rw [hno xs h4] at h6
    cases h6
  subst hl
  unfold bandLocations at h1
  rw [Option.map_eq_some_iff] at h1
  obtain ⟨fs, h3, h4⟩ := h1
  have : fs = [] := by cases fs with | nil => rfl | cons a r => cases h4
  subst this
  unfold Repo.loadItems
  rw [h3]

/-- The vault /v[1] is not read, though it is there: with /v1 beside it, that is read instead. -/
example : ∃ l, bandLocations GlobDemo.disk b!"/v[1]" = some l ∧ ∀ x ∈ l, ¬ [b!"v[1]"] <+: x := by
  have h := C79_never_own GlobDemo.disk b!"/v[1]" [GlobDemo.terms] GlobDemo.tree (by decide)
    (by rw [show Path.comps b!"/v[1]" = [b!"v[1]"] by decide +kernel]; exact .cons GlobDemo.pattern .nil)
    (by decide) ⟨b!"v[1]", by decide +kernel, .inl (by decide)⟩ (fun _ _ => .inr GlobDemo.ascii)
  rw [show Path.resolve GlobDemo.disk.cwd b!"/v[1]" = [b!"v[1]"] by decide +kernel] at h
  exact h

namespace BracketDemo

/-- A vault /v[1] with an entry, and no other. -/
def disk : Disk :=
  { cwd := []
    fs := [([], .dir), ([b!"v[1]"], .dir), ([b!"v[1]", b!"default"], .dir),
      ([b!"v[1]", b!"default", b!"band_0.js"], .file b!"ld({\"A\":{}});" false)] }

theorem tree : disk.Tree := Disk.tree_of (by decide +kernel) (by decide +kernel)

theorem ascii : disk.Ascii := by
  intro x n h
  obtain ⟨e, he, h3⟩ := at_ne_none.1 h
  have : ∀ e ∈ disk.fs, ∀ c ∈ e.1, ∀ b ∈ c, b < 128 := by decide +kernel
  exact fun b hb => this e he n (by rw [h3]; simp) b hb

end BracketDemo

/-- The vault is there, and seems to be empty. -/
example : BracketDemo.disk.at? [b!"v[1]", b!"default", b!"band_0.js"] = some (.file b!"ld({\"A\":{}});" false) ∧
    Repo.loadItems Env.toy .doc BracketDemo.disk b!"/v[1]" = .ret [] := by
  refine ⟨by decide +kernel, C79_seems_empty _ _ _ _ [GlobDemo.terms] BracketDemo.tree (by decide)
    (by rw [show Path.comps b!"/v[1]" = [b!"v[1]"] by decide +kernel]; exact .cons GlobDemo.pattern .nil)
    (fun _ _ => .inr BracketDemo.ascii) (fun xs h => ?_)⟩
  rcases xs with _ | ⟨n, _ | ⟨m, r⟩⟩
  · cases h
  · rw [List.forall₂_cons, GlobDemo.fits] at h
    rw [h.1]
    decide +kernel
  · simp at h

/-- C79: a star stands for every name of one component and for nothing that reaches across a slash, so that a pattern never
matches deeper than it is written. -/
theorem C79_star (name : Bytes) : Path.match? b!"*" name = some true ↔ (47 : UInt8) ∉ name := by
  rw [show Path.match? b!"*" name = some (!name.contains 47) from rfl]
  simp

example : Path.match? b!"*" b!"band_0.js" = some true ∧ Path.match? b!"*" b!"default/band_0.js" = some false := by decide +kernel

theorem chunk_one {c : UInt8} (hc : c ∉ [42, 63, 91, 92]) (b : UInt8) (s : Bytes) :
    Path.matchChunk 2 [c] (b :: s) = if c = b then some (some s) else some none := by
  simp only [List.mem_cons, List.not_mem_nil, or_false, not_or] at hc
  simp only [Path.matchChunk, hc, if_false, ne_eq, ite_not]

theorem skip_one {c : UInt8} (hc : c ∉ [42, 63, 91, 92]) (name : Bytes) :
    (Path.skipMatch [c] true name = some (some []) ∧ ∃ a, a ≠ [] ∧ name = a ++ [c] ∧ (47 : UInt8) ∉ a) ∨
    (Path.skipMatch [c] true name = some none ∧ ¬ ∃ a, a ≠ [] ∧ name = a ++ [c] ∧ (47 : UInt8) ∉ a) := by
  induction name with
  | nil => exact .inr ⟨rfl, by rintro ⟨a, -, h, -⟩; simp at h⟩
  | cons b s ih =>
    by_cases hb : b = 47
    · refine .inr ⟨by rw [Path.skipMatch, if_pos hb], ?_⟩
      rintro ⟨a, h1, h2, h3⟩
      cases a with
      | nil => exact h1 rfl
      | cons x a => cases h2; exact h3 (by simp [hb])
    · have hstep : (∃ a, a ≠ [] ∧ b :: s = a ++ [c] ∧ (47 : UInt8) ∉ a) ↔
          s = [c] ∨ ∃ a, a ≠ [] ∧ s = a ++ [c] ∧ (47 : UInt8) ∉ a := by
        constructor
        · rintro ⟨a, h1, h2, h3⟩
          cases a with
          | nil => exact absurd rfl h1
          | cons x a =>
            cases h2
            cases a with
            | nil => exact .inl rfl
            | cons y a => exact .inr ⟨_, by simp, rfl, fun h => h3 (List.mem_cons_of_mem _ h)⟩
        · rintro (rfl | ⟨a, -, rfl, h3⟩)
          · exact ⟨[b], by simp, rfl, by simpa using fun h => hb h.symm⟩
          · exact ⟨b :: a, by simp, rfl, by simp [h3, Ne.symm hb]⟩
      rw [hstep, Path.skipMatch, if_neg hb]
      cases s with
      | nil =>
        refine .inr ⟨rfl, ?_⟩
        rintro (h | ⟨a, -, h, -⟩)
        · cases h
        · simp at h
      | cons x t =>
        rw [show [c].length + 1 = 2 from rfl, chunk_one hc]
        by_cases hx : c = x
        · subst hx
          rw [if_pos rfl]
          cases t with
          | nil => exact .inl ⟨rfl, .inl rfl⟩
          | cons y t =>
            rcases ih with ⟨h1, h2⟩ | ⟨h1, h2⟩
            · exact .inl ⟨by simpa using h1, .inr h2⟩
            · exact .inr ⟨by simpa using h1, by simpa using h2⟩
        · rw [if_neg hx]
          rcases ih with ⟨h1, h2⟩ | ⟨h1, h2⟩
          · exact .inl ⟨h1, .inr h2⟩
          · exact .inr ⟨h1, by rintro (h | h); (· cases h; exact hx rfl); exact h2 h⟩

/-- C79: a star and then an ordinary byte stand for the names that end with this byte and have no slash before it. -/
theorem C79_star_then (c : UInt8) (hc : c ∉ [42, 63, 91, 92]) (name : Bytes) :
    Path.match? [42, c] name = some true ↔ ∃ a, name = a ++ [c] ∧ (47 : UInt8) ∉ a := by
  have hscan : Path.scanChunk [42, c] = (true, [c], []) := by
    simp only [List.mem_cons, List.not_mem_nil, or_false, not_or] at hc
    simp [Path.scanChunk, Path.scan, hc, beq_iff_eq]
  have hsplit : (∃ a, name = a ++ [c] ∧ (47 : UInt8) ∉ a) ↔ name = [c] ∨ ∃ a, a ≠ [] ∧ name = a ++ [c] ∧ (47 : UInt8) ∉ a := by
    constructor
    · rintro ⟨a, h1, h2⟩
      cases a with
      | nil => exact .inl h1
      | cons x a => exact .inr ⟨_, by simp, h1, h2⟩
    · rintro (rfl | ⟨a, -, h⟩)
      · exact ⟨[], rfl, by simp⟩
      · exact ⟨a, h⟩
  rw [hsplit, Path.match?]
  show Path.matchP 3 _ _ = _ ↔ _
  rw [Path.matchP, if_neg (by simp), hscan]
  simp only [List.isEmpty_cons, Bool.and_false, Bool.false_eq_true, if_false, List.isEmpty_nil, Bool.not_true, Bool.or_false, if_true]
  have hskip : (match Path.skipMatch [c] true name with
      | none => none
      | some none => some false
      | some (some t) => Path.matchP 2 [] t) = some true ↔ ∃ a, a ≠ [] ∧ name = a ++ [c] ∧ (47 : UInt8) ∉ a := by
    rcases skip_one hc name with ⟨h1, h2⟩ | ⟨h1, h2⟩
    · rw [h1]; exact ⟨fun _ => h2, fun _ => rfl⟩
    · rw [h1]; exact ⟨fun h => by simp at h, fun h => absurd h h2⟩
  cases name with
  | nil => exact ⟨fun h => (by cases h), by rintro (h | ⟨a, -, h, -⟩) <;> simp at h⟩
  | cons b s =>
    rw [show [c].length + 1 = 2 from rfl, chunk_one hc]
    by_cases hb : c = b
    · subst hb
      rw [if_pos rfl]
      cases s with
      | nil => exact ⟨fun _ => .inl rfl, fun _ => rfl⟩
      | cons x t =>
        refine Iff.trans hskip ⟨.inr, ?_⟩
        rintro (h | h)
        · simp at h
        · exact h
    · rw [if_neg hb]
      refine Iff.trans hskip ⟨.inr, ?_⟩
      rintro (h | h)
      · cases h; exact absurd rfl hb
      · exact h

/-- C79: nor does a question mark stand for a slash. -/
theorem C79_question (r : Bytes) : Path.match? b!"?" (47 :: r) = some false := rfl

example : Path.match? b!"*s" b!"bands" = some true ∧ Path.match? b!"*s" b!"default/bands" = some false ∧
    Path.match? b!"?" b!"x" = some true ∧ Path.match? b!"?" b!"/" = some false := by decide +kernel

end OnePass
