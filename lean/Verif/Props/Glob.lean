/-
C79, second part: which band files are read when the path of the vault has special characters.
-/
import Verif.Go.MatchFacts
import Verif.Props.Load

set_option linter.unusedSimpArgs false

namespace OnePass
open Spec

namespace Path

/-- The absolute path of a location. -/
def absPath (x : List Bytes) : Bytes := 47 :: joinSlash x

theorem comps_abs {x : List Bytes} (h : ∀ c ∈ x, Simple c) : comps (absPath x) = x := by
  unfold comps absPath
  have h1 : isAbs (47 :: joinSlash x) = true := rfl
  have h2 : split (47 :: joinSlash x) = [] :: split (joinSlash x) := by simp [split]
  rw [h1, h2, List.foldl_cons]
  have h0 : cleanStep true [] [] = [] := rfl
  rw [h0]
  by_cases hx : x = []
  · subst hx; rfl
  · rw [split_joinSlash hx (fun c hc => (h c hc).2.2.2), foldl_simple h]
    simp

theorem resolve_abs {x : List Bytes} (h : ∀ c ∈ x, Simple c) (cwd : List Bytes) : resolve cwd (absPath x) = x := by
  unfold resolve
  rw [show isAbs (absPath x) = true from rfl, if_pos rfl, comps_abs h]

theorem join_abs {x : List Bytes} (h : ∀ c ∈ x, Simple c) {n : Bytes} (hn : Simple n) :
    join [absPath x, n] = absPath (x ++ [n]) := by
  have hne : absPath x ≠ [] := by simp [absPath]
  unfold join
  have : ([absPath x, n] : List Bytes).dropWhile List.isEmpty = [absPath x, n] := by
    rw [List.dropWhile_cons_of_neg]; simp [absPath]
  simp only [this, List.isEmpty_cons, Bool.false_eq_true, if_false]
  have e : joinSlash [absPath x, n] = absPath x ++ 47 :: joinSlash [n] := rfl
  rw [e]
  unfold clean
  rw [isAbs_append hne, comps_slash hne (by simp) (by simpa using hn), comps_abs h]
  rfl

theorem absPath_snoc {x : List Bytes} (hx : x ≠ []) (n : Bytes) : absPath (x ++ [n]) = absPath x ++ 47 :: n := by
  unfold absPath
  rw [joinSlash_append _ _ hx]; rfl

/-- How the paths of one search are written, and the location they start from. -/
structure Style (P : List Bytes → Bytes) (base cwd : List Bytes) : Prop where
  ne : ∀ x, (∀ c ∈ x, Simple c) → P x ≠ []
  resolve : ∀ x, (∀ c ∈ x, Simple c) → resolve cwd (P x) = base ++ x
  join : ∀ x n, (∀ c ∈ x, Simple c) → Simple n → join [P x, n] = P (x ++ [n])
  dirOf : ∀ x n, (∀ c ∈ x, Simple c) → Simple n → cleanGlobPath (splitFile (P (x ++ [n]))).1 = P x ∧ (splitFile (P (x ++ [n]))).2 = n
  special : ∀ x, hasMeta (P x) = false ↔ ∀ c ∈ x, hasMeta c = false

theorem abs_style (cwd : List Bytes) : Style absPath [] cwd where
  ne x _ := by simp [absPath]
  resolve x h := resolve_abs h cwd
  join x n h hn := join_abs h hn
  dirOf x n h hn := by
    by_cases h0 : x = []
    · subst h0
      have := splitFile_slash [] n hn.2.2.2
      have e : absPath ([] ++ [n]) = [] ++ 47 :: n := rfl
      rw [e, this]
      exact ⟨rfl, rfl⟩
    · rw [absPath_snoc h0, splitFile_slash _ _ hn.2.2.2]
      refine ⟨?_, rfl⟩
      unfold cleanGlobPath
      rw [if_neg (by simp), if_neg (by simp [absPath])]
      simp
  special x := by
    induction x using List.reverseRecOn with
    | nil => simp [hasMeta, absPath, joinSlash]
    | append_singleton x c ih =>
      by_cases hx : x = []
      · subst hx; simp [hasMeta, absPath, joinSlash]
      · rw [absPath_snoc hx]
        have : hasMeta (absPath x ++ 47 :: c) = (hasMeta (absPath x) || hasMeta c) := by simp [hasMeta]
        rw [this, Bool.or_eq_false_iff, ih]
        constructor
        · rintro ⟨h1, h2⟩ a ha
          rcases List.mem_append.1 ha with ha | ha
          · exact h1 a ha
          · simp at ha; subst ha; exact h2
        · intro h
          exact ⟨fun a ha => h a (by simp [ha]), h c (by simp)⟩

/-- The relative path that goes up `k` directories and then down. -/
def relPath (k : Nat) (x : List Bytes) : Bytes :=
  if List.replicate k [46, 46] ++ x = [] then [46] else joinSlash (List.replicate k [46, 46] ++ x)

theorem relPath_snoc {k : Nat} {x : List Bytes} (hx : List.replicate k [46, 46] ++ x ≠ []) (n : Bytes) :
    relPath k (x ++ [n]) = relPath k x ++ 47 :: n := by
  unfold relPath
  rw [if_neg (by simp), if_neg hx, ← List.append_assoc, joinSlash_append _ _ hx]

theorem isAbs_rel (k : Nat) {x : List Bytes} (h : ∀ c ∈ x, Simple c) : isAbs (relPath k x) = false := by
  unfold relPath
  split
  · rfl
  · refine isAbs_joinSlash (fun c hc => ?_)
    rcases List.mem_append.1 hc with hc | hc
    · obtain rfl := List.eq_of_mem_replicate hc; exact ⟨by simp, by decide⟩
    · exact ⟨(h c hc).1, (h c hc).2.2.2⟩

theorem split_rel (k : Nat) {x : List Bytes} (h : ∀ c ∈ x, Simple c) (hne : List.replicate k [46, 46] ++ x ≠ []) :
    split (relPath k x) = List.replicate k [46, 46] ++ x := by
  unfold relPath
  rw [if_neg hne, split_joinSlash hne]
  intro c hc
  rcases List.mem_append.1 hc with hc | hc
  · obtain rfl := List.eq_of_mem_replicate hc; decide
  · exact (h c hc).2.2.2

theorem foldl_dots (k : Nat) (j : Nat) : (List.replicate k [46, 46]).foldl (cleanStep false) (List.replicate j [46, 46]) =
    List.replicate (k + j) [46, 46] := by
  induction k generalizing j with
  | zero => simp
  | succ k ih =>
    rw [List.replicate_succ, List.foldl_cons]
    have : cleanStep false (List.replicate j [46, 46]) [46, 46] = List.replicate (j + 1) [46, 46] := by
      cases j with
      | zero => rfl
      | succ j => simp [cleanStep, List.replicate_succ]
    rw [this, ih]
    congr 1; omega

theorem comps_rel (k : Nat) {x : List Bytes} (h : ∀ c ∈ x, Simple c) :
    comps (relPath k x) = List.replicate k [46, 46] ++ x := by
  by_cases hne : List.replicate k [46, 46] ++ x = []
  · rw [hne]
    unfold relPath
    rw [if_pos hne]
    rfl
  · unfold comps
    rw [isAbs_rel k h, split_rel k h hne, List.foldl_append]
    have := foldl_dots k 0
    rw [List.replicate_zero, Nat.add_zero] at this
    rw [this, foldl_simple h]
    simp

/-- Going up from a proper location. -/
theorem foldl_up {cwd : List Bytes} (h : ∀ c ∈ cwd, Simple c) (k : Nat) :
    (List.replicate k [46, 46]).foldl (cleanStep true) cwd = cwd.drop k := by
  induction k generalizing cwd with
  | zero => simp
  | succ k ih =>
    rw [List.replicate_succ, List.foldl_cons]
    cases cwd with
    | nil =>
      have : cleanStep true [] [46, 46] = [] := rfl
      rw [this, ih (by simp)]; simp
    | cons c cwd =>
      have : cleanStep true (c :: cwd) [46, 46] = cwd := by
        have := (h c (by simp)).2.2.1
        simp [cleanStep, this]
      rw [this, ih (fun a ha => h a (by simp [ha]))]
      simp

theorem rel_ne (k : Nat) {x : List Bytes} (h : ∀ c ∈ x, Simple c) : relPath k x ≠ [] := by
  intro h0
  have h1 := comps_rel k h
  rw [h0] at h1
  have : comps [] = [] := rfl
  rw [this] at h1
  unfold relPath at h0
  rw [if_pos h1.symm] at h0
  cases h0

theorem hasMeta_joinSlash (l : List Bytes) : hasMeta (joinSlash l) = false ↔ ∀ c ∈ l, hasMeta c = false := by
  induction l with
  | nil => simp [hasMeta, joinSlash]
  | cons a l ih =>
    cases l with
    | nil => simp [joinSlash]
    | cons b l =>
      have : hasMeta (a ++ 47 :: joinSlash (b :: l)) = (hasMeta a || hasMeta (joinSlash (b :: l))) := by simp [hasMeta]
      rw [joinSlash, this, Bool.or_eq_false_iff, ih]
      · simp
      · simp

theorem rel_style {cwd : List Bytes} (hcwd : ∀ c ∈ cwd, Simple c) (k : Nat) :
    Style (relPath k) (cwd.take (cwd.length - k)) cwd where
  ne x h := rel_ne k h
  resolve x h := by
    have hup : ∀ x : List Bytes, (∀ c ∈ x, Simple c) →
        ((List.replicate k [46, 46] ++ x).foldl (cleanStep true) cwd.reverse).reverse = cwd.take (cwd.length - k) ++ x := by
      intro x h
      rw [List.foldl_append, foldl_up (by simpa using hcwd), foldl_simple h]
      simp [List.reverse_drop]
    unfold Path.resolve
    rw [isAbs_rel k h, if_neg (by simp)]
    by_cases hne : List.replicate k [46, 46] ++ x = []
    · rw [← hup x h, hne]
      unfold relPath
      rw [if_pos hne]
      rfl
    · rw [split_rel k h hne, hup x h]
  join x n h hn := by
    have hne := rel_ne k h
    unfold Path.join
    have : ([relPath k x, n] : List Bytes).dropWhile List.isEmpty = [relPath k x, n] := by
      rw [List.dropWhile_cons_of_neg]; simpa using hne
    simp only [this, List.isEmpty_cons, Bool.false_eq_true, if_false]
    have e : joinSlash [relPath k x, n] = relPath k x ++ 47 :: joinSlash [n] := rfl
    rw [e]
    unfold clean
    rw [isAbs_append hne, comps_slash hne (by simp) (by simpa using hn), comps_rel k h, isAbs_rel k h]
    simp [relPath]
  dirOf x n h hn := by
    by_cases h0 : List.replicate k [46, 46] ++ x = []
    · have e : relPath k (x ++ [n]) = n := by
        unfold relPath
        rw [if_neg (by simp), ← List.append_assoc, h0]
        rfl
      have e0 : relPath k x = [46] := by unfold relPath; rw [if_pos h0]
      have ht : ∀ b ∈ n.reverse, (b != 47) = true := by
        intro b hb
        rw [List.mem_reverse] at hb
        simp only [bne_iff_ne, ne_eq]
        rintro rfl; exact hn.2.2.2 hb
      have hs : splitFile n = ([], n) := by
        unfold splitFile
        have h1 := List.dropWhile_append_of_pos (l₂ := []) ht
        have h2 := List.takeWhile_append_of_pos (l₂ := []) ht
        rw [List.append_nil] at h1 h2
        rw [h1, h2]; simp
      rw [e, e0, hs]
      exact ⟨rfl, rfl⟩
    · rw [relPath_snoc h0, splitFile_slash _ _ hn.2.2.2]
      refine ⟨?_, rfl⟩
      unfold cleanGlobPath
      have hne := rel_ne k h
      rw [if_neg (by simp), if_neg]
      · simp
      · intro h
        have := congrArg List.length h
        simp at this
        exact hne this
  special x := by
    unfold relPath
    split
    · rename_i h0
      have : x = [] := (List.append_eq_nil_iff.1 h0).2
      subst this
      simp [hasMeta]
    · rw [hasMeta_joinSlash]
      constructor
      · intro h c hc; exact h c (by simp [hc])
      · intro h c hc
        rcases List.mem_append.1 hc with hc | hc
        · obtain rfl := List.eq_of_mem_replicate hc; decide
        · exact h c hc

/-- A name without special characters stands for itself. -/
theorem fits_literal {c : Bytes} (hc : hasMeta c = false) {ts : List Term} (h : PatternR c ts) (n : Bytes) :
    FitsName ts n ↔ n = c := by
  induction h generalizing n with
  | nil => exact fits_nil
  | star | any | escaped | cls | neg => simp [hasMeta] at hc
  | @one p ts c _ _ _ _ hp ih =>
    have ih := ih (by simp only [hasMeta, List.any_cons, Bool.or_eq_false_iff] at hc ⊢; exact hc.2)
    have := fits_append (ts := [.one c]) (us := ts) (by simp [NoStar]) n
    rw [List.singleton_append] at this
    rw [this]
    cases n with
    | nil => simp [take?]
    | cons b n =>
      simp only [take?, takes]
      by_cases hb : b = c
      · simp [hb, ih]
      · simp [hb]

end Path

/-- The locations on the disk form a tree: names are proper names, and what is above something is a directory. -/
structure Disk.Tree (d : Disk) : Prop where
  root : d.at? [] = some .dir
  below : ∀ x n, d.at? (x ++ [n]) ≠ none → Path.Simple n ∧ d.at? x = some .dir

/-- All names on the disk are ASCII. -/
def Disk.Ascii (d : Disk) : Prop := ∀ x n, d.at? (x ++ [n]) ≠ none → ∀ b ∈ n, b < 128

theorem Disk.Tree.simple {d : Disk} (h : d.Tree) {x : List Bytes} (hx : d.at? x ≠ none) : ∀ c ∈ x, Path.Simple c := by
  induction x using List.reverseRecOn with
  | nil => simp
  | append_singleton x n ih =>
    obtain ⟨h1, h2⟩ := h.below x n hx
    intro c hc
    rcases List.mem_append.1 hc with hc | hc
    · exact ih (by rw [h2]; simp) c hc
    · simp at hc; subst hc; exact h1

namespace Path

/-- The locations a list of patterns stands for, searched from a location. -/
def Found (P : List Bytes → Bytes) (base : List Bytes) (d : Disk) (tss : List (List Term)) (l : List Bytes) : Prop :=
  ∃ locs : List (List Bytes), l = locs.map P ∧ locs.Nodup ∧
    ∀ x, x ∈ locs ↔ List.Forall₂ FitsName tss x ∧ d.at? (base ++ x) ≠ none

section
variable {P : List Bytes → Bytes} {base : List Bytes} {d : Disk}

theorem simple_below (hd : d.Tree) {x : List Bytes} (h : d.at? (base ++ x) ≠ none) : ∀ c ∈ x, Simple c :=
  fun c hc => hd.simple h c (by simp [hc])

theorem stat_style (st : Style P base d.cwd) {x : List Bytes} (hs : ∀ c ∈ x, Simple c) :
    d.stat (P x) = d.at? (base ++ x) := by
  unfold Disk.stat
  rw [if_neg (st.ne x hs), st.resolve x hs]

theorem globDir_spec (st : Style P base d.cwd) (hd : d.Tree) {c : Bytes} {ts : List Term} (hp : PatternR c ts)
    (hr : StarsOnly ts ∨ d.Ascii) {x : List Bytes} (hx : d.at? (base ++ x) ≠ none) :
    ∃ ns : List Bytes, globDir d (P x) c = some (ns.map (fun n => P (x ++ [n]))) ∧ ns.Nodup ∧
      ∀ n, n ∈ ns ↔ FitsName ts n ∧ d.at? (base ++ (x ++ [n])) ≠ none := by
  have hs := simple_below hd hx
  have hstat := stat_style (d := d) st hs
  have hassoc : ∀ n, base ++ (x ++ [n]) = base ++ x ++ [n] := fun n => (List.append_assoc _ _ _).symm
  simp only [hassoc]
  unfold globDir
  rw [hstat, st.resolve x hs]
  by_cases hdir : d.at? (base ++ x) = some .dir
  · rw [hdir]
    dsimp only
    have hnd : (d.dirNames (base ++ x)).Nodup := (sortStrings_perm _).nodup_iff.2 (List.nodup_dedup _)
    have hmem : ∀ n ∈ d.dirNames (base ++ x), d.at? (base ++ x ++ [n]) ≠ none := fun n hn => mem_dirNames.1 hn
    have key : ∀ l : List Bytes, (∀ n ∈ l, d.at? (base ++ x ++ [n]) ≠ none) →
        l.foldr (fun n acc =>
          match match? c n, acc with
          | some true, some l => some (join [P x, n] :: l)
          | some false, some l => some l
          | _, _ => none) (some []) =
        some ((l.filter (fun n => match? c n == some true)).map (fun n => P (x ++ [n]))) := by
      intro l hl
      induction l with
      | nil => rfl
      | cons n l ih =>
        have hn := hl n (by simp)
        have hsn := (hd.below _ n hn).1
        have hrd : Readable ts n := by
          rcases hr with h | h
          · exact .inl h
          · exact .inr (h _ n hn)
        have hm := (match?_iff hp n hsn.2.2.2 hrd).1
        rw [List.foldr_cons, ih (fun m hm => hl m (by simp [hm])), List.filter_cons, st.join x n hs hsn]
        cases hmn : match? c n with
        | none => exact absurd hmn hm
        | some b => cases b <;> simp
    refine ⟨(d.dirNames (base ++ x)).filter (fun n => match? c n == some true), key _ hmem, hnd.filter _, fun n => ?_⟩
    rw [List.mem_filter, mem_dirNames]
    constructor
    · rintro ⟨h1, h2⟩
      have hrd : Readable ts n := by
        rcases hr with h | h
        · exact .inl h
        · exact .inr (h _ n h1)
      exact ⟨(match?_iff hp n (hd.below _ n h1).1.2.2.2 hrd).2.1 (by simpa using h2), h1⟩
    · rintro ⟨h2, h1⟩
      have hrd : Readable ts n := by
        rcases hr with h | h
        · exact .inl h
        · exact .inr (h _ n h1)
      exact ⟨h1, by simpa using (match?_iff hp n (hd.below _ n h1).1.2.2.2 hrd).2.2 h2⟩
  · refine ⟨[], ?_, .nil, fun n => ⟨by simp, fun h => ?_⟩⟩
    · split
      · rename_i h; exact absurd h hdir
      · rfl
    · exact absurd (hd.below _ n h.2).2 hdir

/-- The loop over the directories found. -/
theorem globDirs_spec (st : Style P base d.cwd) (hd : d.Tree) {c : Bytes} {ts : List Term} (hp : PatternR c ts)
    (hr : StarsOnly ts ∨ d.Ascii) {tss : List (List Term)} {ds : List Bytes} (hds : Found P base d tss ds) :
    ∃ l, ds.foldr (fun x acc =>
            match globDir d x c, acc with
            | some a, some b => some (a ++ b)
            | _, _ => none) (some []) = some l ∧ Found P base d (tss ++ [ts]) l := by
  obtain ⟨locs, rfl, hnd, hmem⟩ := hds
  have key : ∀ ls : List (List Bytes), (∀ x ∈ ls, d.at? (base ++ x) ≠ none) → ls.Nodup →
      ∃ out : List (List Bytes), (ls.map P).foldr (fun x acc =>
            match globDir d x c, acc with
            | some a, some b => some (a ++ b)
            | _, _ => none) (some []) = some (out.map P) ∧ out.Nodup ∧
        ∀ y, y ∈ out ↔ ∃ x n, y = x ++ [n] ∧ x ∈ ls ∧ FitsName ts n ∧ d.at? (base ++ (x ++ [n])) ≠ none := by
    intro ls h hnd
    induction ls with
    | nil => exact ⟨[], rfl, .nil, by simp⟩
    | cons x ls ih =>
      rw [List.nodup_cons] at hnd
      obtain ⟨out, h1, h2, h3⟩ := ih (fun y hy => h y (by simp [hy])) hnd.2
      obtain ⟨ns, h4, h5, h6⟩ := globDir_spec st hd hp hr (h x (by simp))
      refine ⟨ns.map (fun n => x ++ [n]) ++ out, ?_, ?_, fun y => ?_⟩
      · rw [List.map_cons, List.foldr_cons, h1, h4]
        simp [List.map_append, Function.comp_def]
      · refine List.nodup_append.2 ⟨h5.map (fun a b hab => by simpa using hab), h2, ?_⟩
        intro a ha b hb hab
        subst hab
        obtain ⟨n, _, rfl⟩ := List.mem_map.1 ha
        obtain ⟨x', n', he, hx', _⟩ := (h3 _).1 hb
        have := congrArg List.dropLast he
        simp at this
        subst this
        exact hnd.1 hx'
      · rw [List.mem_append, h3, List.mem_map]
        constructor
        · rintro (⟨n, hn, rfl⟩ | ⟨x', n, rfl, hx', h⟩)
          · exact ⟨x, n, rfl, by simp, (h6 n).1 hn⟩
          · exact ⟨x', n, rfl, by simp [hx'], h⟩
        · rintro ⟨x', n, rfl, hx', hq⟩
          rcases List.mem_cons.1 hx' with rfl | hx'
          · exact .inl ⟨n, (h6 n).2 hq, rfl⟩
          · exact .inr ⟨x', n, rfl, hx', hq⟩
  obtain ⟨out, h1, h2, h3⟩ := key locs (fun x hx => ((hmem x).1 hx).2) hnd
  refine ⟨_, h1, out, rfl, h2, fun y => ?_⟩
  rw [h3]
  constructor
  · rintro ⟨x, n, rfl, hx, hf, ha⟩
    exact ⟨List.rel_append ((hmem x).1 hx).1 (.cons hf .nil), ha⟩
  · rintro ⟨hf, ha⟩
    induction y using List.reverseRecOn with
    | nil =>
      have := hf.length_eq
      simp at this
    | append_singleton x n _ =>
      have hl := hf.length_eq
      simp at hl
      have hfx : List.Forall₂ FitsName tss x := by
        have := List.forall₂_take tss.length hf
        rwa [List.take_left, hl, List.take_left] at this
      have hfn : FitsName ts n := by
        have := List.forall₂_drop tss.length hf
        rw [List.drop_left, hl, List.drop_left] at this
        exact (List.forall₂_cons.1 this).1
      have ha' := ha
      rw [← List.append_assoc] at ha'
      exact ⟨x, n, rfl, (hmem x).2 ⟨hfx, by rw [(hd.below _ n ha').2]; simp⟩, hfn, ha⟩

/-- A pattern without special characters is looked up. -/
theorem found_literal (st : Style P base d.cwd) {cs : List Bytes} {tss : List (List Term)} (hs : ∀ c ∈ cs, Simple c)
    (hp : List.Forall₂ PatternR cs tss) (hm : ∀ c ∈ cs, hasMeta c = false) :
    Found P base d tss (match d.stat (P cs) with | some _ => [P cs] | none => []) := by
  have hstat := stat_style (d := d) st hs
  have hiff : ∀ x, List.Forall₂ FitsName tss x ↔ x = cs := by
    clear hs hstat
    induction hp with
    | nil => intro x; simp
    | @cons c ts cs tss hc hp ih =>
      intro x
      have ih := ih (fun a ha => hm a (by simp [ha]))
      cases x with
      | nil => simp
      | cons n x => rw [List.forall₂_cons, fits_literal (hm c (by simp)) hc, ih]; simp
  rw [hstat]
  cases h : d.at? (base ++ cs) with
  | none =>
    refine ⟨[], rfl, .nil, fun x => ⟨by simp, ?_⟩⟩
    rintro ⟨h1, h2⟩
    rw [(hiff x).1 h1] at h2
    exact absurd h h2
  | some nd =>
    refine ⟨[cs], rfl, by simp, fun x => ?_⟩
    rw [hiff]
    constructor
    · intro hx; simp at hx; subst hx; exact ⟨rfl, by simp [h]⟩
    · rintro ⟨rfl, _⟩; simp

/-- `filepath.Glob`. -/
theorem glob_spec (st : Style P base d.cwd) (hd : d.Tree) {cs : List Bytes} {tss : List (List Term)}
    (hs : ∀ c ∈ cs, Simple c) (hp : List.Forall₂ PatternR cs tss) (hr : ∀ ts ∈ tss, StarsOnly ts ∨ d.Ascii) (f : Nat)
    (hf : cs.length < f) : ∃ l, glob d f (P cs) = some l ∧ Found P base d tss l := by
  induction cs using List.reverseRecOn generalizing tss f with
  | nil =>
    cases f with
    | zero => omega
    | succ f =>
      have := found_literal st (cs := []) hs hp (by simp)
      refine ⟨_, ?_, this⟩
      rw [glob, if_pos (by simp [(st.special []).2 (by simp)])]
      cases d.stat (P []) <;> rfl
  | append_singleton cs c ih =>
    cases f with
    | zero => omega
    | succ f =>
      have hc := hs c (by simp)
      have hs' : ∀ a ∈ cs, Simple a := fun a ha => hs a (by simp [ha])
      by_cases hm : hasMeta (P (cs ++ [c])) = false
      · have := found_literal st hs hp ((st.special _).1 hm)
        refine ⟨_, ?_, this⟩
        rw [glob, if_pos (by simp [hm])]
        cases d.stat (P (cs ++ [c])) <;> rfl
      · have hl := hp.length_eq
        obtain ⟨tss', ts, rfl⟩ : ∃ tss' ts, tss = tss' ++ [ts] := by
          cases tss using List.reverseRecOn with
          | nil => simp at hl
          | append_singleton a b _ => exact ⟨a, b, rfl⟩
        simp at hl
        have hp' : List.Forall₂ PatternR cs tss' := by
          have := List.forall₂_take cs.length hp
          rwa [List.take_left, hl, List.take_left] at this
        have hpc : PatternR c ts := by
          have := List.forall₂_drop cs.length hp
          rw [List.drop_left, hl, List.drop_left] at this
          exact (List.forall₂_cons.1 this).1
        have hr' : ∀ t ∈ tss', StarsOnly t ∨ d.Ascii := fun t ht => hr t (by simp [ht])
        have hrc := hr ts (by simp)
        obtain ⟨hdir, hfile⟩ := st.dirOf cs c hs' hc
        rw [glob, if_neg (by simpa using hm)]
        simp only [hdir, hfile]
        by_cases hm' : hasMeta (P cs) = false
        · rw [if_pos (by simp [hm'])]
          have hF := found_literal st hs' hp' ((st.special _).1 hm')
          have hstat := stat_style (d := d) st hs'
          obtain ⟨l, h1, h2⟩ := globDirs_spec st hd hpc hrc hF
          refine ⟨l, ?_, h2⟩
          rw [← h1, hstat]
          cases h : d.at? (base ++ cs) with
          | none =>
            unfold globDir
            rw [hstat, h]
            rfl
          | some nd =>
            obtain ⟨ns, h4, _⟩ := globDir_spec st hd hpc hrc (x := cs) (by simp [h])
            simp [h4]
        · rw [if_neg (by simpa using hm'), if_neg]
          · obtain ⟨ds, h1, h2⟩ := ih hs' hp' hr' f (by simp at hf; omega)
            rw [h1]
            exact globDirs_spec st hd hpc hrc h2
          · intro h
            have h0 := congrArg (resolve d.cwd) h
            rw [st.resolve _ hs, st.resolve _ hs'] at h0
            have := congrArg List.length h0
            simp at this

end

/-- The terms of `band_*.js`. -/
def bandTerms : List Term :=
  [.one 98, .one 97, .one 110, .one 100, .one 95, .star, .one 46, .one 106, .one 115]

theorem band_pattern : PatternR b!"band_*.js" bandTerms := by
  show PatternR [98, 97, 110, 100, 95, 42, 46, 106, 115] bandTerms
  repeat' first
    | exact .nil
    | exact .star (by assumption)
    | refine .one _ (by decide) (by decide) (by decide) (by decide) ?_
    | refine .star ?_

theorem default_pattern : PatternR b!"default" ([100, 101, 102, 97, 117, 108, 116].map .one) := by
  show PatternR [100, 101, 102, 97, 117, 108, 116] _
  repeat' first
    | exact .nil
    | refine .one _ (by decide) (by decide) (by decide) (by decide) ?_

theorem take?_ones (l n : Bytes) : take? (l.map .one) n = if l <+: n then some (n.drop l.length) else none := by
  induction l generalizing n with
  | nil => simp [take?]
  | cons a l ih =>
    cases n with
    | nil => simp [take?]
    | cons b n =>
      simp only [List.map_cons, take?, takes, ih, List.length_cons, List.drop_succ_cons, List.cons_prefix_cons]
      by_cases h : b = a
      · simp [h]
      · simp [h, Ne.symm h]

theorem fits_ones (l n : Bytes) : FitsName (l.map .one) n ↔ n = l := by
  have := fits_append (ts := l.map .one) (us := []) (by simp [NoStar]) n
  rw [List.append_nil] at this
  rw [this, take?_ones]
  constructor
  · rintro ⟨t, ht, hf⟩
    obtain rfl := fits_nil.1 hf
    split at ht
    · rename_i hp
      obtain ⟨r, rfl⟩ := hp
      simp at ht
      simp [ht]
    · cases ht
  · rintro rfl
    exact ⟨[], by simp, .nil⟩

theorem fits_band (n : Bytes) : FitsName bandTerms n ↔ IsBand n := by
  have e : bandTerms = b!"band_".map .one ++ .star :: b!".js".map .one := rfl
  rw [e, fits_append (by simp [NoStar])]
  simp only [fits_star, fits_ones, take?_ones]
  constructor
  · rintro ⟨t, ht, z, ⟨x, hx⟩, rfl⟩
    split at ht
    · rename_i hp
      obtain ⟨r, rfl⟩ := hp
      simp only [List.drop_left, Option.some.injEq] at ht
      exact ⟨x, by rw [ht, ← hx, List.append_assoc]⟩
    · cases ht
  · rintro ⟨x, rfl⟩
    refine ⟨x ++ b!".js", ?_, b!".js", ⟨x, rfl⟩, rfl⟩
    rw [List.append_assoc, if_pos (List.prefix_append _ _), List.drop_left]

end Path

/-- Going up `k` directories, then down: the components of a relative path. -/
theorem Path.comps_relative {v : Bytes} (h : Path.isAbs v = false) :
    ∃ k cs, Path.comps v = List.replicate k [46, 46] ++ cs ∧ ∀ c ∈ cs, Path.Simple c := by
  have key : ∀ (l st : List Bytes), (∀ c ∈ l, (47 : UInt8) ∉ c) →
      (∃ k cs, st = cs ++ List.replicate k [46, 46] ∧ ∀ c ∈ cs, Path.Simple c) →
      ∃ k cs, l.foldl (Path.cleanStep false) st = cs ++ List.replicate k [46, 46] ∧ ∀ c ∈ cs, Path.Simple c := by
    intro l
    induction l with
    | nil => intro st _ h; exact h
    | cons c l ih =>
      rintro st hl ⟨k, cs, rfl, hcs⟩
      rw [List.foldl_cons]
      refine ih _ (fun a ha => hl a (by simp [ha])) ?_
      unfold Path.cleanStep
      split
      · exact ⟨k, cs, rfl, hcs⟩
      · rename_i h0
        split
        · cases cs with
          | nil =>
            cases k with
            | zero => exact ⟨1, [], rfl, by simp⟩
            | succ k => exact ⟨k + 2, [], by simp [List.replicate_succ], by simp⟩
          | cons a cs =>
            have ha := hcs a (by simp)
            simp only [List.cons_append, if_neg ha.2.2.1]
            exact ⟨k, cs, rfl, fun b hb => hcs b (by simp [hb])⟩
        · rename_i h1
          refine ⟨k, c :: cs, rfl, ?_⟩
          intro b hb
          rcases List.mem_cons.1 hb with rfl | hb
          · exact ⟨fun h => h0 (.inl h), fun h => h0 (.inr h), h1, hl b (by simp)⟩
          · exact hcs b hb
  obtain ⟨k, cs, h1, h2⟩ := key (Path.split v) [] (Path.split_noSlash v) ⟨0, [], rfl, by simp⟩
  refine ⟨k, cs.reverse, ?_, by simpa using h2⟩
  unfold Path.comps
  rw [h, h1]
  simp

theorem Path.length_joinSlash {x : List Bytes} (hx : ∀ c ∈ x, c ≠ []) : x.length ≤ (Path.joinSlash x).length := by
  induction x with
  | nil => simp
  | cons a x ih =>
    have h1 := List.length_pos_iff.2 (hx a (by simp))
    have ih := ih (fun c hc => hx c (by simp [hc]))
    cases x with
    | nil => simp only [Path.joinSlash, List.length_cons, List.length_nil]; omega
    | cons b x => simp only [Path.joinSlash, List.length_append, List.length_cons] at ih ⊢; omega

/-- The band files found, for both kinds of path. -/
theorem bands_style {d : Disk} {v : Bytes} {P : List Bytes → Bytes} {base cs : List Bytes} {tss : List (List Term)}
    (st : Path.Style P base d.cwd) (hd : d.Tree) (hs0 : ∀ c ∈ cs, Path.Simple c)
    (hpat : Path.join [v, profileDir, bandFilePattern] = P (cs ++ [b!"default", b!"band_*.js"]))
    (hlen : (cs ++ [b!"default", b!"band_*.js"]).length < (P (cs ++ [b!"default", b!"band_*.js"])).length + 1)
    (hp : List.Forall₂ PatternR cs tss) (hr : ∀ ts ∈ tss, StarsOnly ts ∨ d.Ascii) :
    ∃ l, bandLocations d v = some l ∧ l.Nodup ∧
      ∀ x, x ∈ l ↔ d.at? x ≠ none ∧
        ∃ xs n, x = base ++ xs ++ [b!"default", n] ∧ List.Forall₂ FitsName tss xs ∧ ∃ m, n = b!"band_" ++ m ++ b!".js" := by
  have s2 : ∀ c ∈ [b!"default", b!"band_*.js"], Path.Simple c := by decide +kernel
  have hs : ∀ c ∈ cs ++ [b!"default", b!"band_*.js"], Path.Simple c := by
    intro c hc
    rcases List.mem_append.1 hc with hc | hc
    · exact hs0 c hc
    · exact s2 c hc
  obtain ⟨l, h1, locs, rfl, hnd, hmem⟩ := Path.glob_spec st hd hs
    (tss := tss ++ [[100, 101, 102, 97, 117, 108, 116].map .one, Path.bandTerms])
    (List.rel_append hp (.cons Path.default_pattern (.cons Path.band_pattern .nil)))
    (by
      intro ts hts
      rcases List.mem_append.1 hts with h | h
      · exact hr ts h
      · left
        simp only [List.mem_cons, List.not_mem_nil, or_false] at h
        rcases h with rfl | rfl
        · intro t ht; obtain ⟨c, _, rfl⟩ := List.mem_map.1 ht; exact .inr ⟨c, rfl⟩
        · intro t ht; simp [Path.bandTerms] at ht; rcases ht with rfl | rfl | rfl | rfl | rfl | rfl | rfl | rfl | rfl <;> simp)
    _ hlen
  have hres : (locs.map P).map (Path.resolve d.cwd) = locs.map (base ++ ·) := by
    rw [List.map_map]
    refine List.map_congr_left (fun x hx => ?_)
    exact st.resolve x (Path.simple_below hd ((hmem x).1 hx).2)
  refine ⟨locs.map (base ++ ·), ?_, hnd.map (fun a b hab => by simpa using hab), fun x => ?_⟩
  · unfold bandLocations Repo.bandFiles
    simp only [hpat, h1, Option.map_some, hres]
  · rw [List.mem_map]
    constructor
    · rintro ⟨y, hy, rfl⟩
      obtain ⟨hf, ha⟩ := (hmem y).1 hy
      refine ⟨ha, ?_⟩
      have hl := hf.length_eq
      simp only [List.length_append, List.length_cons, List.length_nil] at hl
      have h3 := List.forall₂_take tss.length hf
      have h4 := List.forall₂_drop tss.length hf
      rw [List.take_left] at h3
      rw [List.drop_left] at h4
      have hx := (List.take_append_drop tss.length y).symm
      generalize y.drop tss.length = r at h4 hx
      rcases r with _ | ⟨n1, _ | ⟨n2, _ | ⟨n3, r⟩⟩⟩
      · cases h4
      · simp at h4
      · simp only [List.forall₂_cons, List.forall₂_nil_left_iff, and_true] at h4
        rw [Path.fits_ones, Path.fits_band] at h4
        obtain ⟨rfl, m, hm⟩ := h4
        refine ⟨_, n2, ?_, h3, m, hm⟩
        rw [List.append_assoc]
        exact congrArg _ hx
      · simp at h4
    · rintro ⟨ha, xs, n, rfl, hf, m, hm⟩
      refine ⟨xs ++ [b!"default", n], (hmem _).2 ⟨?_, by rw [← List.append_assoc]; exact ha⟩, (List.append_assoc _ _ _).symm⟩
      refine List.rel_append hf (.cons ((Path.fits_ones _ _).2 rfl) (.cons ?_ .nil))
      exact (Path.fits_band n).2 ⟨m, hm⟩

/-- C79: which band files are read when the path of the vault is absolute and its components are patterns. -/
theorem C79_which_bands (d : Disk) (v : Bytes) (tss : List (List Term)) (hd : d.Tree) (ha : Path.isAbs v = true)
    (hp : List.Forall₂ PatternR (Path.comps v) tss) (hr : ∀ ts ∈ tss, StarsOnly ts ∨ d.Ascii) :
    ∃ l, bandLocations d v = some l ∧ l.Nodup ∧
      ∀ x, x ∈ l ↔ d.at? x ≠ none ∧
        ∃ xs n, x = xs ++ [b!"default", n] ∧ List.Forall₂ FitsName tss xs ∧ ∃ m, n = b!"band_" ++ m ++ b!".js" := by
  have hvne : v ≠ [] := by rintro rfl; cases ha
  have hsv : ∀ c ∈ Path.comps v, Path.Simple c := fun c hc => (Path.comps_mem v c hc).2.2.2 ha
  have s2 : ∀ c ∈ [b!"default", b!"band_*.js"], Path.Simple c := by decide +kernel
  have hpat : Path.join [v, profileDir, bandFilePattern] = Path.absPath (Path.comps v ++ [b!"default", b!"band_*.js"]) := by
    unfold Path.join
    have h0 : ([v, profileDir, bandFilePattern] : List Bytes).dropWhile List.isEmpty = [v, profileDir, bandFilePattern] := by
      rw [List.dropWhile_cons_of_neg]; simpa using hvne
    simp only [h0, List.isEmpty_cons, Bool.false_eq_true, if_false]
    have e : Path.joinSlash [v, profileDir, bandFilePattern] = v ++ 47 :: Path.joinSlash [b!"default", b!"band_*.js"] := rfl
    rw [e]
    unfold Path.clean
    rw [Path.isAbs_append hvne, ha, if_pos rfl, Path.comps_slash hvne (by simp) s2]
    rfl
  refine bands_style (Path.abs_style d.cwd) hd hsv hpat ?_ hp hr
  have := Path.length_joinSlash (x := Path.comps v ++ [b!"default", b!"band_*.js"]) (by
    intro c hc
    rcases List.mem_append.1 hc with hc | hc
    · exact (hsv c hc).1
    · exact (s2 c hc).1)
  unfold Path.absPath
  rw [List.length_cons]
  omega

/-- C79: the same for a relative path that goes up `k` directories from the current one. -/
theorem C79_which_bands_relative (d : Disk) (v : Bytes) (k : Nat) (cs : List Bytes) (tss : List (List Term)) (hd : d.Tree)
    (hcwd : d.at? d.cwd ≠ none) (ha : Path.isAbs v = false)
    (hv : Path.comps v = List.replicate k b!".." ++ cs) (hk : cs.head? ≠ some b!"..")
    (hp : List.Forall₂ PatternR cs tss) (hr : ∀ ts ∈ tss, StarsOnly ts ∨ d.Ascii) :
    ∃ l, bandLocations d v = some l ∧ l.Nodup ∧
      ∀ x, x ∈ l ↔ d.at? x ≠ none ∧
        ∃ xs n, x = d.cwd.take (d.cwd.length - k) ++ xs ++ [b!"default", n] ∧ List.Forall₂ FitsName tss xs ∧
          ∃ m, n = b!"band_" ++ m ++ b!".js" := by
  have s2 : ∀ c ∈ [b!"default", b!"band_*.js"], Path.Simple c := by decide +kernel
  have hdots : b!".." = [46, 46] := rfl
  rw [hdots] at hv hk
  have hsv : ∀ c ∈ cs, Path.Simple c := by
    obtain ⟨k', cs', h1, h2⟩ := Path.comps_relative ha
    rw [hv] at h1
    have hk' : cs'.head? ≠ some [46, 46] := by
      cases cs' with
      | nil => simp
      | cons a r =>
        have := (h2 a (by simp)).2.2.1
        simpa using this
    have : cs = cs' := by
      clear hv hp
      induction k generalizing k' with
      | zero =>
        cases k' with
        | zero => simpa using h1
        | succ k' =>
          rw [List.replicate_zero, List.nil_append, List.replicate_succ, List.cons_append] at h1
          rw [h1] at hk
          simp at hk
      | succ k ih =>
        cases k' with
        | zero =>
          rw [List.replicate_zero, List.nil_append, List.replicate_succ, List.cons_append] at h1
          rw [← h1] at hk'
          simp at hk'
        | succ k' =>
          rw [List.replicate_succ, List.replicate_succ, List.cons_append, List.cons_append, List.cons.injEq] at h1
          exact ih k' h1.2
    rw [this]; exact h2
  have hpat : Path.join [v, profileDir, bandFilePattern] = Path.relPath k (cs ++ [b!"default", b!"band_*.js"]) := by
    have hrel : Path.relPath k (cs ++ [b!"default", b!"band_*.js"]) =
        Path.joinSlash (Path.comps v ++ [b!"default", b!"band_*.js"]) := by
      unfold Path.relPath
      rw [if_neg (by simp), ← List.append_assoc, ← hv]
    rw [hrel]
    by_cases hvne : v = []
    · subst hvne; decide +kernel
    · unfold Path.join
      have h0 : ([v, profileDir, bandFilePattern] : List Bytes).dropWhile List.isEmpty = [v, profileDir, bandFilePattern] := by
        rw [List.dropWhile_cons_of_neg]; simpa using hvne
      simp only [h0, List.isEmpty_cons, Bool.false_eq_true, if_false]
      have e : Path.joinSlash [v, profileDir, bandFilePattern] = v ++ 47 :: Path.joinSlash [b!"default", b!"band_*.js"] := rfl
      rw [e]
      unfold Path.clean
      rw [Path.isAbs_append hvne, ha, if_neg (by simp), Path.comps_slash hvne (by simp) s2, if_neg (by simp)]
  refine bands_style (Path.rel_style (hd.simple hcwd) k) hd hsv hpat ?_ hp hr
  have hne : List.replicate k [46, 46] ++ (cs ++ [b!"default", b!"band_*.js"]) ≠ [] := by simp
  have := Path.length_joinSlash (x := List.replicate k [46, 46] ++ (cs ++ [b!"default", b!"band_*.js"])) (by
    intro c hc
    rcases List.mem_append.1 hc with hc | hc
    · obtain rfl := List.eq_of_mem_replicate hc; simp
    · rcases List.mem_append.1 hc with hc | hc
      · exact (hsv c hc).1
      · exact (s2 c hc).1)
  unfold Path.relPath
  rw [if_neg hne]
  rw [List.length_append] at this
  omega

theorem Disk.tree_of {d : Disk} (h0 : d.at? [] = some .dir)
    (h : ∀ e ∈ d.fs, e.1 = [] ∨ (∀ n ∈ e.1.getLast?, Path.Simple n) ∧ d.at? e.1.dropLast = some .dir) : d.Tree := by
  refine ⟨h0, fun x n hx => ?_⟩
  obtain ⟨e, he, hl⟩ := at_ne_none.1 hx
  have := h e he
  rw [hl] at this
  simpa using this

namespace GlobDemo

/-- `v[1]`. -/
def terms : List Term := [.one 118, .cls false [(49, 49)]]

theorem pattern : PatternR b!"v[1]" terms :=
  .one _ (by decide) (by decide) (by decide) (by decide)
    (.cls (by decide) (.single (.plain 49 [93] (by decide) (by decide) (by decide) (by decide)) (by decide) (.close []))
      (by simp) .nil)

/-- Only the name `v1` fits. -/
theorem fits (n : Bytes) : FitsName terms n ↔ n = b!"v1" := by
  have := Path.fits_append (ts := terms) (us := []) (by simp [Path.NoStar, terms]) n
  rw [List.append_nil] at this
  rw [this]
  rcases n with _ | ⟨a, _ | ⟨b, r⟩⟩
  · simp [Path.take?, terms]
  · simp [Path.take?, terms]
  · simp only [Path.take?, terms, Path.takes, Path.inRanges, Path.fits_nil]
    constructor
    · rintro ⟨t, ht, rfl⟩
      simp at ht
      obtain ⟨rfl, ⟨h1, h2⟩, rfl⟩ := ht
      have : b = 49 := UInt8.le_antisymm h2 h1
      subst this; rfl
    · intro h
      have h : a :: b :: r = [118, 49] := h
      simp at h
      obtain ⟨rfl, rfl, rfl⟩ := h
      exact ⟨[], by simp, rfl⟩

theorem tree : disk.Tree := Disk.tree_of (by decide +kernel) (by decide +kernel)

theorem ascii : disk.Ascii := by
  have key : ∀ e ∈ disk.fs, ∀ c ∈ e.1, ∀ b ∈ c, b < 128 := by decide +kernel
  intro x n hx b hb
  obtain ⟨e, he, hl⟩ := at_ne_none.1 hx
  exact key e he n (by rw [hl]; simp) b hb

end GlobDemo

/-- For /v[1] the band file of /v1 is read, and nothing of /v[1]. -/
example : ∃ l, bandLocations GlobDemo.disk b!"/v[1]" = some l ∧ [b!"v1", b!"default", b!"band_0.js"] ∈ l ∧
    ∀ n, [b!"v[1]", b!"default", n] ∉ l := by
  obtain ⟨l, h1, _, h2⟩ := C79_which_bands GlobDemo.disk b!"/v[1]" [GlobDemo.terms] GlobDemo.tree (by decide)
    (by rw [show Path.comps b!"/v[1]" = [b!"v[1]"] by decide +kernel]; exact .cons GlobDemo.pattern .nil)
    (fun _ _ => .inr GlobDemo.ascii)
  refine ⟨l, h1, (h2 _).2 ⟨by decide +kernel, [b!"v1"], b!"band_0.js", rfl, .cons ((GlobDemo.fits _).2 rfl) .nil, b!"0", rfl⟩, ?_⟩
  intro n hn
  obtain ⟨_, xs, m, he, hf, _⟩ := (h2 _).1 hn
  cases hf with
  | cons h t =>
    cases t
    rw [(GlobDemo.fits _).1 h] at he
    have := congrArg List.head? he
    simp at this

/-- From inside /v1 the path ../v[1] leads to the same file. -/
example : ∃ l, bandLocations { GlobDemo.disk with cwd := [b!"v1"] } b!"../v[1]" = some l ∧
    [b!"v1", b!"default", b!"band_0.js"] ∈ l := by
  have ht : ({ GlobDemo.disk with cwd := [b!"v1"] } : Disk).Tree := Disk.tree_of (by decide +kernel) (by decide +kernel)
  obtain ⟨l, h1, _, h2⟩ := C79_which_bands_relative { GlobDemo.disk with cwd := [b!"v1"] } b!"../v[1]" 1 [b!"v[1]"]
    [GlobDemo.terms] ht (by decide +kernel) (by decide) (by decide +kernel) (by decide)
    (.cons GlobDemo.pattern .nil) (fun _ _ => .inr (fun x n hx => GlobDemo.ascii x n hx))
  exact ⟨l, h1, (h2 _).2 ⟨by decide +kernel, [b!"v1"], b!"band_0.js", rfl, .cons ((GlobDemo.fits _).2 rfl) .nil, b!"0", rfl⟩⟩

/-- Without brackets and backslashes every text is a pattern, and it fits itself. -/
theorem pattern_self (c : Bytes) (h : ∀ b ∈ c, b ≠ 91 ∧ b ≠ 92) :
    ∃ ts, PatternR c ts ∧ FitsName ts c ∧ (63 ∉ c → StarsOnly ts) := by
  induction c with
  | nil => exact ⟨[], .nil, .nil, by simp [StarsOnly]⟩
  | cons b c ih =>
    obtain ⟨ts, h1, h2, h3⟩ := ih (fun a ha => h a (by simp [ha]))
    have hb := h b (by simp)
    by_cases h42 : b = 42
    · subst h42
      refine ⟨.star :: ts, .star h1, .star [42] h2, fun h t ht => ?_⟩
      rcases List.mem_cons.1 ht with rfl | ht
      · exact .inl rfl
      · exact h3 (fun hc => h (by simp [hc])) t ht
    · by_cases h63 : b = 63
      · subst h63
        exact ⟨.any :: ts, .any h1, .char trivial h2, fun h => absurd (by simp) h⟩
      · refine ⟨.one b :: ts, .one b h42 h63 hb.1 hb.2 h1, .char rfl h2, fun h t ht => ?_⟩
        rcases List.mem_cons.1 ht with rfl | ht
        · exact .inr ⟨b, rfl⟩
        · exact h3 (fun hc => h (by simp [hc])) t ht

/-- C79: a path with stars and question marks, but no brackets and backslashes, does read the files of the directory
named (perhaps with those of others). -/
theorem C79_own_bands_partial (d : Disk) (v : Bytes) (hd : d.Tree) (ha : Path.isAbs v = true)
    (hv : ∀ b ∈ v, b ≠ 91 ∧ b ≠ 92) (hr : 63 ∉ v ∨ d.Ascii) :
    ∃ l, bandLocations d v = some l ∧ l.Nodup ∧
      ∀ m, d.at? (Path.resolve d.cwd v ++ [b!"default", b!"band_" ++ m ++ b!".js"]) ≠ none →
        Path.resolve d.cwd v ++ [b!"default", b!"band_" ++ m ++ b!".js"] ∈ l := by
  have hres : Path.resolve d.cwd v = Path.comps v := by unfold Path.resolve; rw [ha, if_pos rfl]
  have hb : ∀ c ∈ Path.comps v, ∀ b ∈ c, b ∈ v ∨ b = 46 := Path.comps_bytes v
  have key : ∀ cs : List Bytes, (∀ c ∈ cs, ∀ b ∈ c, b ∈ v ∨ b = 46) →
      ∃ tss, List.Forall₂ PatternR cs tss ∧ List.Forall₂ FitsName tss cs ∧ ∀ ts ∈ tss, StarsOnly ts ∨ d.Ascii := by
    intro cs h
    induction cs with
    | nil => exact ⟨[], .nil, .nil, by simp⟩
    | cons c cs ih =>
      obtain ⟨tss, h1, h2, h3⟩ := ih (fun a ha => h a (by simp [ha]))
      obtain ⟨ts, h4, h5, h6⟩ := pattern_self c (by
        intro b hbc
        rcases h c (by simp) b hbc with hb | rfl
        · exact hv b hb
        · decide)
      refine ⟨ts :: tss, .cons h4 h1, .cons h5 h2, fun t ht => ?_⟩
      rcases List.mem_cons.1 ht with rfl | ht
      · rcases hr with hr | hr
        · refine .inl (h6 (fun hc => ?_))
          rcases h c (by simp) 63 hc with hb | hb
          · exact hr hb
          · cases hb
        · exact .inr hr
      · exact h3 t ht
  obtain ⟨tss, h1, h2, h3⟩ := key _ hb
  obtain ⟨l, h4, h5, h6⟩ := C79_which_bands d v tss hd ha h1 h3
  refine ⟨l, h4, h5, fun m hm => ?_⟩
  rw [hres] at hm ⊢
  exact (h6 _).2 ⟨hm, _, _, rfl, h2, m, rfl⟩

/-- With vaults /v* and /v1 on the disk, the path /v* reads the files of both. -/
example : bandLocations
    { cwd := []
      fs := [([], .dir), ([b!"v*"], .dir), ([b!"v*", b!"default"], .dir), ([b!"v*", b!"default", b!"band_7.js"], .file [] false),
             ([b!"v1"], .dir), ([b!"v1", b!"default"], .dir), ([b!"v1", b!"default", b!"band_0.js"], .file [] false)] }
    b!"/v*" = some [[b!"v*", b!"default", b!"band_7.js"], [b!"v1", b!"default", b!"band_0.js"]] := by decide +kernel

end OnePass
