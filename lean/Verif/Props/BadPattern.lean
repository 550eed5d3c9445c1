/-
C108: a path of a vault that is not even a pattern.
-/
import Verif.Props.Glob

set_option linter.unusedSimpArgs false

namespace OnePass
open Spec

namespace Path

/-- A name with a bracket that is not closed, after ordinary characters. -/
def Unclosed (c : Bytes) : Prop := ∃ stem tail : Bytes, c = stem ++ 91 :: tail ∧ hasMeta stem = false ∧ 93 ∉ tail

theorem getEsc_suffix {t r : Bytes} {c : Nat} (h : getEsc t = some (c, r)) : r <:+ t := by
  unfold getEsc at h
  split at h
  · cases h
  · rename_i a t
    split at h
    · cases h
    · have hsub : (if a = 92 then t else a :: t) <:+ a :: t := by
        split
        · exact List.suffix_cons _ _
        · exact List.suffix_refl _
      dsimp only at h
      generalize (if a = 92 then t else a :: t) = ch at h hsub
      split at h
      · cases h
      · split at h
        · cases h
        · split at h
          · cases h
          · simp only [Option.some.injEq, Prod.mk.injEq] at h
            rw [← h.2]
            exact (List.drop_suffix _ _).trans hsub

/-- A class that is not closed is an error. -/
theorem ranges_unclosed (r f : Nat) (t : Bytes) (m any : Bool) (h : 93 ∉ t) : ranges r f t m any = none := by
  induction f generalizing t m any with
  | zero => rfl
  | succ f ih =>
    rw [ranges, if_neg]
    · split
      · rfl
      · rename_i lo ch1 he
        have h1 := getEsc_suffix he
        split
        · rename_i ch2
          split
          · rfl
          · rename_i hi ch3 he'
            have h2 := getEsc_suffix he'
            exact ih _ _ _ (fun hc => h (h1.subset (List.mem_cons_of_mem _ (h2.subset hc))))
        · exact ih _ _ _ (fun hc => h (h1.subset hc))
    · rintro ⟨h1, -⟩
      cases t with
      | nil => cases h1
      | cons b t => simp at h1; subst h1; simp at h

theorem scan_unclosed (n : Nat) (t : Bytes) (hn : t.length ≤ n) (h : 93 ∉ t) : scan true t = (t, []) := by
  induction n generalizing t with
  | zero => obtain rfl := List.length_eq_zero_iff.1 (Nat.le_zero.1 hn); rfl
  | succ n ih =>
    cases t with
    | nil => rfl
    | cons c r =>
      have hr : 93 ∉ r := fun hc => h (by simp [hc])
      have hc : c ≠ 93 := by rintro rfl; simp at h
      simp only [List.length_cons] at hn
      rw [scan.eq_def]
      dsimp only
      split
      · cases r with
        | nil => rfl
        | cons c1 r1 =>
          have := ih r1 (by simp only [List.length_cons] at hn; omega) (fun hc => hr (by simp [hc]))
          simp [this]
      · have := ih r (by omega) hr
        simp [this, hc]

theorem meta_cons {c : UInt8} {p : Bytes} (h : hasMeta (c :: p) = false) :
    (c ≠ 42 ∧ c ≠ 63 ∧ c ≠ 91 ∧ c ≠ 92) ∧ hasMeta p = false := by
  simp only [hasMeta, List.any_cons, Bool.or_eq_false_iff, beq_eq_false_iff_ne] at h ⊢
  exact ⟨⟨h.1.1.1.1, h.1.1.1.2, h.1.1.2, h.1.2⟩, h.2⟩

theorem scan_stem (stem tail : Bytes) (hs : hasMeta stem = false) (ht : 93 ∉ tail) :
    scan false (stem ++ 91 :: tail) = (stem ++ 91 :: tail, []) := by
  induction stem with
  | nil =>
    have := scan_unclosed _ tail (le_refl _) ht
    rw [List.nil_append, scan.eq_def]
    simp [this]
  | cons c stem ih =>
    obtain ⟨⟨h1, h2, h3, h4⟩, h5⟩ := meta_cons hs
    have ih := ih h5
    rw [List.cons_append, scan.eq_def]
    simp [ih, h1, h3, h4]

theorem matchChunk_unclosed (f : Nat) (stem tail : Bytes) (hs : hasMeta stem = false) (ht : 93 ∉ tail) :
    matchChunk f (stem ++ 91 :: tail) (stem ++ 91 :: tail) = none := by
  induction stem generalizing f with
  | nil =>
    cases f with
    | zero => rfl
    | succ f =>
      rw [List.nil_append, matchChunk.eq_def]
      dsimp only
      rw [if_pos rfl]
      cases tail with
      | nil => rfl
      | cons c1 t =>
        dsimp only
        rw [ranges_unclosed]
        split
        · exact fun hc => ht (by simp [hc])
        · exact ht
  | cons c stem ih =>
    obtain ⟨⟨h1, h2, h3, h4⟩, h5⟩ := meta_cons hs
    cases f with
    | zero => rfl
    | succ f =>
      rw [List.cons_append, matchChunk.eq_def]
      dsimp only
      rw [if_neg h3, if_neg h2, if_neg h4, if_neg (by simp)]
      exact ih f h5

/-- Such a name is an error as a pattern for itself. -/
theorem match?_unclosed {c : Bytes} (h : Unclosed c) : match? c c = none := by
  obtain ⟨stem, tail, rfl, hs, ht⟩ := h
  have hdrop : (stem ++ 91 :: tail).dropWhile (· == 42) = stem ++ 91 :: tail ∧
      ((stem ++ 91 :: tail).head? == some 42) = false := by
    cases stem with
    | nil => simp
    | cons c stem => have := (meta_cons hs).1.1; simp [this]
  unfold match? matchP
  rw [if_neg (by simp)]
  unfold scanChunk
  rw [hdrop.1, hdrop.2, scan_stem stem tail hs ht]
  simp [matchChunk_unclosed _ stem tail hs ht]

section
variable {P : List Bytes → Bytes} {base : List Bytes} {d : Disk}

theorem globDir_unclosed (st : Style P base d.cwd) (hd : d.Tree) {c : Bytes} (hc : Unclosed c) {x : List Bytes}
    (hx : d.at? (base ++ (x ++ [c])) ≠ none) : globDir d (P x) c = none := by
  rw [← List.append_assoc] at hx
  have hdir := (hd.below _ _ hx).2
  have hs := simple_below (base := base) hd (x := x) (by rw [hdir]; simp)
  unfold globDir
  rw [stat_style st hs, hdir, st.resolve x hs]
  dsimp only
  have hm : c ∈ d.dirNames (base ++ x) := mem_dirNames.2 hx
  generalize d.dirNames (base ++ x) = l at hm
  induction l with
  | nil => cases hm
  | cons n l ih =>
    rw [List.foldr_cons]
    rcases List.mem_cons.1 hm with rfl | hm
    · rw [match?_unclosed hc]
    · rw [ih hm]
      split <;> simp_all

/-- The search fails if such a name is in the path, ordinary names are before it, and it exists. -/
theorem glob_unclosed (st : Style P base d.cwd) (hd : d.Tree) {above below : List Bytes} {c : Bytes}
    (ha : ∀ a ∈ above, hasMeta a = false) (hc : Unclosed c) (hx : d.at? (base ++ (above ++ [c])) ≠ none)
    (hb : ∀ b ∈ below, Simple b) (f : Nat) : glob d f (P (above ++ [c] ++ below)) = none := by
  have hs1 : ∀ b ∈ above ++ [c], Simple b := simple_below hd hx
  have hmc : hasMeta c = true := by obtain ⟨stem, tail, rfl, -, -⟩ := hc; simp [hasMeta]
  have hspec : ∀ x : List Bytes, c ∈ x → hasMeta (P x) = true := by
    intro x hcx
    by_contra h
    rw [Bool.not_eq_true] at h
    have := (st.special x).1 h c hcx
    rw [hmc] at this
    cases this
  induction below using List.reverseRecOn generalizing f with
  | nil =>
    cases f with
    | zero => rfl
    | succ f =>
      rw [List.append_nil, glob, hspec _ (by simp)]
      have hs' : ∀ b ∈ above, Simple b := fun b hb => hs1 b (by simp [hb])
      obtain ⟨h1, h2⟩ := st.dirOf above c hs' (hs1 c (by simp))
      simp only [Bool.not_true, Bool.false_eq_true, if_false, h1, h2, (st.special above).2 ha, Bool.not_false, if_true]
      exact globDir_unclosed st hd hc hx
  | append_singleton below b ih =>
    cases f with
    | zero => rfl
    | succ f =>
      have hs' : ∀ a ∈ above ++ [c] ++ below, Simple a := by
        intro a ha'
        rcases List.mem_append.1 ha' with h | h
        · exact hs1 a h
        · exact hb a (by simp [h])
      obtain ⟨h1, h2⟩ := st.dirOf (above ++ [c] ++ below) b hs' (hb b (by simp))
      rw [← List.append_assoc, glob, hspec _ (by simp)]
      simp only [Bool.not_true, Bool.false_eq_true, if_false, h1, h2, hspec (above ++ [c] ++ below) (by simp)]
      rw [ih (fun a ha => hb a (by simp [ha])) f]
      simp

end

/-! Without brackets and backslashes there is no such error. -/

theorem matchChunk_plain (f : Nat) (p s : Bytes) (hp : ∀ b ∈ p, b ≠ 91 ∧ b ≠ 92) (hf : p.length < f) : matchChunk f p s ≠ none := by
  induction f generalizing p s with
  | zero => omega
  | succ f ih =>
    cases p with
    | nil => simp [matchChunk]
    | cons c p =>
      have hp' : ∀ b ∈ p, b ≠ 91 ∧ b ≠ 92 := fun b hb => hp b (by simp [hb])
      simp only [List.length_cons] at hf
      cases s with
      | nil => simp [matchChunk]
      | cons b s =>
        rw [matchChunk.eq_def]
        dsimp only
        rw [if_neg (hp c (by simp)).1, if_neg (hp c (by simp)).2]
        split
        · split
          · simp
          · exact ih _ _ hp' (by omega)
        · split
          · simp
          · exact ih _ _ hp' (by omega)

theorem scan_plain (inr : Bool) (p : Bytes) (hp : ∀ b ∈ p, b ≠ 92) : (scan inr p).1 ++ (scan inr p).2 = p := by
  induction p generalizing inr with
  | nil => rfl
  | cons c p ih =>
    have ih := fun i => ih i (fun b hb => hp b (by simp [hb]))
    rw [scan.eq_def]
    dsimp only
    rw [if_neg (hp c (by simp))]
    split
    · simp [ih]
    · split
      · simp [ih]
      · split
        · rfl
        · simp [ih]

theorem skip_plain (p : Bytes) (last : Bool) (n : Bytes) (hp : ∀ b ∈ p, b ≠ 91 ∧ b ≠ 92) : skipMatch p last n ≠ none := by
  induction n with
  | nil => simp [skipMatch]
  | cons c n ih =>
    rw [skipMatch]
    split
    · simp
    · have := matchChunk_plain (p.length + 1) p n hp (by omega)
      cases h : matchChunk (p.length + 1) p n with
      | none => exact absurd h this
      | some r =>
        cases r with
        | none => exact ih
        | some t =>
          dsimp only
          split
          · exact ih
          · simp

theorem matchP_plain (f : Nat) (p n : Bytes) (hp : ∀ b ∈ p, b ≠ 91 ∧ b ≠ 92) (hf : p.length < f) : matchP f p n ≠ none := by
  induction f generalizing p n with
  | zero => omega
  | succ f ih =>
    rw [matchP]
    split
    · simp
    · rename_i hne
      unfold scanChunk
      dsimp only
      have hsc := scan_plain false (p.dropWhile (· == 42)) (fun b hb => (hp b ((List.dropWhile_suffix _).subset hb)).2)
      have hlen : (p.dropWhile (· == 42)).length ≤ p.length := (List.dropWhile_suffix _).length_le
      have hmem : ∀ b ∈ p.dropWhile (· == 42), b ≠ 91 ∧ b ≠ 92 := fun b hb => hp b ((List.dropWhile_suffix _).subset hb)
      -- the rest is shorter, since a chunk or a star is gone
      have hshort : ¬ ((p.head? == some 42) = true ∧ (scan false (p.dropWhile (· == 42))).1.isEmpty = true) →
          (scan false (p.dropWhile (· == 42))).2.length < p.length := by
        intro hno
        have hl := congrArg List.length hsc
        rw [List.length_append] at hl
        cases p with
        | nil => exact absurd rfl hne
        | cons c p =>
          by_cases hc : c = 42
          · subst hc
            have : (p.dropWhile (· == 42)).length ≤ p.length := (List.dropWhile_suffix _).length_le
            simp only [List.dropWhile_cons, BEq.rfl, if_true, List.length_cons] at hl ⊢
            omega
          · have hd : (c :: p).dropWhile (· == 42) = c :: p := by simp [hc]
            rw [hd] at hl ⊢
            have : (scan false (c :: p)).1 ≠ [] := by
              rw [scan.eq_def]
              dsimp only
              rw [if_neg (hp c (by simp)).2]
              simp [hc, (hp c (by simp)).1]
            have := List.length_pos_iff.2 this
            omega
      generalize scan false (p.dropWhile (· == 42)) = sc at hsc hshort
      obtain ⟨chunk, rest⟩ := sc
      dsimp only at hsc hshort ⊢
      have hch : ∀ b ∈ chunk, b ≠ 91 ∧ b ≠ 92 := fun b hb => hmem b (by rw [← hsc]; simp [hb])
      have hre : ∀ b ∈ rest, b ≠ 91 ∧ b ≠ 92 := fun b hb => hmem b (by rw [← hsc]; simp [hb])
      split
      · simp
      · rename_i hno
        have hlt := hshort (by simpa using hno)
        have h1 := matchChunk_plain (chunk.length + 1) chunk n hch (by omega)
        have h2 := skip_plain chunk rest.isEmpty n hch
        have h3 : ∀ t, matchP f rest t ≠ none := fun t => ih rest t hre (by omega)
        cases hm : matchChunk (chunk.length + 1) chunk n with
        | none => exact absurd hm h1
        | some r =>
          have hskip : (match skipMatch chunk rest.isEmpty n with
              | none => none
              | some none => some false
              | some (some t) => matchP f rest t) ≠ none := by
            split
            · rename_i h; exact absurd h h2
            · simp
            · exact h3 _
          cases r with
          | none =>
            dsimp only
            split
            · exact hskip
            · simp
          | some t =>
            dsimp only
            split
            · exact h3 _
            · split
              · exact hskip
              · simp

theorem globDir_plain (d : Disk) (dir p : Bytes) (hp : ∀ b ∈ p, b ≠ 91 ∧ b ≠ 92) : globDir d dir p ≠ none := by
  unfold globDir
  split
  · generalize d.dirNames (resolve d.cwd dir) = l
    induction l with
    | nil => simp
    | cons n l ih =>
      rw [List.foldr_cons]
      have h1 : match? p n ≠ none := matchP_plain _ p n hp (by omega)
      obtain ⟨r, hr⟩ := Option.ne_none_iff_exists'.1 h1
      obtain ⟨l', hl⟩ := Option.ne_none_iff_exists'.1 ih
      rw [hr, hl]
      cases r <;> simp
  · simp

theorem splitFile_append (p : Bytes) : (splitFile p).1 ++ (splitFile p).2 = p := by
  unfold splitFile
  dsimp only
  rw [← List.reverse_append, List.takeWhile_append_dropWhile, List.reverse_reverse]

theorem glob_plain (d : Disk) (f : Nat) (p : Bytes) (hp : ∀ b ∈ p, b ≠ 91 ∧ b ≠ 92) (hf : p.length < f) : glob d f p ≠ none := by
  induction f generalizing p with
  | zero => omega
  | succ f ih =>
    have hsp := splitFile_append p
    have h2 : ∀ b ∈ (splitFile p).2, b ≠ 91 ∧ b ≠ 92 := fun b hb => hp b (by rw [← hsp]; simp [hb])
    have h1 : ∀ b ∈ (splitFile p).1, b ≠ 91 ∧ b ≠ 92 := fun b hb => hp b (by rw [← hsp]; simp [hb])
    rw [glob]
    split
    · split <;> simp
    · dsimp only
      split
      · exact globDir_plain d _ _ h2
      · rename_i hm
        have hdl : cleanGlobPath (splitFile p).1 = (splitFile p).1.dropLast ∧ (splitFile p).1 ≠ [] := by
          unfold cleanGlobPath at hm ⊢
          split
          · rename_i h; rw [if_pos h] at hm; simp [hasMeta] at hm
          · rename_i h
            split
            · rename_i h'; rw [if_neg h, if_pos h'] at hm; simp [hasMeta] at hm
            · exact ⟨rfl, h⟩
        have hlen : (cleanGlobPath (splitFile p).1).length < p.length := by
          have := congrArg List.length hsp
          have h0 := List.length_pos_iff.2 hdl.2
          rw [List.length_append] at this
          rw [hdl.1, List.length_dropLast]
          omega
        rw [if_neg (fun h => by rw [h] at hlen; omega)]
        have := ih (cleanGlobPath (splitFile p).1) (by
          rw [hdl.1]
          exact fun b hb => h1 b (List.dropLast_subset _ hb)) (by omega)
        obtain ⟨ds, hds⟩ := Option.ne_none_iff_exists'.1 this
        rw [hds]
        dsimp only
        clear hds
        induction ds with
        | nil => simp
        | cons x ds ih =>
          rw [List.foldr_cons]
          obtain ⟨a, ha⟩ := Option.ne_none_iff_exists'.1 (globDir_plain d x _ h2)
          obtain ⟨b, hb⟩ := Option.ne_none_iff_exists'.1 ih
          rw [ha, hb]
          simp

end Path

/-- The wish: loading the items of a vault whose files are in order does not end the program. -/
def C108_wish : Prop := ∀ (E : Env) (O : MapOrder) (d : Disk) (v : Bytes) (dir names : List Bytes) (ms : List Members),
  d.Tree → AnyVaultDir d v dir → BandNames d dir names → List.Forall₂ (BandFile d dir) names ms →
  Repo.loadItems E O d v ≠ .fatal

/-- C108 fails for every absolute path that has a name with a bracket that is not closed: the vault is there, but with the right
password the program ends. No password opens it. -/
theorem C108_unclosed (E : Env) (O : MapOrder) (d : Disk) (v : Bytes) (above below : List Bytes) (c : Bytes) (hd : d.Tree)
    (ha : Path.isAbs v = true) (hv : Path.comps v = above ++ [c] ++ below) (hab : ∀ a ∈ above, Path.hasMeta a = false)
    (hc : Path.Unclosed c) (hx : d.at? (Path.resolve d.cwd v) ≠ none) :
    Repo.loadItems E O d v = .fatal ∧
    (∀ s password s', Session.unlock E O d v password s ≠ .ret (.ok (), s')) ∧
    ∀ (s : Session) password derived master over, Key.derivedKeys E s.profile password = .ret (.ok derived) →
      Key.masterKeys E s.profile derived.1 derived.2 = .ret (.ok master) →
      Key.overviewKeys E s.profile derived.1 derived.2 = .ret (.ok over) → s.unlock E O d v password = .fatal := by
  have hvne : v ≠ [] := by rintro rfl; cases ha
  have hsv : ∀ c ∈ Path.comps v, Path.Simple c := fun c hc => (Path.comps_mem v c hc).2.2.2 ha
  have s2 : ∀ c ∈ [b!"default", b!"band_*.js"], Path.Simple c := by decide +kernel
  have hload : Repo.loadItems E O d v = .fatal := by
    have hex : d.at? ([] ++ (above ++ [c])) ≠ none := by
      rw [Path.resolve, ha, if_pos rfl, hv] at hx
      rw [List.nil_append]
      clear hv
      induction below using List.reverseRecOn with
      | nil => simpa using hx
      | append_singleton below b ih =>
        rw [← List.append_assoc] at hx
        exact ih (by rw [(hd.below _ _ hx).2]; simp)
    have hpat : Path.join [v, profileDir, bandFilePattern] = Path.absPath (Path.comps v ++ [b!"default", b!"band_*.js"]) := by
      unfold Path.join
      have h0 : ([v, profileDir, bandFilePattern] : List Bytes).dropWhile List.isEmpty = [v, profileDir, bandFilePattern] := by
        rw [List.dropWhile_cons_of_neg]; simpa using hvne
      simp only [h0, List.isEmpty_cons, Bool.false_eq_true, if_false]
      have e : Path.joinSlash [v, profileDir, bandFilePattern] = v ++ 47 :: Path.joinSlash [b!"default", b!"band_*.js"] := rfl
      rw [e]
      unfold Path.clean
      rw [Path.isAbs_append hvne, ha, if_pos rfl, Path.comps_slash hvne (by simp) s2]
      rfl
    have := Path.glob_unclosed (Path.abs_style d.cwd) hd hab hc hex (below := below ++ [b!"default", b!"band_*.js"]) (by
      intro b hb
      rcases List.mem_append.1 hb with hb | hb
      · exact hsv b (by rw [hv]; simp [hb])
      · exact s2 b hb)
    unfold Repo.loadItems Repo.bandFiles
    dsimp only
    rw [hpat, hv, List.append_assoc (above ++ [c]), this]
  refine ⟨hload, ?_, ?_⟩
  · intro s password s' h
    unfold Session.unlock at h
    rw [Out.bind_eq_ret] at h
    obtain ⟨r, -, h⟩ := h
    split at h
    · cases h
    · rw [Out.bind_eq_ret] at h
      obtain ⟨r, -, h⟩ := h
      split at h
      · cases h
      · rw [Out.bind_eq_ret] at h
        obtain ⟨r, -, h⟩ := h
        split at h
        · cases h
        · dsimp only at h
          rw [Out.bind_eq_ret] at h
          obtain ⟨r, h, -⟩ := h
          unfold Session.decodeItems at h
          rw [hload] at h
          cases h
  · intro s password derived master over h1 h2 h3
    unfold Session.unlock
    simp only [h1, Out.ret_bind, h2, h3]
    unfold Session.decodeItems
    rw [hload]
    rfl

/-- C108 holds for paths without the special characters. -/
theorem C108_literal_partial (E : Env) (O : MapOrder) (d : Disk) (v : Bytes) (dir names : List Bytes) (ms : List Members)
    (hv : VaultDir d v dir) (hn : BandNames d dir names) (hm : List.Forall₂ (BandFile d dir) names ms) :
    Repo.loadItems E O d v ≠ .fatal := by
  obtain ⟨h1, h2, -⟩ := C18_loading_returns E O hv hn hm
  by_cases h : ∀ uid x, LastEntry ms.flatten uid x → ∃ r, r.uid = uid ∧ Describes E ms.flatten r
  · obtain ⟨raw, h⟩ := h1 h
    rw [h]; simp
  · rw [h2 h]; simp

/-- C108: without brackets and backslashes the search for the band files succeeds, on every disk. -/
theorem C108_search_partial (d : Disk) (v : Bytes) (hv : ∀ b ∈ v, b ≠ 91 ∧ b ≠ 92) : bandLocations d v ≠ none := by
  unfold bandLocations Repo.bandFiles
  dsimp only
  intro h
  rw [Option.map_eq_none_iff] at h
  refine Path.glob_plain d _ _ ?_ (Nat.lt_succ_self _) h
  have key : ∀ b ∈ Path.joinSlash [v, profileDir, bandFilePattern], b ≠ 91 ∧ b ≠ 92 := by
    have e : Path.joinSlash [v, profileDir, bandFilePattern] = v ++ b!"/default/band_*.js" := rfl
    rw [e]
    intro b hb
    rcases List.mem_append.1 hb with hb | hb
    · exact hv b hb
    · exact (by decide +kernel : ∀ b ∈ b!"/default/band_*.js", b ≠ 91 ∧ b ≠ 92) b hb
  unfold Path.join
  by_cases hne : v = []
  · subst hne; decide +kernel
  · have h0 : ([v, profileDir, bandFilePattern] : List Bytes).dropWhile List.isEmpty = [v, profileDir, bandFilePattern] := by
      rw [List.dropWhile_cons_of_neg]; simpa using hne
    simp only [h0, List.isEmpty_cons, Bool.false_eq_true, if_false]
    intro b hb
    rcases Path.clean_bytes _ b hb with h | rfl | rfl
    · exact key b h
    · decide
    · decide

namespace BadPatternDemo

/-- The vault of the samples, at /my[vault. -/
def disk : Disk :=
  { cwd := []
    fs := [([], .dir), ([b!"my[vault"], .dir), ([b!"my[vault", b!"default"], .dir),
           ([b!"my[vault", b!"default", b!"profile.js"], .file (Demo.profileText Demo.pa) false)] }

theorem tree : disk.Tree := Disk.tree_of (by decide +kernel) (by decide +kernel)

/-- Opening it with a password: whether the program ends (`true`) or the password is refused (`false`). -/
def tried (password : Bytes) : Option Bool :=
  match Session.init.validate disk b!"/my[vault" with
  | .ret (.ok (), s) =>
    match s.unlock Env.toy .doc disk b!"/my[vault" password with
    | .fatal => some true
    | .ret (.error .invalidPass, _) => some false
    | _ => none
  | _ => none

end BadPatternDemo

theorem C108_refuted : ¬ C108_wish := by
  intro h
  refine h Env.toy .doc BadPatternDemo.disk b!"/my[vault" [b!"my[vault", b!"default"] [] [] BadPatternDemo.tree
    ⟨by decide, by decide +kernel, by decide +kernel, rfl⟩ ?_ .nil
    (C108_unclosed Env.toy .doc BadPatternDemo.disk b!"/my[vault" [] [] b!"my[vault" BadPatternDemo.tree rfl (by decide +kernel)
      (by simp) ⟨b!"my", b!"vault", rfl, rfl, by decide⟩ (by decide +kernel)).1
  refine ⟨.nil, fun n => ⟨by simp, ?_⟩⟩
  rintro ⟨⟨x, hx⟩, h2⟩
  obtain ⟨e, he, h3⟩ := at_ne_none.1 h2
  have hlen : BadPatternDemo.disk.fs.map (·.1) = [[], [b!"my[vault"], [b!"my[vault", b!"default"],
    [b!"my[vault", b!"default", b!"profile.js"]] := rfl
  have : e.1 ∈ BadPatternDemo.disk.fs.map (·.1) := List.mem_map.2 ⟨e, he, rfl⟩
  rw [hlen, h3] at this
  simp at this
  subst this
  simp at hx

/-- It is accepted as a vault, and a wrong password is refused as usual; the right one ends the program. -/
example : BadPatternDemo.tried b!"x" = some false ∧ BadPatternDemo.tried Demo.pa = some true := by decide +kernel

/-- A path with a star and a closing bracket. -/
example : bandLocations BadPatternDemo.disk b!"/my*vault]" = some [] := by decide +kernel

end OnePass
