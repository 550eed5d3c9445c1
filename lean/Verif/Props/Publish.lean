/-
A published release can be installed, C115.
-/
import Verif.Props.Notice
import Verif.Props.Messages

namespace OnePass
namespace Upd
open Prog Spec

/-! ### Steps that work -/

variable {S : Sys} (hq : S.Quiet)
include hq

theorem removeAll_goes (w : World) : ∃ w', Os.removeAll S cacheDir w = (.ret (.ok ()), w') ∧ w'.disk.cwd = w.disk.cwd ∧
    (∀ l, cacheLoc <+: l → w'.disk.at? l = none) ∧ ∀ l, ¬ cacheLoc <+: l → w'.disk.at? l = w.disk.at? l := by
  have hf := (foot_removeAll w.disk.cwd (fun l => cacheLoc <+: l) (fun _ => True) S cacheDir
    (fun l hl => by rw [resolve_cache] at hl; exact hl)) w rfl
  obtain ⟨r, ls, h1, -, h3⟩ := Os.removeAll_run S cacheDir w
  have hr : r = .ok () := by
    have : (Os.removeAll S cacheDir w).1 = .ret (.ok ()) := by
      simp only [Os.removeAll, bind_run, tick, Prog.get, hq w.tick, through, Prog.pure]
    rw [h1] at this
    exact Out.ret.inj this
  subst hr
  rw [h1] at hf
  refine ⟨_, h1, hf.1, fun l hl => ?_, fun l hl => hf.2.1 l hl⟩
  exact h3 rfl l (by rw [resolve_cache]; exact hl)

theorem mkdirAll_goes (w : World) (h1 : ∀ b x, w.disk.at? [b!"tmp"] ≠ some (.file b x))
    (h2 : ∀ l, cacheLoc <+: l → w.disk.at? l = none) :
    ∃ w', Os.mkdirAll S cacheDir w = (.ret (.ok ()), w') ∧ w'.disk.cwd = w.disk.cwd ∧ w'.disk.at? cacheLoc = some .dir ∧
      (∀ l, cacheLoc <+: l → l ≠ cacheLoc → w'.disk.at? l = none) ∧
      ∀ l, w.disk.at? l ≠ none → w'.disk.at? l = w.disk.at? l := by
  have hf := (foot_mkdirAll w.disk.cwd (fun _ => True) (fun _ => True) S cacheDir (fun _ _ _ => trivial)) w rfl
  obtain ⟨r, ds, g1, ls, k, g2, g3, g4⟩ := Os.mkdirAll_run S cacheDir w
  rw [resolve_cache] at g3 g4
  have hr : r = .ok () := by
    have : (Os.mkdirAll S cacheDir w).1 = .ret (.ok ()) := by
      simp only [Os.mkdirAll, bind_run, tick, Prog.get, hq w.tick]
      have hm : ∃ ls, w.disk.missing (Path.resolve w.disk.cwd cacheDir) = some ls := by
        rw [resolve_cache]
        unfold Disk.missing
        have : ([] : List Bytes) :: [[b!"tmp"], cacheLoc] = cacheLoc.inits := by decide +kernel
        rw [← this]
        have hc := h2 cacheLoc (List.prefix_refl _)
        have hflt : List.filter (fun l : List Bytes => decide (l ≠ [])) [[], [b!"tmp"], cacheLoc] = [[b!"tmp"], cacheLoc] := by
          decide +kernel
        simp only [hflt]
        rw [if_neg]
        · exact ⟨_, rfl⟩
        · simp only [List.any_cons, List.any_nil, hc, Bool.or_false]
          cases ht : w.disk.at? [b!"tmp"] with
          | none => simp
          | some n =>
            cases n with
            | dir => simp
            | file b x => exact absurd ht (h1 b x)
      obtain ⟨ls, hm⟩ := hm
      rw [hm]
      simp only [bind_run, through, Prog.pure]
    rw [g1] at this
    exact Out.ret.inj this
  subst hr
  obtain ⟨rfl, g5⟩ := g4 rfl
  rw [List.take_length] at g2
  rw [g1] at hf
  have hat : ∀ l, (Os.after w ds).disk.at? l = if l ∈ ls then some .dir else w.disk.at? l := by
    intro l
    show (w.disk.last ds).at? l = _
    rw [g2]
    exact Disk.puts_dirs_last _ _ _
  refine ⟨_, g1, hf.1, ?_, fun l hl hne => ?_, fun l hl => ?_⟩
  · rw [hat]
    rcases g5 cacheLoc (List.prefix_refl _) (by decide) with h | h
    · rw [h2 cacheLoc (List.prefix_refl _)] at h; cases h
    · rw [if_pos h]
  · rw [hat, if_neg, h2 l hl]
    intro hm
    exact hne ((g3 l hm).1.eq_of_length_le hl.length_le)
  · rw [hat, if_neg]
    intro hm
    exact hl (g3 l hm).2.1

theorem createWrite_goes (name data : Bytes) (c : Bytes) (ht : target name = cacheLoc ++ [c]) (w : World)
    (h1 : w.disk.at? cacheLoc = some .dir) (h2 : w.disk.at? (cacheLoc ++ [c]) ≠ some .dir) :
    ∃ w', andThen (Os.create S (Path.join [cacheDir, name])) (fun f => Os.write S f data true) w = (.ret (.ok ()), w') ∧
      w'.disk.cwd = w.disk.cwd ∧ (∃ x, w'.disk.at? (cacheLoc ++ [c]) = some (.file data x)) ∧
      ∀ l, l ≠ cacheLoc ++ [c] → w'.disk.at? l = w.disk.at? l := by
  have hr := resolve_target w.disk.cwd name
  have hf := foot_createWrite w.disk.cwd (fun _ => True) (fun _ => True) S (Path.join [cacheDir, name]) data true trivial w rfl
  have hj : Path.join [cacheDir, name] ≠ [] := by
    have : Path.join [cacheDir, name] = Path.clean (cacheDir ++ 47 :: name) := by
      unfold Path.join
      rw [List.dropWhile_cons_of_neg (by decide)]
      rfl
    rw [this]
    exact Path.clean_ne_nil _
  have hrun : ∃ w', andThen (Os.create S (Path.join [cacheDir, name])) (fun f => Os.write S f data true) w = (.ret (.ok ()), w') := by
    rw [andThen_run]
    rcases Os.create_run S (Path.join [cacheDir, name]) w with ⟨-, h⟩ | ⟨x, h, -⟩
    · rw [hr, ht] at h
      rcases h with h | h | h | h | h
      · exact absurd (hq _) h
      · exact absurd h hj
      · simp at h
      · rw [List.dropLast_concat] at h
        simp [Disk.isDir, h1] at h
      · exact absurd h h2
    · rw [h]
      simp only
      rcases Os.write_run S (Path.resolve w.disk.cwd (Path.join [cacheDir, name]), x) data true
          (Os.after w [w.disk.put (Path.resolve w.disk.cwd (Path.join [cacheDir, name])) (.file [] x)]) with ⟨k, -, g⟩ | ⟨g, -⟩
      · have := (g (hq _)).1
        cases this
      · exact ⟨_, g⟩
  obtain ⟨w', hw'⟩ := hrun
  rw [hw'] at hf
  obtain ⟨-, k1, x, k2, -⟩ := createWrite_ok hw'
  rw [hr, ht] at k1 k2
  exact ⟨w', hw', hf.1, ⟨x, k2⟩, k1⟩

theorem download_goes (name url data : Bytes) (t : Int) (c : Bytes) (ht : target name = cacheLoc ++ [c])
    (hu : ∀ n, S.answer n url = .body data true) (w : World)
    (h1 : w.disk.at? cacheLoc = some .dir) (h2 : w.disk.at? (cacheLoc ++ [c]) ≠ some .dir) :
    ∃ w', downloadFile S (Path.join [cacheDir, name]) url t w = (.ret (.ok ()), w') ∧
      w'.disk.cwd = w.disk.cwd ∧ (∃ x, w'.disk.at? (cacheLoc ++ [c]) = some (.file data x)) ∧
      ∀ l, l ≠ cacheLoc ++ [c] → w'.disk.at? l = w.disk.at? l := by
  obtain ⟨w', g1, g2, g3, g4⟩ := createWrite_goes hq name data c ht { w with tick := w.tick + 1, log := w.log ++ [.request url t] } h1 h2
  refine ⟨w', ?_, g2, g3, g4⟩
  unfold downloadFile
  rw [bind_run, Os.httpGet_run, hu]
  exact g1

theorem extract_goes (es : List TarEntry) (he : ∀ e ∈ es, e.reg = true → e.whole = true ∧ ∃ c, target e.name = cacheLoc ++ [c])
    (w : World) (h1 : w.disk.at? cacheLoc = some .dir) (h2 : ∀ c, w.disk.at? (cacheLoc ++ [c]) ≠ some .dir) :
    ∃ w', extractEntries S cacheDir true es w = (.ret (.ok ()), w') ∧ w'.disk.cwd = w.disk.cwd := by
  induction es generalizing w with
  | nil => exact ⟨w, rfl, rfl⟩
  | cons e r ih =>
    have ih := ih (fun e' h' => he e' (by simp [h']))
    unfold extractEntries
    by_cases hr : e.reg = true
    · rw [if_pos hr]
      obtain ⟨hw, c, hc⟩ := he e (by simp) hr
      obtain ⟨w1, g1, g2, ⟨x, g3⟩, g4⟩ := createWrite_goes hq e.name e.data c hc w h1 (h2 c)
      rw [hw, andThen_run, g1]
      simp only
      obtain ⟨w2, k1, k2⟩ := ih w1 (by rw [g4 _ (by simp)]; exact h1) (fun c' => by
        by_cases hcc : c' = c
        · subst hcc; rw [g3]; simp
        · rw [g4 _ (by simp [hcc])]; exact h2 c')
      exact ⟨w2, k1, k2.trans g2⟩
    · rw [if_neg hr]
      exact ih w h1 h2

theorem readFile_goes (p : Bytes) (w : World) (hp : p ≠ []) (b : Bytes) (x : Bool)
    (h : w.disk.at? (Path.resolve w.disk.cwd p) = some (.file b x)) :
    Os.readFile S p w = (.ret (.ok b), { w with tick := w.tick + 1 }) ∧ w.disk.readFile p = some b := by
  have h2 : w.disk.readFile p = some b := by
    unfold Disk.readFile Disk.stat
    rw [if_neg hp, h]
  refine ⟨?_, h2⟩
  rw [Os.readFile_run, h2]
  simp only [hq w.tick, if_true]

/-! ### The installation -/

/-- What the names of an archive made of files in one directory look like. -/
def Called (name c : Bytes) : Prop := name = c ∨ name = b!"./" ++ c

/-- The release can be had: archive and checksum file arrive completely, the archive is sound and has only files without
directories, no checksum file, and the last one called `1pass` is `data`, whose MD5 is the first word of the checksum file. -/
structure Ready (S : Sys) (X : Ext) (i : UpdateInfo) (data : Bytes) : Prop where
  archive : ∃ a before e after, (∀ n, S.answer n i.archiveUrl = .body a true) ∧ X.untar a = (before ++ e :: after, true) ∧
    (∀ e' ∈ before ++ e :: after, e'.reg = true →
      e'.whole = true ∧ ¬ Called e'.name b!"checksum.md5" ∧ ∃ c, Path.Simple c ∧ Called e'.name c) ∧
    e.reg = true ∧ Called e.name b!"1pass" ∧ e.data = data ∧ ∀ e' ∈ after, e'.reg = true → ¬ Called e'.name b!"1pass"
  sums : ∃ s, (∀ n, S.answer n i.checksumUrl = .body s true) ∧ FirstWord s (hexText (X.md5 data))

/-- The program can be replaced: it is known where it is, and it is a file in a directory, on the file system of `/tmp`. -/
structure Replaceable (S : Sys) (d : Disk) (e : Bytes) : Prop where
  exe : S.exe = some e
  named : e ≠ []
  file : ∃ b x, d.at? (Path.resolve d.cwd e) = some (.file b x)
  dir : d.isDir (Path.resolve d.cwd e).dropLast = true
  apart : Apart (Path.resolve d.cwd e)
  device : S.device [b!"tmp", b!"1pass", b!"1pass"] = S.device (Path.resolve d.cwd e)
  tmp : ∀ b x, d.at? [b!"tmp"] ≠ some (.file b x)

omit hq in
theorem target_called {name c : Bytes} (hc : Path.Simple c) (h : Called name c) : target name = cacheLoc ++ [c] := by
  unfold target
  rcases h with rfl | rfl
  · rw [Path.split_simple hc.2.2.2, List.foldl_cons, List.foldl_nil, Path.cleanStep_simple hc, List.reverse_cons, List.reverse_reverse]
  · have : b!"./" ++ c = [46] ++ 47 :: c := rfl
    rw [this, Path.split_append, Path.split_simple hc.2.2.2, show Path.split [46] = [[46]] by decide]
    rw [List.cons_append, List.nil_append, List.foldl_cons, List.foldl_cons, List.foldl_nil, Path.cleanStep_simple hc,
      show Path.cleanStep true cacheLoc.reverse [46] = cacheLoc.reverse by decide, List.reverse_cons, List.reverse_reverse]

omit hq in
theorem called_target {name c d : Bytes} (hc : Path.Simple c) (h : Called name c) (ht : target name = cacheLoc ++ [d]) : Called name d := by
  rw [target_called hc h] at ht
  have := List.append_cancel_left ht
  simp only [List.cons.injEq, and_true] at this
  exact this ▸ h

theorem install_goes {X : Ext} {t : Int} {cb : Nat → Ev} {i : UpdateInfo} {data e : Bytes} (hr : Ready S X i data) (w : World)
    (hp : Replaceable S w.disk e) : (install S X t cb i w).1 = .ret (.ok ()) := by
  obtain ⟨a, before, en, after, ha, hu, hall, hreg, hcall, hdata, hlast⟩ := hr.archive
  obtain ⟨s, hs, hfirst⟩ := hr.sums
  unfold install
  rw [emit_bind]
  obtain ⟨w1, a1, a2, a3, a4⟩ := removeAll_goes hq { w with log := w.log ++ [cb 1] }
  rw [andThen_run, a1]
  simp only
  obtain ⟨w2, b1, b2, b3, b4, b5⟩ := mkdirAll_goes hq w1 (fun b x => by
    rw [a4 _ (by decide)]; exact hp.tmp b x) a3
  rw [andThen_run, b1]
  simp only
  rw [emit_bind]
  have b6 : ∀ c, w2.disk.at? (cacheLoc ++ [c]) = none := fun c => b4 _ (List.prefix_append _ _) (by simp)
  obtain ⟨w3, c1, c2, ⟨x3, c3⟩, c4⟩ := download_goes hq archiveName i.archiveUrl a t archiveName (by decide +kernel) ha
    { w2 with log := w2.log ++ [cb 2] } b3 (by show w2.disk.at? _ ≠ _; rw [b6]; simp)
  rw [andThen_run, c1]
  simp only
  rw [emit_bind]
  obtain ⟨w4, d1, d2, ⟨x4, d3⟩, d4⟩ := download_goes hq checksumName i.checksumUrl s t checksumName (by decide +kernel) hs
    { w3 with log := w3.log ++ [cb 3] } (by show w3.disk.at? _ = _; rw [c4 _ (by simp)]; exact b3)
    (by show w3.disk.at? _ ≠ _; rw [c4 _ (by decide +kernel)]; show w2.disk.at? _ ≠ _; rw [b6]; simp)
  rw [andThen_run, d1]
  simp only
  rw [emit_bind]
  have hcwd4 : w4.disk.cwd = w.disk.cwd := d2.trans (c2.trans (b2.trans a2))
  obtain ⟨e1, -⟩ := readFile_goes hq (Path.join [cacheDir, archiveName]) { w4 with log := w4.log ++ [cb 4] } join_archive_ne a x3
    (by
      show w4.disk.at? (Path.resolve w4.disk.cwd _) = _
      rw [resolve_archive, d4 _ (by decide +kernel)]
      exact c3)
  have hx : extractArchive S X (Path.join [cacheDir, archiveName]) cacheDir { w4 with log := w4.log ++ [cb 4] } =
      extractEntries S cacheDir true (before ++ en :: after) { w4 with log := w4.log ++ [cb 4], tick := w4.tick + 1 } := by
    unfold extractArchive
    rw [andThen_run, e1]
    simp only
    rw [hu]
  have h4c : w4.disk.at? cacheLoc = some .dir := by
    rw [d4 _ (by simp)]
    show w3.disk.at? _ = _
    rw [c4 _ (by simp)]
    exact b3
  have h4n : ∀ c, w4.disk.at? (cacheLoc ++ [c]) ≠ some .dir := by
    intro c
    by_cases h1 : cacheLoc ++ [c] = cacheLoc ++ [checksumName]
    · rw [h1, d3]; simp
    · rw [d4 _ h1]
      show w3.disk.at? _ ≠ _
      by_cases h2 : cacheLoc ++ [c] = cacheLoc ++ [archiveName]
      · rw [h2, c3]; simp
      · rw [c4 _ h2]
        show w2.disk.at? _ ≠ _
        rw [b6]; simp
  obtain ⟨w5, f1, f2⟩ := extract_goes hq (before ++ en :: after)
    (fun e' h1 h2 => by
      obtain ⟨k1, -, c, k2, k3⟩ := hall e' h1 h2
      exact ⟨k1, c, target_called k2 k3⟩)
    { w4 with log := w4.log ++ [cb 4], tick := w4.tick + 1 } h4c h4n
  obtain ⟨-, -, f3⟩ := extractEntries_ok f1
  rw [andThen_run, hx, f1]
  simp only
  rw [emit_bind]
  have hcwd5 : w5.disk.cwd = w.disk.cwd := f2.trans hcwd4
  have hkeep5 : ∀ l, (∀ c, l ≠ cacheLoc ++ [c]) → w5.disk.at? l = w4.disk.at? l := by
    intro l hl
    have := f3 l
    have h0 : hits (before ++ en :: after) l = [] := by
      unfold hits
      rw [List.filter_eq_nil_iff]
      intro e' h1 h2
      simp only [Bool.and_eq_true, decide_eq_true_eq] at h2
      obtain ⟨-, -, c, k2, k3⟩ := hall e' h1 h2.1
      exact hl c (by rw [← h2.2]; exact target_called k2 k3)
    rw [h0] at this
    exact this
  have hbin : ∃ x, w5.disk.at? binaryLoc = some (.file data x) := by
    have := f3 binaryLoc
    have h0 : (hits (before ++ en :: after) binaryLoc).getLast? = some en := by
      unfold hits
      rw [List.filter_append, List.filter_cons_of_pos (by
        simp only [hreg, Bool.true_and, decide_eq_true_eq]
        exact target_called (c := b!"1pass") (by unfold Path.Simple; decide +kernel) hcall)]
      have h1 : List.filter (fun e => e.reg && decide (target e.name = binaryLoc)) after = [] := by
        rw [List.filter_eq_nil_iff]
        intro e' h1 h2
        simp only [Bool.and_eq_true, decide_eq_true_eq] at h2
        obtain ⟨-, -, c, k2, k3⟩ := hall e' (by simp [h1]) h2.1
        exact hlast e' h1 h2.1 (called_target k2 k3 h2.2)
      rw [h1, List.getLast?_append]
      rfl
    rw [h0] at this
    obtain ⟨x, h1, -⟩ := this
    exact ⟨x, by rw [← hdata]; exact h1⟩
  have hsum : w5.disk.at? checksumLoc = some (.file s x4) := by
    have := f3 checksumLoc
    have h0 : hits (before ++ en :: after) checksumLoc = [] := by
      unfold hits
      rw [List.filter_eq_nil_iff]
      intro e' h1 h2
      simp only [Bool.and_eq_true, decide_eq_true_eq] at h2
      obtain ⟨-, k1, c, k2, k3⟩ := hall e' h1 h2.1
      exact k1 (called_target k2 k3 h2.2)
    rw [h0] at this
    exact this.trans d3
  obtain ⟨xb, hbin⟩ := hbin
  have hval := (C53_checksum S hq X (Path.join [cacheDir, appName]) (Path.join [cacheDir, checksumName]) data s
    { w5 with log := w5.log ++ [cb 5] }
    (readFile_goes hq (Path.join [cacheDir, checksumName]) { w5 with log := w5.log ++ [cb 5] } join_checksum_ne s x4
      (by show w5.disk.at? (Path.resolve w5.disk.cwd _) = _; rw [resolve_checksum]; exact hsum)).2
    (readFile_goes hq (Path.join [cacheDir, appName]) { w5 with log := w5.log ++ [cb 5] } join_binary_ne data xb
      (by show w5.disk.at? (Path.resolve w5.disk.cwd _) = _; rw [resolve_binary]; exact hbin)).2).1.2 hfirst
  have hvf := rel_validate (foot_chain w5.disk.cwd (fun _ => False) (fun _ => True)) S X (Path.join [cacheDir, appName])
    (Path.join [cacheDir, checksumName]) (fun p => foot_readFile _ _ _ _ p) { w5 with log := w5.log ++ [cb 5] } rfl
  rw [andThen_run]
  cases hvr : validateChecksum S X (Path.join [cacheDir, appName]) (Path.join [cacheDir, checksumName]) { w5 with log := w5.log ++ [cb 5] } with
  | mk o w6 =>
  rw [hvr] at hval hvf
  simp only at hval
  subst hval
  simp only
  rw [emit_bind]
  have hcwd6 : w6.disk.cwd = w.disk.cwd := hvf.1.trans hcwd5
  have hat6 : ∀ l, w6.disk.at? l = w5.disk.at? l := fun l => hvf.2.1 l (fun h => h)
  have hprog : ∀ l, ¬ cacheLoc <+: l → w.disk.at? l ≠ none → w6.disk.at? l = w.disk.at? l := by
    intro l h1 h2
    have h3 : ∀ c, l ≠ cacheLoc ++ [c] := fun c h => h1 (h ▸ List.prefix_append _ _)
    have h4 : w1.disk.at? l = w.disk.at? l := a4 l h1
    rw [hat6, hkeep5 l h3, d4 l (h3 _)]
    show w3.disk.at? l = _
    rw [c4 l (h3 _)]
    show w2.disk.at? l = _
    rw [b5 l (by rw [h4]; exact h2), h4]
  have hren : ∃ w7, replaceBinary S (Path.join [cacheDir, appName]) { w6 with log := w6.log ++ [cb 6] } = (.ret (.ok ()), w7) := by
    unfold replaceBinary
    rw [hp.exe]
    have hst : w6.disk.stat (Path.join [cacheDir, appName]) = some (.file data xb) := by
      unfold Disk.stat
      rw [if_neg join_binary_ne, resolve_binary, hat6, hbin]
    obtain ⟨ob, ox, hold⟩ := hp.file
    have hold6 : w6.disk.at? (Path.resolve w.disk.cwd e) = some (.file ob ox) := by
      rw [hprog _ hp.apart.1 (by rw [hold]; simp), hold]
    have hdir6 : w6.disk.isDir (Path.resolve w.disk.cwd e).dropLast = true := by
      have := hp.dir
      unfold Disk.isDir at this ⊢
      rw [Bool.or_eq_true, beq_iff_eq, beq_iff_eq] at this ⊢
      rcases this with h | h
      · exact .inl h
      · refine .inr ?_
        rw [hprog _ (fun h0 => hp.apart.1 (h0.trans (List.dropLast_prefix _))) (by rw [h]; simp), h]
    have hlne : Path.resolve w.disk.cwd e ≠ [] := fun h => hp.apart.2 (by rw [h]; exact List.nil_prefix)
    simp only [Os.rename, bind_run, tick, Prog.get, hq _, hst, hcwd6, resolve_binary]
    rw [if_neg (by
      rintro (h | h | h | h | h)
      · exact hp.named h
      · exact hlne h
      · rw [hdir6] at h; cases h
      · rw [hold6] at h; cases h
      · exact h hp.device)]
    exact ⟨_, rfl⟩
  obtain ⟨w7, hren⟩ := hren
  rw [andThen_run, hren]
  simp only
  rw [emit_bind]
  obtain ⟨w8, g1, -⟩ := removeAll_goes hq { w7 with log := w7.log ++ [cb 7] }
  rw [g1]

/-! ### The check before -/

omit hq in
/-- Directories stay directories, files stay files, and at most at one place a new file appears. -/
def Kinds (cwd stamp : List Bytes) (w w' : World) : Prop :=
  w.disk.cwd = cwd → w'.disk.cwd = cwd ∧ ∀ l, (w.disk.at? l = some .dir → w'.disk.at? l = some .dir) ∧
    (∀ b x, w.disk.at? l = some (.file b x) → ∃ b' x', w'.disk.at? l = some (.file b' x')) ∧
    (l ≠ stamp → w.disk.at? l = none → ∀ b x, w'.disk.at? l ≠ some (.file b x))

omit hq in
theorem kinds_chain (cwd stamp : List Bytes) : Chain (Kinds cwd stamp) where
  refl w h := ⟨h, fun l => ⟨id, fun b x h => ⟨b, x, h⟩, fun _ h0 b x h1 => by rw [h0] at h1; cases h1⟩⟩
  trans a b c h1 h2 h := by
    obtain ⟨k1, k2⟩ := h1 h
    obtain ⟨k3, k4⟩ := h2 k1
    refine ⟨k3, fun l => ⟨fun h0 => (k4 l).1 ((k2 l).1 h0), fun u x h0 => ?_, fun hl h0 u x hx => ?_⟩⟩
    · obtain ⟨u', x', h5⟩ := (k2 l).2.1 u x h0
      exact (k4 l).2.1 u' x' h5
    · cases hb : b.disk.at? l with
      | none => exact (k4 l).2.2 hl hb u x hx
      | some n =>
        cases n with
        | dir => rw [(k4 l).1 hb] at hx; cases hx
        | file u' x' => exact (k2 l).2.2 hl h0 u' x' hb

omit hq in
theorem kinds_same {cwd stamp : List Bytes} {w w' : World} (h : w'.disk = w.disk) : Kinds cwd stamp w w' := by
  have := (kinds_chain cwd stamp).refl w
  unfold Kinds at this ⊢
  rw [h]
  exact this

omit hq in
theorem kinds_mkdirAll (cwd stamp : List Bytes) (p : Bytes) : Rel (Kinds cwd stamp) (Os.mkdirAll S p) := by
  intro w hw
  have hf := (foot_mkdirAll w.disk.cwd (fun _ => True) (fun _ => True) S p (fun _ _ _ => trivial)) w rfl
  obtain ⟨r, ds, g1, ls, k, g2, g3, -⟩ := Os.mkdirAll_run S p w
  rw [g1] at hf ⊢
  refine ⟨hf.1.trans hw, fun l => ?_⟩
  have hat : (Os.after w ds).disk.at? l = if l ∈ ls.take k then some .dir else w.disk.at? l := by
    show (w.disk.last ds).at? l = _
    rw [g2]
    exact Disk.puts_dirs_last _ _ _
  rw [hat]
  by_cases hm : l ∈ ls.take k
  · have := (g3 l (List.mem_of_mem_take hm)).2.1
    rw [if_pos hm, this]
    simp
  · rw [if_neg hm]
    exact ⟨id, fun b x h => ⟨b, x, h⟩, fun _ h b x h' => by rw [h] at h'; cases h'⟩

theorem kinds_createWrite (cwd stamp : List Bytes) (p data : Bytes) (hp : Path.resolve cwd p = stamp) :
    Rel (Kinds cwd stamp) (andThen (Os.create S p) fun f => Os.write S f data true) := by
  intro w hw
  have hf := foot_createWrite w.disk.cwd (fun _ => True) (fun _ => True) S p data true trivial w rfl
  refine ⟨hf.1.trans hw, fun l => ?_⟩
  cases hrun : andThen (Os.create S p) (fun f => Os.write S f data true) w with
  | mk o w' =>
  by_cases ho : o = .ret (.ok ())
  · subst ho
    obtain ⟨-, k1, x, k2, k3⟩ := createWrite_ok hrun
    rw [hw, hp] at k1 k2 k3
    by_cases hl : l = stamp
    · subst hl
      rw [k2]
      rcases k3 with ⟨k3, -⟩ | ⟨old, k3⟩ <;> rw [k3] <;> simp
    · rw [k1 l hl]
      exact ⟨id, fun b x h => ⟨b, x, h⟩, fun _ h b x h' => by rw [h] at h'; cases h'⟩
  · have hsame : w'.disk = w.disk := by
      rw [andThen_run] at hrun
      rcases Os.create_run S p w with ⟨h, -⟩ | ⟨x, h, -⟩
      · rw [h] at hrun
        rw [← (Prod.mk.inj hrun).2]
        rfl
      · rw [h] at hrun
        simp only at hrun
        rcases Os.write_run S (Path.resolve w.disk.cwd p, x) data true
          (Os.after w [w.disk.put (Path.resolve w.disk.cwd p) (.file [] x)]) with ⟨k, -, g⟩ | ⟨g, -⟩
        · have := (g (hq _)).1
          cases this
        · rw [g] at hrun
          exact absurd (Prod.mk.inj hrun).1.symm ho
    simp only [hsame]
    exact ⟨id, fun b x h => ⟨b, x, h⟩, fun _ h b x h' => by rw [h] at h'; cases h'⟩

theorem kinds_facadeCheck (X : Ext) (dir : Bytes) (cwd : List Bytes) :
    Rel (Kinds cwd (Path.resolve cwd (Path.join [dir, lastCheckFile]))) (facadeCheck S X dir true) := by
  have hch := kinds_chain cwd (Path.resolve cwd (Path.join [dir, lastCheckFile]))
  refine Rel.bind hch (rel_read hch) (fun c => ?_)
  refine rel_checkForUpdate S hch _ _ _ _ _ ?_ ?_ ?_
  · intro w
    rw [fetchInfo_run]
    exact kinds_same rfl
  · refine Rel.bind hch (fun w => kinds_same rfl) (fun _ => ?_)
    refine Rel.bind hch ?_ (fun _ => ?_)
    · refine Rel.bind hch (fun w => ?_) (fun a => ?_)
      · rw [Os.stat_run]; exact kinds_same rfl
      · cases a with
        | some _ => exact Rel.pure hch _
        | none => exact Rel.bind hch (kinds_mkdirAll _ _ _) (fun _ => Rel.pure hch _)
    · exact Rel.bind hch (kinds_createWrite hq _ _ _ _ rfl) (fun _ => Rel.pure hch _)
  · refine Rel.bind hch (fun w => ?_) (fun _ => ?_)
    · rw [Os.stat_run]; exact kinds_same rfl
    · refine Rel.bind hch (fun w => ?_) (fun _ => ?_)
      · rw [Os.readFile_run]; exact kinds_same rfl
      · exact Rel.bind hch (fun w => kinds_same rfl) (fun _ => Rel.pure hch _)

omit hq in
/-- The server publishes this newer release, whenever it is asked. -/
def Published (S : Sys) (i : UpdateInfo) : Prop :=
  ∃ body r, (∀ n, S.answer n githubReleases = .body body true) ∧ Publishes body r ∧ Complete r ∧ NewerTag r.tag ∧ Describes r i

omit hq in
theorem Published.answered {i : UpdateInfo} (h : Published S i) (n : Nat) :
    answered (S.answer n githubReleases) = .ret (.ok (some i)) ∧ i.newer = true := by
  obtain ⟨body, r, h1, h2, h3, h4, h5⟩ := h
  refine ⟨?_, h5.newer.2 h4⟩
  rw [h1]
  rcases releaseInfo_published body r h2 with ⟨j, g1, g2, -⟩ | ⟨-, g⟩
  · rw [Cli.describes_unique h5 g2]
    exact g1
  · exact absurd h3 g

omit hq in
theorem Published.only {i j : UpdateInfo} {w : World} (h : Published S i) (h' : OfferedAs S w j) : j = i := by
  have hs : Cli.Steady S := fun n m => by obtain ⟨body, r, h1, -⟩ := h; rw [h1, h1]
  exact (Cli.described_once hs h' (h.answered 0).1).symm

theorem update_goes {X : Ext} {t : Int} {cb : Nat → Ev} {i : UpdateInfo} {data e : Bytes} (hi : Published S i)
    (hr : Ready S X i data) (w : World) (hp : Replaceable S w.disk e) : (update S X t cb w).1 = .ret (.ok ()) := by
  unfold update
  rw [andThen_run, fetchInfo_run, (hi.answered w.tick).1]
  simp only [(hi.answered w.tick).2, if_true]
  exact install_goes hq hr _ hp

omit hq in
/-- The program of a release is what it is. -/
theorem genuine_only {X : Ext} {i : UpdateInfo} {data data' : Bytes} (hr : Ready S X i data) (hg : Genuine S X i data') : data' = data := by
  obtain ⟨a, before, en, after, ha, hu, hall, hreg, hcall, hdata, hlast⟩ := hr.archive
  obtain ⟨n, a', m, sums, before', en', after', g1, -, g3, g4, g5, -, g7, g8, -⟩ := hg
  rw [ha n] at g1
  cases g1
  rw [hu] at g3
  have hes := (Prod.mk.inj g3).1
  have key : ∀ {b : List TarEntry} {e : TarEntry} {c : List TarEntry}, e.reg = true → target e.name = binaryLoc →
      (∀ e' ∈ c, e'.reg = true → target e'.name ≠ binaryLoc) → (hits (b ++ e :: c) binaryLoc).getLast? = some e := by
    intro b e c k1 k2 k3
    unfold hits
    rw [List.filter_append, List.filter_cons_of_pos (by simp [k1, k2])]
    have h1 : List.filter (fun e => e.reg && decide (target e.name = binaryLoc)) c = [] := by
      rw [List.filter_eq_nil_iff]
      intro e' h1 h2
      simp only [Bool.and_eq_true, decide_eq_true_eq] at h2
      exact k3 e' h1 h2.1 h2.2
    rw [h1, List.getLast?_append]
    rfl
  have k1 := key (b := before) hreg (target_called (c := b!"1pass") (by unfold Path.Simple; decide +kernel) hcall) (c := after)
    (fun e' h1 h2 h3 => by
      obtain ⟨-, -, c, q2, q3⟩ := hall e' (by simp [h1]) h2
      exact hlast e' h1 h2 (called_target q2 q3 h3))
  have k2 := key (b := before') g4 g5 (c := after') g8
  rw [← hes, k1] at k2
  rw [← g7, ← hdata, Option.some.inj k2]

omit hq in
/-- C115, what is missing: from another file system than that of the program nothing can be installed, whatever is published.
The program stays as it is. -/
theorem C115_elsewhere (S : Sys) (X : Ext) (t : Int) (cb : Nat → Ev) (hcb : ∀ n d, cb n ≠ .disk d) (w : World)
    (h : ∀ e, S.exe = some e → S.device [b!"tmp", b!"1pass", b!"1pass"] ≠ S.device (Path.resolve w.disk.cwd e)) :
    (∀ a, (update S X t cb w).1 ≠ .ret (.ok a)) ∧
    ∀ l, Apart l → (∀ i, OfferedAs S w i → ¬ Brings S X i l) → (update S X t cb w).2.disk.at? l = w.disk.at? l := by
  obtain ⟨s1, s2, -⟩ := update_any S X t cb hcb w
  rw [s1, s2]
  rcases update_cases S X t .stage w with ⟨h1, h2, h3⟩ | ⟨i, hi, h1⟩
  · rw [h1]; exact ⟨h3, fun _ _ _ => rfl⟩
  · rw [h1]
    rcases install_trace S X t i _ with ⟨k, -, -, h4, h5⟩ | ⟨e', data, w1, w2, h0⟩
    · refine ⟨h5, fun l ha hb => (h4.1 rfl).2.1 l ?_⟩
      rintro (h | h | h)
      · exact ha.1 h
      · exact ha.2 h
      · exact hb i hi h
    · exact absurd h0.device (h e' h0.exe)

end Upd

namespace Cli
open Prog Fmt Spec Upd

/-- C115, what does hold. A newer release that is published in order can be installed: if nothing fails and the user agrees, the
command `update` says what it does, ends well, and the program is that of the release. Missing: a program on another file
system than `/tmp` (`C115_elsewhere`). -/
theorem C115_installs_partial (C : Ctx) (hq : C.sys.Quiet) (hdir : C.dir ≠ []) (w : World) (hc : WellTyped w.conf) (info : UpdateInfo)
    (hi : Published C.sys info) (data : Bytes) (hr : Ready C.sys C.ext info data) (e : Bytes) (hp : Replaceable C.sys w.disk e)
    (a rest : Bytes) (ht : Types w.stdin a rest) (hy : Yes C.env.text a) :
    ∃ w', command C .update w = (.ret (), w') ∧ w'.disk.at? (Path.resolve w.disk.cwd e) = some (.file data false) ∧
      (∀ l, cacheLoc <+: l → w'.disk.at? l = none) ∧
      texts w'.log = texts w.log ++ offerTexts info ++
        [b!"Updating 1pass application from version 1.3.1 to " ++ info.version ++ b!"...\n"] ++ progress ++
        [b!"1pass application updated to version " ++ info.version ++ b!"\n"] := by
  obtain ⟨c, hconf⟩ := config_ret hc
  have hcheck : facadeCheck C.sys C.ext C.dir true (checking w) = (.ret (.ok info),
      (checkTimestamp C.sys C.dir { (checking w) with tick := w.tick + 1, log := (checking w).log ++ [.request githubReleases c.timeout] }).2) := by
    unfold facadeCheck
    rw [bind_run, read_run, show (checking w).conf = w.conf from rfl, hconf]
    simp only
    rw [check_asks C.sys C.ext c.period c.timeout true C.dir (checking w) (checking w) (by simp) (fun _ => rfl),
      (hi.answered _).1]
    simp only [(hi.answered 0).2, if_true]
    rfl
  have hk := kinds_facadeCheck hq C.ext C.dir w.disk.cwd (checking w) rfl
  have hcalm := calm_facadeCheck C (checking w)
  rw [hcheck] at hk hcalm
  generalize (checkTimestamp C.sys C.dir { (checking w) with tick := w.tick + 1, log := (checking w).log ++ [.request githubReleases c.timeout] }).2 = w1 at hcheck hk hcalm
  have hp1 : Replaceable C.sys w1.disk e := by
    have hres : Path.resolve w1.disk.cwd e = Path.resolve w.disk.cwd e := by rw [hk.1]
    refine ⟨hp.exe, hp.named, ?_, ?_, ?_, ?_, fun b x h => ?_⟩
    · rw [hres]
      obtain ⟨b, x, h⟩ := hp.file
      exact (hk.2 _).2.1 b x h
    · rw [hres]
      have := hp.dir
      unfold Disk.isDir at this ⊢
      rw [Bool.or_eq_true, beq_iff_eq, beq_iff_eq] at this ⊢
      exact this.imp id (fun h => (hk.2 _).1 h)
    · rw [hres]; exact hp.apart
    · rw [hres]; exact hp.device
    · have hne : [b!"tmp"] ≠ Path.resolve w.disk.cwd (Path.join [C.dir, lastCheckFile]) := by
        rw [Path.resolve_join _ hdir (by simp) (by intro c hc; rw [List.mem_singleton] at hc; subst hc; decide)]
        intro h0
        have := congrArg List.getLast? h0
        rw [List.getLast?_append, show [lastCheckFile].getLast? = some lastCheckFile from rfl, Option.some_or] at this
        exact absurd this (by decide +kernel)
      cases h0 : w.disk.at? [b!"tmp"] with
      | none => exact (hk.2 _).2.2 hne h0 b x h
      | some n =>
        cases n with
        | dir => rw [(hk.2 _).1 h0] at h; cases h
        | file b' x' => exact hp.tmp b' x' h0
  obtain ⟨k, hk7, last, t1, t2, -⟩ := C95_agreed C w w1 info a rest ht hy hcheck
  generalize hv : ({ w1 with stdin := rest, log := w1.log ++ offer info ++
      [.out (b!"Updating 1pass application from version 1.3.1 to " ++ info.version ++ b!"...\n")] } : World) = v
  have hvd : v.disk = w1.disk := by rw [← hv]
  have hvc : Conf.getConfig v.conf = .ret c := by rw [← hv]; show Conf.getConfig w1.conf = _; rw [hcalm.1]; exact hconf
  have hcmd : command C .update w = installing C info v := by
    show update C w = _
    rw [update_run, hcheck]
    simp only
    rw [answer_yes C info w1 a rest (by rw [hcalm.2.1]; exact ht) hy, hv]
  have hupd := update_goes hq (X := C.ext) (t := c.timeout) (cb := fun n => .out (stageText n ++ [10])) hi hr v (by rw [hvd]; exact hp1)
  have hbrings : ∀ j, OfferedAs C.sys v j → ¬ Brings C.sys C.ext j (Path.resolve v.disk.cwd e) ∧ ¬ Brings C.sys C.ext j checksumLoc := by
    intro j hj
    rw [hi.only hj]
    obtain ⟨ar, before, en, after, ha, hu, hall, -⟩ := hr.archive
    have : ∀ n a e', C.sys.answer n info.archiveUrl = .body a true → e' ∈ (C.ext.untar a).1 → e' ∈ before ++ en :: after := by
      intro n a' e' h1 h2
      rw [ha n] at h1
      cases h1
      rw [hu] at h2
      exact h2
    constructor
    · rintro ⟨n, a', e', h1, h2, h3, h4⟩
      obtain ⟨-, -, c, q2, q3⟩ := hall e' (this n a' e' h1 h2) h3
      refine hp1.apart.1 ?_
      rw [← hvd, ← h4, target_called q2 q3]
      exact List.prefix_append _ _
    · rintro ⟨n, a', e', h1, h2, h3, h4⟩
      obtain ⟨-, q1, c, q2, q3⟩ := hall e' (this n a' e' h1 h2) h3
      exact q1 (called_target q2 q3 h4)
  obtain ⟨-, hgen⟩ := C48_verified_partial C.sys C.ext c.timeout (fun n => .out (stageText n ++ [10])) (by simp) v e hp.exe
    (by rw [hvd]; exact hp1.apart) hbrings
  obtain ⟨j, data', g1, g2, g3⟩ := hgen hupd
  have hclean := C51_leaves_nothing C.sys C.ext c.timeout (fun n => .out (stageText n ++ [10])) (by simp) v hupd
  have hfu := facadeUpdate_run C.sys C.ext (fun n => .out (stageText n ++ [10])) v c hvc
  cases hrun : Upd.update C.sys C.ext c.timeout (fun n => .out (stageText n ++ [10])) v with
  | mk o w2 =>
  rw [hrun] at hupd g3 hclean
  simp only at hupd
  subst hupd
  have hfin : command C .update w = (.ret (), { w2 with log := w2.log ++ [.out (b!"1pass application updated to version " ++ info.version ++ [10])] }) := by
    rw [hcmd]
    unfold installing
    rw [bind_run, hfu, hrun]
    rfl
  refine ⟨_, hfin, ?_, hclean, ?_⟩
  · rw [hi.only g1] at g2
    rw [genuine_only hr g2] at g3
    rw [show Path.resolve w.disk.cwd e = Path.resolve v.disk.cwd e by rw [hvd, hk.1]]
    exact g3
  · obtain ⟨rfl, rfl⟩ := t2 (by rw [hfin])
    rw [hfin] at t1
    exact t1

/-! ### Examples and refutation -/

theorem steady_published : Published steady.sys sampleInfo := by
  refine ⟨sampleBody, ?_⟩
  obtain ⟨r, h1, h2, h3⟩ := releaseInfo_sound sample_info
  exact ⟨r, fun n => by simp only [steady, if_true], h1, h3, h2.newer.1 rfl, h2⟩

theorem steady_ready : Ready steady.sys steady.ext sampleInfo b!"new" where
  archive := by
    refine ⟨b!"new", [], ⟨b!"1pass", true, b!"new", true⟩, [], fun n => rfl, rfl, ?_, rfl, .inl rfl, rfl, by simp⟩
    intro e he _
    simp only [List.nil_append, List.mem_singleton] at he
    subst he
    refine ⟨rfl, ?_, b!"1pass", by unfold Path.Simple; decide +kernel, .inl rfl⟩
    unfold Called
    decide +kernel
  sums := ⟨sampleSum, fun n => rfl, (fields_iff _ _).1 (by decide +kernel)⟩

theorem updater_replaceable : Replaceable steady.sys (updater b!"y\n").disk b!"/usr/bin/1pass" where
  exe := rfl
  named := by simp
  file := ⟨b!"old", true, by decide +kernel⟩
  dir := by decide +kernel
  apart := by constructor <;> decide +kernel
  device := rfl
  tmp b x h := by
    have : (updater b!"y\n").disk.at? [b!"tmp"] = some .dir := by decide +kernel
    rw [this] at h
    cases h

theorem updater_yes : Types (updater b!"y\n").stdin b!"y" [] ∧ Yes steady.env.text b!"y" :=
  ⟨⟨[], [], [121], by simp, by simp, by decide, rfl, .inl rfl⟩, by decide +kernel⟩

/-- C115: the sample release is installed. -/
example : ∃ w', command steady .update (updater b!"y\n") = (.ret (), w') ∧
    w'.disk.at? [b!"usr", b!"bin", b!"1pass"] = some (.file b!"new" false) := by
  obtain ⟨w', h1, h2, -⟩ := C115_installs_partial steady (fun _ => rfl) (by decide) (updater b!"y\n")
    (by unfold WellTyped; refine ⟨.inr ⟨_, rfl⟩, .inr ⟨_, rfl⟩, .inr ⟨_, rfl⟩⟩) sampleInfo steady_published b!"new" steady_ready b!"/usr/bin/1pass"
    updater_replaceable b!"y" [] updater_yes.1 updater_yes.2
  exact ⟨w', h1, h2⟩

/-- The same, with `/tmp` on a file system of its own. -/
def afar : Ctx := { steady with sys := { steady.sys with device := fun l => if l.head? = some b!"tmp" then 1 else 0 } }

def afarRun := command afar .update (updater b!"y\n")

/-- C115 is refuted: the release is published in order, nothing fails, the user agrees, the program is at its place; but `/tmp`
is on another file system, and the program is not replaced. -/
theorem C115_refuted : ∃ (C : Ctx) (w : World) (info : UpdateInfo) (data e a rest : Bytes), C.sys.Quiet ∧ WellTyped w.conf ∧
    Published C.sys info ∧ Ready C.sys C.ext info data ∧ Replaceable { C.sys with device := fun _ => 0 } w.disk e ∧
    Types w.stdin a rest ∧ Yes C.env.text a ∧ (command C .update w).1 = .fatal ∧
    (command C .update w).2.disk.at? (Path.resolve w.disk.cwd e) = w.disk.at? (Path.resolve w.disk.cwd e) :=
  ⟨afar, updater b!"y\n", sampleInfo, b!"new", b!"/usr/bin/1pass", b!"y", [], fun _ => rfl,
    by unfold WellTyped; refine ⟨.inr ⟨_, rfl⟩, .inr ⟨_, rfl⟩, .inr ⟨_, rfl⟩⟩,
    steady_published, ⟨steady_ready.archive, steady_ready.sums⟩,
    ⟨rfl, by simp, updater_replaceable.file, updater_replaceable.dir, updater_replaceable.apart, rfl, updater_replaceable.tmp⟩,
    updater_yes.1, updater_yes.2, by decide +kernel, by decide +kernel⟩

end Cli
end OnePass
