/-
Lemmas about the configuration repository.
-/
import Verif.Model.WorldFacts
import Verif.Model.Config
import Verif.Go.PathFacts

set_option linter.unusedSimpArgs false

namespace OnePass

/-- No system call fails. -/
def Sys.Quiet (S : Sys) : Prop := ∀ n, S.fault n = none

namespace YMap

theorem get_append_of_not_mem (m r : YMap) (k : Bytes) (h : ∀ e ∈ r, e.1 ≠ k) : get (m ++ r) k = get m k := by
  have h0 : ∀ l : YMap, (∀ e ∈ l, e.1 ≠ k) → get l k = .null := by
    intro l
    induction l with
    | nil => intro _; rfl
    | cons e l ih =>
      intro hl
      have h1 : l.any (fun e => e.1 == k) = false := by
        rw [List.any_eq_false]
        intro x hx
        simpa using hl x (by simp [hx])
      rw [get, h1]
      simp only [Bool.false_eq_true, if_false]
      rw [if_neg (hl e (by simp)), ih (fun x hx => hl x (by simp [hx]))]
  induction m with
  | nil => exact h0 r h
  | cons e m ih =>
    have h1 : r.any (fun e => e.1 == k) = false := by
      rw [List.any_eq_false]
      intro x hx
      simpa using h x hx
    rw [List.cons_append, get, get]
    simp only [List.any_append, h1, Bool.or_false, ih]

theorem get_set (m : YMap) (k k' : Bytes) (v : YVal) : get (m.set k v) k' = if k = k' then v else get m k' := by
  unfold set
  by_cases h : k = k'
  · subst h
    simp only [if_true]
    induction m with
    | nil => simp [get]
    | cons e m ih =>
      rw [List.cons_append, get]
      simp [ih]
  · rw [if_neg h, get_append_of_not_mem]
    simpa using h

end YMap

namespace Conf
open Prog

/-- What `loadConfigFile` finds on a disk when nothing fails: `none` – the program is terminated. -/
def loaded (X : Ext) (d : Disk) (dir : Bytes) : Option (Option YMap) :=
  match d.stat (path dir) with
  | none => some (some [])
  | some .dir => none
  | some (.file b _) => X.yamlDecode b

theorem load_run {S : Sys} {X : Ext} (hq : S.Quiet) (dir : Bytes) (w : World) :
    ∃ k, load S X dir w = ((match loaded X w.disk dir with | some m => .ret m | none => .fatal),
      { w with tick := w.tick + k }) := by
  unfold load loaded
  rw [bind_run, Os.stat_run, hq]
  simp only [if_true]
  cases hs : w.disk.stat (path dir) with
  | none => exact ⟨1, rfl⟩
  | some nd =>
    simp only
    rw [bind_run, Os.readFile_run, hq]
    cases nd with
    | dir =>
      have hr : w.disk.readFile (path dir) = none := by unfold Disk.readFile; rw [hs]
      simp only [hr, if_true, exit, lift]; exact ⟨2, rfl⟩
    | file b x =>
      have hr : w.disk.readFile (path dir) = some b := by unfold Disk.readFile; rw [hs]
      simp only [hr, if_true]
      cases hd : X.yamlDecode b with
      | none => exact ⟨2, rfl⟩
      | some m => exact ⟨2, rfl⟩

theorem resolve_path (cwd : List Bytes) {dir : Bytes} (h : dir ≠ []) :
    Path.resolve cwd (path dir) = Path.resolve cwd dir ++ [configFile] :=
  Path.resolve_join cwd h (by simp) (by intro c hc; rw [List.mem_singleton] at hc; subst hc; decide)

theorem path_ne (dir : Bytes) : path dir ≠ [] := by
  unfold path Path.join
  have : (List.dropWhile List.isEmpty [dir, configFile]).isEmpty = false := by
    cases dir <;> simp [List.dropWhile, configFile]
  simp only [this, Bool.false_eq_true, if_false]
  unfold Path.clean
  split
  · simp
  · split
    · simp
    · rename_i h1 h2
      intro h0
      have hm := Path.comps_mem (Path.joinSlash (List.dropWhile List.isEmpty [dir, configFile]))
      cases hc : Path.comps (Path.joinSlash (List.dropWhile List.isEmpty [dir, configFile])) with
      | nil => exact h2 hc
      | cons a r =>
        rw [hc] at h0 hm
        have := (hm a (by simp)).1
        cases r with
        | nil => exact this h0
        | cons b r => simp [Path.joinSlash] at h0

/-- Writing a file: nothing, or the file, first empty, then with ever more of the new contents. -/
theorem _root_.OnePass.Os.writeFile_run (S : Sys) (p data : Bytes) (w : World) :
    ∃ r ds k, Os.writeFile S p data w =
        (.ret r, { w with tick := w.tick + k, disk := w.disk.last ds, log := w.log ++ ds.map Ev.disk }) ∧
      (∀ d ∈ ds, d.cwd = w.disk.cwd ∧ (∀ l, l ≠ Path.resolve w.disk.cwd p → d.at? l = w.disk.at? l) ∧
        ∃ b x, b <+: data ∧ d.at? (Path.resolve w.disk.cwd p) = some (.file b x) ∧
          (w.disk.at? (Path.resolve w.disk.cwd p) = none → x = false)) ∧
      (r = .ok () → p ≠ [] ∧ ∃ x, (w.disk.last ds).at? (Path.resolve w.disk.cwd p) = some (.file data x)) ∧
      (∀ d', ds.head? = some d' → ∃ x, d'.at? (Path.resolve w.disk.cwd p) = some (.file [] x)) ∧
      (S.Quiet → p ≠ [] → Path.resolve w.disk.cwd p ≠ [] → w.disk.isDir (Path.resolve w.disk.cwd p).dropLast = true →
        w.disk.at? (Path.resolve w.disk.cwd p) ≠ some .dir → r = .ok ()) ∧
      (r = .ok () → ds ≠ []) ∧ (S.Quiet → ds ≠ [] → r = .ok ()) := by
  unfold Os.writeFile
  rw [andThen_run]
  rcases Os.create_run S p w with ⟨h, hwhy⟩ | ⟨x, h, hx, hf, hp, hdir⟩
  · rw [h]
    refine ⟨.error ioErr, [], 1, ?_, by simp, by simp, by simp, ?_, by simp, by simp⟩
    · simp [Os.after]
    · intro hq h1 h2 h3 h4
      rcases hwhy with h5 | h5 | h5 | h5 | h5
      · exact absurd (hq _) h5
      · exact absurd h5 h1
      · exact absurd h5 h2
      · rw [h3] at h5; cases h5
      · exact absurd h5 h4
  · rw [h]
    simp only
    generalize hd1 : w.disk.put (Path.resolve w.disk.cwd p) (.file [] x) = d1
    have hat : d1.at? (Path.resolve w.disk.cwd p) = some (.file [] x) := by rw [← hd1, Disk.at?_put]; simp
    have hkeep : ∀ l, l ≠ Path.resolve w.disk.cwd p → d1.at? l = w.disk.at? l := by
      intro l hl; rw [← hd1, Disk.at?_put, if_neg (Ne.symm hl)]
    have hcwd : d1.cwd = w.disk.cwd := by rw [← hd1]; rfl
    have haf : (Os.after w [d1]).disk = d1 := rfl
    have hw1 : ∀ k, ∀ d ∈ d1 :: Os.writeStates d1 (Path.resolve w.disk.cwd p, x) data k,
        d.cwd = w.disk.cwd ∧ (∀ l, l ≠ Path.resolve w.disk.cwd p → d.at? l = w.disk.at? l) ∧
        ∃ b x, b <+: data ∧ d.at? (Path.resolve w.disk.cwd p) = some (.file b x) ∧
          (w.disk.at? (Path.resolve w.disk.cwd p) = none → x = false) := by
      have hx' : w.disk.at? (Path.resolve w.disk.cwd p) = none → x = false := by
        rcases hx with ⟨_, hx⟩ | ⟨old, hx⟩
        · exact fun _ => hx
        · intro h0; rw [h0] at hx; cases hx
      intro k d hd
      rcases List.mem_cons.1 hd with rfl | hd
      · exact ⟨hcwd, hkeep, [], x, List.nil_prefix, hat, hx'⟩
      · obtain ⟨b, hb1, hb2⟩ := Os.writeStates_file d1 _ data k d hd
        have hc := fun l hl => Os.writeStates_keep d1 (Path.resolve w.disk.cwd p, x) data k l hl d hd
        refine ⟨?_, fun l hl => (hc l hl).1.trans (hkeep l hl), b, x, hb1, hb2, hx'⟩
        have := (hc (Path.resolve w.disk.cwd p ++ [[]]) (by simp)).2
        rw [this, hcwd]
    rcases Os.write_run S (Path.resolve w.disk.cwd p, x) data true (Os.after w [d1]) with ⟨k, hk, hk2⟩ | ⟨hk, -, -⟩
    · rw [hk, haf]
      refine ⟨.error ioErr, d1 :: Os.writeStates d1 (Path.resolve w.disk.cwd p, x) data k, 2, ?_, hw1 k, by simp, ?_, ?_, by simp, ?_⟩
      · simp only [Os.after, Disk.last_cons, List.map_cons, List.append_assoc, Nat.add_assoc]
        simp
      · intro d' hd; simp at hd; subst hd; exact ⟨x, hat⟩
      · intro hq; have := hk2 (hq _); simp at this
      · intro hq; have := hk2 (hq _); simp at this
    · rw [hk, haf]
      refine ⟨.ok (), d1 :: Os.writeStates d1 (Path.resolve w.disk.cwd p, x) data data.length, 2, ?_, hw1 _, ?_, ?_, by simp, by simp, fun _ _ => rfl⟩
      · simp only [Os.after, Disk.last_cons, List.map_cons, List.append_assoc, Nat.add_assoc]
        simp
      · intro _
        refine ⟨hp, x, ?_⟩
        rw [Disk.last_cons, Os.writeStates_last _ _ _ hat]
        simp
      · intro d' hd; simp at hd; subst hd; exact ⟨x, hat⟩

/-- Making sure that the directory is there: only directories appear, at or above its place. -/
theorem _root_.OnePass.Os.ensureDir_run (S : Sys) (dir : Bytes) (w : World) :
    ∃ ds k, Os.ensureDir S dir w =
        (.ret (), { w with tick := w.tick + k, disk := w.disk.last ds, log := w.log ++ ds.map Ev.disk }) ∧
      (∀ d ∈ ds, d.cwd = w.disk.cwd ∧ (∀ l, ¬ l <+: Path.resolve w.disk.cwd dir → d.at? l = w.disk.at? l) ∧
        ∀ l, w.disk.at? l ≠ none → d.at? l = w.disk.at? l) ∧
      (S.Quiet → (∀ l, l <+: Path.resolve w.disk.cwd dir → l ≠ [] → w.disk.at? l = none ∨ w.disk.at? l = some .dir) →
        Path.resolve w.disk.cwd dir ≠ [] → (w.disk.last ds).at? (Path.resolve w.disk.cwd dir) = some .dir) := by
  unfold Os.ensureDir
  rw [bind_run, Os.stat_run]
  simp only
  cases hs : (if S.fault w.tick = none then w.disk.stat dir else none) with
  | some nd =>
    refine ⟨[], 1, by simp [Prog.pure], by simp, ?_⟩
    intro hq hpre hne
    rw [if_pos (hq _)] at hs
    unfold Disk.stat at hs
    split at hs
    · cases hs
    · have := hpre _ (List.prefix_refl _) hne
      rw [hs] at this
      simpa [hs] using this
  | none =>
    simp only
    rw [bind_run]
    obtain ⟨r, ds, h1, ls, k, h2, h3, h4⟩ := Os.mkdirAll_run S dir { w with tick := w.tick + 1 }
    rw [h1]
    have key : ∀ d ∈ ds, d.cwd = w.disk.cwd ∧ (∀ l, l ∉ ls → d.at? l = w.disk.at? l) := by
      intro d hd
      rw [h2] at hd
      have hk : ∀ l, l ∉ ls → d.at? l = w.disk.at? l ∧ d.cwd = w.disk.cwd := by
        intro l hl
        refine Disk.puts_keep ?_ d hd
        intro e he
        obtain ⟨l', hl', rfl⟩ := List.mem_map.1 he
        intro h0
        exact hl (h0 ▸ List.mem_of_mem_take hl')
      refine ⟨?_, fun l hl => (hk l hl).1⟩
      have : ([] : List Bytes) ∉ ls := fun h0 => (h3 _ h0).2.2 rfl
      exact (hk _ this).2
    refine ⟨ds, 2, by simp [Prog.pure, Os.after, Nat.add_assoc], ?_, ?_⟩
    · intro d hd
      obtain ⟨h5, h6⟩ := key d hd
      refine ⟨h5, fun l hl => h6 l (fun h0 => hl (h3 l h0).1), fun l hl => h6 l (fun h0 => hl (h3 l h0).2.1)⟩
    · intro hq hpre hne
      have hr : r = .ok () := by
        unfold Os.mkdirAll at h1
        simp only [bind_run, Prog.tick, Prog.get] at h1
        have hm : w.disk.missing (Path.resolve w.disk.cwd dir) ≠ none := by
          intro hmiss
          unfold Disk.missing at hmiss
          dsimp only at hmiss
          split at hmiss
          · rename_i hany
            rw [List.any_eq_true] at hany
            obtain ⟨l, hl, hl2⟩ := hany
            simp only [List.mem_filter, List.mem_inits, decide_eq_true_eq] at hl
            rcases hpre l hl.1 hl.2 with h0 | h0 <;> simp [h0] at hl2
          · cases hmiss
        cases hm2 : w.disk.missing (Path.resolve w.disk.cwd dir) with
        | none => exact absurd hm2 hm
        | some ls' =>
          rw [hm2] at h1
          simp only [hq _, bind_run, Prog.through, Prog.pure] at h1
          simpa using (congrArg Prod.fst h1).symm
      obtain ⟨h5, h6⟩ := h4 hr
      have h7 : (w.disk.last ds).at? (Path.resolve w.disk.cwd dir) =
          if Path.resolve w.disk.cwd dir ∈ ls then some .dir else w.disk.at? (Path.resolve w.disk.cwd dir) := by
        rw [h2, h5, List.take_length]
        exact Disk.puts_dirs_last w.disk ls _
      rw [h7]
      rcases h6 _ (List.prefix_refl _) hne with h8 | h8
      · split
        · rfl
        · exact h8
      · rw [if_pos h8]

/-- Loading changes nothing, and does not panic, whatever fails. -/
theorem load_any (S : Sys) (X : Ext) (dir : Bytes) (w : World) :
    ∃ o k, load S X dir w = (o, { w with tick := w.tick + k }) ∧ o ≠ .panic := by
  unfold load
  rw [bind_run, Os.stat_run]
  simp only
  cases (if S.fault w.tick = none then w.disk.stat (path dir) else none) with
  | none => exact ⟨_, 1, rfl, by simp⟩
  | some nd =>
    simp only
    rw [bind_run, Os.readFile_run]
    simp only
    generalize (if S.fault (w.tick + 1) = none then _ else _ : Except Err Bytes) = r
    cases r with
    | error _ => exact ⟨.fatal, 2, rfl, by simp⟩
    | ok b =>
      simp only
      cases X.yamlDecode b with
      | none => exact ⟨.fatal, 2, rfl, by simp⟩
      | some m => exact ⟨_, 2, rfl, by simp⟩

/-- The states a save goes through: `ds₁` – directories appear; `ds₂` – the file is there, empty, then with
ever more of the new contents. -/
structure SaveStates (dir : Bytes) (new : Bytes) (d : Disk) (ds₁ ds₂ : List Disk) : Prop where
  early : ∀ d' ∈ ds₁, d'.cwd = d.cwd ∧ (∀ l, ¬ l <+: Path.resolve d.cwd dir → d'.at? l = d.at? l) ∧
    (∀ l, d.at? l ≠ none → d'.at? l = d.at? l)
  late : ∀ d' ∈ ds₂, d'.cwd = d.cwd ∧
    (∀ l, l ≠ Path.resolve d.cwd (path dir) → ¬ l <+: Path.resolve d.cwd dir → d'.at? l = d.at? l) ∧
    (∀ l, l ≠ Path.resolve d.cwd (path dir) → d.at? l ≠ none → d'.at? l = d.at? l) ∧
    ∃ b x, b <+: new ∧ d'.at? (Path.resolve d.cwd (path dir)) = some (.file b x)
  first : ∀ d', ds₂.head? = some d' → ∃ x, d'.at? (Path.resolve d.cwd (path dir)) = some (.file [] x)

/-- The run of a save. -/
theorem save_run (S : Sys) (X : Ext) {dir : Bytes} (hdir : dir ≠ []) (c : Config) (w : World) (m : YMap)
    (hm : w.conf = some m) :
    ∃ o ds₁ ds₂ k conf', save S X dir c w =
        (o, { w with tick := w.tick + k, disk := w.disk.last (ds₁ ++ ds₂), conf := conf',
                     log := w.log ++ (ds₁ ++ ds₂).map Ev.disk }) ∧
      SaveStates dir (X.yamlEncode (updated m c)) w.disk ds₁ ds₂ ∧
      (o = .ret () → ds₂ ≠ [] ∧ ∃ x, (w.disk.last (ds₁ ++ ds₂)).at? (Path.resolve w.disk.cwd (path dir)) =
        some (.file (X.yamlEncode (updated m c)) x)) ∧
      (S.Quiet → o = .ret () → X.yamlDecode (X.yamlEncode (updated m c)) = some conf') ∧
      (S.Quiet → (∀ l, l <+: Path.resolve w.disk.cwd dir → l ≠ [] → w.disk.at? l = none ∨ w.disk.at? l = some .dir) →
        w.disk.at? (Path.resolve w.disk.cwd (path dir)) ≠ some .dir → o = .ret ()) ∧
      o ≠ .panic ∧ (S.Quiet → ds₂ ≠ [] → o = .ret ()) := by
  have hres := resolve_path w.disk.cwd hdir
  unfold save
  simp only [bind_run, Prog.get, hm, setConf]
  obtain ⟨ds₁, k₁, h1, h2, h3⟩ := Os.ensureDir_run S dir { w with conf := some (updated m c) }
  rw [h1]
  simp only
  obtain ⟨r, ds₂, k₂, h4, h5, h6, h7, h8, h9, h10⟩ := Os.writeFile_run S (path dir) (X.yamlEncode (updated m c))
    { w with conf := some (updated m c), tick := w.tick + k₁, disk := w.disk.last ds₁,
             log := w.log ++ ds₁.map Ev.disk }
  rw [h4]
  have hcwd1 : (w.disk.last ds₁).cwd = w.disk.cwd := by
    rcases Disk.last_mem w.disk ds₁ with h0 | h0
    · rw [h0]
    · exact (h2 _ h0).1
  have hlast : w.disk.last (ds₁ ++ ds₂) = (w.disk.last ds₁).last ds₂ := by
    unfold Disk.last
    cases ds₂ with
    | nil => simp
    | cons a r => simp [List.getLast?_append]
  simp only [hcwd1] at h5 h6 h7 h8
  have hnp : ¬ Path.resolve w.disk.cwd (path dir) <+: Path.resolve w.disk.cwd dir := by
    rw [hres]
    intro h0
    have := h0.length_le
    rw [List.length_append, List.length_singleton] at this
    omega
  have hst : SaveStates dir (X.yamlEncode (updated m c)) w.disk ds₁ ds₂ := by
    refine ⟨h2, fun d' hd => ?_, h7⟩
    obtain ⟨a1, a2, b, x, a3, a4, _⟩ := h5 d' hd
    refine ⟨a1, fun l hl hl2 => ?_, fun l hl hl2 => ?_, b, x, a3, a4⟩
    · rw [a2 l hl]
      rcases Disk.last_mem w.disk ds₁ with h0 | h0
      · rw [h0]
      · exact (h2 _ h0).2.1 l hl2
    · rw [a2 l hl]
      rcases Disk.last_mem w.disk ds₁ with h0 | h0
      · rw [h0]
      · exact (h2 _ h0).2.2 l hl2
  have hlive : S.Quiet → (∀ l, l <+: Path.resolve w.disk.cwd dir → l ≠ [] → w.disk.at? l = none ∨ w.disk.at? l = some .dir) →
        w.disk.at? (Path.resolve w.disk.cwd (path dir)) ≠ some .dir → r = .ok () := by
    intro hq hpre hnd
    have hsame : (w.disk.last ds₁).at? (Path.resolve w.disk.cwd (path dir)) =
        w.disk.at? (Path.resolve w.disk.cwd (path dir)) := by
      rcases Disk.last_mem w.disk ds₁ with h0 | h0
      · rw [h0]
      · exact (h2 _ h0).2.1 _ hnp
    refine h8 hq (path_ne dir) (by rw [hres]; simp) ?_ (by rw [hsame]; exact hnd)
    rw [hres, List.dropLast_concat]
    unfold Disk.isDir
    by_cases hne : Path.resolve w.disk.cwd dir = []
    · simp [hne]
    · have := h3 hq hpre hne
      simp [this]
  cases r with
  | error e =>
    refine ⟨.fatal, ds₁, ds₂, k₁ + k₂, some (updated m c), ?_, hst, by simp, by simp, ?_, by simp, ?_⟩
    · simp [exit, lift, hlast, Nat.add_assoc]
    · intro hq hpre hnd; have := hlive hq hpre hnd; simp at this
    · intro hq hne; have := h10 hq hne; simp at this
  | ok _ =>
    obtain ⟨-, x, hx⟩ := h6 rfl
    simp only [bind_run]
    generalize hw2 : ({ w with conf := some (updated m c), tick := w.tick + k₁ + k₂, disk := (w.disk.last ds₁).last ds₂,
                               log := w.log ++ ds₁.map Ev.disk ++ ds₂.map Ev.disk } : World) = w2
    have hload := load_any S X dir w2
    have hstat : w2.disk.stat (path dir) = some (.file (X.yamlEncode (updated m c)) x) := by
      unfold Disk.stat
      rw [if_neg (path_ne dir), ← hw2]
      simp only
      have hc2 : ((w.disk.last ds₁).last ds₂).cwd = w.disk.cwd := by
        rcases Disk.last_mem (w.disk.last ds₁) ds₂ with h0 | h0
        · rw [h0, hcwd1]
        · exact (h5 _ h0).1
      rw [hc2]; exact hx
    obtain ⟨o, k₃, hl1, hl2⟩ := hload
    cases o with
    | panic => exact absurd rfl hl2
    | fatal =>
      rw [hl1]
      have hno : S.Quiet → False := by
        intro hq
        obtain ⟨k', hk'⟩ := load_run (X := X) hq dir w2
        rw [hl1] at hk'
        have := congrArg Prod.fst hk'
        simp only [loaded, hstat] at this
        obtain ⟨m', hm', -⟩ := X.yaml_law (updated m c)
        rw [hm'] at this
        cases this
      refine ⟨.fatal, ds₁, ds₂, k₁ + k₂ + k₃, some (updated m c), ?_, hst, by simp, by simp,
        fun hq _ _ => (hno hq).elim, by simp, fun hq _ => (hno hq).elim⟩
      simp [← hw2, hlast, Nat.add_assoc]
    | ret mm =>
      rw [hl1]
      refine ⟨.ret (), ds₁, ds₂, k₁ + k₂ + k₃, mm, ?_, hst, ?_, ?_, fun _ _ _ => rfl, by simp, fun _ _ => rfl⟩
      · simp [← hw2, hlast, Nat.add_assoc, setConf]
      · intro _
        exact ⟨h9 rfl, x, by rw [hlast]; exact hx⟩
      · intro hq _
        obtain ⟨k', hk'⟩ := load_run (X := X) hq dir w2
        rw [hl1] at hk'
        have := congrArg Prod.fst hk'
        simp only [loaded, hstat] at this
        obtain ⟨m', hm', -⟩ := X.yaml_law (updated m c)
        rw [hm'] at this ⊢
        simpa using this.symm

end Conf
end OnePass
