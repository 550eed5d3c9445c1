/-
Somebody else writes to the cache during an update, C117.
-/
import Verif.Props.Install

namespace OnePass
namespace Upd
open Prog Spec

/-- Somebody else changes the disk. -/
def meddle (g : Disk → Disk) : Prog Unit := fun w => (.ret (), { w with disk := g w.disk })

/-- updateservice.go:51-117 `Update`, with somebody else running between the check of the checksum and the replacement
of the program. -/
def raced (S : Sys) (X : Ext) (timeout : Int) (cb : Nat → Ev) (g : Disk → Disk) : Prog (Except Err Unit) :=
  andThen (fetchInfo S timeout) fun info =>
    match info with
    | none => Prog.pure (.error .noUpdate)
    | some i => if i.newer then installWith S X timeout cb i (do meddle g; replacing S cb) else Prog.pure (.error .noUpdate)

/-- If nobody does anything, it is the update. -/
theorem raced_id (S : Sys) (X : Ext) (t : Int) (cb : Nat → Ev) : raced S X t cb id = update S X t cb := rfl

theorem andThen_pure {α : Type} (m : Prog (Except Err α)) (w : World) : andThen m (fun a => Prog.pure (.ok a)) w = m w := by
  rw [andThen_run]
  rcases h : m w with ⟨o, w'⟩
  cases o with
  | ret r => cases r <;> rfl
  | panic => rfl
  | fatal => rfl

theorem andThen_assoc {α β γ : Type} (m : Prog (Except Err α)) (f : α → Prog (Except Err β)) (k : β → Prog (Except Err γ)) :
    andThen (andThen m f) k = andThen m (fun a => andThen (f a) k) := by
  funext w
  rw [andThen_run, andThen_run, andThen_run]
  rcases h : m w with ⟨o, w'⟩
  cases o with
  | ret r =>
    cases r with
    | error e => rfl
    | ok a => simp only; rw [andThen_run]
  | panic => rfl
  | fatal => rfl

theorem emit_andThen {α β : Type} (e : Ev) (m : Prog (Except Err α)) (k : α → Prog (Except Err β)) :
    andThen (emit e >>= fun _ => m) k = (emit e >>= fun _ => andThen m k) := by
  funext w
  rw [andThen_run, emit_bind, emit_bind, andThen_run]

/-- What comes after the check does not change what comes before. -/
theorem installWith_then (S : Sys) (X : Ext) (t : Int) (cb : Nat → Ev) (i : UpdateInfo) (rest : Prog (Except Err Unit)) :
    installWith S X t cb i rest = andThen (installWith S X t cb i (Prog.pure (.ok ()))) (fun _ => rest) := by
  unfold installWith
  simp only [emit_andThen, andThen_assoc]
  have : andThen (Prog.pure (.ok ())) (fun _ : Unit => rest) = rest := by
    funext w
    rfl
  rw [this]

theorem installWith_other {S : Sys} {X : Ext} {t : Int} {cb : Nat → Ev} {i : UpdateInfo} {w : World} {rest : Prog (Except Err Unit)}
    (h : (installWith S X t cb i rest w).1 = .ret (.ok ())) :
    ∃ w1, ∀ rest', installWith S X t cb i rest' w = rest' w1 := by
  rw [installWith_then, andThen_run] at h
  cases hr : installWith S X t cb i (Prog.pure (.ok ())) w with
  | mk o w1 =>
  rw [hr] at h
  cases o with
  | panic => cases h
  | fatal => cases h
  | ret r =>
    cases r with
    | error e => cases h
    | ok u => exact ⟨w1, fun rest' => by rw [installWith_then, andThen_run, hr]⟩

/-- When a file can be renamed. -/
theorem rename_iff (S : Sys) (src dst : Bytes) (w : World) :
    (Os.rename S src dst w).1 = .ret (.ok ()) ↔ S.fault w.tick = none ∧ (∃ data x, w.disk.stat src = some (.file data x)) ∧ dst ≠ [] ∧
      Path.resolve w.disk.cwd dst ≠ [] ∧ w.disk.isDir (Path.resolve w.disk.cwd dst).dropLast = true ∧
      w.disk.at? (Path.resolve w.disk.cwd dst) ≠ some .dir ∧
      S.device (Path.resolve w.disk.cwd src) = S.device (Path.resolve w.disk.cwd dst) := by
  simp only [Os.rename, bind_run, Prog.tick, Prog.get]
  cases hf : S.fault w.tick with
  | some k => simp [Prog.pure]
  | none =>
    cases hs : w.disk.stat src with
    | none => simp [Prog.pure]
    | some nd =>
      cases nd with
      | dir => simp [Prog.pure]
      | file data x =>
        simp only
        split
        · rename_i h
          simp only [Prog.pure]
          constructor
          · intro h0; cases h0
          · rintro ⟨-, -, h1, h2, h3, h4, h5⟩
            rcases h with h | h | h | h | h
            · exact absurd h h1
            · exact absurd h h2
            · rw [h] at h3; cases h3
            · exact absurd h h4
            · exact absurd h5 h
        · rename_i h
          push Not at h
          simp only [bind_run, through, Prog.pure, true_and]
          refine ⟨fun _ => ⟨⟨data, x, rfl⟩, h.1, h.2.1, by simpa using h.2.2.1, h.2.2.2.1, h.2.2.2.2⟩, fun _ => ?_⟩
          first | rfl | simp

theorem andThen_ok {α β : Type} {m : Prog (Except Err α)} {f : α → Prog (Except Err β)} {w : World} {b : β}
    (h : (andThen m f w).1 = .ret (.ok b)) : ∃ a w', m w = (.ret (.ok a), w') ∧ andThen m f w = f a w' := by
  rcases andThen_split m f w with ⟨a, w', h1, h2⟩ | ⟨-, -, h2, -⟩
  · exact ⟨a, w', h1, h2⟩
  · exact absurd h (h2 b)

/-- The replacement goes through iff the move does and the cache can be removed; then the program is what was moved. -/
theorem replacing_run (S : Sys) (cb : Nat → Ev) (w : World) (e : Bytes) (he : S.exe = some e) :
    ((replacing S cb w).1 = .ret (.ok ()) ↔ (Os.rename S (Path.join [cacheDir, appName]) e w).1 = .ret (.ok ()) ∧ S.fault (w.tick + 1) = none) ∧
    ((replacing S cb w).1 = .ret (.ok ()) → ¬ cacheLoc <+: Path.resolve w.disk.cwd e →
      (replacing S cb w).2.disk.at? (Path.resolve w.disk.cwd e) = w.disk.at? binaryLoc) := by
  have hlog : (Os.rename S (Path.join [cacheDir, appName]) e { w with log := w.log ++ [cb 6] }).1 = .ret (.ok ()) ↔
      (Os.rename S (Path.join [cacheDir, appName]) e w).1 = .ret (.ok ()) := by
    rw [rename_iff, rename_iff]
  rw [← hlog]
  unfold replacing replaceBinary
  rw [emit_bind, he]
  simp only
  rcases Os.rename_run S (Path.join [cacheDir, appName]) e { w with log := w.log ++ [cb 6] } with h | ⟨data, x, h1, h2, -⟩
  · rw [andThen_run, h]
    refine ⟨⟨fun h => ?_, fun h => ?_⟩, fun h => ?_⟩
    · cases h
    · cases h.1
    · cases h
  · have hb : w.disk.at? binaryLoc = some (.file data x) := by
      unfold Disk.stat at h1
      rw [if_neg join_binary_ne, resolve_binary] at h1
      exact h1
    rw [andThen_run, h2]
    simp only
    rw [emit_bind, resolve_binary]
    generalize hv : ({ Os.after { w with log := w.log ++ [cb 6] } [(w.disk.del binaryLoc).put (Path.resolve w.disk.cwd e) (.file data x)] with
        log := (Os.after { w with log := w.log ++ [cb 6] } [(w.disk.del binaryLoc).put (Path.resolve w.disk.cwd e) (.file data x)]).log ++ [cb 7] } : World) = v
    have hvt : v.tick = w.tick + 1 := by rw [← hv]; rfl
    have hvd : v.disk = (w.disk.del binaryLoc).put (Path.resolve w.disk.cwd e) (.file data x) := by rw [← hv]; rfl
    constructor
    · rw [← hvt]
      simp only [Os.removeAll, bind_run, tick, Prog.get]
      cases S.fault v.tick with
      | none => simp [bind_run, through, Prog.pure]
      | some k => simp [bind_run, through, Prog.pure]
    · intro _ ha
      have hf := foot_removeAll v.disk.cwd (fun l => cacheLoc <+: l) (fun _ => True) S cacheDir (fun l hl => by rwa [resolve_cache] at hl) v rfl
      rw [hf.2.1 _ ha, hvd, Disk.at?_put, if_pos rfl, hb]

theorem raced_cases (S : Sys) (X : Ext) (t : Int) (w : World) (g : Disk → Disk) (h : (raced S X t .stage g w).1 = .ret (.ok ())) :
    ∃ (i : UpdateInfo) (data : Bytes) (w1 : World), OfferedAs S w i ∧ Verified S X i data ∧ w1.disk.cwd = w.disk.cwd ∧
      w1.disk.at? binaryLoc = some (.file data false) ∧
      ∀ g', raced S X t .stage g' w = replacing S .stage { w1 with disk := g' w1.disk } := by
  have hs := C58_nothing_else S t w
  have hrun : ∀ g', raced S X t .stage g' w = match answered (S.answer w.tick githubReleases) with
      | .ret (.ok (some i)) => if i.newer then installWith S X t .stage i (do meddle g'; replacing S .stage)
          { w with tick := w.tick + 1, log := w.log ++ [.request githubReleases t] }
        else (.ret (.error .noUpdate), { w with tick := w.tick + 1, log := w.log ++ [.request githubReleases t] })
      | .ret (.ok none) => (.ret (.error .noUpdate), { w with tick := w.tick + 1, log := w.log ++ [.request githubReleases t] })
      | .ret (.error e) => (.ret (.error e), { w with tick := w.tick + 1, log := w.log ++ [.request githubReleases t] })
      | .panic => (.panic, { w with tick := w.tick + 1, log := w.log ++ [.request githubReleases t] })
      | .fatal => (.fatal, { w with tick := w.tick + 1, log := w.log ++ [.request githubReleases t] }) := by
    intro g'
    unfold raced
    rw [andThen_run, fetchInfo_run]
    cases answered (S.answer w.tick githubReleases) with
    | panic => rfl
    | fatal => rfl
    | ret r =>
      cases r with
      | error e => rfl
      | ok info =>
        cases info with
        | none => rfl
        | some i => cases hn : i.newer <;> simp [hn, Prog.pure]
  generalize hv : ({ w with tick := w.tick + 1, log := w.log ++ [.request githubReleases t] } : World) = v at hrun
  have hvd : v.disk = w.disk := by rw [← hv]
  rw [hrun] at h
  rw [fetchInfo_run] at hs
  cases ha : answered (S.answer w.tick githubReleases) with
  | panic => rw [ha] at h; cases h
  | fatal => rw [ha] at h; cases h
  | ret r =>
    cases r with
    | error e => rw [ha] at h; cases h
    | ok info =>
      cases info with
      | none => rw [ha] at h; cases h
      | some i =>
        rw [ha] at h
        obtain ⟨body, r, h1, h2, h3⟩ := hs i ha
        cases hn : i.newer with
        | false => simp only [hn] at h; cases h
        | true =>
          simp only [ha, hn, if_true] at h hrun
          obtain ⟨w1, hw1⟩ := installWith_other h
          rcases installWith_trace S X t i (Prog.pure (.ok ())) v with ⟨k, -, -, -, h6⟩ | ⟨data, w1', k1, k2, k3, k4⟩
          · rw [hw1] at h6
            exact absurd rfl (h6 ())
          · have : w1' = w1 := by
              rw [hw1] at k4
              exact (Prod.mk.inj k4).2.symm
            subst this
            refine ⟨i, data, w1', ⟨body, r, h1, h2, h3.newer.1 hn, h3⟩, k1, by rw [k2.cwd, hvd], k3, fun g' => ?_⟩
            rw [hrun, hw1]
            rfl

/-- C117, what happens. Whenever an update goes through: if somebody puts a file in the place of the downloaded program after
it was checked, the update goes through as well, and this file becomes the program. -/
theorem C117_race (S : Sys) (X : Ext) (t : Int) (w : World) (e : Bytes) (he : S.exe = some e)
    (ha : ¬ cacheLoc <+: Path.resolve w.disk.cwd e) (h : (update S X t .stage w).1 = .ret (.ok ())) (evil : Bytes) (x : Bool) :
    let run := raced S X t .stage (fun d => d.put binaryLoc (.file evil x)) w
    run.1 = .ret (.ok ()) ∧ run.2.disk.at? (Path.resolve w.disk.cwd e) = some (.file evil x) := by
  rw [← raced_id] at h
  obtain ⟨i, data, w1, -, -, hcwd, hbin, hrun⟩ := raced_cases S X t w id h
  rw [hrun] at h
  have h1 := ((replacing_run S .stage { w1 with disk := id w1.disk } e he).1.1 h)
  rw [rename_iff] at h1
  obtain ⟨⟨k1, -, k3, k4, k5, k6, k7⟩, k8⟩ := h1
  simp only [id] at k1 k3 k4 k5 k6 k7 k8
  intro run
  have hr : run = replacing S .stage { w1 with disk := w1.disk.put binaryLoc (.file evil x) } := hrun _
  rw [hr]
  have hok : (replacing S .stage { w1 with disk := w1.disk.put binaryLoc (.file evil x) }).1 = .ret (.ok ()) := by
    refine (replacing_run S .stage _ e he).1.2 ⟨(rename_iff _ _ _ _).2 ⟨k1, ⟨evil, x, ?_⟩, k3, k4, ?_, ?_, k7⟩, k8⟩
    · show (w1.disk.put binaryLoc (.file evil x)).stat _ = _
      unfold Disk.stat
      rw [if_neg join_binary_ne, resolve_binary, Disk.at?_put, if_pos rfl]
    · show (w1.disk.put binaryLoc (.file evil x)).isDir _ = true
      unfold Disk.isDir at k5 ⊢
      rw [Bool.or_eq_true, beq_iff_eq, beq_iff_eq] at k5 ⊢
      refine k5.imp id (fun k => ?_)
      rw [Disk.at?_put, if_neg (fun h0 => ?_)]
      · exact k
      · replace h0 : binaryLoc = (Path.resolve w1.disk.cwd e).dropLast := h0
        rw [← h0, hbin] at k; cases k
    · show (w1.disk.put binaryLoc (.file evil x)).at? _ ≠ _
      rw [Disk.at?_put]
      split
      · simp
      · exact k6
  refine ⟨hok, ?_⟩
  have := (replacing_run S .stage _ e he).2 hok (by show ¬ cacheLoc <+: Path.resolve w1.disk.cwd e; rw [hcwd]; exact ha)
  rw [← hcwd]
  refine this.trans ?_
  show (w1.disk.put binaryLoc (.file evil x)).at? _ = _
  rw [Disk.at?_put, if_pos rfl]

/-- C117, what does hold. If everybody else leaves the downloaded program alone after the check, then whatever else they do to
the disk, an update that goes through installs the program of the release. Missing: others who do not (`C117_race`). -/
theorem C117_undisturbed_partial (S : Sys) (X : Ext) (t : Int) (w : World) (e : Bytes) (he : S.exe = some e)
    (ha : ¬ cacheLoc <+: Path.resolve w.disk.cwd e) (hb : ∀ i, OfferedAs S w i → ¬ Brings S X i checksumLoc)
    (g : Disk → Disk) (hg : ∀ d, (g d).at? binaryLoc = d.at? binaryLoc ∧ (g d).cwd = d.cwd)
    (h : (raced S X t .stage g w).1 = .ret (.ok ())) : ∃ i data, OfferedAs S w i ∧ Genuine S X i data ∧
      (raced S X t .stage g w).2.disk.at? (Path.resolve w.disk.cwd e) = some (.file data false) := by
  obtain ⟨i, data, w1, hi, hver, hcwd, hbin, hrun⟩ := raced_cases S X t w g h
  rw [hrun] at h ⊢
  refine ⟨i, data, hi, verified_genuine hver (hb i hi), ?_⟩
  have h0 : (g w1.disk).cwd = w.disk.cwd := (hg _).2.trans hcwd
  have := (replacing_run S .stage _ e he).2 h (by show ¬ cacheLoc <+: Path.resolve (g w1.disk).cwd e; rw [h0]; exact ha)
  rw [← h0]
  refine this.trans ?_
  show (g w1.disk).at? _ = _
  rw [(hg _).1, hbin]

/-! ### Examples -/

/-- C117: the update of the other examples; somebody else's program is installed, executable, and the update is content. -/
theorem C117_refuted : goodRun.1 = .ret (.ok ()) ∧
    (let run := raced (sampleSys b!"new" (sampleSum ++ b!"  1pass\n")) Toy.ext 5 .stage (fun d => d.put binaryLoc (.file b!"evil" true))
      (Toy.world samplePlace [])
    run.1 = .ret (.ok ()) ∧ stages run.2.log = [1, 2, 3, 4, 5, 6, 7] ∧
      run.2.disk.at? [b!"usr", b!"bin", b!"1pass"] = some (.file b!"evil" true)) := by
  decide +kernel

/-- C117: somebody who writes elsewhere in the cache changes nothing. -/
example : (raced (sampleSys b!"new" (sampleSum ++ b!"  1pass\n")) Toy.ext 5 .stage (fun d => d.put checksumLoc (.file b!"evil" true))
      (Toy.world samplePlace [])).2.disk.at? [b!"usr", b!"bin", b!"1pass"] = some (.file b!"new" false) := by
  decide +kernel
example (d : Disk) : (d.put checksumLoc (.file b!"evil" true)).at? binaryLoc = d.at? binaryLoc := by
  rw [Disk.at?_put, if_neg (by decide +kernel)]

end Upd
end OnePass
