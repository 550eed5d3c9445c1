/-
What the check for updates can do to the command it comes before, and what the configuration file can: C111, C112.
-/
import Verif.Props.Messages
import Verif.Props.Dialog
import Verif.Props.Timeout

set_option linter.unusedSimpArgs false

namespace OnePass
namespace Upd
open Prog Spec

/-- A list of releases that cannot be used: it is empty, or its first entry is neither `null` nor a release with tag, text,
assets with names, and a URL for each archive and checksum file. -/
def Unusable (body : Bytes) : Prop :=
  Json.ReadR body (.arr []) ∨
  ∃ first rest, Json.ReadR body (.arr (first :: rest)) ∧ first ≠ .null ∧ ¬ ∃ r, Publishes body r ∧ Complete r

theorem out_bind_ne_fatal {α β : Type} {m : Out α} {f : α → Out β} (h : m ≠ .fatal) (hf : ∀ a, f a ≠ .fatal) : (m >>= f) ≠ .fatal := by
  cases m with
  | ret a => exact hf a
  | panic => exact (nofun)
  | fatal => exact absurd rfl h

theorem asStr_ne_fatal (j : Json) : asStr j ≠ .fatal := by cases j <;> exact (nofun)
theorem asObj_ne_fatal (j : Json) : asObj j ≠ .fatal := by cases j <;> exact (nofun)
theorem asArr_ne_fatal (j : Json) : asArr j ≠ .fatal := by cases j <;> exact (nofun)

theorem assetUrls_ne_fatal (urls : Bytes × Bytes) (j : Json) : assetUrls urls j ≠ .fatal := by
  unfold assetUrls
  refine out_bind_ne_fatal (asObj_ne_fatal _) (fun a => out_bind_ne_fatal (asStr_ne_fatal _) (fun n => ?_))
  split
  · exact out_bind_ne_fatal (asStr_ne_fatal _) (fun _ => nofun)
  · split
    · exact out_bind_ne_fatal (asStr_ne_fatal _) (fun _ => nofun)
    · exact (nofun)

theorem allUrls_ne_fatal (urls : Bytes × Bytes) (as : List Json) : allUrls urls as ≠ .fatal := by
  induction as generalizing urls with
  | nil => exact (nofun)
  | cons a r ih => exact out_bind_ne_fatal (assetUrls_ne_fatal _ _) (fun u => ih u)

/-- From the first entry on, if it is not `null`. -/
def entryInfo (first : Json) : Out (Except Err (Option UpdateInfo)) := do
  let latest ← asObj first
  let changelog ← asStr (Json.field latest b!"body")
  let tag ← asStr (Json.field latest b!"tag_name")
  let assets ← asArr (Json.field latest b!"assets")
  let urls ← allUrls ([], []) assets
  pure (.ok (some { archiveUrl := urls.1, checksumUrl := urls.2, changelog := changelog, version := tag,
                    newer := decide (versionNumber tag > versionNumber version) }))

theorem entryInfo_cases (first : Json) : entryInfo first = .panic ∨ ∃ i, entryInfo first = .ret (.ok (some i)) := by
  cases h : entryInfo first with
  | panic => exact .inl rfl
  | ret r =>
    unfold entryInfo at h
    obtain ⟨a, -, h⟩ := out_bind_ret h
    obtain ⟨b, -, h⟩ := out_bind_ret h
    obtain ⟨c, -, h⟩ := out_bind_ret h
    obtain ⟨d, -, h⟩ := out_bind_ret h
    obtain ⟨e, -, h⟩ := out_bind_ret h
    cases h
    exact .inr ⟨_, rfl⟩
  | fatal =>
    refine absurd h ?_
    unfold entryInfo
    exact out_bind_ne_fatal (asObj_ne_fatal _) (fun a => out_bind_ne_fatal (asStr_ne_fatal _) (fun b =>
      out_bind_ne_fatal (asStr_ne_fatal _) (fun c => out_bind_ne_fatal (asArr_ne_fatal _) (fun d =>
        out_bind_ne_fatal (allUrls_ne_fatal _ _) (fun e => nofun)))))

theorem releaseInfo_entry {body : Bytes} {first : Json} {rest : List Json} (h : Json.ReadR body (.arr (first :: rest)))
    (hn : first ≠ .null) : releaseInfo body = entryInfo first := by
  unfold releaseInfo
  rw [unmarshalArr_iff.2 h]
  cases first <;> first | rfl | exact absurd rfl hn

/-- Which answers crash the program. -/
theorem releaseInfo_panic (body : Bytes) : releaseInfo body = .panic ↔ Unusable body := by
  constructor
  · intro h
    cases hu : unmarshalArr body with
    | none => unfold releaseInfo at h; rw [hu] at h; cases h
    | some o =>
      cases o with
      | none => unfold releaseInfo at h; rw [hu] at h; cases h
      | some l =>
        have hr := unmarshalArr_iff.1 hu
        cases l with
        | nil => exact .inl hr
        | cons first rest =>
          refine .inr ⟨first, rest, hr, ?_, ?_⟩
          · rintro rfl
            unfold releaseInfo at h; rw [hu] at h; cases h
          · rintro ⟨r, h1, h2⟩
            rcases releaseInfo_published body r h1 with ⟨i, h3, -⟩ | ⟨-, h3⟩
            · rw [h] at h3; cases h3
            · exact h3 h2
  · rintro (h | ⟨first, rest, h, hn, hno⟩)
    · unfold releaseInfo
      rw [unmarshalArr_iff.2 h]
    · have he := releaseInfo_entry h hn
      rcases entryInfo_cases first with h1 | ⟨i, h1⟩
      · rw [he, h1]
      · obtain ⟨r, h2, -, h3⟩ := releaseInfo_sound (he.trans h1)
        exact absurd ⟨r, h2, h3⟩ hno

theorem releaseInfo_ne_fatal (body : Bytes) : releaseInfo body ≠ .fatal := by
  cases hu : unmarshalArr body with
  | none => unfold releaseInfo; rw [hu]; exact (nofun)
  | some o =>
    cases o with
    | none => unfold releaseInfo; rw [hu]; exact (nofun)
    | some l =>
      cases l with
      | nil => unfold releaseInfo; rw [hu]; exact (nofun)
      | cons first rest =>
        by_cases hn : first = .null
        · subst hn; unfold releaseInfo; rw [hu]; exact (nofun)
        · rw [releaseInfo_entry (unmarshalArr_iff.1 hu) hn]
          rcases entryInfo_cases first with h | ⟨i, h⟩ <;> rw [h] <;> exact (nofun)

theorem answered_panic (a : HttpAnswer) : answered a = .panic ↔ ∃ body, a = .body body true ∧ Unusable body := by
  cases a with
  | failed => exact ⟨nofun, by rintro ⟨_, h, -⟩; cases h⟩
  | body d c =>
    cases c with
    | false => exact ⟨nofun, by rintro ⟨_, h, -⟩; cases h⟩
    | true =>
      show releaseInfo d = .panic ↔ _
      rw [releaseInfo_panic]
      exact ⟨fun h => ⟨d, rfl, h⟩, by rintro ⟨_, h, h'⟩; cases h; exact h'⟩

theorem answered_ne_fatal (a : HttpAnswer) : answered a ≠ .fatal := by
  cases a with
  | failed => exact (nofun)
  | body d c =>
    cases c with
    | false => exact (nofun)
    | true => exact releaseInfo_ne_fatal d

end Upd

namespace Cli
open Prog Fmt Spec Upd

/-! ### C111 -/

theorem log_grows {l : List Ev} {e : Ev} (h : l = l ++ [e]) : False := by
  have := congrArg List.length h
  simp at this

/-- The check before a command, taken apart. -/
theorem check_outcome (C : Ctx) (w : World) (c : Config) (hc : Conf.getConfig w.conf = .ret c) :
    ((checkForUpdate C w).1 = .ret () ∧
      ¬ ((checkForUpdate C w).2.log = w.log ++ [.request githubReleases c.timeout] ∧
         ∃ body, C.sys.answer (w.tick + 3) githubReleases = .body body true ∧ Unusable body)) ∨
    (checkForUpdate C w = (.panic, { w with tick := w.tick + 4, log := w.log ++ [.request githubReleases c.timeout] }) ∧
      ∃ body, C.sys.answer (w.tick + 3) githubReleases = .body body true ∧ Unusable body) := by
  have hread : checkForUpdate C w = (if c.notify then (do
      match ← Upd.facadeCheck C.sys C.ext C.dir false with
      | .error _ => Prog.pure ()
      | .ok info =>
        println (b!"New version of 1pass is available (current: " ++ Upd.version ++ b!", available: " ++ info.version ++
          b!"). Run 'sudo 1pass update' to upgrade.\n") : Prog Unit)
    else Prog.pure ()) w := by
    unfold checkForUpdate
    rw [bind_run, read_run, hc]
    rfl
  by_cases hn : c.notify = true
  · rw [if_pos hn] at hread
    have hfac : facadeCheck C.sys C.ext C.dir false w = Upd.checkForUpdate C.sys C.ext c.period c.timeout false C.dir w := by
      unfold facadeCheck
      rw [bind_run, read_run, hc]
    obtain ⟨b, hb⟩ := shouldCheck_run C.sys C.ext c.period C.dir w
    cases b with
    | false =>
      have : Upd.checkForUpdate C.sys C.ext c.period c.timeout false C.dir w = (.ret (.error .noUpdate), { w with tick := w.tick + 3 }) := by
        unfold Upd.checkForUpdate
        simp only [Bool.false_eq_true, if_false]
        rw [bind_run, hb]
        rfl
      rw [bind_run, hfac, this] at hread
      refine .inl ⟨by rw [hread]; rfl, ?_⟩
      rintro ⟨h, -⟩
      rw [hread] at h
      exact log_grows h
    | true =>
      have hask := check_asks C.sys C.ext c.period c.timeout false C.dir w { w with tick := w.tick + 3 } (fun _ => hb) (by simp)
      rw [bind_run, hfac, hask] at hread
      simp only at hread
      by_cases hu : ∃ body, C.sys.answer (w.tick + 3) githubReleases = .body body true ∧ Unusable body
      · rw [(answered_panic _).2 hu] at hread
        exact .inr ⟨hread, hu⟩
      · refine .inl ⟨?_, fun h => hu h.2⟩
        have h1 : answered (C.sys.answer (w.tick + 3) githubReleases) ≠ .panic := fun h => hu ((answered_panic _).1 h)
        have h2 := answered_ne_fatal (C.sys.answer (w.tick + 3) githubReleases)
        revert hread h1 h2
        generalize answered (C.sys.answer (w.tick + 3) githubReleases) = o
        intro hread h1 h2
        cases o with
        | panic => exact absurd rfl h1
        | fatal => exact absurd rfl h2
        | ret r =>
          rw [hread]
          cases r with
          | error e => rfl
          | ok info =>
            cases info with
            | none => rfl
            | some i =>
              simp only
              cases i.newer <;> rfl
  · rw [if_neg hn] at hread
    refine .inl ⟨by rw [hread]; rfl, ?_⟩
    rintro ⟨h, -⟩
    rw [hread] at h
    exact log_grows h

/-- C111, as far as it goes. The check before a command: it ends the program exactly if the server is asked and
answers with a list of releases that cannot be used; then nothing has been printed and nothing written. Otherwise the command
goes on, with the same configuration, session and input, and the disk is the same but for the time stamp. -/
theorem C111_check_partial (C : Ctx) (w : World) (c : Config) (hc : Conf.getConfig w.conf = .ret c) :
    ((checkForUpdate C w).1 = .panic ↔
      (checkForUpdate C w).2.log = w.log ++ [.request githubReleases c.timeout] ∧
      ∃ body, C.sys.answer (w.tick + 3) githubReleases = .body body true ∧ Unusable body) ∧
    ((checkForUpdate C w).1 = .panic → (checkForUpdate C w).2.disk = w.disk) ∧
    ((checkForUpdate C w).1 ≠ .panic → (checkForUpdate C w).1 = .ret () ∧ (checkForUpdate C w).2.conf = w.conf ∧
      (checkForUpdate C w).2.sess = w.sess ∧ (checkForUpdate C w).2.stdin = w.stdin ∧
      ∀ l, ¬ StampLoc w.disk.cwd C.dir l → (checkForUpdate C w).2.disk.at? l = w.disk.at? l) := by
  have hcalm := calm_cliCheck C w
  have hfoot := foot_cliCheck C w.disk.cwd (fun _ => True) (fun _ => trivial) (fun _ => trivial) w rfl
  rcases check_outcome C w c hc with ⟨h1, h2⟩ | ⟨h1, h2⟩
  · refine ⟨⟨fun h => ?_, fun h => absurd h h2⟩, fun h => ?_, fun _ => ⟨h1, hcalm.1, hcalm.2.2, hcalm.2.1, ?_⟩⟩
    · rw [h1] at h; cases h
    · rw [h1] at h; cases h
    · exact fun l hl => hfoot.2.1 l hl
  · refine ⟨⟨fun _ => ⟨by rw [h1], h2⟩, fun _ => by rw [h1]⟩, fun _ => by rw [h1], fun h => ?_⟩
    rw [h1] at h; exact absurd rfl h

theorem bind_panic {α β : Type} {m : Prog α} {f : α → Prog β} {w w1 : World} (h : m w = (.panic, w1)) :
    (m >>= f) w = (.panic, w1) := by rw [bind_run, h]

/-- The commands that begin with the check for updates. -/
def Cmd.checks : Cmd → Bool
  | .configure | .categories | .list .. | .overview .. | .details .. => true
  | _ => false

theorem firstRun_skip (C : Ctx) {w : World} (h : Conf.isAvailable w.conf = true) : firstRun C w = (.ret (), w) := by
  unfold firstRun
  rw [bind_run]
  simp only [Prog.get, h, if_true]
  rfl

/-- If the check ends the program, the command has done nothing. -/
theorem command_panic (C : Ctx) (cmd : Cmd) (h : cmd.checks = true) {w w1 : World} (hav : Conf.isAvailable w.conf = true)
    (hp : checkForUpdate C w = (.panic, w1)) : command C cmd w = (.panic, w1) := by
  have hopen : ∀ v, openVault C v w = (.panic, w1) := by
    intro v
    unfold openVault
    rw [bind_run, firstRun_skip C hav]
    exact bind_panic hp
  cases cmd with
  | configure => exact bind_panic hp
  | categories => exact bind_panic hp
  | list v c n t => exact bind_panic (hopen v)
  | overview v u t => exact bind_panic (hopen v)
  | details v u t => exact bind_panic (hopen v)
  | gui v => cases h
  | update => cases h
  | version => cases h

/-- The disk of somebody who has configured the program, wants to be notified, and has no time stamp yet. -/
structure Waiting (X : Ext) (dir : Bytes) (timeout : Int) (d : Disk) : Prop where
  conf : ∃ m c, Conf.loaded X d dir = some (some m) ∧ m ≠ [] ∧ Conf.getConfig (some m) = .ret c ∧ c.notify = true ∧ c.timeout = timeout
  stamp : ∀ s, ¬ Stamped d dir s

theorem check_stuck (C : Ctx) (w : World) (c : Config) (hc : Conf.getConfig w.conf = .ret c) (hn : c.notify = true)
    (hs : ∀ s, ¬ Stamped w.disk C.dir s) (body : Bytes) (ha : ∀ n, C.sys.answer n githubReleases = .body body true)
    (hu : Unusable body) :
    checkForUpdate C w = (.panic, { w with tick := w.tick + 4, log := w.log ++ [.request githubReleases c.timeout] }) := by
  rcases check_outcome C w c hc with ⟨h1, h2⟩ | ⟨h1, -⟩
  · exfalso
    have hask := check_asks C.sys C.ext c.period c.timeout false C.dir w { w with tick := w.tick + 3 }
      (fun _ => shouldCheck_unstamped C.sys C.ext c.period C.dir w hs) (by simp)
    rw [(answered_panic _).2 ⟨body, ha _, hu⟩] at hask
    have : checkForUpdate C w = (.panic, { w with tick := w.tick + 4, log := w.log ++ [.request githubReleases c.timeout] }) := by
      unfold checkForUpdate
      rw [bind_run, read_run, hc]
      simp only
      rw [if_pos hn]
      unfold facadeCheck
      refine bind_panic ?_
      rw [bind_run, read_run, hc]
      exact hask
    rw [this] at h1
    cases h1
  · exact h1

/-- One run: it ends in a crash, has asked the server and nothing else, and the disk is as it was. -/
theorem run_stuck (C : Ctx) (hq : C.sys.Quiet) (t : Int) (cmd : Cmd) (h : cmd.checks = true) (w : World)
    (hd : Waiting C.ext C.dir t w.disk) (body : Bytes) (ha : ∀ n, C.sys.answer n githubReleases = .body body true)
    (hu : Unusable body) :
    (main C cmd w).1 = .panic ∧ (main C cmd w).2.disk = w.disk ∧ (main C cmd w).2.log = w.log ++ [.request githubReleases t] := by
  obtain ⟨m, c, h1, h2, h3, h4, h5⟩ := hd.conf
  obtain ⟨k, hk⟩ := Conf.boot_run (X := C.ext) hq C.dir w
  rw [h1] at hk
  unfold main
  rw [bind_run, hk]
  simp only
  have hav : Conf.isAvailable (some m) = true := by
    cases m with
    | nil => exact absurd rfl h2
    | cons _ _ => rfl
  rw [command_panic C cmd h (w := { w with tick := w.tick + k, conf := some m, sess := Session.init }) hav
    (check_stuck C _ c h3 h4 hd.stamp body ha hu)]
  rw [← h5]
  exact ⟨rfl, rfl, rfl⟩

/-- C111. Nothing gets better by itself: while the server publishes such a list, every one of these commands, one after the
other, ends in a crash before it has printed anything. -/
theorem C111_every_time (X : Ext) (dir : Bytes) (t : Int) (w : World) (hd : Waiting X dir t w.disk) (before : List Run) (r : Run)
    (hall : ∀ q ∈ before ++ [r], q.ctx.ext = X ∧ q.ctx.dir = dir ∧ q.ctx.sys.Quiet ∧ q.cmd.checks = true ∧
      ∃ body, (∀ n, q.ctx.sys.answer n githubReleases = .body body true) ∧ Unusable body) :
    (main r.ctx r.cmd { history w before with stdin := r.stdin }).1 = .panic ∧
    (history w (before ++ [r])).disk = w.disk ∧
    (history w (before ++ [r])).log = w.log ++ List.replicate (before.length + 1) (.request githubReleases t) := by
  induction before generalizing w with
  | nil =>
    obtain ⟨rfl, rfl, h3, h4, body, h5, h6⟩ := hall r (by simp)
    obtain ⟨k1, k2, k3⟩ := run_stuck r.ctx h3 t r.cmd h4 { w with stdin := r.stdin } hd body h5 h6
    exact ⟨k1, k2, k3⟩
  | cons q qs ih =>
    obtain ⟨e1, e2, h3, h4, body, h5, h6⟩ := hall q (by simp)
    obtain ⟨k1, k2, k3⟩ := run_stuck q.ctx h3 t q.cmd h4 { w with stdin := q.stdin } (by rw [e1, e2]; exact hd) body h5 h6
    obtain ⟨i1, i2, i3⟩ := ih (main q.ctx q.cmd { w with stdin := q.stdin }).2 (by rw [k2]; exact hd)
      (fun x hx => hall x (by simp only [List.cons_append, List.mem_cons]; exact .inr hx))
    refine ⟨i1, i2.trans k2, ?_⟩
    show (history (main q.ctx q.cmd { w with stdin := q.stdin }).2 (qs ++ [r])).log = _
    rw [i3, k3, List.append_assoc]
    rfl

/-- The crash is not wanted: a list of categories, with a configuration in order, whatever the server answers. -/
def C111_wish : Prop :=
  ∀ (C : Ctx) (w : World) (c : Config), Conf.getConfig w.conf = .ret c → (command C .categories w).1 ≠ .panic

/-- A release published without a text. -/
def untold : Bytes := b!"[{\"tag_name\":\"1.3.2\",\"body\":null,\"assets\":[]}]"

theorem untold_unusable : Unusable untold := (releaseInfo_panic _).1 (by decide +kernel)

/-- C111 is false: a release without a text makes `categories` crash. -/
theorem C111_refuted : ¬ C111_wish := by
  intro h
  refine h (demo untold 0) { user [] with conf := some (Conf.updated [] { Conf.myConf with notify := true }) } { Conf.myConf with notify := true } (by decide +kernel) ?_
  decide +kernel

/-! ### C112 -/

/-- The settings are missing or of the right type. -/
def WellTyped (conf : Option YMap) : Prop :=
  (Conf.entry conf b!"timeout" = .null ∨ ∃ n, Conf.entry conf b!"timeout" = .int n) ∧
  (Conf.entry conf b!"update-notification" = .null ∨ ∃ v, Conf.entry conf b!"update-notification" = .bool v) ∧
  (Conf.entry conf b!"update-period" = .null ∨ ∃ n, Conf.entry conf b!"update-period" = .int n)

theorem config_panic {conf : Option YMap} (h : ¬ WellTyped conf) : Conf.getConfig conf = .panic := by
  obtain ⟨h1, h2⟩ := Conf.C46_crash conf
  rcases h2 with h2 | h2
  · exact absurd (h1.1 h2) h
  · exact h2

theorem config_ret {conf : Option YMap} (h : WellTyped conf) : ∃ c, Conf.getConfig conf = .ret c := (Conf.C46_crash conf).1.2 h

/-- C112. A setting of another type: every command but `version` (and the GUI, which does not look at the settings before it
opens the vault named on the command line) crashes, `configure` included, before it has asked or written anything. Only
`update` has printed a line. -/
theorem C112_wrong_type (C : Ctx) (hq : C.sys.Quiet) (cmd : Cmd) (h : cmd.checks = true ∨ cmd = .update) (w : World) (m : YMap)
    (hl : Conf.loaded C.ext w.disk C.dir = some (some m)) (hbad : ¬ WellTyped (some m)) :
    (main C cmd w).1 = .panic ∧ (main C cmd w).2.disk = w.disk ∧ (main C cmd w).2.stdin = w.stdin ∧
      (cmd ≠ .update → (main C cmd w).2.log = w.log) ∧
      (cmd = .update → (main C cmd w).2.log = w.log ++ [.out b!"Checking for 1pass application updates...\n"]) := by
  obtain ⟨k, hk⟩ := Conf.boot_run (X := C.ext) hq C.dir w
  rw [hl] at hk
  unfold main
  rw [bind_run, hk]
  simp only
  have hav : Conf.isAvailable (some m) = true := by
    cases m with
    | nil => exact absurd ⟨.inl rfl, .inl rfl, .inl rfl⟩ hbad
    | cons _ _ => rfl
  generalize hw0 : ({ w with tick := w.tick + k, conf := some m, sess := Session.init } : World) = w0
  have hg : Conf.getConfig w0.conf = .panic := by rw [← hw0]; exact config_panic hbad
  rw [show w.disk = w0.disk by rw [← hw0], show w.stdin = w0.stdin by rw [← hw0], show w.log = w0.log by rw [← hw0]]
  rcases h with h | rfl
  · have hp : checkForUpdate C w0 = (.panic, w0) := by
      unfold checkForUpdate
      exact bind_panic (by rw [read_run, hg])
    rw [command_panic C cmd h (by rw [← hw0]; exact hav) hp]
    exact ⟨rfl, rfl, rfl, fun _ => rfl, by rintro rfl; cases h⟩
  · have : command C .update w0 = (.panic, { w0 with log := w0.log ++ [.out b!"Checking for 1pass application updates...\n"] }) := by
      show update C w0 = _
      unfold update
      rw [bind_run]
      simp only [println, emit]
      refine bind_panic ?_
      unfold facadeCheck
      refine bind_panic ?_
      rw [read_run]
      simp only [hg]
      rfl
    rw [this]
    exact ⟨rfl, rfl, rfl, fun h => absurd rfl h, fun _ => rfl⟩

/-- The questions. -/
theorem questions_save (C : Ctx) (old : Config) (v : World) :
    ∃ new v', v'.conf = v.conf ∧ v'.disk = v.disk ∧
      (do
        let c ← askVault C old
        let c ← askNotify C c
        let c ← askTimeout c
        let c ← askPeriod c
        Conf.save C.sys C.ext C.dir c
        println b!"1pass configured" : Prog Unit) v =
      (Conf.save C.sys C.ext C.dir new >>= fun _ => println b!"1pass configured" : Prog Unit) v' := by
  obtain ⟨es, e1⟩ := askVault_run C old v
  have : ∃ c1 v3, askVault C old v = (.ret c1, v3) ∧ v3.conf = v.conf ∧ v3.disk = v.disk := by
    rw [e1]
    split
    · exact ⟨_, _, rfl, rfl, rfl⟩
    · exact ⟨_, _, rfl, rfl, rfl⟩
  obtain ⟨c1, v3, e2, c3⟩ := this
  rw [bind_run, e2]
  simp only
  obtain ⟨es2, e3⟩ := askNotify_run C c1 v3
  rw [bind_run, e3]
  simp only
  obtain ⟨es3, e4⟩ := askTimeout_run _ _
  rw [bind_run, e4]
  simp only
  obtain ⟨es4, e5⟩ := askPeriod_run _ _
  rw [bind_run, e5]
  refine ⟨_, _, ?_, ?_, rfl⟩
  · exact c3.1
  · exact c3.2

/-- Configure, from the check to the save. -/
theorem configure_save (C : Ctx) {w w1 : World} {old : Config} (hold : Conf.getConfig w.conf = .ret old)
    (hcheck : checkForUpdate C w = (.ret (), w1)) :
    ∃ new v, v.conf = w.conf ∧ v.disk = w1.disk ∧
      configure C w = (Conf.save C.sys C.ext C.dir new >>= fun _ => println b!"1pass configured" : Prog Unit) v := by
  have hc := calm_cliCheck C w
  rw [hcheck] at hc
  have hprint : ∀ (t : Bytes) (v : World), println t v = (.ret (), { v with log := v.log ++ [.out (t ++ [10])] }) :=
    fun t v => rfl
  unfold configure
  rw [bind_run, hcheck]
  simp only
  rw [bind_run, read_run, hc.1, hold]
  simp only
  rw [bind_run, hprint]
  simp only
  rw [bind_run, hprint]
  simp only
  obtain ⟨new, v, k1, k2, k3⟩ := questions_save C old { w1 with log := w1.log ++
    [.out (b!"Detailed configuration manual can be found online: https://github.com/mashmb/1pass#configuration" ++ [10])] ++
    [.out (b!"Configuring 1pass:" ++ [10])] }
  exact ⟨new, v, k1.trans hc.1, k2, k3⟩

/-- C112, as far as it goes. Configure crashes in exactly three cases: a setting is of the wrong type, the check for
updates before it crashes (C111), or the configuration is the nil map, that of an empty file. -/
theorem C112_configure_partial (C : Ctx) (hdir : C.dir ≠ []) (w : World) :
    (configure C w).1 = .panic ↔ ¬ WellTyped w.conf ∨ (checkForUpdate C w).1 = .panic ∨ w.conf = none := by
  by_cases hw : WellTyped w.conf
  · obtain ⟨c, hc⟩ := config_ret hw
    rcases check_outcome C w c hc with ⟨h1, -⟩ | ⟨h1, -⟩
    · obtain ⟨new, v, k1, k2, k3⟩ := configure_save C hc (w1 := (checkForUpdate C w).2) (Prod.ext h1 rfl)
      rw [k3, h1, bind_run]
      cases hm : w.conf with
      | none =>
        have : Conf.save C.sys C.ext C.dir new v = (.panic, v) := by
          unfold Conf.save
          simp only [bind_run, Prog.get, k1, hm]
          rfl
        rw [this]; simp
      | some m =>
        obtain ⟨o, ds₁, ds₂, k, conf', g1, -, -, -, -, g2, -⟩ := Conf.save_run C.sys C.ext hdir new v m (k1.trans hm)
        rw [g1]
        cases o with
        | panic => exact absurd rfl g2
        | ret a =>
          rw [hm] at hw
          simp [println, emit, hw]
        | fatal =>
          rw [hm] at hw
          simp [hw]
    · have : (configure C w).1 = .panic := by
        unfold configure
        rw [bind_panic h1]
      rw [this, h1]
      simp
  · have : configure C w = (.panic, w) := by
      unfold configure
      refine bind_panic ?_
      unfold checkForUpdate
      exact bind_panic (by rw [read_run, config_panic hw])
    rw [this]
    simp [hw]

/-- C112. An empty file: all questions are asked, the answers are lost in a crash, and the configuration file is as it
was. -/
theorem C112_empty (C : Ctx) (hdir : C.dir ≠ []) (w w1 : World) (hw : w.conf = none) (hcheck : checkForUpdate C w = (.ret (), w1)) :
    (configure C w).1 = .panic ∧
    (configure C w).2.disk.at? (Path.resolve w.disk.cwd (Conf.path C.dir)) = w.disk.at? (Path.resolve w.disk.cwd (Conf.path C.dir)) ∧
    ∃ log, Dialog C.env.text { timeout := 1, notify := true, period := 1, vault := [] } (scanWord w.stdin).1 False log ∧
      (configure C w).2.log = w1.log ++ log := by
  have hg : Conf.getConfig w.conf = .ret { timeout := 1, notify := true, period := 1, vault := [] } := by rw [hw]; rfl
  have h1 : (configure C w).1 = .panic := (C112_configure_partial C hdir w).2 (.inr (.inr hw))
  refine ⟨h1, ?_, ?_⟩
  · obtain ⟨new, v, k1, k2, k3⟩ := configure_save C hg hcheck
    have : Conf.save C.sys C.ext C.dir new v = (.panic, v) := by
      unfold Conf.save
      simp only [bind_run, Prog.get, k1, hw]
      rfl
    rw [k3, bind_panic this]
    have hfoot := foot_cliCheck C w.disk.cwd (fun _ => True) (fun _ => trivial) (fun _ => trivial) w rfl
    rw [hcheck] at hfoot
    rw [show v.disk = w1.disk from k2]
    exact hfoot.2.1 _ (conf_not_stamp _ hdir)
  · obtain ⟨log, d1, d2⟩ := C106_dialog C w w1 _ hg hcheck
    rw [h1] at d1
    have e : (Out.panic = Out.ret ()) = False := by simp
    rw [e] at d1
    exact ⟨log, d1, d2⟩

/-- What is wanted: with the server out of reach, `configure` does not crash, whatever is in the configuration file. -/
def C112_wish : Prop :=
  ∀ (C : Ctx) (w : World), C.sys.Quiet → C.dir ≠ [] → (∀ n u, C.sys.answer n u = .failed) → (main C .configure w).1 ≠ .panic

/-- The server is out of reach. -/
def offline : Ctx := { demo [] 0 with sys := { Toy.sys [] 0 with answer := fun _ _ => .failed } }

/-- C112 is false: with a timeout written as a text, `configure` crashes. -/
theorem C112_refuted : ¬ C112_wish := by
  intro h
  refine h offline (Toy.world (Conf.confDisk (Toy.encode [(b!"timeout", .str b!"5")])) []) (fun _ => rfl) (by decide) (fun _ _ => rfl) ?_
  decide +kernel

/-! ### Examples -/

/-- C111: the hypotheses of `C111_every_time` for a user with notifications on. -/
def waiting : Disk := Conf.confDisk (Toy.encode (Conf.updated [] { Conf.myConf with notify := true }))

/-- Three commands in a row, each with a server that publishes a release without a text. -/
example : (main (demo untold 0) .categories (Toy.world waiting [])).1 = .panic ∧
    (history (Toy.world waiting []) [⟨demo untold 0, [], .categories⟩, ⟨demo untold 0, [], .list [] [] [] false⟩,
      ⟨demo untold 0, b!"y\n/v\nn\n\n\n", .configure⟩]).log = List.replicate 3 (.request githubReleases 5) := by
  decide +kernel
/-- An empty list, an asset without a name; a release in order, `null`, an error message instead of a list. -/
example : Unusable b!"[]" ∧ Unusable b!"[{\"tag_name\":\"2\",\"body\":\"\",\"assets\":[{}]}]" ∧
    ¬ Unusable b!"[{\"tag_name\":\"2\",\"body\":\"\",\"assets\":[]}]" ∧ ¬ Unusable b!"[null]" ∧
    ¬ Unusable b!"{\"message\":\"API rate limit exceeded\"}" := by
  simp only [← releaseInfo_panic]
  decide +kernel
/-- C112: an empty file; the dialog is shown to its end, then the program crashes. -/
example : (main offline .configure (Toy.world (Conf.confDisk []) b!"n\ny\n5\n7\n")).1 = .panic ∧
    (main offline .configure (Toy.world (Conf.confDisk []) b!"n\ny\n5\n7\n")).2.log.length = 11 ∧
    (main offline .configure (Toy.world (Conf.confDisk []) b!"n\ny\n5\n7\n")).2.stdin = [] := by
  decide +kernel
/-- The file of that user with other settings is replaced. -/
example : (main offline .configure (Toy.world (Conf.confDisk (Toy.encode [(b!"colour", .str b!"red")])) b!"n\ny\n5\n7\n")).1 = .ret () := by
  decide +kernel

end Cli

namespace Gui
open Spec Upd

theorem goes_on {α : Type} {r : Res Unit} {a : α} (h : r = .ok ()) :
    (r = .panic ↔ Out.ret a = .panic) ∧ (r ≠ .panic → r = .ok ()) := by subst h; simp

/-- C111, as far as it goes. The check of the GUI: while it is running (`pending`), its end ends the program exactly if the
server's answer is such a list; otherwise the GUI goes on. -/
theorem C111_gui_partial (C : Ctx) (K : Kit) (s : St) (v : View) (c : Config) (hv : s.views .ver = some v) (hp : s.pending = true)
    (hc : Conf.getConfig s.world.conf = .ret c) :
    ((step C K .checked s).1 = .panic ↔
      ∃ body, C.sys.answer s.world.tick githubReleases = .body body true ∧ Unusable body) ∧
    ((step C K .checked s).1 ≠ .panic → (step C K .checked s).1 = .ok ()) := by
  have hask := check_asks C.sys C.ext c.period c.timeout true C.dir s.world s.world (by simp) (fun _ => rfl)
  have hfac : facadeCheck C.sys C.ext C.dir true s.world = Upd.checkForUpdate C.sys C.ext c.period c.timeout true C.dir s.world := by
    unfold facadeCheck
    rw [Prog.bind_run, Prog.read_run, hc]
  have hstep : (step C K .checked s).1 = (verUpdate C { s with pending := false }).1 := by
    show ((Act.get >>= fun s => if s.pending then _ else _ : Act Unit) s).1 = _
    rw [bind_run, get_run]
    simp only [hp, if_true]
    rw [bind_run, modify_run]
  rw [hstep, ← answered_panic]
  unfold verUpdate
  rw [bind_run]
  unfold onWorld
  simp only
  rw [hfac, hask]
  have hf := answered_ne_fatal (C.sys.answer s.world.tick githubReleases)
  revert hf
  generalize answered (C.sys.answer s.world.tick githubReleases) = o
  intro hf
  have fin : ∀ (r : Except Err UpdateInfo) (w : World),
      ((Act.get >>= fun s => match s.views .ver with
        | none => Act.panic
        | some _ => change (.live .ver) (fun v => v.write (checkText r)) : Act Unit)
        { s with pending := false, world := w }).1 = .ok () := by
    intro r w
    rw [bind_run, get_run]
    simp only [hv]
    have e := change_run (s := { s with pending := false, world := w }) (v := v) hv (fun v => v.write (checkText r))
    exact congrArg Prod.fst e
  cases o with
  | panic => exact ⟨by simp, fun h => absurd rfl h⟩
  | fatal => exact absurd rfl hf
  | ret r =>
    cases r with
    | error e =>
      have := fin (.error e) { s.world with tick := s.world.tick + 1, log := s.world.log ++ [.request githubReleases c.timeout] }
      exact goes_on this
    | ok i => exact goes_on (fin _ _)

end Gui
end OnePass
