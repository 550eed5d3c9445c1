/-
C59, C82, C83: the update command, and what commands leave alone.
-/
import Verif.Props.Install
import Verif.Props.Throttle

set_option linter.unusedSimpArgs false

namespace OnePass
namespace Cli
open Prog Fmt Spec Upd

/-! ### C59 -/

/-- What the update command does after the offer. -/
def answer (C : Ctx) (info : UpdateInfo) : Prog Unit := do
  println (b!"New version of 1pass is available (" ++ info.version ++ b!").\n\n" ++ info.changelog ++ b!"\n")
  print (b!"Do you want to update now? (" ++ LogicVal.no.name ++ b!") [y - for yes/n - for no]: ")
  let permissionVal ← scanln
  match LogicVal.fromName C.env.text permissionVal with
  | .error _ =>
    println b!"Aborting update..."
    exit
  | .ok permission =>
    if permission = LogicVal.no then
      println b!"Aborting update..."
      exit
    else
      println (b!"Updating 1pass application from version " ++ Upd.version ++ b!" to " ++ info.version ++ b!"...")
      match ← Upd.facadeUpdate C.sys C.ext (fun n => .out (stageText n ++ [10])) with
      | .error e => die e
      | .ok _ => println (b!"1pass application updated to version " ++ info.version)

/-- The offer on the screen: the message with version and release notes, the question, and reading the answer. -/
def offer (info : UpdateInfo) : List Ev :=
  [.out (b!"New version of 1pass is available (" ++ info.version ++ b!").\n\n" ++ info.changelog ++ b!"\n\n"),
   .out b!"Do you want to update now? (n) [y - for yes/n - for no]: ", .scan]

theorem answer_no (C : Ctx) (info : UpdateInfo) (w : World) (a rest : Bytes) (ht : Types w.stdin a rest) (hn : ¬ Yes C.env.text a) :
    answer C info w = (.fatal, { w with stdin := rest, log := w.log ++ offer info ++ [.out b!"Aborting update...\n"] }) := by
  unfold answer
  simp only [bind_run, println, print, emit, scanln, scanWord_types ht]
  rcases fromName_cases C.env.text a with ⟨h1, -⟩ | ⟨-, -, h1⟩ | ⟨-, -, h1⟩
  · exact absurd h1 hn
  · simp only [h1, if_true, bind_run, println, emit, exit, offer, List.append_assoc]
    rfl
  · simp only [h1, bind_run, println, emit, exit, offer, List.append_assoc]
    rfl

/-- Installing, after a yes. -/
def installing (C : Ctx) (info : UpdateInfo) : Prog Unit := do
  match ← Upd.facadeUpdate C.sys C.ext (fun n => .out (stageText n ++ [10])) with
  | .error e => die e
  | .ok _ => println (b!"1pass application updated to version " ++ info.version)

theorem answer_yes (C : Ctx) (info : UpdateInfo) (w : World) (a rest : Bytes) (ht : Types w.stdin a rest) (hy : Yes C.env.text a) :
    answer C info w = installing C info { w with stdin := rest, log := w.log ++ offer info ++
      [.out (b!"Updating 1pass application from version 1.3.1 to " ++ info.version ++ b!"...\n")] } := by
  unfold answer
  simp only [bind_run, println, print, emit, scanln, scanWord_types ht]
  rcases fromName_cases C.env.text a with ⟨-, h1⟩ | ⟨-, h1, -⟩ | ⟨h1, -⟩
  · rw [h1]
    have : LogicVal.yes ≠ LogicVal.no := by decide
    simp only [this, if_false, bind_run, println, emit, installing, offer, List.append_assoc]
    rfl
  · exact absurd hy h1
  · exact absurd hy h1

/-- The update command has begun. -/
def checking (w : World) : World := { w with log := w.log ++ [.out b!"Checking for 1pass application updates...\n"] }

/-- The update command: the check, then the offer. -/
theorem update_run (C : Ctx) (w : World) :
    update C w = match facadeCheck C.sys C.ext C.dir true (checking w) with
      | (.ret (.ok info), w1) => answer C info w1
      | (.ret (.error e), w1) => die e w1
      | (.panic, w1) => (.panic, w1)
      | (.fatal, w1) => (.fatal, w1) := by
  have : update C w = (facadeCheck C.sys C.ext C.dir true >>= fun r =>
      match r with | Except.error e => die e | Except.ok info => answer C info) (checking w) := rfl
  rw [this, bind_run]
  cases facadeCheck C.sys C.ext C.dir true (checking w) with
  | mk o w1 =>
    cases o with
    | panic => rfl
    | fatal => rfl
    | ret r => cases r <;> rfl

theorem foot_facadeCheck (C : Ctx) (cwd : List Bytes) (A : Ev → Prop) (h1 : ∀ t, A (.request Upd.githubReleases t)) :
    Rel (Foot cwd (StampLoc cwd C.dir) A) (facadeCheck C.sys C.ext C.dir true) := by
  refine Rel.bind (foot_chain _ _ _) (rel_read (foot_chain _ _ _)) (fun c => ?_)
  refine rel_checkForUpdate C.sys (foot_chain _ _ _) _ _ _ _ _ (foot_fetchInfo _ _ _ _ _ (h1 _)) ?_
    (foot_shouldCheck _ _ _ _ _ _ _)
  exact foot_checkTimestamp _ _ _ _ _ (fun l hl _ => .inl hl) (.inr rfl)

theorem calm_facadeCheck (C : Ctx) : Rel Calm (facadeCheck C.sys C.ext C.dir true) :=
  Rel.bind calm_chain (rel_read calm_chain) (fun c => calm_checkForUpdate C.sys C.ext _ _ true C.dir)

/-- What may happen when the user does not agree: questions to the release server, text, one answer read. -/
def Harmless : Ev → Prop
  | .request u _ => u = githubReleases
  | .out _ | .scan => True
  | _ => False

/-- C59. Without a yes nothing is downloaded and nothing is replaced: from any state, whatever the server says and
whatever fails, at no time is anything touched but the time stamp (and missing directories above it), no stage of an
installation is announced, and the command does not end with success. -/
theorem C59_no_consent (C : Ctx) (w : World) (a rest : Bytes) (ht : Types w.stdin a rest) (hn : ¬ Yes C.env.text a) :
    Foot w.disk.cwd (StampLoc w.disk.cwd C.dir) Harmless w (command C .update w).2 ∧ (command C .update w).1 ≠ .ret () := by
  have hch := foot_chain w.disk.cwd (StampLoc w.disk.cwd C.dir) Harmless
  have hout : ∀ b (w : World), Foot w.disk.cwd (StampLoc w.disk.cwd C.dir) Harmless w { w with log := w.log ++ [.out b] } :=
    fun b w _ => ⟨rfl, fun _ _ => rfl, [.out b], rfl, by simp [Allowed, Harmless]⟩
  have hc := foot_facadeCheck C w.disk.cwd Harmless (fun t => rfl)
    (checking w)
  have hs := calm_facadeCheck C (checking w)
  show Foot _ _ _ w (update C w).2 ∧ (update C w).1 ≠ _
  rw [update_run C w]
  revert hc hs
  cases facadeCheck C.sys C.ext C.dir true
        (checking w) with
  | mk o w1 =>
    intro hc hs
    have hw1 := hch.trans _ _ _ (hout b!"Checking for 1pass application updates...\n" w) hc
    have hcwd : w1.disk.cwd = w.disk.cwd := (hw1 rfl).1
    cases o with
    | panic => exact ⟨hw1, by simp⟩
    | fatal => exact ⟨hw1, by simp⟩
    | ret r =>
      cases r with
      | error e =>
        have := hout (e.text ++ [10]) w1
        rw [hcwd] at this
        exact ⟨hch.trans _ _ _ hw1 this, by simp [die, bind_run, println, emit, exit, Prog.lift]⟩
      | ok info =>
        have hst : w1.stdin = w.stdin := hs.2.1
        show Foot _ _ _ w (answer C info w1).2 ∧ (answer C info w1).1 ≠ _
        rw [answer_no C info w1 a rest (by rw [hst]; exact ht) hn]
        refine ⟨hch.trans _ _ _ hw1 (fun h => ⟨h, fun _ _ => rfl, offer info ++ [.out b!"Aborting update...\n"], by simp, ?_⟩), by simp⟩
        intro e he
        simp only [offer, List.mem_append, List.mem_cons, List.not_mem_nil, or_false] at he
        rcases he with (rfl | rfl | rfl) | rfl <;> simp [Allowed, Harmless]

/-- The program itself stays, if its place is not that of the time stamp. -/
theorem C59_program_stays (C : Ctx) (w : World) (a rest : Bytes) (ht : Types w.stdin a rest) (hn : ¬ Yes C.env.text a)
    (e : Bytes) (hloc : ¬ StampLoc w.disk.cwd C.dir (Path.resolve w.disk.cwd e)) :
    (command C .update w).2.disk.at? (Path.resolve w.disk.cwd e) = w.disk.at? (Path.resolve w.disk.cwd e) :=
  ((C59_no_consent C w a rest ht hn).1 rfl).2.1 _ hloc

/-- Whoever answers has been shown the offer: an answer is read only after the version and the notes are on the screen. -/
theorem C59_informed (C : Ctx) (w : World) (es : List Ev) (h : (command C .update w).2.log = w.log ++ es) (hscan : .scan ∈ es) :
    ∃ pre info w1, facadeCheck C.sys C.ext C.dir true
        (checking w) = (.ret (.ok info), w1) ∧
      w1.log = w.log ++ pre ∧ .scan ∉ pre ∧ command C .update w = answer C info w1 := by
  have hc := foot_facadeCheck C w.disk.cwd (fun e => e ≠ .scan) (fun t => by simp)
    (checking w) rfl
  have hrun := update_run C w
  change (update C w).2.log = _ at h
  show ∃ pre info w1, _ ∧ _ ∧ _ ∧ update C w = _
  rw [hrun] at h ⊢
  revert h hc
  cases facadeCheck C.sys C.ext C.dir true
        (checking w) with
  | mk o w1 =>
    rintro ⟨-, -, fs, hl, hall⟩ h
    have hl' : w1.log = w.log ++ (.out b!"Checking for 1pass application updates...\n" :: fs) := by rw [hl]; simp [checking]
    have hno : Ev.scan ∉ Ev.out b!"Checking for 1pass application updates...\n" :: fs := by
      intro hm
      rcases List.mem_cons.1 hm with h0 | h0
      · cases h0
      · exact hall _ h0 rfl
    cases o with
    | panic =>
      rw [show ((Out.panic, w1) : Out Unit × World).2.log = _ from hl'] at h
      rw [List.append_cancel_left h] at hno
      exact absurd hscan hno
    | fatal =>
      rw [show ((Out.fatal, w1) : Out Unit × World).2.log = _ from hl'] at h
      rw [List.append_cancel_left h] at hno
      exact absurd hscan hno
    | ret r =>
      cases r with
      | error e =>
        have : (die e w1).2.log = w1.log ++ [.out (e.text ++ [10])] := rfl
        have h' : (die e w1).2.log = w.log ++ es := h
        rw [this, hl', List.append_assoc] at h'
        rw [← List.append_cancel_left h'] at hscan
        rcases List.mem_append.1 hscan with h0 | h0
        · exact absurd h0 hno
        · simp at h0
      | ok info => exact ⟨_, info, w1, rfl, hl', hno, rfl⟩

/-! ### C82 -/

/-- The installation a yes leads to is the one of the release that the server describes when it is asked again. -/
theorem facadeUpdate_run (S : Sys) (X : Ext) (cb : Nat → Ev) (w : World) (c : Config) (hc : Conf.getConfig w.conf = .ret c) :
    facadeUpdate S X cb w = Upd.update S X c.timeout cb w := by
  unfold facadeUpdate
  rw [bind_run, read_run, hc]

/-- The server describes the same newest release whenever it is asked. -/
def Steady (S : Sys) : Prop := ∀ n m, S.answer n githubReleases = S.answer m githubReleases

theorem lastUrl_unique {kind : Bytes × Option Bytes → Prop} {l : List (Bytes × Option Bytes)} {u v : Bytes}
    (h : LastUrl kind l u) (h' : LastUrl kind l v) : u = v := by
  rcases h with ⟨b, n, a, h1, h2, h3⟩ | ⟨h1, rfl⟩ <;> rcases h' with ⟨b', n', a', h1', h2', h3'⟩ | ⟨h1', rfl⟩
  · rw [h1] at h1'
    rcases List.append_eq_append_iff.1 h1' with ⟨c, hc, hd⟩ | ⟨c, hc, hd⟩
    · cases c with
      | nil => simp at hd; exact hd.1.2
      | cons x xs =>
        simp only [List.cons_append, List.cons.injEq] at hd
        exact absurd h2' (h3 _ (by rw [hd.2]; simp))
    · cases c with
      | nil => simp at hd; exact hd.1.2.symm
      | cons x xs =>
        simp only [List.cons_append, List.cons.injEq] at hd
        exact absurd h2 (h3' _ (by rw [hd.2]; simp))
  · exact absurd h2 (h1' _ (by rw [h1]; simp))
  · exact absurd h2' (h1 _ (by rw [h1']; simp))
  · rfl

theorem describes_unique {r : Release} {i j : UpdateInfo} (h : Describes r i) (h' : Describes r j) : i = j := by
  have h5 : i.newer = j.newer := by
    have := h.newer.trans h'.newer.symm
    cases hi : i.newer <;> cases hj : j.newer <;> simp [hi, hj] at this ⊢
  have h1 := h.version.trans h'.version.symm
  have h2 := h.changelog.trans h'.changelog.symm
  have h3 := lastUrl_unique h.archive h'.archive
  have h4 := lastUrl_unique h.checksum h'.checksum
  cases i; cases j
  simp_all

theorem described_once {S : Sys} (hs : Steady S) {n : Nat} {w : World} {i j : UpdateInfo} (h : OfferedAs S w i)
    (h' : answered (S.answer n githubReleases) = .ret (.ok (some j))) : j = i := by
  obtain ⟨body, r, h1, h2, -, h3⟩ := h
  rw [hs n w.tick, h1] at h'
  rcases releaseInfo_published body r h2 with ⟨k, h4, h5, -⟩ | ⟨h4, -⟩
  · have : releaseInfo body = .ret (.ok (some j)) := h'
    rw [h4] at this
    cases this
    exact describes_unique h5 h3
  · have : releaseInfo body = .ret (.ok (some j)) := h'
    rw [h4] at this; cases this

/-- C82, as far as it holds: if the server describes the same release both times it is asked, then after `update` ended
well the user was offered that version, said yes, and the program is the one of that version. Missing: a server that
describes another release when it is asked again (`C82_refuted`); and, as in `C48_verified_partial`, archives that bring
more than the program. -/
theorem C82_as_agreed_partial (C : Ctx) (hs : Steady C.sys) (w w' : World) (e : Bytes) (he : C.sys.exe = some e)
    (ha : Apart (Path.resolve w.disk.cwd e))
    (hb : ∀ v i, OfferedAs C.sys v i → ¬ Brings C.sys C.ext i (Path.resolve w.disk.cwd e) ∧ ¬ Brings C.sys C.ext i checksumLoc)
    (a rest : Bytes) (ht : Types w.stdin a rest) (h : command C .update w = (.ret (), w')) :
    Yes C.env.text a ∧ ∃ info data pre post, w'.log = w.log ++ pre ++ offer info ++ post ∧
      Genuine C.sys C.ext info data ∧ w'.disk.at? (Path.resolve w.disk.cwd e) = some (.file data false) := by
  have hy : Yes C.env.text a := by
    by_contra hn
    exact (C59_no_consent C w a rest ht hn).2 (by rw [h])
  refine ⟨hy, ?_⟩
  have hfc := foot_facadeCheck C w.disk.cwd (fun _ => True) (fun t => trivial) (checking w) rfl
  have hcalm := calm_facadeCheck C (checking w)
  have hasked : ∀ info w1, facadeCheck C.sys C.ext C.dir true (checking w) = (.ret (.ok info), w1) →
      (∃ c, Conf.getConfig w.conf = .ret c) ∧ answered (C.sys.answer w.tick githubReleases) = .ret (.ok (some info)) := by
    intro info w1 h0
    unfold facadeCheck at h0
    rw [bind_run, read_run] at h0
    cases hg : Conf.getConfig (checking w).conf with
    | panic => rw [hg] at h0; cases h0
    | fatal => rw [hg] at h0; cases h0
    | ret c =>
      rw [hg] at h0
      simp only at h0
      rw [check_asks C.sys C.ext c.period c.timeout true C.dir (checking w) (checking w) (by simp) (fun _ => rfl)] at h0
      refine ⟨⟨c, hg⟩, ?_⟩
      show answered (C.sys.answer (checking w).tick githubReleases) = _
      revert h0
      cases answered (C.sys.answer (checking w).tick githubReleases) with
      | panic => intro h0; cases h0
      | fatal => intro h0; cases h0
      | ret r =>
        cases r with
        | error e => intro h0; cases h0
        | ok o =>
          cases o with
          | none => intro h0; cases h0
          | some i =>
            intro h0
            simp only [Prod.mk.injEq, Out.ret.injEq] at h0
            by_cases hi : i.newer = true
            · rw [if_pos hi] at h0; cases h0.1; rfl
            · rw [if_neg hi] at h0; cases h0.1
  have hrun := update_run C w
  change update C w = _ at h
  rw [hrun] at h
  clear hrun
  revert h hfc hcalm hasked
  cases facadeCheck C.sys C.ext C.dir true (checking w) with
  | mk o w1 =>
    cases o with
    | panic => intro _ _ _ h; cases h
    | fatal => intro _ _ _ h; cases h
    | ret r =>
      cases r with
      | error e => intro _ _ _ h; cases h
      | ok info =>
        rintro ⟨hcwd, hdisk, pre, hpre, -⟩ ⟨hconf, hstdin, -⟩ hasked h
        obtain ⟨⟨c, hc⟩, hans⟩ := hasked info w1 rfl
        have h' : answer C info w1 = (.ret (), w') := h
        rw [answer_yes C info w1 a rest (by rw [hstdin]; exact ht) hy] at h'
        generalize hv : ({ w1 with stdin := rest, log := w1.log ++ offer info ++
          [.out (b!"Updating 1pass application from version 1.3.1 to " ++ info.version ++ b!"...\n")] } : World) = v at h'
        have hvc : Conf.getConfig v.conf = .ret c := by rw [← hv]; show Conf.getConfig w1.conf = _; rw [hconf]; exact hc
        have hvd : v.disk = w1.disk := by rw [← hv]
        have hvl : v.log = w1.log ++ offer info ++
          [.out (b!"Updating 1pass application from version 1.3.1 to " ++ info.version ++ b!"...\n")] := by rw [← hv]
        clear hv
        unfold installing at h'
        rw [bind_run, facadeUpdate_run C.sys C.ext _ v c hvc] at h'
        have hcb : ∀ n d, (fun n => Ev.out (stageText n ++ [10])) n ≠ .disk d := by intro n d; simp
        have hcw' : v.disk.cwd = w.disk.cwd := by rw [hvd]; exact hcwd
        have hinst := (C48_verified_partial C.sys C.ext c.timeout (fun n => .out (stageText n ++ [10])) hcb v e he
          (by rw [hcw']; exact ha) (fun i hi => by rw [hcw']; exact hb v i hi)).2
        obtain ⟨fs, hfs, -⟩ := coh_update C.sys C.ext c.timeout (fun n => .out (stageText n ++ [10])) hcb v
        revert h' hinst hfs
        cases Upd.update C.sys C.ext c.timeout (fun n => .out (stageText n ++ [10])) v with
        | mk o w2 =>
          cases o with
          | panic => intro h'; cases h'
          | fatal => intro h'; cases h'
          | ret r =>
            cases r with
            | error e => intro h'; cases h'
            | ok u =>
              intro h' hinst hfs
              obtain ⟨i, data, h1, h2, h3⟩ := hinst rfl
              have hi := described_once hs h1 hans
              subst hi
              have hw' : w' = { w2 with log := w2.log ++ [.out (b!"1pass application updated to version " ++ info.version ++ [10])] } := by
                have := congrArg Prod.snd h'
                exact this.symm
              refine ⟨info, data, .out b!"Checking for 1pass application updates...\n" :: pre,
                [.out (b!"Updating 1pass application from version 1.3.1 to " ++ info.version ++ b!"...\n")] ++ fs ++
                  [.out (b!"1pass application updated to version " ++ info.version ++ [10])], ?_, h2, ?_⟩
              · rw [hw']
                show w2.log ++ _ = _
                rw [hfs, hvl, hpre]
                simp [checking, List.append_assoc]
              · rw [hw']
                show w2.disk.at? _ = _
                rw [← h3, hcw']

/-- Another release, with other files. -/
def laterBody : Bytes := b!"[{\"tag_name\":\"1.5.0\",\"body\":\"more\",\"assets\":[{\"name\":\"1pass.tar.gz\",\"browser_download_url\":\"u/c\"},{\"name\":\"1pass.md5\",\"browser_download_url\":\"u/t\"}]}]"

/-- A server that publishes the other release after it was asked for the first time. -/
def fickle : Ctx :=
  { demo [] 0 with
    sys := { Toy.sys [] 0 with
      answer := fun n url =>
        if url = b!"u/a" then .body b!"new" true else if url = b!"u/s" then .body sampleSum true
        else if url = b!"u/c" then .body b!"later" true else if url = b!"u/t" then .body (hexText (Toy.ext.md5 b!"later")) true
        else if n = 0 then .body sampleBody true else .body laterBody true } }

/-- The same server, if nothing is published meanwhile. -/
def steady : Ctx :=
  { fickle with sys := { fickle.sys with answer := fun n url => if url = githubReleases then .body sampleBody true else fickle.sys.answer n url } }

/-- The configured user, with the program installed. -/
def updater (stdin : Bytes) : World := { user stdin with disk := { samplePlace with fs := samplePlace.fs ++ (user stdin).disk.fs } }

def fickleRun := command fickle .update (updater b!"y\n")
def steadyRun := command steady .update (updater b!"y\n")
def declinedRun := command steady .update (updater b!"yes\n")

/-- C59: `yes` is not a yes. -/
example : Types (updater b!"yes\n").stdin b!"yes" [] ∧ ¬ Yes .toy b!"yes" :=
  ⟨⟨[], [], [121, 101, 115], by simp, by simp, by decide, rfl, .inl rfl⟩, by decide +kernel⟩
example : declinedRun.1 = .fatal ∧ declinedRun.2.log.getLast? = some (.out b!"Aborting update...\n") ∧
    declinedRun.2.disk.at? [b!"usr", b!"bin", b!"1pass"] = some (.file b!"old" true) ∧
    declinedRun.2.disk.at? [b!"tmp", b!"1pass", b!"1pass"] = some (.file b!"left" false) := by decide +kernel
example : ¬ StampLoc [] b!"/h" (Path.resolve [] b!"/usr/bin/1pass") := by
  rintro (h | h)
  · have h1 := h.length_le
    have h2 : ¬ (Path.resolve [] b!"/usr/bin/1pass").length ≤ (Path.resolve [] b!"/h").length := by decide +kernel
    exact h2 h1
  · have h2 : Path.resolve [] b!"/usr/bin/1pass" ≠ Path.resolve [] (Path.join [b!"/h", Upd.lastCheckFile]) := by decide +kernel
    exact h2 h

/-- C82: the version offered is the version installed. -/
theorem steady_done : steadyRun.1 = .ret () ∧ offer sampleInfo <:+: steadyRun.2.log ∧
    steadyRun.2.disk.at? [b!"usr", b!"bin", b!"1pass"] = some (.file b!"new" false) := by decide +kernel
example : Steady steady.sys := fun _ _ => rfl
example : Yes .toy b!"y" := by decide +kernel

/-- C82 fails: the user agrees to 1.4.0 and is told that it was installed; what is installed is the other release. -/
theorem C82_refuted : fickleRun.1 = .ret () ∧ offer sampleInfo <:+: fickleRun.2.log ∧
    fickleRun.2.log.getLast? = some (.out b!"1pass application updated to version 1.4.0\n") ∧
    fickleRun.2.disk.at? [b!"usr", b!"bin", b!"1pass"] = some (.file b!"later" false) ∧
    ¬ Genuine fickle.sys fickle.ext sampleInfo b!"later" := by
  refine ⟨by decide +kernel, by decide +kernel, by decide +kernel, by decide +kernel, ?_⟩
  rintro ⟨n, archive, m, sums, before, entry, after, h1, -, h3, -, -, -, h6, -⟩
  have h0 : fickle.sys.answer n sampleInfo.archiveUrl = .body b!"new" true := rfl
  rw [h0] at h1
  cases h1
  have hm : entry ∈ (fickle.ext.untar b!"new").1 := by rw [h3]; simp
  have : fickle.ext.untar b!"new" = ([⟨b!"1pass", true, b!"new", true⟩], true) := rfl
  rw [this, List.mem_singleton] at hm
  subst hm
  exact absurd h6 (by decide)

/-! ### C83 -/

/-- Where a command other than `update` may write: the configuration file, the time stamp, directories above them. -/
def OwnLoc (cwd : List Bytes) (dir : Bytes) (l : List Bytes) : Prop :=
  StampLoc cwd dir l ∨ l = Path.resolve cwd (Conf.path dir)

/-- What may happen: questions to the release server, text, tables, answers and passwords read. -/
def Ordinary : Ev → Prop
  | .request u _ => u = githubReleases
  | .out _ | .scan | .table _ _ | .password => True
  | _ => False

/-- C83. Whatever happens, whatever fails: a run of a command other than `update` at no time touches anything but the
configuration file and the time stamp (and directories above them), asks no server but the one for releases, and asks
that only for the list of releases. In particular no vault is ever changed. -/
theorem C83_footprint (C : Ctx) (cmd : Cmd) (hcmd : cmd ≠ .update) (w : World) :
    Foot w.disk.cwd (OwnLoc w.disk.cwd C.dir) Ordinary w (main C cmd w).2 := by
  generalize w.disk.cwd = cwd
  have hR := foot_chain cwd (OwnLoc cwd C.dir) Ordinary
  have hout : ∀ b, Rel (Foot cwd (OwnLoc cwd C.dir) Ordinary) (emit (.out b)) := fun b => foot_emit _ _ _ (by simp) trivial
  have htab : ∀ h r, Rel (Foot cwd (OwnLoc cwd C.dir) Ordinary) (emit (.table h r)) :=
    fun h r => foot_emit _ _ _ (by simp) trivial
  have hcheck : Rel (Foot cwd (OwnLoc cwd C.dir) Ordinary) (checkForUpdate C) := by
    refine rel_cliCheck hR C (fun t p => ?_) hout
    refine rel_checkForUpdate C.sys hR _ _ _ _ _ (foot_fetchInfo _ _ _ _ t rfl) ?_ (foot_shouldCheck _ _ _ _ _ _ _)
    exact foot_checkTimestamp _ _ _ _ _ (fun l hl _ => .inl (.inl hl)) (.inl (.inr rfl))
  have hconf : Rel (Foot cwd (OwnLoc cwd C.dir) Ordinary) (configure C) :=
    rel_configure hR C hcheck hout (foot_scanln _ _ _ trivial)
      (fun c => foot_save _ _ _ _ _ _ _ (fun l hl => .inl (.inl hl)) (.inr rfl))
  have hfirst := rel_firstRun hR C hout hconf
  have hboot : Rel (Foot cwd (OwnLoc cwd C.dir) Ordinary) (Conf.boot C.sys C.ext C.dir) :=
    Rel.bind hR (foot_load _ _ _ _ _ _) (fun m => foot_fresh _ _ _ m)
  have hasks : ∀ cmd : Cmd, cmd.asks = true → Rel (Foot cwd (OwnLoc cwd C.dir) Ordinary) (command C cmd) := fun cmd h =>
    rel_command hR C cmd h hfirst hcheck hout htab (foot_readPassword _ _ _ _ trivial) (fun f => foot_onSession _ _ _ f)
  refine Rel.bind hR hboot (fun _ => ?_) w
  cases cmd with
  | update => exact absurd rfl hcmd
  | gui v => exact hasks _ rfl
  | list v c n t => exact hasks _ rfl
  | overview v u t => exact hasks _ rfl
  | details v u t => exact hasks _ rfl
  | configure => exact hconf
  | categories =>
    refine Rel.bind hR hcheck (fun _ => rel_get (fun w => ?_))
    exact Rel.bind hR (fun w hw => ⟨hw, fun _ _ => rfl, [], by simp [setSess], by simp⟩) (fun _ => htab _ _)
  | version => exact hout _

/-- The vault: everything below its directory is as it was, at every moment and afterwards, if the configuration is kept
elsewhere. -/
theorem C83_vault_untouched (C : Ctx) (cmd : Cmd) (hcmd : cmd ≠ .update) (w : World) (vault : Bytes) (l : List Bytes)
    (hl : Path.resolve w.disk.cwd vault <+: l)
    (hapart : ∀ m, Path.resolve w.disk.cwd vault <+: m → ¬ OwnLoc w.disk.cwd C.dir m) :
    (main C cmd w).2.disk.at? l = w.disk.at? l ∧
      ∃ es, (main C cmd w).2.log = w.log ++ es ∧ ∀ d, .disk d ∈ es → d.at? l = w.disk.at? l := by
  obtain ⟨-, h2, es, h3, h4⟩ := C83_footprint C cmd hcmd w rfl
  exact ⟨h2 l (hapart l hl), es, h3, fun d hd => (h4 _ hd).2 l (hapart l hl)⟩

/-- A vault next to the configuration directory. -/
example : ∀ m, Path.resolve [] b!"/v" <+: m → ¬ OwnLoc [] b!"/h" m := by
  have h1 : Path.resolve [] b!"/v" = [b!"v"] := by decide +kernel
  have h2 : Path.resolve [] b!"/h" = [b!"h"] := by decide +kernel
  have h3 : Path.resolve [] (Path.join [b!"/h", Upd.lastCheckFile]) = [b!"h", Upd.lastCheckFile] := by decide +kernel
  have h4 : Path.resolve [] (Conf.path b!"/h") = [b!"h", b!"1pass.yml"] := by decide +kernel
  rintro m ⟨r, rfl⟩
  unfold OwnLoc StampLoc
  rw [h1, h2, h3, h4]
  rintro ((⟨q, h⟩ | h) | h) <;> simp at h

/-! ### C84 -/

theorem lessCode_weak : StrictWeak lessCode where
  irrefl a := by simp [lessCode, Str.lt]
  trans a b c h1 h2 := by
    simp only [lessCode, Str.lt, decide_eq_true_eq] at *
    exact List.lt_trans h1 h2
  incomp a b c h1 h2 h3 h4 := by
    simp only [lessCode, Str.lt, decide_eq_false_iff_not, List.not_lt] at *
    have e1 := List.le_antisymm h1 h2
    have e2 := List.le_antisymm h3 h4
    rw [e2] at *
    rw [e1] at *
    exact ⟨List.le_refl _, List.le_refl _⟩

theorem numbered_get {α : Type} (f : α → List Bytes) (l : List α) (n : Nat) :
    (numbered n (l.map f)).length = l.length ∧
    ∀ (k : Nat) (a : α), l[k]? = some a → (numbered n (l.map f))[k]? = some (Num.natDec (n + k) :: f a) := by
  induction l generalizing n with
  | nil => simp [numbered]
  | cons x xs ih =>
    obtain ⟨h1, h2⟩ := ih (n + 1)
    refine ⟨by simp [numbered, h1], fun k a hk => ?_⟩
    cases k with
    | zero =>
      simp only [List.getElem?_cons_zero, Option.some.injEq] at hk
      subst hk
      simp [numbered]
    | succ k =>
      simp only [List.getElem?_cons_succ] at hk
      simp only [List.map_cons, numbered, List.getElem?_cons_succ, h2 k a hk]
      rw [show n + 1 + k = n + (k + 1) by omega]

/-- C84. `categories` prints every category once, by code, numbered from 1. -/
theorem C84_categories (C : Ctx) (w w1 : World) (h : checkForUpdate C w = (.ret (), w1)) (hreg : w.sess.reg.Perm Cat.values) :
    ∃ cats : List Cat, cats.Perm Cat.values ∧ cats.Pairwise (fun a b => a.code ≤ b.code) ∧
      ∃ rows : List (List Bytes), rows.length = cats.length ∧
        (∀ (k : Nat) (c : Cat), cats[k]? = some c → rows[k]? = some [Num.natDec (k + 1), c.name]) ∧
        (command C .categories w).1 = .ret () ∧
        (command C .categories w).2.log = w1.log ++ [.table [b!"lp.", b!"category"] rows] := by
  have hs : w1.sess = w.sess := by
    have := (calm_cliCheck C w).2.2
    rw [h] at this; exact this
  have hrun : command C .categories w = (.ret (), { w1 with
      sess := w1.sess.sortReg C.sorter lessCode, log := w1.log ++ [.table [b!"lp.", b!"category"]
        (numbered 1 ((w1.sess.sortReg C.sorter lessCode).reg.map (fun c => [c.name])))] }) := by
    show getCategories C w = _
    unfold getCategories
    rw [bind_run, h]
    rfl
  rw [hrun]
  refine ⟨C.sorter.run lessCode w1.sess.reg, ?_, ?_, numbered 1 ((C.sorter.run lessCode w1.sess.reg).map (fun c => [c.name])),
    (numbered_get _ _ 1).1, fun k c hk => ?_, rfl, rfl⟩
  · exact (C.sorter.perm _ _).trans (by rw [hs]; exact hreg)
  · refine (C.sorter.sorted lessCode _ lessCode_weak).imp ?_
    intro a b hab
    simpa [lessCode, Str.lt, List.not_lt] using hab
  · rw [(numbered_get _ _ 1).2 k c hk, Nat.add_comm]

/-- The first rows of a run with the registry in another order. -/
example : ((command (demo [] 0) .categories { user [] with sess := { Session.init with reg := Cat.values.reverse } }).2.log.map
    (fun e => match e with | .table h r => (h, r.take 2, r.length) | _ => ([], [], 0))) =
    [([b!"lp.", b!"category"], [[b!"1", b!"Login"], [b!"2", b!"Credit Card"]], Cat.values.length)] := by decide +kernel

end Cli
end OnePass
