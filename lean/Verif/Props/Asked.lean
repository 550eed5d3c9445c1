/-
C139: on the first run the server is contacted before the user has been asked whether it may be.
-/
import Verif.Props.Rarely

set_option linter.unusedSimpArgs false

namespace OnePass
namespace Cli
open Prog Upd Fmt Spec Http

/-- The commands that open a vault begin with FirstRun. -/
theorem asks_first {R : World → World → Prop} (hR : Chain R) (C : Ctx) (cmd : Cmd) (h : cmd.asks = true) (w : World)
    (hcheck : Rel R (checkForUpdate C)) (hout : ∀ b, Rel R (emit (.out b))) (htab : ∀ a b, Rel R (emit (.table a b)))
    (hpw : Rel R (Os.readPassword C.sys))
    (hsess : ∀ {α : Type} (f : Disk → Session → Out (α × Session)), Rel R (onSession f)) :
    ∃ k : Unit → Prog Unit, command C cmd w = (firstRun C >>= k) w ∧ ∀ x, Rel R (k x) := by
  have hopen : ∀ flag (f : Unit → Prog Unit), (∀ x, Rel R (f x)) →
      ∃ k : Unit → Prog Unit, (openVault C flag >>= f) w = (firstRun C >>= k) w ∧ ∀ x, Rel R (k x) := by
    intro flag f hf
    have h1 : ∃ k : Unit → Prog Unit, openVault C flag = (firstRun C >>= k) ∧ ∀ x, Rel R (k x) := by
      refine ⟨_, rfl, fun _ => Rel.bind hR hcheck (fun _ => Rel.bind hR (rel_chooseVault hR flag) (fun v =>
        Rel.bind hR (hsess _) (fun r => ?_)))⟩
      cases r with
      | error e => exact rel_die hR e hout
      | ok _ =>
        refine Rel.bind hR (hout _) (fun _ => Rel.bind hR hpw (fun pw => Rel.bind hR (hsess _) (fun r => ?_)))
        cases r with
        | error e => exact rel_die hR e hout
        | ok _ => exact Rel.pure hR _
    obtain ⟨k, h1, h2⟩ := h1
    refine ⟨fun x => k x >>= f, ?_, fun x => Rel.bind hR (h2 x) hf⟩
    rw [bind_run, h1, bind_run, bind_run]
    rcases firstRun C w with ⟨o, w1⟩
    cases o with
    | ret x => simp only; rw [bind_run]
    | panic => rfl
    | fatal => rfl
  cases cmd with
  | gui v =>
    refine ⟨fun _ => Prog.pure (), ?_, fun _ => Rel.pure hR _⟩
    show firstRun C w = _
    rw [bind_run]
    rcases firstRun C w with ⟨o, w1⟩
    cases o <;> rfl
  | list v c n t =>
    refine hopen v _ (fun _ => rel_get (fun w => ?_))
    cases categoryFilter C w.sess.reg c with
    | error e => exact rel_die hR e hout
    | ok cat =>
      show Rel R (if _ then _ else _)
      split
      · exact htab _ _
      · exact hout _
  | overview v u t => exact hopen v _ (fun _ => rel_printItem hR C true u t hout)
  | details v u t => exact hopen v _ (fun _ => rel_printItem hR C false u t hout)
  | update => cases h
  | configure => cases h
  | categories => cases h
  | version => cases h

/-- What happens when `f` only extends the log: the beginning stays. -/
theorem prefix_bind {α β : Type} {m : Prog α} {f : α → Prog β} {w : World} {l : List Ev}
    (h1 : ∃ es, (m w).2.log = w.log ++ l ++ es) (h2 : ∀ a, Rel Grow (f a)) : ∃ es, ((m >>= f) w).2.log = w.log ++ l ++ es := by
  rw [bind_run]
  obtain ⟨es, h1⟩ := h1
  rcases hr : m w with ⟨o, w'⟩
  rw [hr] at h1
  cases o with
  | ret a =>
    obtain ⟨es', h3⟩ := h2 a w'
    refine ⟨es ++ es', ?_⟩
    show (f a w').2.log = _
    rw [h3, show w'.log = w.log ++ l ++ es from h1]; simp
  | panic => exact ⟨es, h1⟩
  | fatal => exact ⟨es, h1⟩

theorem grow_cliCheck (C : Ctx) : Rel Grow (checkForUpdate C) := by
  intro w
  obtain ⟨-, -, es, h1, -⟩ := foot_cliCheck C w.disk.cwd (fun _ => True) (fun _ => trivial) (fun _ => trivial) w rfl
  exact ⟨es, h1⟩

/-- Without any setting the defaults apply: ask the server, every day, with one second of patience. -/
theorem no_settings {conf : Option YMap} (h : conf = none ∨ conf = some []) :
    ∃ c, Conf.getConfig conf = .ret c ∧ c.notify = true ∧ c.timeout = 1 ∧ c.period = 1 := by
  rcases h with rfl | rfl <;> exact ⟨_, rfl, rfl, rfl, rfl⟩

/-- The check of a process without settings, with no time stamp on the disk. -/
theorem unset_check (C : Ctx) (w : World) (h : w.conf = none ∨ w.conf = some []) (hst : ∀ s, ¬ Stamped w.disk C.dir s) :
    ∃ es, (checkForUpdate C w).2.log = w.log ++ [.request githubReleases 1] ++ es := by
  obtain ⟨c, hc, hn, ht, -⟩ := no_settings h
  obtain ⟨e1, h3⟩ := C56_no_stamp C.sys C.ext c.period c.timeout C.dir w hst
  rw [ht] at h3
  unfold checkForUpdate
  rw [bind_run, read_run, hc]
  simp only
  rw [if_pos hn]
  have h6 : Upd.facadeCheck C.sys C.ext C.dir false w = Upd.checkForUpdate C.sys C.ext c.period c.timeout false C.dir w := by
    unfold Upd.facadeCheck
    rw [bind_run, read_run, hc]
  refine prefix_bind (l := [.request githubReleases 1]) ⟨e1, ?_⟩ (fun r => ?_)
  · rw [h6, ht, h3]; simp
  · cases r with
    | error e => exact Rel.pure grow_chain _
    | ok i => exact fun w => ⟨[_], rfl⟩

/-- The rest of the dialog, in which nothing is asked of anyone but the user. -/
theorem dialog_noAsk (C : Ctx) : ∃ d : Prog Unit, configure C = (checkForUpdate C >>= fun _ => d) ∧ Rel NoAsk d ∧ Rel Grow d := by
  refine ⟨_, rfl, ?_, ?_⟩
  · exact rel_dialog noAsk_chain C (fun b w => ⟨[.out b], rfl, by simp [NoRequest]⟩)
      (fun w => ⟨[.scan], rfl, by simp [NoRequest]⟩)
      (fun c => noAsk_of_foot (fun cwd => foot_save _ _ _ _ _ _ _ (fun _ _ => trivial) trivial))
  · exact rel_dialog grow_chain C (fun b w => ⟨[.out b], rfl⟩) (fun w => ⟨[.scan], rfl⟩)
      (fun c => grow_of_foot (fun cwd => foot_save _ _ _ _ _ _ _ (fun _ _ => trivial) trivial))

theorem unset_configure (C : Ctx) (w : World) (h : w.conf = none ∨ w.conf = some []) (hst : ∀ s, ¬ Stamped w.disk C.dir s) :
    ∃ es, (configure C w).2.log = w.log ++ [.request githubReleases 1] ++ es := by
  obtain ⟨d, hd, -, hg⟩ := dialog_noAsk C
  rw [hd]
  exact prefix_bind (unset_check C w h hst) (fun _ => hg)

theorem firstRun_unset (C : Ctx) (w : World) (h : w.conf = none ∨ w.conf = some []) :
    firstRun C w = (configure C >>= fun _ => println []) { w with log := w.log ++ [banner, .out b!"\n"] } := by
  have hav : Conf.isAvailable w.conf = false := by rcases h with h | h <;> rw [h] <;> rfl
  unfold firstRun
  rw [bind_run]
  simp only [Prog.get, hav, Bool.false_eq_true, if_false]
  rw [bind_run]
  show (println [] >>= _) _ = _
  rw [bind_run]
  show (configure C >>= _) _ = _
  simp only [List.append_assoc]
  rfl

/-! ### C139 -/

/-- C139, as one would like it: on a run without a configuration the server is only contacted after the user has
answered something (let alone the question whether to notify of updates). -/
def C139_wish : Prop := ∀ (C : Ctx) (cmd : Cmd) (w : World) (conf : Option YMap), C.sys.Quiet → cmd ≠ .update →
  Conf.loaded C.ext w.disk C.dir = some conf → conf = none ∨ conf = some [] →
  ∀ a b u t, (main C cmd w).2.log = w.log ++ a ++ .request u t :: b → Ev.scan ∈ a

/-- C139. What happens instead: if neither a configuration nor the time of an earlier check is on the disk, every command
that opens a vault greets the user and contacts the server, before the first question. -/
theorem C139_before (C : Ctx) (hq : C.sys.Quiet) (cmd : Cmd) (hasks : cmd.asks = true) (w : World) (conf : Option YMap)
    (hl : Conf.loaded C.ext w.disk C.dir = some conf) (hno : conf = none ∨ conf = some [])
    (hst : ∀ s, ¬ Stamped w.disk C.dir s) :
    ∃ es, (main C cmd w).2.log = w.log ++ [banner, .out b!"\n", .request githubReleases 1] ++ es := by
  obtain ⟨k, hk⟩ := Conf.boot_run (X := C.ext) hq C.dir w
  rw [hl] at hk
  unfold main
  rw [bind_run, hk]
  simp only
  generalize hw0 : ({ w with tick := w.tick + k, conf := conf, sess := Session.init } : World) = w0
  have e0 : w.log = w0.log := by rw [← hw0]
  have e1 : w0.conf = none ∨ w0.conf = some [] := by rw [← hw0]; exact hno
  have e2 : ∀ s, ¬ Stamped w0.disk C.dir s := by rw [← hw0]; exact hst
  rw [e0]
  obtain ⟨f, h1, h2⟩ := asks_first grow_chain C cmd hasks w0 (grow_cliCheck C) (fun b w => ⟨[_], rfl⟩) (fun a b w => ⟨[_], rfl⟩)
    (grow_of_foot (fun _ => foot_readPassword _ _ _ _ trivial)) (fun f => grow_of_foot (fun _ => foot_onSession _ _ _ f))
  rw [h1]
  refine prefix_bind ?_ h2
  rw [firstRun_unset C w0 e1]
  obtain ⟨es, h3⟩ := prefix_bind (f := fun _ => println [])
    (unset_configure C { w0 with log := w0.log ++ [banner, .out b!"\n"] } e1 e2) (fun _ w => ⟨[_], rfl⟩)
  exact ⟨es, by rw [h3]; simp⟩

/-- C139, for `configure`: the same, without a greeting. -/
theorem C139_configure (C : Ctx) (hq : C.sys.Quiet) (w : World) (conf : Option YMap)
    (hl : Conf.loaded C.ext w.disk C.dir = some conf) (hno : conf = none ∨ conf = some [])
    (hst : ∀ s, ¬ Stamped w.disk C.dir s) :
    ∃ es, (main C .configure w).2.log = w.log ++ [.request githubReleases 1] ++ es := by
  obtain ⟨k, hk⟩ := Conf.boot_run (X := C.ext) hq C.dir w
  rw [hl] at hk
  unfold main
  rw [bind_run, hk]
  exact unset_configure C { w with tick := w.tick + k, conf := conf, sess := Session.init } hno hst

/-- A dialog that is completed with a no to question 2 leaves a process that is silent. -/
theorem silent_after (C : Ctx) (hdir : C.dir ≠ []) (hq : C.sys.Quiet) {w w' : World} {old : Config}
    (hold : Conf.getConfig w.conf = .ret old) (h : configure C w = (.ret (), w')) {a1 path a2 a3 a4 rest : Bytes}
    (ht : Typed C.env.text w.stdin a1 path a2 a3 a4 rest) (hn : No C.env.text a2) : Silent w' := by
  obtain ⟨w1, w2, w3, new, -, -, -, h4, h5, -, -, h8⟩ := configure_ret C hold h
  obtain ⟨m, m', -, -, g3, -, g5, -⟩ := Conf.save_ret hdir h4
  have hm := (h8 _ _ _ _ _ _ ht).1.notify
  rw [if_neg (fun hy => yes_not_no hy hn), if_pos hn] at hm
  unfold Silent
  rw [h5, g5 hq]
  show m'.get _ = _
  rw [g3, Conf.get_updated, if_neg (by decide), if_pos (by decide), hm]

/-- C139. What holds of a first run in which question 2 is answered with no: there is at most one request, it happens
before the first question (`a`), and from the first question on (`b`) nothing is requested by the commands. Missing: that
there is none at all (`C139_before`), and the GUI itself. -/
theorem C139_declined_partial (C : Ctx) (hdir : C.dir ≠ []) (hq : C.sys.Quiet) (cmd : Cmd) (hasks : cmd.asks = true) (w : World)
    (conf : Option YMap) (hl : Conf.loaded C.ext w.disk C.dir = some conf) (hno : conf = none ∨ conf = some [])
    {a1 path a2 a3 a4 rest : Bytes} (ht : Typed C.env.text w.stdin a1 path a2 a3 a4 rest) (hn : No C.env.text a2) :
    ∃ a b, (main C cmd w).2.log = w.log ++ a ++ b ∧ Ev.scan ∉ a ∧ (requests a).length ≤ 1 ∧ ∀ u t, Ev.request u t ∉ b := by
  obtain ⟨k, hk⟩ := Conf.boot_run (X := C.ext) hq C.dir w
  rw [hl] at hk
  unfold main
  rw [bind_run, hk]
  simp only
  generalize hw0 : ({ w with tick := w.tick + k, conf := conf, sess := Session.init } : World) = w0
  have e0 : w.log = w0.log := by rw [← hw0]
  have e1 : w0.conf = none ∨ w0.conf = some [] := by rw [← hw0]; exact hno
  have e2 : w.stdin = w0.stdin := by rw [← hw0]
  rw [e0]
  rw [e2] at ht
  have hout : ∀ b, Rel Off (emit (.out b)) := fun b => off_emit (by intro u t h; cases h)
  obtain ⟨f, h1, h2⟩ := asks_first off_chain C cmd hasks w0 (off_check C) hout
    (fun _ _ => off_emit (by intro u t h; cases h))
    (fun w _ => by rw [Os.readPassword_run]; exact ⟨rfl, [.password], rfl, by simp [NoRequest]⟩) off_onSession
  rw [h1, bind_run, firstRun_unset C w0 e1]
  generalize hwa : ({ w0 with log := w0.log ++ [banner, .out b!"\n"] } : World) = wa
  have i0 : wa.log = w0.log ++ [banner, .out b!"\n"] := by rw [← hwa]
  have i1 : wa.conf = w0.conf := by rw [← hwa]
  have i2 : wa.stdin = w0.stdin := by rw [← hwa]
  obtain ⟨old, hold, -⟩ := no_settings e1
  rw [← i1] at hold
  rw [← i2] at ht
  -- the check
  obtain ⟨d, hd, hask, -⟩ := dialog_noAsk C
  obtain ⟨es, j1, j2⟩ := few_cliCheck C wa
  obtain ⟨-, -, es', j3, j4⟩ := foot_cliCheck C wa.disk.cwd (fun e => e ≠ .scan) (by simp) (by simp) wa rfl
  obtain rfl : es = es' := List.append_cancel_left (j1.symm.trans j3)
  have hscan : Ev.scan ∉ banner :: .out b!"\n" :: es := by
    intro hmem
    rcases List.mem_cons.1 hmem with h | hmem
    · cases h
    rcases List.mem_cons.1 hmem with h | hmem
    · cases h
    exact j4 _ hmem rfl
  have hreq : (requests (banner :: .out b!"\n" :: es)).length ≤ 1 := j2
  have fin : ∀ (wz : World) (b : List Ev), wz.log = wa.log ++ es ++ b → (∀ e ∈ b, NoRequest e) →
      ∃ a b, wz.log = w0.log ++ a ++ b ∧ Ev.scan ∉ a ∧ (requests a).length ≤ 1 ∧ ∀ u t, Ev.request u t ∉ b := by
    intro wz b h h'
    exact ⟨_, b, by rw [h, i0]; simp, hscan, hreq, fun u t hm => h' _ hm u t rfl⟩
  -- the dialog
  rw [bind_run]
  rcases hc : configure C wa with ⟨o, wc⟩
  have hlog : ∃ b, wc.log = wa.log ++ es ++ b ∧ ∀ e ∈ b, NoRequest e := by
    have hc' := hc
    rw [hd, bind_run] at hc'
    rcases hr : checkForUpdate C wa with ⟨oo, wb⟩
    rw [hr] at hc' j1
    cases oo with
    | panic => cases hc'; exact ⟨[], by simpa using j1, by simp⟩
    | fatal => cases hc'; exact ⟨[], by simpa using j1, by simp⟩
    | ret x =>
      obtain ⟨b, k1, k2⟩ := hask wb
      have hc'' : d wb = (o, wc) := hc'
      rw [hc''] at k1
      exact ⟨b, by rw [k1, show wb.log = _ from j1], k2⟩
  obtain ⟨b, l1, l2⟩ := hlog
  cases o with
  | panic => exact fin _ b l1 l2
  | fatal => exact fin _ b l1 l2
  | ret x =>
    have hs : Silent wc := silent_after C hdir hq hold hc ht hn
    have hs' : Silent { wc with log := wc.log ++ [.out b!"\n"] } := hs
    obtain ⟨-, b', l3, l4⟩ := h2 () _ hs'
    refine fin (f () { wc with log := wc.log ++ [.out b!"\n"] }).2 (b ++ .out b!"\n" :: b') ?_ ?_
    · rw [l3, l1]; simp
    · intro e he
      rcases List.mem_append.1 he with he | he
      · exact l2 e he
      rcases List.mem_cons.1 he with rfl | he
      · intro u t h; cases h
      · exact l4 e he

namespace AskedDemo

/-- A new user, who wants no update notifications. -/
def fresh : World := Toy.world { fs := [], cwd := [] } b!"n\nn\n2\n3\n"

theorem fresh_empty : Conf.loaded Toy.ext fresh.disk b!"/h" = some none ∨ Conf.loaded Toy.ext fresh.disk b!"/h" = some (some []) := by
  decide +kernel

theorem fresh_unstamped : ∀ s, ¬ Stamped fresh.disk b!"/h" s := by
  rintro s ⟨text, h, -⟩
  have : fresh.disk.readFile (Path.join [b!"/h", lastCheckFile]) = none := by decide +kernel
  rw [this] at h
  cases h

end AskedDemo
open AskedDemo

/-- C139. The wish fails for every command that opens a vault: a new user who is about to say no. -/
theorem C139_refuted : ¬ C139_wish := by
  intro h
  obtain ⟨conf, hl, hno⟩ : ∃ conf, Conf.loaded Toy.ext fresh.disk b!"/h" = some conf ∧ (conf = none ∨ conf = some []) := by
    rcases fresh_empty with h | h
    · exact ⟨_, h, .inl rfl⟩
    · exact ⟨_, h, .inr rfl⟩
  obtain ⟨es, h1⟩ := C139_before (demo b!"null" 0) (fun _ => rfl) (.gui []) rfl fresh conf hl hno fresh_unstamped
  have := h (demo b!"null" 0) (.gui []) fresh conf (fun _ => rfl) (by simp) hl hno [banner, .out b!"\n"] es githubReleases 1
    (by rw [h1]; simp)
  revert this
  decide

/-- The example says no to question 2, so `C139_declined_partial` applies: one request, and it comes third. -/
example : Typed .toy fresh.stdin b!"n" [] b!"n" b!"2" b!"3" [] ∧ No .toy b!"n" :=
  ⟨⟨⟨b!"n\n2\n3\n", b!"n\n2\n3\n", b!"2\n3\n", b!"3\n", by
    refine ⟨⟨[], [], [110], ?_⟩, ?_, ⟨[], [], [110], ?_⟩, ⟨[], [], [50], ?_⟩, ⟨[], [], [51], ?_⟩⟩
    all_goals first | decide +kernel | exact rfl⟩⟩, by decide +kernel⟩

example : (requests (main (demo b!"null" 0) (.gui []) fresh).2.log) = [(githubReleases, 1)] ∧
    (main (demo b!"null" 0) (.gui []) fresh).2.log[2]? = some (.request githubReleases 1) ∧
    (main (demo b!"null" 0) (.gui []) fresh).2.log.findIdx (fun e => decide (e = .scan)) = 9 := by decide +kernel

end Cli
end OnePass
