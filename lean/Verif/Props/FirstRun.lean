/-
C44: the configuration dialog on start.
-/
import Verif.Props.Configure

set_option linter.unusedSimpArgs false

namespace OnePass
namespace Cli
open Prog Fmt Spec

/-! ### Following a relation through the commands -/

section rel
variable {R : World → World → Prop} (hR : Chain R) (C : Ctx)
include hR

theorem rel_die (e : Err) (hout : ∀ b, Rel R (emit (.out b))) : Rel R (die e) :=
  Rel.bind hR (hout _) (fun _ => Rel.lift hR _)

theorem rel_printLines (ls : List Bytes) (hout : ∀ b, Rel R (emit (.out b))) : Rel R (printLines ls) := by
  induction ls with
  | nil => exact Rel.pure hR _
  | cons l ls ih => exact Rel.bind hR (hout _) (fun _ => ih)

omit hR in
theorem rel_get {β : Type} {f : World → Prog β} (h : ∀ w, Rel R (f w)) : Rel R (Prog.get >>= f) := fun w => h w w

theorem rel_chooseVault (p : Bytes) : Rel R (chooseVault p) := by
  unfold chooseVault
  split
  · exact Rel.pure hR _
  · exact Rel.bind hR (rel_read hR) (fun _ => Rel.pure hR _)

theorem rel_printItem (hide : Bool) (uid : Bytes) (trashed : Bool) (hout : ∀ b, Rel R (emit (.out b))) :
    Rel R (printItem C hide uid trashed) := by
  unfold printItem
  refine rel_get (fun w => ?_)
  cases w.sess.getItem uid trashed with
  | none => exact hout _
  | some i => exact rel_printLines hR _ hout

theorem rel_openVault (p : Bytes) (hfirst : Rel R (firstRun C)) (hcheck : Rel R (checkForUpdate C))
    (hout : ∀ b, Rel R (emit (.out b))) (hpw : Rel R (Os.readPassword C.sys))
    (hsess : ∀ {α : Type} (f : Disk → Session → Out (α × Session)), Rel R (onSession f)) : Rel R (openVault C p) := by
  unfold openVault
  refine Rel.bind hR hfirst (fun _ => Rel.bind hR hcheck (fun _ => Rel.bind hR (rel_chooseVault hR p) (fun v => ?_)))
  refine Rel.bind hR (hsess _) (fun r => ?_)
  cases r with
  | error e => exact rel_die hR e hout
  | ok _ =>
    refine Rel.bind hR (hout _) (fun _ => Rel.bind hR hpw (fun pw => Rel.bind hR (hsess _) (fun r => ?_)))
    cases r with
    | error e => exact rel_die hR e hout
    | ok _ => exact Rel.pure hR _

theorem rel_getItems (p c t : Bytes) (tr : Bool) (hopen : Rel R (openVault C p))
    (hout : ∀ b, Rel R (emit (.out b))) (htab : ∀ h r, Rel R (emit (.table h r))) : Rel R (getItems C p c t tr) := by
  unfold getItems
  refine Rel.bind hR hopen (fun _ => rel_get (fun w => ?_))
  cases categoryFilter C w.sess.reg c with
  | error e => exact rel_die hR e hout
  | ok cat =>
    show Rel R (if _ then _ else _)
    split
    · exact htab _ _
    · exact hout _

theorem rel_save (S : Sys) (X : Ext) (dir : Bytes) (c : Config) (hset : ∀ m, Rel R (Conf.setConf m))
    (hdir : Rel R (Os.ensureDir S dir)) (hwrite : ∀ b, Rel R (Os.writeFile S (Conf.path dir) b))
    (hload : Rel R (Conf.load S X dir)) : Rel R (Conf.save S X dir c) := by
  unfold Conf.save
  refine rel_get (fun w => ?_)
  cases w.conf with
  | none => exact Rel.lift hR _
  | some m =>
    refine Rel.bind hR (hset _) (fun _ => Rel.bind hR hdir (fun _ => Rel.bind hR (hwrite _) (fun r => ?_)))
    cases r with
    | error e => exact Rel.lift hR _
    | ok _ => exact Rel.bind hR hload (fun m => hset m)

/-- The dialog of `configure`, after the check for updates. -/
theorem rel_dialog (hout : ∀ b, Rel R (emit (.out b))) (hscan : Rel R scanln)
    (hsave : ∀ c, Rel R (Conf.save C.sys C.ext C.dir c)) : Rel R (do
      let c ← Conf.read
      println b!"Detailed configuration manual can be found online: https://github.com/mashmb/1pass#configuration"
      println b!"Configuring 1pass:"
      let c ← askVault C c
      let c ← askNotify C c
      let c ← askTimeout c
      let c ← askPeriod c
      Conf.save C.sys C.ext C.dir c
      println b!"1pass configured") := by
  refine Rel.bind hR (rel_read hR) (fun c => Rel.bind hR (hout _) (fun _ => Rel.bind hR (hout _) (fun _ => ?_)))
  refine Rel.bind hR ?_ (fun c => Rel.bind hR ?_ (fun c => Rel.bind hR ?_ (fun c => Rel.bind hR ?_ (fun c =>
    Rel.bind hR (hsave c) (fun _ => hout _)))))
  · unfold askVault
    refine Rel.bind hR (hout _) (fun _ => Rel.bind hR hscan (fun a => ?_))
    cases LogicVal.fromName C.env.text a with
    | error e => exact Rel.pure hR _
    | ok v =>
      show Rel R (if _ then _ else _)
      split
      · exact Rel.bind hR (hout _) (fun _ => Rel.bind hR hscan (fun _ => Rel.pure hR _))
      · exact Rel.pure hR _
  · unfold askNotify
    cases LogicVal.fromValue c.notify with
    | none => exact Rel.lift hR _
    | some lv =>
      refine Rel.bind hR (hout _) (fun _ => Rel.bind hR hscan (fun a => ?_))
      cases LogicVal.fromName C.env.text a with
      | error e => exact Rel.pure hR _
      | ok v => exact Rel.pure hR _
  · exact Rel.bind hR (hout _) (fun _ => Rel.bind hR hscan (fun _ => Rel.pure hR _))
  · exact Rel.bind hR (hout _) (fun _ => Rel.bind hR hscan (fun _ => Rel.pure hR _))

theorem rel_configure (hcheck : Rel R (checkForUpdate C)) (hout : ∀ b, Rel R (emit (.out b))) (hscan : Rel R scanln)
    (hsave : ∀ c, Rel R (Conf.save C.sys C.ext C.dir c)) : Rel R (configure C) :=
  Rel.bind hR hcheck (fun _ => rel_dialog hR C hout hscan hsave)

theorem rel_firstRun (hout : ∀ b, Rel R (emit (.out b))) (hconf : Rel R (configure C)) : Rel R (firstRun C) := by
  unfold firstRun
  refine rel_get (fun w => ?_)
  show Rel R (if _ then _ else _)
  split
  · exact Rel.pure hR _
  · exact Rel.bind hR (hout _) (fun _ => Rel.bind hR (hout _) (fun _ => Rel.bind hR hconf (fun _ => hout _)))

end rel

/-- The commands that begin with the first-run dialog. -/
def Cmd.asks : Cmd → Bool
  | .gui _ | .list .. | .overview .. | .details .. => true
  | _ => false

theorem rel_command {R : World → World → Prop} (hR : Chain R) (C : Ctx) (cmd : Cmd) (hasks : cmd.asks = true)
    (hfirst : Rel R (firstRun C)) (hcheck : Rel R (checkForUpdate C))
    (hout : ∀ b, Rel R (emit (.out b))) (htab : ∀ h r, Rel R (emit (.table h r))) (hpw : Rel R (Os.readPassword C.sys))
    (hsess : ∀ {α : Type} (f : Disk → Session → Out (α × Session)), Rel R (onSession f)) : Rel R (command C cmd) := by
  have ho := fun p => rel_openVault hR C p hfirst hcheck hout hpw hsess
  cases cmd with
  | gui v => exact hfirst
  | list v c n t => exact rel_getItems hR C v c n t (ho v) hout htab
  | overview v u t => exact Rel.bind hR (ho v) (fun _ => rel_printItem hR C true u t hout)
  | details v u t => exact Rel.bind hR (ho v) (fun _ => rel_printItem hR C false u t hout)
  | update => cases hasks
  | configure => cases hasks
  | categories => cases hasks
  | version => cases hasks

/-! ### Footprint of the check before a command -/

/-- Where the update check writes: its time stamp, and missing directories above it. -/
def StampLoc (cwd : List Bytes) (dir : Bytes) (l : List Bytes) : Prop :=
  l <+: Path.resolve cwd dir ∨ l = Path.resolve cwd (Path.join [dir, Upd.lastCheckFile])

theorem conf_not_stamp (cwd : List Bytes) {dir : Bytes} (h : dir ≠ []) :
    ¬ StampLoc cwd dir (Path.resolve cwd (Conf.path dir)) := by
  rw [Conf.resolve_path cwd h]
  rintro (h0 | h0)
  · have := h0.length_le
    rw [List.length_append, List.length_singleton] at this
    omega
  · rw [Path.resolve_join cwd h (by simp) (by intro c hc; rw [List.mem_singleton] at hc; subst hc; decide)] at h0
    have := List.append_cancel_left h0
    revert this
    decide

theorem foot_cliCheck (C : Ctx) (cwd : List Bytes) (A : Ev → Prop) (h1 : ∀ t, A (.request Upd.githubReleases t))
    (h2 : ∀ b, A (.out b)) : Rel (Foot cwd (StampLoc cwd C.dir) A) (checkForUpdate C) := by
  refine rel_cliCheck (foot_chain _ _ _) C (fun t p => ?_) (fun b => foot_emit _ _ _ (by simp) (h2 b))
  refine rel_checkForUpdate C.sys (foot_chain _ _ _) _ _ _ _ _ (foot_fetchInfo _ _ _ _ t (h1 t)) ?_
    (foot_shouldCheck _ _ _ _ _ _ _)
  exact foot_checkTimestamp _ _ _ _ _ (fun l hl _ => .inl hl) (.inr rfl)

theorem foot_onSession (cwd : List Bytes) (P : List Bytes → Prop) (A : Ev → Prop) {α : Type}
    (f : Disk → Session → Out (α × Session)) : Rel (Foot cwd P A) (onSession f) := by
  intro w hw
  unfold onSession
  cases f w.disk w.sess with
  | ret p => exact ⟨hw, fun _ _ => rfl, [], by simp, by simp⟩
  | panic => exact ⟨hw, fun _ _ => rfl, [], by simp, by simp⟩
  | fatal => exact ⟨hw, fun _ _ => rfl, [], by simp, by simp⟩

theorem foot_readPassword (S : Sys) (cwd : List Bytes) (P : List Bytes → Prop) (A : Ev → Prop) (h : A .password) :
    Rel (Foot cwd P A) (Os.readPassword S) := by
  intro w hw
  rw [Os.readPassword_run]
  exact ⟨hw, fun _ _ => rfl, [.password], rfl, by simpa [Allowed] using h⟩

theorem foot_load (S : Sys) (X : Ext) (dir : Bytes) (cwd : List Bytes) (P : List Bytes → Prop) (A : Ev → Prop) :
    Rel (Foot cwd P A) (Conf.load S X dir) := by
  intro w
  obtain ⟨o, k, h, -⟩ := Conf.load_any S X dir w
  rw [h]; exact foot_tick _ _ _ w k

/-! ### C44 -/

/-- A configuration is available on the disk: the file has at least one entry. -/
def Available (X : Ext) (dir : Bytes) (d : Disk) : Prop := ∃ m, Conf.loaded X d dir = some (some m) ∧ m ≠ []

theorem loaded_congr (X : Ext) (dir : Bytes) {d d' : Disk} (hc : d'.cwd = d.cwd)
    (h : d'.at? (Path.resolve d.cwd (Conf.path dir)) = d.at? (Path.resolve d.cwd (Conf.path dir))) :
    Conf.loaded X d' dir = Conf.loaded X d dir := by
  unfold Conf.loaded Disk.stat
  rw [if_neg (Conf.path_ne dir), if_neg (Conf.path_ne dir), hc, h]

/-- `banner` is the greeting of the dialog. -/
def banner : Ev := .out b!"Running 1pass for the first time? Let's configure it!\n"

/-- The log only grows. -/
def Grow (w w' : World) : Prop := ∃ es, w'.log = w.log ++ es

theorem grow_chain : Chain Grow :=
  ⟨fun w => ⟨[], by simp⟩, fun a b c ⟨e1, h1⟩ ⟨e2, h2⟩ => ⟨e1 ++ e2, by rw [h2, h1, List.append_assoc]⟩⟩

theorem grow_of_foot {α : Type} {m : Prog α} (h : ∀ cwd, Rel (Foot cwd (fun _ => True) (fun _ => True)) m) : Rel Grow m := by
  intro w
  obtain ⟨-, -, es, h1, -⟩ := h _ w rfl
  exact ⟨es, h1⟩

theorem foot_setConf (cwd : List Bytes) (P : List Bytes → Prop) (A : Ev → Prop) (m : Option YMap) :
    Rel (Foot cwd P A) (Conf.setConf m) := fun _ hw => ⟨hw, fun _ _ => rfl, [], by simp [Conf.setConf], by simp⟩

theorem foot_fresh (cwd : List Bytes) (P : List Bytes → Prop) (A : Ev → Prop) (m : Option YMap) :
    Rel (Foot cwd P A) (Conf.fresh m) := fun _ hw => ⟨hw, fun _ _ => rfl, [], by simp [Conf.fresh], by simp⟩

theorem foot_scanln (cwd : List Bytes) (P : List Bytes → Prop) (A : Ev → Prop) (h : A .scan) :
    Rel (Foot cwd P A) scanln := fun _ hw => ⟨hw, fun _ _ => rfl, [.scan], rfl, by simpa [Allowed] using h⟩

theorem foot_save (S : Sys) (X : Ext) (dir : Bytes) (c : Config) (cwd : List Bytes) (P : List Bytes → Prop) (A : Ev → Prop)
    (h1 : ∀ l, l <+: Path.resolve cwd dir → P l) (h2 : P (Path.resolve cwd (Conf.path dir))) :
    Rel (Foot cwd P A) (Conf.save S X dir c) :=
  rel_save (foot_chain _ _ _) S X dir c (foot_setConf _ _ _) (foot_ensureDir _ _ _ _ _ (fun l hl _ => h1 l hl))
    (fun b => foot_createWrite _ _ _ _ _ _ _ h2) (foot_load _ _ _ _ _ _)

theorem grow_firstRun (C : Ctx) : Rel Grow (configure C) := by
  refine grow_of_foot (fun cwd => rel_configure (foot_chain _ _ _) C ?_ (fun b => foot_emit _ _ _ (by simp) trivial)
    (foot_scanln _ _ _ trivial) (fun c => foot_save _ _ _ _ _ _ _ (fun _ _ => trivial) trivial))
  intro w hw
  obtain ⟨h1, h2, es, h3, h4⟩ := foot_cliCheck C cwd (fun _ => True) (fun _ => trivial) (fun _ => trivial) w hw
  refine ⟨h1, fun l hl => absurd trivial hl, es, h3, fun e he => ?_⟩
  have := h4 e he
  cases e with
  | disk d => exact ⟨this.1, fun l hl => absurd trivial hl⟩
  | _ => exact this

/-- The first event of a run, if what follows only extends the log. -/
theorem first_bind {α β : Type} {m : Prog α} {f : α → Prog β} {w : World} {e : Ev}
    (h1 : ∃ es, (m w).2.log = w.log ++ e :: es) (h2 : ∀ a, Rel Grow (f a)) : ∃ es, ((m >>= f) w).2.log = w.log ++ e :: es := by
  rw [bind_run]
  cases hr : m w with
  | mk o w' =>
    rw [hr] at h1
    obtain ⟨es, h1⟩ := h1
    cases o with
    | ret a =>
      obtain ⟨es', h3⟩ := h2 a w'
      refine ⟨es ++ es', ?_⟩
      show (f a w').2.log = _
      rw [h3]
      simp only at h1
      rw [h1]; simp
    | panic => exact ⟨es, h1⟩
    | fatal => exact ⟨es, h1⟩

/-- C44. The dialog appears: if no configuration is available (there is no file, or one without entries), a command
that opens a vault begins with it – before anything else is printed, asked, written or requested. -/
theorem C44_dialog_appears (C : Ctx) (hq : C.sys.Quiet) (cmd : Cmd) (hasks : cmd.asks = true) (w : World) (conf : Option YMap)
    (hl : Conf.loaded C.ext w.disk C.dir = some conf) (hno : conf = none ∨ conf = some []) :
    ∃ es, (main C cmd w).2.log = w.log ++ banner :: es := by
  have hav : Conf.isAvailable conf = false := by rcases hno with rfl | rfl <;> rfl
  obtain ⟨k, hk⟩ := Conf.boot_run (X := C.ext) hq C.dir w
  rw [hl] at hk
  unfold main
  rw [bind_run, hk]
  simp only
  generalize hw0 : ({ w with tick := w.tick + k, conf := conf, sess := Session.init } : World) = w0
  have e0 : w.log = w0.log := by rw [← hw0]
  have e1 : w0.conf = conf := by rw [← hw0]
  rw [e0]
  have hout : ∀ b, Rel Grow (emit (.out b)) := fun b w => ⟨[_], rfl⟩
  have htab : ∀ h r, Rel Grow (emit (.table h r)) := fun h r w => ⟨[_], rfl⟩
  have hcheck : Rel Grow (checkForUpdate C) := by
    intro w
    obtain ⟨-, -, es, h1, -⟩ := foot_cliCheck C w.disk.cwd (fun _ => True) (fun _ => trivial) (fun _ => trivial) w rfl
    exact ⟨es, h1⟩
  have hpw : Rel Grow (Os.readPassword C.sys) := grow_of_foot (fun _ => foot_readPassword _ _ _ _ trivial)
  have hsess : ∀ {α : Type} (f : Disk → Session → Out (α × Session)), Rel Grow (onSession f) :=
    fun f => grow_of_foot (fun _ => foot_onSession _ _ _ f)
  have first : ∃ es, (firstRun C w0).2.log = w0.log ++ banner :: es := by
    unfold firstRun
    rw [bind_run]
    simp only [Prog.get, e1, hav, Bool.false_eq_true, if_false]
    exact first_bind (e := banner) ⟨[], rfl⟩
      (fun _ => Rel.bind grow_chain (hout _) (fun _ => Rel.bind grow_chain (grow_firstRun C) (fun _ => hout _)))
  have hopen : ∀ p, ∃ es, (openVault C p w0).2.log = w0.log ++ banner :: es := by
    intro p
    unfold openVault
    refine first_bind first (fun _ => Rel.bind grow_chain hcheck (fun _ =>
      Rel.bind grow_chain (rel_chooseVault grow_chain p) (fun v => Rel.bind grow_chain (hsess _) (fun r => ?_))))
    cases r with
    | error e => exact rel_die grow_chain e hout
    | ok _ =>
      refine Rel.bind grow_chain (hout _) (fun _ => Rel.bind grow_chain hpw (fun pw => Rel.bind grow_chain (hsess _) (fun r => ?_)))
      cases r with
      | error e => exact rel_die grow_chain e hout
      | ok _ => exact Rel.pure grow_chain _
  cases cmd with
  | gui v => exact first
  | list v c n t =>
    show ∃ es, (getItems C v c n t w0).2.log = _
    unfold getItems
    refine first_bind (hopen v) (fun _ => rel_get (fun w => ?_))
    cases categoryFilter C w.sess.reg c with
    | error e => exact rel_die grow_chain e hout
    | ok cat =>
      show Rel Grow (if _ then _ else _)
      split
      · exact htab _ _
      · exact hout _
  | overview v u t => exact first_bind (hopen v) (fun _ => rel_printItem grow_chain C true u t hout)
  | details v u t => exact first_bind (hopen v) (fun _ => rel_printItem grow_chain C false u t hout)
  | update => cases hasks
  | configure => cases hasks
  | categories => cases hasks
  | version => cases hasks

/-- C44. The dialog does not appear: if a configuration is available, such a command asks nothing at all, and the
configuration file is the same in every state of the disk. -/
theorem C44_no_dialog (C : Ctx) (hdir : C.dir ≠ []) (hq : C.sys.Quiet) (cmd : Cmd) (hasks : cmd.asks = true) (w : World)
    (hav : Available C.ext C.dir w.disk) :
    ∃ es, (main C cmd w).2.log = w.log ++ es ∧ .scan ∉ es ∧
      ∀ d, .disk d ∈ es → d.at? (Path.resolve w.disk.cwd (Conf.path C.dir)) = w.disk.at? (Path.resolve w.disk.cwd (Conf.path C.dir)) := by
  obtain ⟨m, hl, hm⟩ := hav
  obtain ⟨k, hk⟩ := Conf.boot_run (X := C.ext) hq C.dir w
  rw [hl] at hk
  unfold main
  rw [bind_run, hk]
  simp only
  generalize hw0 : ({ w with tick := w.tick + k, conf := some m, sess := Session.init } : World) = w0
  have e0 : w.log = w0.log := by rw [← hw0]
  have e1 : w0.conf = some m := by rw [← hw0]
  have e2 : w.disk = w0.disk := by rw [← hw0]
  rw [e0, e2]
  -- a relation that also keeps the configuration map
  let P := StampLoc w0.disk.cwd C.dir
  let A : Ev → Prop := fun e => e ≠ .scan
  let R : World → World → Prop := fun a b => Foot w0.disk.cwd P A a b ∧ b.conf = a.conf
  have hR : Chain R := ⟨fun a => ⟨(foot_chain _ _ _).refl a, rfl⟩,
    fun a b c h1 h2 => ⟨(foot_chain _ _ _).trans _ _ _ h1.1 h2.1, h2.2.trans h1.2⟩⟩
  have hout : ∀ b, Rel R (emit (.out b)) := fun b w => ⟨foot_emit _ _ _ (by simp) (by simp [A]) w, rfl⟩
  have htab : ∀ h r, Rel R (emit (.table h r)) := fun h r w => ⟨foot_emit _ _ _ (by simp) (by simp [A]) w, rfl⟩
  have hcheck : Rel R (checkForUpdate C) :=
    fun w => ⟨foot_cliCheck C _ A (fun _ => by simp [A]) (fun _ => by simp [A]) w, (calm_cliCheck C w).1⟩
  have hpw : Rel R (Os.readPassword C.sys) :=
    fun w => ⟨foot_readPassword _ _ _ _ (by simp [A]) w, by rw [Os.readPassword_run]⟩
  have hsess : ∀ {α : Type} (f : Disk → Session → Out (α × Session)), Rel R (onSession f) := by
    intro α f w
    refine ⟨foot_onSession _ _ _ f w, ?_⟩
    unfold onSession
    cases f w.disk w.sess <;> rfl
  have hne : Conf.isAvailable (some m) = true := by
    cases m with
    | nil => exact absurd rfl hm
    | cons a r => rfl
  have hfirst0 : ∀ w : World, w.conf = some m → firstRun C w = (.ret (), w) := by
    intro w hw
    unfold firstRun
    rw [bind_run]
    simp only [Prog.get, hw, hne, if_true]
    rfl
  -- the dialog is skipped
  have hopen : ∀ p, R w0 (openVault C p w0).2 := by
    intro p
    unfold openVault
    rw [bind_run, hfirst0 w0 e1]
    refine (Rel.bind hR hcheck (fun _ => Rel.bind hR (rel_chooseVault hR p) (fun v => Rel.bind hR (hsess _) (fun r => ?_)))) w0
    cases r with
    | error e => exact rel_die hR e hout
    | ok _ =>
      refine Rel.bind hR (hout _) (fun _ => Rel.bind hR hpw (fun pw => Rel.bind hR (hsess _) (fun r => ?_)))
      cases r with
      | error e => exact rel_die hR e hout
      | ok _ => exact Rel.pure hR _
  have step : ∀ {α β : Type} {m : Prog α} {f : α → Prog β}, R w0 (m w0).2 → (∀ a, Rel R (f a)) → R w0 ((m >>= f) w0).2 := by
    intro α β m f h1 h2
    rw [bind_run]
    cases hr : m w0 with
    | mk o w' =>
      rw [hr] at h1
      cases o with
      | ret a => exact hR.trans _ _ _ h1 (h2 a w')
      | panic => exact h1
      | fatal => exact h1
  have fin : R w0 (command C cmd w0).2 := by
    cases cmd with
    | gui v =>
      show R w0 (firstRun C w0).2
      rw [hfirst0 w0 e1]; exact hR.refl _
    | list v c n t =>
      refine step (hopen v) (fun _ => rel_get (fun w => ?_))
      cases categoryFilter C w.sess.reg c with
      | error e => exact rel_die hR e hout
      | ok cat =>
        show Rel R (if _ then _ else _)
        split
        · exact htab _ _
        · exact hout _
    | overview v u t => exact step (hopen v) (fun _ => rel_printItem hR C true u t hout)
    | details v u t => exact step (hopen v) (fun _ => rel_printItem hR C false u t hout)
    | update => cases hasks
    | configure => cases hasks
    | categories => cases hasks
    | version => cases hasks
  obtain ⟨-, -, es, h1, h2⟩ := fin.1 rfl
  refine ⟨es, h1, fun h0 => (h2 _ h0) rfl, fun d hd => (h2 _ hd).2 _ ?_⟩
  exact conf_not_stamp _ hdir

/-- Started in `cwd`, a run keeps the configuration available. -/
def KeepsConf (X : Ext) (dir : Bytes) (cwd : List Bytes) (w w' : World) : Prop :=
  w.disk.cwd = cwd → w'.disk.cwd = cwd ∧ (Available X dir w.disk → Available X dir w'.disk)

theorem keeps_chain (X : Ext) (dir : Bytes) (cwd : List Bytes) : Chain (KeepsConf X dir cwd) :=
  ⟨fun _ h => ⟨h, id⟩, fun _ _ _ h1 h2 h => ⟨(h2 (h1 h).1).1, fun ha => (h2 (h1 h).1).2 ((h1 h).2 ha)⟩⟩

theorem keeps_of_foot {X : Ext} {dir : Bytes} {cwd : List Bytes} {P : List Bytes → Prop} {A : Ev → Prop} {α : Type} {m : Prog α}
    (h : Rel (Foot cwd P A) m) (hp : ¬ P (Path.resolve cwd (Conf.path dir))) : Rel (KeepsConf X dir cwd) m := by
  intro w hw
  obtain ⟨h1, h2, -⟩ := h w hw
  refine ⟨h1, fun ⟨mm, ha, hb⟩ => ⟨mm, ?_, hb⟩⟩
  rw [← ha]
  exact loaded_congr X dir (by rw [h1, hw]) (h2 _ (by rw [hw]; exact hp))

theorem keeps_save {S : Sys} {X : Ext} {dir : Bytes} (hdir : dir ≠ []) (hq : S.Quiet) (cwd : List Bytes) (c : Config) :
    Rel (KeepsConf X dir cwd) (Conf.save S X dir c) := by
  intro w hw
  cases hm : w.conf with
  | none =>
    have : Conf.save S X dir c w = (.panic, w) := by
      unfold Conf.save
      rw [bind_run]
      simp only [Prog.get, hm]
      rfl
    rw [this]; exact ⟨hw, id⟩
  | some m =>
    obtain ⟨o, ds₁, ds₂, k, conf', h1, h2, -, -, -, -, h3⟩ := Conf.save_run S X hdir c w m hm
    by_cases hd : ds₂ = []
    · subst hd
      rw [h1]
      simp only [List.append_nil]
      have hnp : ¬ Path.resolve w.disk.cwd (Conf.path dir) <+: Path.resolve w.disk.cwd dir :=
        fun h0 => conf_not_stamp w.disk.cwd hdir (.inl h0)
      rcases Disk.last_mem w.disk ds₁ with h0 | h0
      · rw [h0]; exact ⟨hw, id⟩
      · have := h2.early _ h0
        refine ⟨this.1.trans hw, fun ⟨mm, ha, hb⟩ => ⟨mm, ?_, hb⟩⟩
        rw [← ha]
        exact loaded_congr X dir this.1 (this.2.1 _ hnp)
    · have ho := h3 hq hd
      rw [ho] at h1
      obtain ⟨m0, m', -, h4, -, h5, -, h6, -⟩ := Conf.save_ret hdir h1
      rw [h1]
      exact ⟨h6.trans hw, fun _ => ⟨m', h4, h5⟩⟩

/-- C44. No command except `update` takes an available configuration away. -/
theorem C44_stays_available (C : Ctx) (hdir : C.dir ≠ []) (hq : C.sys.Quiet) (cmd : Cmd) (hcmd : cmd ≠ .update) (w : World)
    (hav : Available C.ext C.dir w.disk) :
    Available C.ext C.dir (main C cmd w).2.disk ∧ (main C cmd w).2.disk.cwd = w.disk.cwd := by
  have hR := keeps_chain C.ext C.dir w.disk.cwd
  have hout : ∀ b, Rel (KeepsConf C.ext C.dir w.disk.cwd) (emit (.out b)) := fun b w h => ⟨h, id⟩
  have htab : ∀ h r, Rel (KeepsConf C.ext C.dir w.disk.cwd) (emit (.table h r)) := fun _ _ w h => ⟨h, id⟩
  have hcheck : Rel (KeepsConf C.ext C.dir w.disk.cwd) (checkForUpdate C) :=
    keeps_of_foot (foot_cliCheck C _ (fun _ => True) (fun _ => trivial) (fun _ => trivial)) (conf_not_stamp _ hdir)
  have hpw : Rel (KeepsConf C.ext C.dir w.disk.cwd) (Os.readPassword C.sys) :=
    keeps_of_foot (P := fun _ => False) (foot_readPassword _ _ _ (fun _ => True) trivial) id
  have hsess : ∀ {α : Type} (f : Disk → Session → Out (α × Session)), Rel (KeepsConf C.ext C.dir w.disk.cwd) (onSession f) :=
    fun f => keeps_of_foot (P := fun _ => False) (A := fun _ => True) (foot_onSession _ _ _ f) id
  have hconf := rel_configure hR C hcheck hout (fun w h => ⟨h, id⟩) (fun c => keeps_save hdir hq _ c)
  have hfirst := rel_firstRun hR C hout hconf
  have hcom : Rel (KeepsConf C.ext C.dir w.disk.cwd) (command C cmd) := by
    cases hasks : cmd.asks with
    | true => exact rel_command hR C cmd hasks hfirst hcheck hout htab hpw hsess
    | false =>
      cases cmd with
      | update => exact absurd rfl hcmd
      | configure => exact hconf
      | categories =>
        refine Rel.bind hR hcheck (fun _ => rel_get (fun w => Rel.bind hR ?_ (fun _ => htab _ _)))
        exact fun w h => ⟨h, id⟩
      | version => exact hout _
      | gui v => cases hasks
      | list v c n t => cases hasks
      | overview v u t => cases hasks
      | details v u t => cases hasks
  have := (Rel.bind hR (Rel.bind hR (keeps_of_foot (P := fun _ => False) (A := fun _ => True) (foot_load C.sys C.ext C.dir _ _ _) id)
    (fun m => keeps_of_foot (P := fun _ => False) (A := fun _ => True) (foot_fresh _ _ _ m) id)) (fun _ => hcom)) w rfl
  exact ⟨this.2 hav, this.1⟩

/-- C44. The dialog completed: from then on the configuration is available, also if the command it belongs to
fails afterwards. -/
theorem C44_completed (C : Ctx) (hdir : C.dir ≠ []) (hq : C.sys.Quiet) (w w1 : World)
    (hl : Conf.loaded C.ext w.disk C.dir = some w.conf) (h : firstRun C w = (.ret (), w1)) :
    Available C.ext C.dir w1.disk := by
  unfold firstRun at h
  rw [bind_run] at h
  simp only [Prog.get] at h
  split at h
  · rename_i hav
    cases h
    cases hc : w.conf with
    | none => rw [hc] at hav; cases hav
    | some m =>
      refine ⟨m, by rw [hl, hc], ?_⟩
      rintro rfl
      rw [hc] at hav; cases hav
  · obtain ⟨⟨⟩, v1, h1, h⟩ := Conf.bind_ret h
    obtain ⟨⟨⟩, v2, h2, h⟩ := Conf.bind_ret h
    obtain ⟨⟨⟩, v3, h3, h4⟩ := Conf.bind_ret h
    cases hg : Conf.getConfig v2.conf with
    | panic =>
      exfalso
      unfold configure at h3
      obtain ⟨⟨⟩, u1, h5, h3⟩ := Conf.bind_ret h3
      have hc := calm_cliCheck C v2
      rw [h5] at hc
      obtain ⟨c, u2, h6, _⟩ := Conf.bind_ret h3
      rw [read_run, hc.1, hg] at h6
      cases h6
    | fatal =>
      exfalso
      unfold configure at h3
      obtain ⟨⟨⟩, u1, h5, h3⟩ := Conf.bind_ret h3
      have hc := calm_cliCheck C v2
      rw [h5] at hc
      obtain ⟨c, u2, h6, _⟩ := Conf.bind_ret h3
      rw [read_run, hc.1, hg] at h6
      cases h6
    | ret old =>
      obtain ⟨u1, u2, u3, new, -, -, -, h5, -, h6, -⟩ := configure_ret C hg h3
      obtain ⟨m, m', -, h8, -, h9, -⟩ := Conf.save_ret hdir h5
      have : w1.disk = v3.disk := by
        simp only [println, emit, Prod.mk.injEq] at h4
        rw [← h4.2]
      exact ⟨m', by rw [this, h6]; exact h8, h9⟩

/-- A run of the program: what is typed, and the command; everything else may differ from run to run. -/
structure Run where
  ctx : Ctx
  stdin : Bytes
  cmd : Cmd

/-- The world after some runs. -/
def history (w : World) : List Run → World
  | [] => w
  | r :: rs => history (main r.ctx r.cmd { w with stdin := r.stdin }).2 rs

/-- C44. Never again: once a configuration is available, in any history of runs (without `update`, and without
failing system calls) no run asks the configuration questions uninvited. -/
theorem C44_never_again (X : Ext) (dir : Bytes) (hdir : dir ≠ []) (w : World) (hav : Available X dir w.disk)
    (before : List Run) (r : Run)
    (hall : ∀ q ∈ before ++ [r], q.ctx.ext = X ∧ q.ctx.dir = dir ∧ q.ctx.sys.Quiet ∧ q.cmd ≠ .update)
    (hasks : r.cmd.asks = true) :
    ∃ es, (history w (before ++ [r])).log = (history w before).log ++ es ∧ .scan ∉ es := by
  induction before generalizing w with
  | nil =>
    obtain ⟨h1, h2, h3, h4⟩ := hall r (by simp)
    obtain ⟨es, h5, h6, -⟩ := C44_no_dialog r.ctx (by rw [h2]; exact hdir) h3 r.cmd hasks { w with stdin := r.stdin }
      (by rw [h1, h2]; exact hav)
    exact ⟨es, h5, h6⟩
  | cons q qs ih =>
    obtain ⟨h1, h2, h3, h4⟩ := hall q (by simp)
    have := C44_stays_available q.ctx (by rw [h2]; exact hdir) h3 q.cmd h4 { w with stdin := q.stdin } (by rw [h1, h2]; exact hav)
    rw [h1, h2] at this
    exact ih _ this.1 (fun q' hq' => hall q' (by simp at hq' ⊢; exact .inr hq'))

/-! ### Examples -/

/-- C44: on an empty disk the GUI command shows the dialog; its answers are stored; started again, it asks nothing. -/
def firstDay : World := (main (demo b!"null" 0) (.gui []) (Toy.world { fs := [], cwd := [] } b!"n\nn\n2\n3\n")).2

example : firstDay.log.head? = some banner ∧ .scan ∈ firstDay.log := by decide +kernel
example : Conf.getConfig firstDay.conf = .ret { timeout := 2, notify := false, period := 3, vault := [] } := by decide +kernel
example : Available Toy.ext b!"/h" firstDay.disk := by
  have h : (match Conf.loaded Toy.ext firstDay.disk b!"/h" with | some (some (_ :: _)) => true | _ => false) = true := by
    decide +kernel
  unfold Available
  split at h
  · rename_i a r e; exact ⟨_, e, List.cons_ne_nil _ _⟩
  · cases h
example : (main (demo b!"null" 0) (.gui []) { firstDay with log := [] }).2.log = [] := by decide +kernel

end Cli
end OnePass
