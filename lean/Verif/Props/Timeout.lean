/-
C105: the configured timeout.
-/
import Verif.Props.GuiFoot

set_option linter.unusedSimpArgs false

namespace OnePass
namespace Cli
open Prog Upd Fmt

/-- The timeout a configuration asks for: one second if it does not say. -/
def TimeoutIs (conf : Option YMap) (t : Int) : Prop :=
  (Conf.entry conf b!"timeout" = .null ∧ t = 1) ∨ Conf.entry conf b!"timeout" = .int t

theorem timeout_is {conf : Option YMap} {c : Config} (h : Conf.getConfig conf = .ret c) : TimeoutIs conf c.timeout := by
  obtain ⟨-, -, h1, h2, -⟩ := Conf.C46_defaults conf c h
  rcases ((Conf.C46_crash conf).1.1 ⟨c, h⟩).1 with h3 | ⟨n, h3⟩
  · exact .inl ⟨h3, h1 h3⟩
  · exact .inr (h2 n h3 ▸ h3)

/-- Every request on the way from `w` to `w'` has a timeout the configuration `conf` asks for. -/
def Asked (conf : Option YMap) (w w' : World) : Prop :=
  ∃ es, w'.log = w.log ++ es ∧ ∀ u t, Ev.request u t ∈ es → TimeoutIs conf t

theorem asked_chain (conf : Option YMap) : Chain (Asked conf) :=
  ⟨fun w => ⟨[], by simp, by simp⟩, fun a b c ⟨e1, h1, h2⟩ ⟨e2, h3, h4⟩ =>
    ⟨e1 ++ e2, by rw [h3, h1, List.append_assoc], fun u t he => (List.mem_append.1 he).elim (h2 u t) (h4 u t)⟩⟩

theorem asked_of_noAsk {w w' : World} (h : NoAsk w w') (conf : Option YMap) : Asked conf w w' := by
  obtain ⟨es, h1, h2⟩ := h
  exact ⟨es, h1, fun u t he => absurd rfl (h2 _ he u t)⟩

/-- A process with configuration `conf` keeps it and asks with its timeout. -/
def Timed (conf : Option YMap) (w w' : World) : Prop := w.conf = conf → w'.conf = conf ∧ Asked conf w w'

theorem timed_chain (conf : Option YMap) : Chain (Timed conf) :=
  ⟨fun w h => ⟨h, (asked_chain conf).refl w⟩, fun a b c h1 h2 ha => by
    obtain ⟨hb, k1⟩ := h1 ha
    obtain ⟨hc, k2⟩ := h2 hb
    exact ⟨hc, (asked_chain conf).trans _ _ _ k1 k2⟩⟩

/-- A request with such a timeout, or no request. -/
def Within (conf : Option YMap) (e : Ev) : Prop := ∀ u t, e = .request u t → TimeoutIs conf t

theorem timed_of {α : Type} {m : Prog α} {conf : Option YMap} (hc : Rel Calm m)
    (hf : ∀ cwd, Rel (Foot cwd (fun _ => True) (Within conf)) m) : Rel (Timed conf) m := by
  intro w hw
  obtain ⟨-, -, es, h1, h2⟩ := hf _ w rfl
  refine ⟨(hc w).1.trans hw, es, h1, fun u t he => ?_⟩
  exact h2 _ he u t rfl

theorem timed_out (conf : Option YMap) {e : Ev} (he : ∀ u t, e ≠ .request u t) : Rel (Timed conf) (emit e) :=
  fun _ hw => ⟨hw, [e], rfl, fun u t h => absurd (List.mem_singleton.1 h).symm (he u t)⟩

/-- What reads the configuration first. -/
theorem timed_read {α : Type} (conf : Option YMap) {f : Config → Prog α}
    (h : ∀ c, Conf.getConfig conf = .ret c → Rel (Timed conf) (f c)) : Rel (Timed conf) (Conf.read >>= f) := by
  intro w hw
  rw [bind_run, read_run, hw]
  cases hg : Conf.getConfig conf with
  | panic => exact (timed_chain conf).refl w hw
  | fatal => exact (timed_chain conf).refl w hw
  | ret c => exact h c hg w hw

theorem timed_check (S : Sys) (X : Ext) (conf : Option YMap) (period t : Int) (force : Bool) (dir : Bytes)
    (ht : TimeoutIs conf t) : Rel (Timed conf) (Upd.checkForUpdate S X period t force dir) := by
  refine rel_checkForUpdate S (timed_chain conf) X period t force dir ?_ ?_ ?_
  · refine timed_of (calm_fetchInfo S t) (fun cwd => foot_fetchInfo _ _ _ S t ?_)
    rintro u t' ⟨-⟩; exact ht
  · exact timed_of (calm_checkTimestamp S dir) (fun cwd => foot_checkTimestamp _ _ _ S dir (fun _ _ _ => trivial) trivial)
  · exact timed_of (calm_shouldCheck S X period dir) (fun cwd => foot_shouldCheck _ _ _ S X period dir)

theorem timed_facadeCheck (C : Ctx) (conf : Option YMap) (force : Bool) :
    Rel (Timed conf) (facadeCheck C.sys C.ext C.dir force) :=
  timed_read conf fun _ hc => timed_check _ _ conf _ _ _ _ (timeout_is hc)

theorem timed_cliCheck (C : Ctx) (conf : Option YMap) : Rel (Timed conf) (checkForUpdate C) := by
  unfold checkForUpdate
  refine timed_read conf fun c _ => ?_
  show Rel _ (if c.notify then _ else _)
  split
  · refine Rel.bind (timed_chain conf) (timed_facadeCheck C conf false) (fun r => ?_)
    cases r with
    | error e => exact Rel.pure (timed_chain conf) _
    | ok i => exact timed_out conf (by intro u t h; cases h)
  · exact Rel.pure (timed_chain conf) _

theorem timed_install (S : Sys) (X : Ext) (conf : Option YMap) (t : Int) (ht : TimeoutIs conf t) (cb : Nat → Ev)
    (hcb : ∀ n u t, cb n ≠ .request u t) (info : UpdateInfo) : Rel (Timed conf) (install S X t cb info) := by
  have hR := timed_chain conf
  have he : ∀ n, Rel (Timed conf) (emit (cb n)) := fun n => timed_out conf (hcb n)
  have hrm : Rel (Timed conf) (Os.removeAll S cacheDir) :=
    timed_of (calm_removeAll S _) (fun cwd => foot_removeAll _ _ _ S _ (fun _ _ => trivial))
  have hmk : Rel (Timed conf) (Os.mkdirAll S cacheDir) :=
    timed_of (calm_mkdirAll S _) (fun cwd => foot_mkdirAll _ _ _ S _ (fun _ _ _ => trivial))
  have hcw : ∀ p d c, Rel (Timed conf) (andThen (Os.create S p) fun f => Os.write S f d c) := fun p d c =>
    timed_of (calm_createWrite S p d c) (fun cwd => foot_createWrite _ _ _ S p d c trivial)
  have hread : ∀ p, Rel (Timed conf) (Os.readFile S p) := fun p =>
    timed_of (calm_readFile S p) (fun cwd => foot_readFile _ _ _ S p)
  have hdl : ∀ dst url, Rel (Timed conf) (downloadFile S dst url t) := fun dst url =>
    rel_downloadFile hR S dst url t
      (timed_of (calm_httpGet S url t) (fun cwd => foot_httpGet _ _ _ S url t (by rintro u t' ⟨-⟩; exact ht))) (hcw dst)
  unfold install
  refine Rel.bind hR (he 1) (fun _ => Rel.andThen hR hrm (fun _ => Rel.andThen hR hmk (fun _ => Rel.bind hR (he 2) (fun _ =>
    Rel.andThen hR (hdl _ _) (fun _ => Rel.bind hR (he 3) (fun _ => Rel.andThen hR (hdl _ _) (fun _ => Rel.bind hR (he 4) (fun _ =>
    Rel.andThen hR (rel_extract hR S X _ _ (hread _) (fun n => hcw _)) (fun _ => Rel.bind hR (he 5) (fun _ =>
    Rel.andThen hR (rel_validate hR S X _ _ hread) (fun _ => Rel.bind hR (he 6) (fun _ =>
    Rel.andThen hR ?_ (fun _ => Rel.bind hR (he 7) (fun _ => hrm))))))))))))))
  unfold replaceBinary
  cases S.exe with
  | none => exact Rel.pure hR _
  | some dst => exact timed_of (calm_rename S _ dst) (fun cwd => foot_rename _ _ _ S _ dst trivial trivial)

theorem timed_facadeUpdate (C : Ctx) (conf : Option YMap) (cb : Nat → Ev) (hcb : ∀ n u t, cb n ≠ .request u t) :
    Rel (Timed conf) (facadeUpdate C.sys C.ext cb) := by
  have hR := timed_chain conf
  refine timed_read conf fun c hc => ?_
  have ht := timeout_is hc
  unfold Upd.update
  refine Rel.andThen hR (timed_of (calm_fetchInfo _ _) (fun cwd => foot_fetchInfo _ _ _ _ _ (by rintro u t' ⟨-⟩; exact ht)))
    (fun i => ?_)
  cases i with
  | none => exact Rel.pure hR _
  | some i =>
    show Rel _ (if _ then _ else _)
    split
    · exact timed_install _ _ conf _ ht cb hcb i
    · exact Rel.pure hR _

theorem timed_update (C : Ctx) (conf : Option YMap) : Rel (Timed conf) (update C) := by
  have hR := timed_chain conf
  have hout : ∀ b, Rel (Timed conf) (emit (.out b)) := fun b => timed_out conf (by intro u t h; cases h)
  have hstop : Rel (Timed conf) (do println b!"Aborting update..."; Prog.exit : Prog Unit) := Rel.bind hR (hout _) (fun _ => Rel.lift hR _)
  unfold update
  refine Rel.bind hR (hout _) (fun _ => Rel.bind hR (timed_facadeCheck C conf true) (fun r => ?_))
  cases r with
  | error e => exact rel_die hR e hout
  | ok info =>
    refine Rel.bind hR (hout _) (fun _ => Rel.bind hR (hout _) (fun _ => Rel.bind hR ?_ (fun v => ?_)))
    · intro w hw
      exact ⟨hw, [.scan], rfl, by simp⟩
    · cases LogicVal.fromName C.env.text v with
      | error e => exact hstop
      | ok p =>
        show Rel _ (if _ then _ else _)
        split
        · exact hstop
        · refine Rel.bind hR (hout _) (fun _ => Rel.bind hR (timed_facadeUpdate C conf _ (by intro n u t h; cases h)) (fun r => ?_))
          cases r with
          | error e => exact rel_die hR e hout
          | ok _ => exact hout _

theorem asked_configure (C : Ctx) (w : World) : Asked w.conf w (configure C w).2 := by
  unfold configure
  rw [bind_run]
  have h1 := (timed_cliCheck C w.conf w rfl).2
  cases hr : checkForUpdate C w with
  | mk o w1 =>
    rw [hr] at h1
    cases o with
    | panic => exact h1
    | fatal => exact h1
    | ret u =>
      refine (asked_chain _).trans _ _ _ h1 (asked_of_noAsk ?_ _)
      have hs : Rel NoAsk (do
          let c ← Conf.read
          println b!"Detailed configuration manual can be found online: https://github.com/mashmb/1pass#configuration"
          println b!"Configuring 1pass:"
          let c ← askVault C c
          let c ← askNotify C c
          let c ← askTimeout c
          let c ← askPeriod c
          Conf.save C.sys C.ext C.dir c
          println b!"1pass configured") := rel_dialog noAsk_chain C (fun b w => ⟨[.out b], rfl, by simp [NoRequest]⟩)
        (fun w => ⟨[.scan], rfl, by simp [NoRequest]⟩)
        (fun c => noAsk_of_foot (fun cwd => foot_save _ _ _ _ _ _ _ (fun _ _ => trivial) trivial))
      exact hs w1

theorem asked_firstRun (C : Ctx) (w : World) : Asked w.conf w (firstRun C w).2 := by
  unfold firstRun
  rw [bind_run]
  show Asked w.conf w ((if Conf.isAvailable w.conf then Prog.pure () else _) w).2
  split
  · exact (asked_chain _).refl w
  · have hout : ∀ (b : Bytes) (v : World), Asked w.conf v (println b v).2 :=
      fun b v => asked_of_noAsk ⟨[.out (b ++ [10])], rfl, by simp [NoRequest]⟩ _
    have hR := asked_chain w.conf
    obtain ⟨v, hv, hrun⟩ : ∃ v : World, (v.conf = w.conf ∧ NoAsk w v) ∧
        (println b!"Running 1pass for the first time? Let's configure it!" >>= fun _ => println [] >>= fun _ =>
          configure C >>= fun _ => println [] : Prog Unit) w = (configure C >>= fun _ => println [] : Prog Unit) v :=
      ⟨{ w with log := w.log ++ [.out (b!"Running 1pass for the first time? Let's configure it!" ++ [10])] ++ [.out ([] ++ [10])] },
        ⟨rfl, [.out (b!"Running 1pass for the first time? Let's configure it!" ++ [10]), .out ([] ++ [10])],
          by rw [List.append_assoc]; rfl, by simp [NoRequest]⟩, rfl⟩
    rw [hrun]
    refine hR.trans _ _ _ (asked_of_noAsk hv.2 _) ?_
    have hc := asked_configure C v
    rw [hv.1] at hc
    rw [bind_run]
    rcases hr : configure C v with ⟨o, w1⟩
    rw [hr] at hc
    cases o with
    | panic => exact hc
    | fatal => exact hc
    | ret u => exact hR.trans _ _ _ hc (hout [] w1)

theorem timed_onSession (conf : Option YMap) {α : Type} (f : Disk → Session → Out (α × Session)) :
    Rel (Timed conf) (onSession f) := by
  intro w hw
  unfold onSession
  cases f w.disk w.sess with
  | ret p => exact ⟨hw, [], by simp, by simp⟩
  | panic => exact ⟨hw, [], by simp, by simp⟩
  | fatal => exact ⟨hw, [], by simp, by simp⟩

/-- The commands that begin with the first-run dialog: what follows it, and what holds of that. -/
theorem asks_split (C : Ctx) (cmd : Cmd) (h : cmd.asks = true) :
    ∃ k : Prog Unit, command C cmd = (firstRun C >>= fun _ => k) ∧
      ∀ conf, Rel (Timed conf) k := by
  have hout : ∀ conf b, Rel (Timed conf) (emit (.out b)) := fun conf b => timed_out conf (by intro u t h; cases h)
  have htab : ∀ conf a b, Rel (Timed conf) (emit (.table a b)) := fun conf a b => timed_out conf (by intro u t h; cases h)
  have hopen : ∀ flag, ∃ k : Prog Unit, openVault C flag = (firstRun C >>= fun _ => k) ∧ ∀ conf, Rel (Timed conf) k := by
    intro flag
    refine ⟨_, rfl, fun conf => ?_⟩
    have hR := timed_chain conf
    refine Rel.bind hR (timed_cliCheck C conf) (fun _ => Rel.bind hR (rel_chooseVault hR flag) (fun v => ?_))
    refine Rel.bind hR (timed_onSession conf _) (fun r => ?_)
    cases r with
    | error e => exact rel_die hR e (hout conf)
    | ok _ =>
      refine Rel.bind hR (hout conf _) (fun _ => Rel.bind hR ?_ (fun p => Rel.bind hR (timed_onSession conf _) (fun r => ?_)))
      · intro w hw
        rw [Os.readPassword_run]
        exact ⟨hw, [.password], rfl, by simp⟩
      · cases r with
        | error e => exact rel_die hR e (hout conf)
        | ok _ => exact Rel.pure hR _
  cases cmd with
  | gui v => exact ⟨Prog.pure (), by funext w; show firstRun C w = _; rw [bind_run]; rcases firstRun C w with ⟨o, w1⟩; cases o <;> rfl,
      fun conf => Rel.pure (timed_chain conf) _⟩
  | list v c n t =>
    obtain ⟨k, h1, h2⟩ := hopen v
    refine ⟨_, by show getItems C v c n t = _; unfold getItems; rw [h1, bind_assoc'], fun conf => ?_⟩
    have hR := timed_chain conf
    refine Rel.bind hR (h2 conf) (fun _ => rel_get (fun w => ?_))
    cases categoryFilter C w.sess.reg c with
    | error e => exact rel_die hR e (hout conf)
    | ok cat =>
      show Rel _ (if _ then _ else _)
      split
      · exact htab conf _ _
      · exact hout conf _
  | overview v u t =>
    obtain ⟨k, h1, h2⟩ := hopen v
    exact ⟨_, by show getItemOverview C v u t = _; unfold getItemOverview; rw [h1, bind_assoc'],
      fun conf => Rel.bind (timed_chain conf) (h2 conf) (fun _ => rel_printItem (timed_chain conf) C true u t (hout conf))⟩
  | details v u t =>
    obtain ⟨k, h1, h2⟩ := hopen v
    exact ⟨_, by show getItemDetails C v u t = _; unfold getItemDetails; rw [h1, bind_assoc'],
      fun conf => Rel.bind (timed_chain conf) (h2 conf) (fun _ => rel_printItem (timed_chain conf) C false u t (hout conf))⟩
  | update => cases h
  | configure => cases h
  | categories => cases h
  | version => cases h

/-- C105. The timeout of every request a command makes is the one configured, one second if none is. (For a command that
begins with the dialog of the first run, see `C105_first_run`.) -/
theorem C105_commands (C : Ctx) (cmd : Cmd) (w : World) (h : cmd.asks = true → Conf.isAvailable w.conf = true) :
    ∃ es, (command C cmd w).2.log = w.log ++ es ∧ ∀ u t, Ev.request u t ∈ es → TimeoutIs w.conf t := by
  by_cases ha : cmd.asks = true
  · obtain ⟨k, h1, h2⟩ := asks_split C cmd ha
    have h3 : firstRun C w = (.ret (), w) := by
      unfold firstRun
      rw [bind_run]
      show (if Conf.isAvailable w.conf then Prog.pure () else _) w = _
      rw [if_pos (h ha)]
      rfl
    rw [h1, bind_run, h3]
    exact (h2 w.conf w rfl).2
  · cases cmd with
    | update => exact (timed_update C w.conf w rfl).2
    | configure => exact asked_configure C w
    | categories =>
      refine (Rel.bind (timed_chain w.conf) (timed_cliCheck C w.conf) (fun _ => rel_get (fun w' =>
        Rel.bind (timed_chain w.conf) ?_ (fun _ => ?_))) w rfl).2
      · intro v hv; exact ⟨hv, [], by simp [setSess], by simp⟩
      · exact timed_out _ (by intro u t h; cases h)
    | version => exact (timed_out w.conf (by intro u t h; cases h) w rfl).2
    | gui v => exact absurd rfl ha
    | list v c n t => exact absurd rfl ha
    | overview v u t => exact absurd rfl ha
    | details v u t => exact absurd rfl ha

/-- C105, for a command that begins with the dialog of the first run: requests up to the end of the dialog have the
timeout of the configuration before it, later ones that of the configuration made in it. -/
theorem C105_first_run (C : Ctx) (cmd : Cmd) (w : World) (h : cmd.asks = true) :
    ∃ es es', (firstRun C w).2.log = w.log ++ es ∧ (command C cmd w).2.log = w.log ++ es ++ es' ∧
      (∀ u t, Ev.request u t ∈ es → TimeoutIs w.conf t) ∧
      ∀ u t, Ev.request u t ∈ es' → TimeoutIs (firstRun C w).2.conf t := by
  obtain ⟨k, h1, h2⟩ := asks_split C cmd h
  obtain ⟨es, h3, h4⟩ := asked_firstRun C w
  rw [h1, bind_run]
  rcases hr : firstRun C w with ⟨o, w1⟩
  rw [hr] at h3
  cases o with
  | panic => exact ⟨es, [], h3, by rw [List.append_nil]; exact h3, h4, by simp⟩
  | fatal => exact ⟨es, [], h3, by rw [List.append_nil]; exact h3, h4, by simp⟩
  | ret u =>
    obtain ⟨-, es', h5, h6⟩ := h2 w1.conf w1 rfl
    exact ⟨es, es', h3, by rw [← h3]; exact h5, h4, h6⟩

end Cli

namespace Gui
open Cli Act
open Prog hiding pure bind get panic lift bind_run
variable (C : Ctx) (K : Kit)

theorem timed_step (conf : Option YMap) (e : Event) (s : St) : Timed conf s.world (step C K e s).2.world := by
  have inner : ∀ {t : St}, Inner s t → Timed conf s.world t.world := fun h => by rw [h]; exact (timed_chain conf).refl _
  cases e with
  | key k => exact inner (inner_press C K k s)
  | flush x y => exact inner (inner_flush C K x y s)
  | disk d => exact fun hw => ⟨hw, [], by rw [List.append_nil]; rfl, by simp⟩
  | checked =>
    rw [step, get_bind]
    cases hp : s.pending with
    | false => exact (timed_chain conf).refl _
    | true =>
      show Timed conf s.world (verUpdate C { s with pending := false }).2.world
      generalize hs : ({ s with pending := false } : St) = s'
      have hw : s.world = s'.world := by rw [← hs]
      rw [hw]
      have hf := timed_facadeCheck C conf true s'.world
      unfold verUpdate
      rw [bind_run]
      simp only [onWorld]
      rcases hr : Upd.facadeCheck C.sys C.ext C.dir true s'.world with ⟨o, w⟩
      rw [hr] at hf
      cases o with
      | ret r =>
        simp only [get_bind]
        cases s'.views .ver <;> exact hf
      | panic => exact hf
      | fatal => exact hf

theorem timed_run (conf : Option YMap) (es : List Event) (s : St) : Timed conf s.world (run C K es s).2.world := by
  induction es generalizing s with
  | nil => exact (timed_chain conf).refl _
  | cons e es ih =>
    have h1 := timed_step C K conf e s
    simp only [run]
    rw [bind_run]
    rcases hr : step C K e s with ⟨r, t⟩
    rw [hr] at h1
    cases r with
    | ok a => exact (timed_chain conf).trans _ _ _ h1 (ih t)
    | err e => exact h1
    | panic => exact h1
    | fatal => exact h1

/-- C105 for the GUI: whatever happens, the check in the background uses the timeout of the configuration in force when
the GUI starts. -/
theorem C105_gui (path : Bytes) (x y : Nat) (es : List Event) (w : World) :
    ∃ l, (app C K path x y es w).2.log = w.log ++ l ∧ ∀ u t, Ev.request u t ∈ l → TimeoutIs w.conf t := by
  have hR := timed_chain w.conf
  suffices h : Timed w.conf w (app C K path x y es w).2 from (h rfl).2
  unfold app
  refine Rel.bind hR (rel_chooseVault hR path) (fun vault => Rel.bind hR (timed_onSession _ _) (fun r => ?_)) w
  · cases r with
    | error e => exact rel_die hR e (fun b => timed_out _ (by intro u t h; cases h))
    | ok _ =>
      intro w2
      exact timed_run C K w.conf (.flush x y :: es) (start vault w2)

end Gui

/-! ### Examples -/

namespace Cli

/-- Five seconds configured: that is the timeout; none configured: one second. -/
example : TimeoutIs (some [(b!"timeout", .int 5)]) 5 ∧ ¬ TimeoutIs (some [(b!"timeout", .int 5)]) 1 ∧
    TimeoutIs (some []) 1 ∧ TimeoutIs none 1 ∧ ¬ TimeoutIs none 5 := by
  unfold TimeoutIs; decide

set_option maxRecDepth 20000 in
/-- An update makes four requests, each with the five seconds configured. -/
example : TimeoutIs (updater b!"y\n").conf 5 ∧
    steadyRun.2.log.filterMap (fun e => match e with | .request _ t => some t | _ => none) = [5, 5, 5, 5] := by
  unfold TimeoutIs; decide +kernel

end Cli
end OnePass
