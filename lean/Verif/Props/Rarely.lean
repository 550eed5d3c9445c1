/-
C122: how often the program asks the server by itself, over any number of runs.
-/
import Verif.Props.Configured
import Verif.Props.Wait
import Verif.Props.Throttle

set_option linter.unusedSimpArgs false

namespace OnePass
namespace Cli
open Prog Upd Fmt Http

/-- A span of time: from `T` on, for `D` nanoseconds. -/
def InSpan (T : Int) (D : Nat) (t : Int) : Prop := T ≤ t ∧ t ≤ T + D

/-- The time stamp is one of a check within the span. -/
def Fresh (dir : Bytes) (T : Int) (D : Nat) (d : Disk) : Prop := ∃ t, InSpan T D t ∧ Stamped d dir (seconds t)

/-- At most one request, and none if the last check was within the span. -/
def Once (dir : Bytes) (T : Int) (D : Nat) (m : YMap) (w w' : World) : Prop :=
  w.conf = some m → Fresh dir T D w.disk ∨ Upd.Reachable w.disk dir →
    w'.conf = some m ∧ (Fresh dir T D w'.disk ∨ Upd.Reachable w'.disk dir) ∧
    ∃ es, w'.log = w.log ++ es ∧
      (requests es = [] ∧ w'.disk = w.disk ∨
       ¬ Fresh dir T D w.disk ∧ (requests es).length = 1 ∧ Fresh dir T D w'.disk)

theorem once_chain (dir : Bytes) (T : Int) (D : Nat) (m : YMap) : Chain (Once dir T D m) := by
  refine ⟨fun w h hr => ⟨h, hr, [], by simp, .inl ⟨rfl, rfl⟩⟩, ?_⟩
  intro a b c h1 h2 ha hr
  obtain ⟨h3, h4, e1, h5, h6⟩ := h1 ha hr
  obtain ⟨h7, h8, e2, h9, h10⟩ := h2 h3 h4
  refine ⟨h7, h8, e1 ++ e2, by rw [h9, h5, List.append_assoc], ?_⟩
  rw [requests_append]
  rcases h6 with ⟨k1, k2⟩ | ⟨k1, k2, k3⟩ <;> rcases h10 with ⟨k4, k5⟩ | ⟨k4, k5, k6⟩
  · exact .inl ⟨by rw [k1, k4]; rfl, k5.trans k2⟩
  · exact .inr ⟨by rw [← k2]; exact k4, by rw [k1]; exact k5, k6⟩
  · exact .inr ⟨k1, by rw [k4]; simpa using k2, by rw [k5]; exact k3⟩
  · exact absurd k3 k4

/-- Something that makes no request and leaves configuration and disk alone. -/
theorem once_still {dir : Bytes} {T : Int} {D : Nat} {m : YMap} {w w' : World} (h1 : w'.conf = w.conf) (h2 : w'.disk = w.disk)
    {es : List Ev} (h3 : w'.log = w.log ++ es) (h4 : requests es = []) : Once dir T D m w w' :=
  fun h hr => ⟨h1.trans h, by rw [h2]; exact hr, es, h3, .inl ⟨h4, h2⟩⟩

/-- What a run needs for the span: a clock that stays within it, system calls that work, and a server that answers. -/
structure Served (C : Ctx) (T : Int) (D : Nat) : Prop where
  quiet : C.sys.Quiet
  clock : ∀ n, InSpan T D (C.sys.now n)
  answers : ∀ n, Answered C.sys n

/-- The span is shorter than the period. -/
structure Short (T : Int) (D : Nat) (period : Int) : Prop where
  small : period ≤ 106751
  span : (D : Int) + 1001000000 ≤ period * day
  first : -9223372036854775808 ≤ seconds T
  last : seconds (T + D) < 9223372036854775808

theorem once_upd {C : Ctx} {T : Int} {D : Nat} (hC : Served C T D) (hdir : C.dir ≠ []) (m : YMap) {period timeout : Int} (hs : Short T D period) :
    Rel (Once C.dir T D m) (Upd.checkForUpdate C.sys C.ext period timeout false C.dir) := by
  intro w hw hr
  obtain ⟨p, rfl⟩ : ∃ p : Nat, period = p := by
    refine ⟨period.toNat, ?_⟩
    have := hs.span
    unfold day at this
    omega
  have hcalm : (Upd.checkForUpdate C.sys C.ext p timeout false C.dir w).2.conf = w.conf := by
    exact (calm_checkForUpdate C.sys C.ext p timeout false C.dir w).1
  by_cases hf : Fresh C.dir T D w.disk
  · obtain ⟨t, ⟨t1, t2⟩, hst⟩ := hf
    have h1 := C56_throttled C.sys hC.quiet C.ext p (by have := hs.small; omega) timeout C.dir w _ hst (by
      obtain ⟨n1, n2⟩ := hC.clock (w.tick + 2)
      have := hs.span
      unfold seconds day at *
      omega)
    rw [h1]
    exact ⟨hw, hr, [], by simp, .inl ⟨rfl, rfl⟩⟩
  · obtain ⟨b, hb⟩ := shouldCheck_run C.sys C.ext p C.dir w
    cases b with
    | false =>
      have h1 : Upd.checkForUpdate C.sys C.ext p timeout false C.dir w = (.ret (.error .noUpdate), { w with tick := w.tick + 3 }) := by
        unfold Upd.checkForUpdate
        simp only [Bool.false_eq_true, if_false]
        rw [bind_run, hb]
        rfl
      rw [h1]
      exact ⟨hw, hr, [], by simp, .inl ⟨rfl, rfl⟩⟩
    | true =>
      have hrr := hr.resolve_left hf
      obtain ⟨n1, n2⟩ := hC.clock (w.tick + 4)
      have f1 := hs.first
      have f2 := hs.last
      have h2 := C57_written_unforced C.sys hC.quiet C.ext p timeout C.dir hdir w hrr (hC.answers _) (by rw [hb])
        (by unfold seconds at *; omega) (by unfold seconds at *; omega)
      have hfr : Fresh C.dir T D (Upd.checkForUpdate C.sys C.ext p timeout false C.dir w).2.disk := ⟨_, ⟨n1, n2⟩, h2⟩
      obtain ⟨e1, l1, l2⟩ := few_check C.sys C.ext p timeout false C.dir w
      obtain ⟨e2, l3⟩ := check_log C.sys C.ext p timeout false C.dir w _ (fun _ => hb) (by simp) rfl
      refine ⟨hcalm.trans hw, .inl hfr, e1, l1, .inr ⟨hf, ?_, hfr⟩⟩
      rw [l1] at l3
      have := List.append_cancel_left l3
      subst this
      have : requests (Ev.request githubReleases timeout :: e2) = (githubReleases, timeout) :: requests e2 := rfl
      rw [this, List.length_cons] at l2 ⊢
      omega

/-- The check before a command. -/
theorem once_check {C : Ctx} {T : Int} {D : Nat} (hC : Served C T D) (hdir : C.dir ≠ []) (m : YMap) (c : Config)
    (hc : Conf.getConfig (some m) = .ret c) (hs : Short T D c.period) : Rel (Once C.dir T D m) (checkForUpdate C) := by
  have hR := once_chain C.dir T D m
  intro w hw
  refine (?_ : Once C.dir T D m w _) hw
  unfold checkForUpdate
  rw [bind_run, read_run, hw, hc]
  simp only
  by_cases hn : c.notify = true
  · rw [if_pos hn, bind_run]
    have h1 : Upd.facadeCheck C.sys C.ext C.dir false w = Upd.checkForUpdate C.sys C.ext c.period c.timeout false C.dir w := by
      unfold Upd.facadeCheck
      rw [bind_run, read_run, hw, hc]
    rw [h1]
    have h2 := once_upd hC hdir m (timeout := c.timeout) hs w
    rcases hr : Upd.checkForUpdate C.sys C.ext c.period c.timeout false C.dir w with ⟨o, w1⟩
    rw [hr] at h2
    cases o with
    | panic => exact h2
    | fatal => exact h2
    | ret r =>
      cases r with
      | error e => exact h2
      | ok i => exact hR.trans _ _ _ h2 (once_still rfl rfl rfl rfl)
  · rw [if_neg hn]
    exact hR.refl w

/-- A command, with a configuration. -/
theorem once_command {C : Ctx} {T : Int} {D : Nat} (hC : Served C T D) (hdir : C.dir ≠ []) (m : YMap) (hm : m ≠ []) (c : Config)
    (hc : Conf.getConfig (some m) = .ret c) (hs : Short T D c.period) (cmd : Cmd) (h1 : cmd ≠ .update) (h2 : cmd ≠ .configure) :
    Rel (Once C.dir T D m) (command C cmd) := by
  have hR := once_chain C.dir T D m
  have hout : ∀ b, Rel (Once C.dir T D m) (emit (.out b)) := fun b w => once_still rfl rfl rfl rfl
  have htab : ∀ h r, Rel (Once C.dir T D m) (emit (.table h r)) := fun _ _ w => once_still rfl rfl rfl rfl
  have hcheck := once_check hC hdir m c hc hs
  have hpw : Rel (Once C.dir T D m) (Os.readPassword C.sys) := by
    intro w
    rw [Os.readPassword_run]
    exact once_still rfl rfl rfl rfl
  have hsess : ∀ {α : Type} (f : Disk → Session → Out (α × Session)), Rel (Once C.dir T D m) (onSession f) := by
    intro α f w
    unfold onSession
    cases f w.disk w.sess <;> exact once_still rfl rfl (List.append_nil _).symm rfl
  have hfirst : Rel (Once C.dir T D m) (firstRun C) := by
    intro w hw
    refine (?_ : Once C.dir T D m w _) hw
    rw [firstRun_skip C (by rw [hw]; cases m with | nil => exact absurd rfl hm | cons a r => rfl)]
    exact hR.refl w
  cases hasks : cmd.asks with
  | true => exact rel_command hR C cmd hasks hfirst hcheck hout htab hpw hsess
  | false =>
    cases cmd with
    | update => exact absurd rfl h1
    | configure => exact absurd rfl h2
    | categories =>
      refine Rel.bind hR hcheck (fun _ => rel_get (fun w => Rel.bind hR ?_ (fun _ => htab _ _)))
      exact fun w => once_still rfl rfl (List.append_nil _).symm rfl
    | version => exact hout _
    | gui v => cases hasks
    | list v c n t => cases hasks
    | overview v u t => cases hasks
    | details v u t => cases hasks

/-- C122: over any number of runs of any commands but `update` and `configure`, within a span of time shorter than the configured
period, the server is asked at most once, by all of them together; and not at all if the last check was within the span. -/
theorem C122_once (X : Ext) (dir : Bytes) (hdir : dir ≠ []) (m : YMap) (hm : m ≠ []) (c : Config)
    (hc : Conf.getConfig (some m) = .ret c) (T : Int) (D : Nat) (hs : Short T D c.period) (rs : List Run)
    (hall : ∀ q ∈ rs, q.ctx.ext = X ∧ q.ctx.dir = dir ∧ Served q.ctx T D ∧ q.cmd ≠ .update ∧ q.cmd ≠ .configure)
    (w : World) (hl : Conf.loaded X w.disk dir = some (some m)) (hr : Fresh dir T D w.disk ∨ Upd.Reachable w.disk dir) :
    ∃ es, (history w rs).log = w.log ++ es ∧ (requests es).length ≤ 1 ∧ (Fresh dir T D w.disk → requests es = []) := by
  suffices h : ∃ es, (history w rs).log = w.log ++ es ∧
      (requests es = [] ∨ ¬ Fresh dir T D w.disk ∧ (requests es).length = 1) by
    obtain ⟨es, h1, h2 | ⟨h2, h3⟩⟩ := h
    · exact ⟨es, h1, by rw [h2]; simp, fun _ => h2⟩
    · exact ⟨es, h1, by omega, fun h => absurd h h2⟩
  induction rs generalizing w with
  | nil => exact ⟨[], by simp [history], .inl rfl⟩
  | cons q qs ih =>
    obtain ⟨rfl, rfl, h3, h4, h5⟩ := hall q (by simp)
    have hl1 := stays_main q.ctx hdir h3.quiet q.cmd h4 h5 { w with stdin := q.stdin } m hl hm
    obtain ⟨k, hk⟩ := Conf.boot_run (X := q.ctx.ext) h3.quiet q.ctx.dir { w with stdin := q.stdin }
    have hl0 : Conf.loaded q.ctx.ext ({ w with stdin := q.stdin } : World).disk q.ctx.dir = some (some m) := hl
    simp only [hl0] at hk
    have hmain : main q.ctx q.cmd { w with stdin := q.stdin } = command q.ctx q.cmd
        { w with stdin := q.stdin, tick := w.tick + k, conf := some m, sess := Session.init } := by
      unfold main
      rw [bind_run, hk]
    obtain ⟨-, a2, e1, a3, a4⟩ := once_command h3 hdir m hm c hc hs q.cmd h4 h5
      { w with stdin := q.stdin, tick := w.tick + k, conf := some m, sess := Session.init } rfl hr
    rw [← hmain] at a2 a3 a4
    obtain ⟨e2, b1, b2⟩ := ih (fun q' hq' => hall q' (by simp [hq'])) _ hl1 a2
    refine ⟨e1 ++ e2, ?_, ?_⟩
    · show (history (main q.ctx q.cmd { w with stdin := q.stdin }).2 qs).log = _
      rw [b1, a3, List.append_assoc]
    · rw [requests_append]
      rcases a4 with ⟨k1, k2⟩ | ⟨k1, k2, k3⟩ <;> rcases b2 with k4 | ⟨k4, k5⟩
      · exact .inl (by rw [k1, k4]; rfl)
      · exact .inr ⟨by rw [k2] at k4; exact k4, by rw [k1]; exact k5⟩
      · exact .inr ⟨k1, by rw [k4]; simpa using k2⟩
      · exact absurd k3 k4

/-- The commands that check for updates do so first, and then make no request. -/
theorem checks_first (C : Ctx) (cmd : Cmd) (h : cmd.checks = true) (w : World) (hav : Conf.isAvailable w.conf = true) :
    ∃ k : Unit → Prog Unit, command C cmd w = (checkForUpdate C >>= k) w ∧ ∀ x, Rel NoAsk (k x) := by
  have hR := noAsk_chain
  have hout : ∀ b, Rel NoAsk (emit (.out b)) := fun b => noAsk_out (by intro u t h; cases h)
  have htab : ∀ a b, Rel NoAsk (emit (.table a b)) := fun a b => noAsk_out (by intro u t h; cases h)
  have hsess : ∀ {α : Type} (f : Disk → Session → Out (α × Session)), Rel NoAsk (onSession f) := by
    intro α f v
    unfold onSession
    cases f v.disk v.sess <;> exact ⟨[], by simp, by simp⟩
  have hpw : Rel NoAsk (Os.readPassword C.sys) := noAsk_of_foot (fun cwd => foot_readPassword _ _ _ _ (by intro u t h; cases h))
  have hopen : ∀ flag (f : Unit → Prog Unit), (∀ x, Rel NoAsk (f x)) →
      ∃ k : Unit → Prog Unit, (openVault C flag >>= f) w = (checkForUpdate C >>= k) w ∧ ∀ x, Rel NoAsk (k x) := by
    intro flag f hf
    have h1 : ∃ k : Unit → Prog Unit, openVault C flag = (firstRun C >>= fun _ => (checkForUpdate C >>= k)) ∧ ∀ x, Rel NoAsk (k x) := by
      refine ⟨_, rfl, fun _ => Rel.bind hR (rel_chooseVault hR flag) (fun v => Rel.bind hR (hsess _) (fun r => ?_))⟩
      cases r with
      | error e => exact rel_die hR e hout
      | ok _ =>
        refine Rel.bind hR (hout _) (fun _ => Rel.bind hR hpw (fun pw => Rel.bind hR (hsess _) (fun r => ?_)))
        cases r with
        | error e => exact rel_die hR e hout
        | ok _ => exact Rel.pure hR _
    obtain ⟨k, h1, h2⟩ := h1
    refine ⟨fun x => k x >>= f, ?_, fun x => Rel.bind hR (h2 x) hf⟩
    rw [bind_run, h1, bind_run, firstRun_skip C hav, bind_run]
    simp only
    rw [bind_run]
    rcases checkForUpdate C w with ⟨o, w1⟩
    cases o with
    | ret x => simp only; rw [bind_run]
    | panic => rfl
    | fatal => rfl
  cases cmd with
  | version => cases h
  | update => cases h
  | configure =>
    refine ⟨_, rfl, fun _ => ?_⟩
    exact rel_dialog hR C (fun b w => ⟨[.out b], rfl, by simp [NoRequest]⟩)
      (fun w => ⟨[.scan], rfl, by simp [NoRequest]⟩)
      (fun c => noAsk_of_foot (fun cwd => foot_save _ _ _ _ _ _ _ (fun _ _ => trivial) trivial))
  | gui v => cases h
  | categories =>
    refine ⟨_, rfl, fun _ => rel_get (fun v => Rel.bind hR ?_ (fun _ => htab _ _))⟩
    exact fun v => ⟨[], by simp [setSess], by simp⟩
  | list v c n t =>
    refine hopen v _ (fun _ => rel_get (fun v => ?_))
    cases categoryFilter C v.sess.reg c with
    | error e => exact rel_die hR e hout
    | ok cat =>
      show Rel _ (if _ then _ else _)
      split
      · exact htab _ _
      · exact hout _
  | overview v u t => exact hopen v _ (fun _ => rel_printItem hR C true u t hout)
  | details v u t => exact hopen v _ (fun _ => rel_printItem hR C false u t hout)

/-- C122: the first of these commands after the period (or without a time stamp) asks, once, for the releases. -/
theorem C122_due (C : Ctx) (hq : C.sys.Quiet) (cmd : Cmd) (hcmd : cmd.checks = true) (w : World) (m : YMap) (hm : m ≠ [])
    (hl : Conf.loaded C.ext w.disk C.dir = some (some m)) (c : Config) (hc : Conf.getConfig (some m) = .ret c)
    (hn : c.notify = true) (hp : c.period ≤ 106751)
    (hdue : ∀ s, Stamped w.disk C.dir s → ∀ n, c.period * day ≤ (C.sys.now n - s * 1000000000).natAbs) :
    ∃ es, (main C cmd w).2.log = w.log ++ es ∧ requests es = [(githubReleases, c.timeout)] := by
  obtain ⟨k, hk⟩ := Conf.boot_run (X := C.ext) hq C.dir w
  simp only [hl] at hk
  have hav : Conf.isAvailable (some m) = true := by
    cases m with
    | nil => exact absurd rfl hm
    | cons a r => rfl
  generalize hw0 : ({ w with tick := w.tick + k, conf := some m, sess := Session.init } : World) = w0 at hk
  have hmain : main C cmd w = command C cmd w0 := by
    unfold main
    rw [bind_run, hk]
  have hconf : w0.conf = some m := by rw [← hw0]
  have hdisk : w0.disk = w.disk := by rw [← hw0]
  have hlog : w0.log = w.log := by rw [← hw0]
  obtain ⟨k2, h1, h2⟩ := checks_first C cmd hcmd w0 (by rw [hconf]; exact hav)
  -- the check
  have hcheck : ∃ es, (checkForUpdate C w0).2.log = w0.log ++ es ∧ requests es = [(githubReleases, c.timeout)] := by
    have h3 : ∃ es, (Upd.checkForUpdate C.sys C.ext c.period c.timeout false C.dir w0).2.log = w0.log ++ .request githubReleases c.timeout :: es := by
      by_cases hst : ∃ s, Stamped w0.disk C.dir s
      · by_cases hp0 : c.period ≤ 0
        · exact C56_every_time C.sys hq C.ext c.period hp0 c.timeout C.dir w0
        · obtain ⟨s, hst⟩ := hst
          obtain ⟨p, hpp⟩ : ∃ p : Nat, c.period = p := ⟨c.period.toNat, by omega⟩
          rw [hpp]
          have h4 := hdue s (by rw [← hdisk]; exact hst) (w0.tick + 2)
          rw [hpp] at h4 hp
          exact C56_due C.sys hq C.ext p (by omega) c.timeout C.dir w0 s hst (by exact_mod_cast h4)
      · exact C56_no_stamp C.sys C.ext c.period c.timeout C.dir w0 (fun s hs => hst ⟨s, hs⟩)
    obtain ⟨e1, h3⟩ := h3
    have h5 : ∃ e2, (checkForUpdate C w0).2.log = (Upd.checkForUpdate C.sys C.ext c.period c.timeout false C.dir w0).2.log ++ e2 := by
      unfold checkForUpdate
      rw [bind_run, read_run, hconf, hc]
      simp only
      rw [if_pos hn, bind_run]
      have h6 : Upd.facadeCheck C.sys C.ext C.dir false w0 = Upd.checkForUpdate C.sys C.ext c.period c.timeout false C.dir w0 := by
        unfold Upd.facadeCheck
        rw [bind_run, read_run, hconf, hc]
      rw [h6]
      rcases Upd.checkForUpdate C.sys C.ext c.period c.timeout false C.dir w0 with ⟨o, w1⟩
      cases o with
      | panic => exact ⟨[], (List.append_nil _).symm⟩
      | fatal => exact ⟨[], (List.append_nil _).symm⟩
      | ret r =>
        cases r with
        | error e => exact ⟨[], (List.append_nil _).symm⟩
        | ok i => exact ⟨_, rfl⟩
    obtain ⟨e2, h5⟩ := h5
    obtain ⟨e3, h6, h7⟩ := few_cliCheck C w0
    refine ⟨e3, h6, ?_⟩
    rw [h6, h3, List.append_assoc] at h5
    have := List.append_cancel_left h5
    subst this
    have h8 : requests ((Ev.request githubReleases c.timeout :: e1) ++ e2) = (githubReleases, c.timeout) :: requests (e1 ++ e2) := rfl
    rw [h8, List.length_cons] at h7
    rw [h8, List.length_eq_zero_iff.1 (by omega : (requests (e1 ++ e2)).length = 0)]
  obtain ⟨es, h3, h4⟩ := hcheck
  rw [hmain, h1, bind_run]
  rcases hr : checkForUpdate C w0 with ⟨o, w1⟩
  rw [hr] at h3
  simp only at h3
  cases o with
  | panic => exact ⟨es, by rw [← hlog]; exact h3, h4⟩
  | fatal => exact ⟨es, by rw [← hlog]; exact h3, h4⟩
  | ret x =>
    obtain ⟨e2, h5, h6⟩ := h2 x w1
    refine ⟨es ++ e2, ?_, by rw [requests_append, h4, requests_none h6]; rfl⟩
    simp only
    rw [h5, h3, hlog, List.append_assoc]

/-- Three runs within two days. -/
def someRuns : List Run :=
  [⟨demo b!"null" 5000000000, [], .categories⟩, ⟨demo b!"null" 86400000000000, [], .list [] [] [] false⟩,
   ⟨demo b!"null" 172800000000000, [], .details b!"/x" b!"u" true⟩]

theorem demo_served (t : Int) (h : 5000000000 ≤ t ∧ t ≤ 172800000000000) : Served (demo b!"null" t) 5000000000 172795000000000 := by
  refine ⟨fun _ => rfl, fun n => ?_, fun n => ?_⟩
  · show 5000000000 ≤ t ∧ t ≤ 5000000000 + (172795000000000 : Nat)
    omega
  · refine ⟨none, ?_⟩
    show answered (.body b!"null" true) = _
    decide +kernel

/-- C122: with a period of seven days they ask once, together. -/
example : requests (history eager someRuns).log = [(githubReleases, 5)] ∧
    (history eager someRuns).disk.readFile b!"/h/lastcheck" = some b!"5" ∧
    (requests (history eager (someRuns ++ [⟨demo b!"null" 604805000000000, [], .categories⟩])).log).length = 2 := by decide +kernel

/-- C122: what the theorem assumes is true of them. -/
example : ∃ es, (history eager someRuns).log = eager.log ++ es ∧ (requests es).length ≤ 1 ∧
    (Fresh b!"/h" 5000000000 172795000000000 eager.disk → requests es = []) := by
  refine C122_once Toy.ext b!"/h" (by decide) (Conf.updated [] { Conf.myConf with notify := true, timeout := 5 }) (by decide +kernel)
    { Conf.myConf with notify := true, timeout := 5 } (by decide +kernel) 5000000000 172795000000000 ?_ someRuns ?_ eager ?_ (.inr ?_)
  · exact ⟨by decide, by decide, by decide, by decide⟩
  · intro q hq
    simp only [someRuns, List.mem_cons, List.not_mem_nil, or_false] at hq
    rcases hq with rfl | rfl | rfl
    · exact ⟨rfl, rfl, demo_served _ (by omega), by simp, by simp⟩
    · exact ⟨rfl, rfl, demo_served _ (by omega), by simp, by simp⟩
    · exact ⟨rfl, rfl, demo_served _ (by omega), by simp, by simp⟩
  · decide +kernel
  · refine ⟨by decide +kernel, ?_, by decide +kernel⟩
    have h1 : Path.resolve eager.disk.cwd b!"/h" = [b!"h"] := by decide +kernel
    rw [h1]
    intro l hl hne
    have : l = [b!"h"] := by
      rw [List.prefix_cons_iff] at hl
      rcases hl with rfl | ⟨t, rfl, ht⟩
      · exact absurd rfl hne
      · rw [List.prefix_nil.1 ht]
    subst this
    decide +kernel

end Cli
end OnePass
