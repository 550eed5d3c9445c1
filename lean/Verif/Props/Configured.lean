/-
C118: what was configured is what later runs use.
-/
import Verif.Props.Timeout
import Verif.Props.Notice

set_option linter.unusedSimpArgs false

namespace OnePass
namespace Cli
open Prog Upd Fmt

/-- A process started in `cwd` with a configuration keeps it, in memory and on disk. -/
def Stays (dir : Bytes) (cwd : List Bytes) (w w' : World) : Prop :=
  w.disk.cwd = cwd → Conf.isAvailable w.conf = true → w'.disk.cwd = cwd ∧ w'.conf = w.conf ∧
    w'.disk.at? (Path.resolve cwd (Conf.path dir)) = w.disk.at? (Path.resolve cwd (Conf.path dir))

theorem stays_chain (dir : Bytes) (cwd : List Bytes) : Chain (Stays dir cwd) :=
  ⟨fun _ h _ => ⟨h, rfl, rfl⟩, fun a b c h1 h2 ha hb => by
    obtain ⟨h3, h4, h5⟩ := h1 ha hb
    obtain ⟨h6, h7, h8⟩ := h2 h3 (by rw [h4]; exact hb)
    exact ⟨h6, h7.trans h4, h8.trans h5⟩⟩

/-- No command except `update` and `configure` changes a configuration there is. -/
theorem stays_command (C : Ctx) (hdir : C.dir ≠ []) (cmd : Cmd) (h1 : cmd ≠ .update) (h2 : cmd ≠ .configure) (cwd : List Bytes) :
    Rel (Stays C.dir cwd) (command C cmd) := by
  have hR := stays_chain C.dir cwd
  have hout : ∀ b, Rel (Stays C.dir cwd) (emit (.out b)) := fun b w h _ => ⟨h, rfl, rfl⟩
  have htab : ∀ h r, Rel (Stays C.dir cwd) (emit (.table h r)) := fun _ _ w h _ => ⟨h, rfl, rfl⟩
  have hcheck : Rel (Stays C.dir cwd) (checkForUpdate C) := by
    intro w hw _
    obtain ⟨h3, h4, -⟩ := foot_cliCheck C cwd (fun _ => True) (fun _ => trivial) (fun _ => trivial) w hw
    exact ⟨h3, (calm_cliCheck C w).1, h4 _ (conf_not_stamp _ hdir)⟩
  have hpw : Rel (Stays C.dir cwd) (Os.readPassword C.sys) := by
    intro w hw _
    rw [Os.readPassword_run]
    exact ⟨hw, rfl, rfl⟩
  have hsess : ∀ {α : Type} (f : Disk → Session → Out (α × Session)), Rel (Stays C.dir cwd) (onSession f) := by
    intro α f w hw _
    unfold onSession
    cases f w.disk w.sess <;> exact ⟨hw, rfl, rfl⟩
  have hfirst : Rel (Stays C.dir cwd) (firstRun C) := by
    intro w hw hav
    rw [firstRun_skip C hav]
    exact ⟨hw, rfl, rfl⟩
  cases hasks : cmd.asks with
  | true => exact rel_command hR C cmd hasks hfirst hcheck hout htab hpw hsess
  | false =>
    cases cmd with
    | update => exact absurd rfl h1
    | configure => exact absurd rfl h2
    | categories =>
      refine Rel.bind hR hcheck (fun _ => rel_get (fun w => Rel.bind hR ?_ (fun _ => htab _ _)))
      exact fun w h _ => ⟨h, rfl, rfl⟩
    | version => exact hout _
    | gui v => cases hasks
    | list v c n t => cases hasks
    | overview v u t => cases hasks
    | details v u t => cases hasks

/-- The same for a whole run: the configuration file is read as before. -/
theorem stays_main (C : Ctx) (hdir : C.dir ≠ []) (hq : C.sys.Quiet) (cmd : Cmd) (h1 : cmd ≠ .update) (h2 : cmd ≠ .configure)
    (w : World) (m : YMap) (hl : Conf.loaded C.ext w.disk C.dir = some (some m)) (hm : m ≠ []) :
    Conf.loaded C.ext (main C cmd w).2.disk C.dir = some (some m) := by
  obtain ⟨k, hk⟩ := Conf.boot_run (X := C.ext) hq C.dir w
  rw [hl] at hk
  unfold main
  rw [bind_run, hk]
  simp only
  have hne : Conf.isAvailable (some m) = true := by
    cases m with
    | nil => exact absurd rfl hm
    | cons a r => rfl
  obtain ⟨h3, -, h5⟩ := stays_command C hdir cmd h1 h2 w.disk.cwd
    { w with tick := w.tick + k, conf := some m, sess := Session.init } rfl hne
  rw [← hl]
  exact loaded_congr C.ext C.dir h3 h5

/-- The same for any number of runs. -/
theorem stays_history (X : Ext) (dir : Bytes) (hdir : dir ≠ []) (rs : List Run)
    (hall : ∀ q ∈ rs, q.ctx.ext = X ∧ q.ctx.dir = dir ∧ q.ctx.sys.Quiet ∧ q.cmd ≠ .update ∧ q.cmd ≠ .configure)
    (w : World) (m : YMap) (hl : Conf.loaded X w.disk dir = some (some m)) (hm : m ≠ []) :
    Conf.loaded X (history w rs).disk dir = some (some m) := by
  induction rs generalizing w with
  | nil => exact hl
  | cons q qs ih =>
    obtain ⟨h1, h2, h3, h4, h5⟩ := hall q (by simp)
    refine ih (fun q' hq' => hall q' (by simp [hq'])) _ ?_
    have := stays_main q.ctx (by rw [h2]; exact hdir) h3 q.cmd h4 h5 { w with stdin := q.stdin } m (by rw [h1, h2]; exact hl) hm
    rw [h1, h2] at this
    exact this

/-- The flag left out is the configured path given. -/
theorem flag_omitted (C : Ctx) {w : World} {c : Config} (hav : Conf.isAvailable w.conf = true) (hc : Conf.getConfig w.conf = .ret c) :
    openVault C [] w = openVault C c.vault w := by
  by_cases hv : c.vault = []
  · rw [hv]
  · unfold openVault
    rw [bind_run, bind_run, firstRun_skip C hav]
    show (checkForUpdate C >>= _) w = (checkForUpdate C >>= _) w
    rw [bind_run, bind_run]
    have h1 := (calm_cliCheck C w).1
    cases hr : checkForUpdate C w with
    | mk o w1 =>
      rw [hr] at h1
      cases o with
      | panic => rfl
      | fatal => rfl
      | ret u =>
        have h2 : chooseVault [] w1 = (.ret c.vault, w1) := by
          show (Conf.read >>= _) w1 = _
          rw [bind_run, read_run, h1, hc]
          rfl
        have h3 : chooseVault c.vault w1 = (.ret c.vault, w1) := by
          unfold chooseVault
          rw [if_pos hv]
          rfl
        show (chooseVault [] >>= _) w1 = (chooseVault c.vault >>= _) w1
        rw [bind_run, bind_run, h2, h3]

/-- What it means that a run, started in `w`, uses the configuration `c`: the vault for commands without the flag, the
timeout for every request, and no requests if notifications are off. -/
structure Uses (C : Ctx) (c : Config) (w : World) : Prop where
  list : ∀ cat name t, main C (.list [] cat name t) w = main C (.list c.vault cat name t) w
  overview : ∀ u t, main C (.overview [] u t) w = main C (.overview c.vault u t) w
  details : ∀ u t, main C (.details [] u t) w = main C (.details c.vault u t) w
  timeout : ∀ cmd, ∃ es, (main C cmd w).2.log = w.log ++ es ∧ ∀ u t, Ev.request u t ∈ es → t = c.timeout
  quiet : c.notify = false → ∀ cmd, cmd ≠ .update → ∃ es, (main C cmd w).2.log = w.log ++ es ∧ ∀ u t, Ev.request u t ∉ es
  gui : ∃ w1, main C (.gui []) w = (.ret (), w1) ∧ ∀ (K : Gui.Kit) (x y : Nat) (es : List Gui.Event),
    Gui.app C K [] x y es w1 = Gui.app C K c.vault x y es w1 ∧
      ∃ l, (Gui.app C K [] x y es w1).2.log = w1.log ++ l ∧ ∀ u t, Ev.request u t ∈ l → t = c.timeout

/-- A run uses the configuration in the file. -/
theorem uses_file (C : Ctx) (hq : C.sys.Quiet) (w : World) (m : YMap) (hm : m ≠ [])
    (hl : Conf.loaded C.ext w.disk C.dir = some (some m)) (c : Config) (hc : Conf.getConfig (some m) = .ret c) : Uses C c w := by
  obtain ⟨k, hk⟩ := Conf.boot_run (X := C.ext) hq C.dir w
  simp only [hl] at hk
  have hne : Conf.isAvailable (some m) = true := by
    cases m with
    | nil => exact absurd rfl hm
    | cons a r => rfl
  generalize hw0 : ({ w with tick := w.tick + k, conf := some m, sess := Session.init } : World) = w0 at hk
  have e0 : w0.log = w.log := by rw [← hw0]
  have e1 : w0.conf = some m := by rw [← hw0]
  have hrun : ∀ cmd, main C cmd w = command C cmd w0 := by
    intro cmd
    unfold main
    rw [bind_run, hk]
  have hav : Conf.isAvailable w0.conf = true := by rw [e1]; exact hne
  have hc0 : Conf.getConfig w0.conf = .ret c := by rw [e1]; exact hc
  have ht : ∀ t, TimeoutIs w0.conf t → t = c.timeout := by
    intro t h
    rcases h with ⟨h1, rfl⟩ | h1 <;> rcases timeout_is hc0 with ⟨h2, h3⟩ | h2
    · exact h3.symm
    · rw [h1] at h2; cases h2
    · rw [h1] at h2; cases h2
    · rw [h1] at h2; cases h2; rfl
  have hopen : ∀ {α : Type} (f : Unit → Prog α), (openVault C [] >>= f) w0 = (openVault C c.vault >>= f) w0 := by
    intro α f
    rw [bind_run, bind_run, flag_omitted C hav hc0]
  refine ⟨fun cat name t => ?_, fun u t => ?_, fun u t => ?_, fun cmd => ?_, fun hn cmd hcmd => ?_, w0, ?_, fun K x y es => ⟨?_, ?_⟩⟩
  · rw [hrun, hrun]; exact hopen _
  · rw [hrun, hrun]; exact hopen _
  · rw [hrun, hrun]; exact hopen _
  · obtain ⟨es, h1, h2⟩ := C105_commands C cmd w0 (fun _ => hav)
    exact ⟨es, by rw [hrun, h1, e0], fun u t h => ht t (h2 u t h)⟩
  · have hs : Silent w0 := by
      unfold Silent
      obtain ⟨-, -, -, -, h1, h2, -⟩ := Conf.C46_defaults w0.conf c hc0
      rcases ((Conf.C46_crash w0.conf).1.1 ⟨c, hc0⟩).2.1 with h3 | ⟨v, h3⟩
      · rw [h1 h3] at hn; cases hn
      · rw [h3, ← hn, h2 v h3]
    obtain ⟨es, h1, h2⟩ := C60_no_request_partial C cmd hcmd w0 hs
    exact ⟨es, by rw [hrun, h1, e0], h2⟩
  · rw [hrun]; exact firstRun_skip C hav
  · by_cases hv : c.vault = []
    · rw [hv]
    · exact (Gui.C64_gui C K [] x y es w0).2 c hc0 hv
  · obtain ⟨l, h1, h2⟩ := Gui.C105_gui C K [] x y es w0
    exact ⟨l, h1, fun u t h => ht t (h2 u t h)⟩

/-- C118. After a configuration dialog that ended well, and any runs of other commands since (`update` left out), the
next run uses exactly what the answers meant. -/
theorem C118_configured (X : Ext) (dir : Bytes) (hdir : dir ≠ []) (w : World) (old : Config) (m0 : Option YMap)
    (hl : Conf.loaded X w.disk dir = some m0) (hold : Conf.getConfig m0 = .ret old)
    (r : Run) (hr : r.cmd = .configure) (hctx : r.ctx.ext = X ∧ r.ctx.dir = dir ∧ r.ctx.sys.Quiet)
    (a1 path a2 a3 a4 rest : Bytes) (ht : Typed r.ctx.env.text r.stdin a1 path a2 a3 a4 rest)
    (hret : (main r.ctx r.cmd { w with stdin := r.stdin }).1 = .ret ())
    (between : List Run) (hall : ∀ q ∈ between, q.ctx.ext = X ∧ q.ctx.dir = dir ∧ q.ctx.sys.Quiet ∧ q.cmd ≠ .update ∧ q.cmd ≠ .configure) :
    ∃ new, Meant r.ctx.env.text old new a1 path a2 a3 a4 ∧
      ∀ (C : Ctx) (stdin : Bytes), C.ext = X → C.dir = dir → C.sys.Quiet → Uses C new { history w (r :: between) with stdin := stdin } := by
  obtain ⟨h1, h2, h3⟩ := hctx
  obtain ⟨k, hk⟩ := Conf.boot_run (X := r.ctx.ext) h3 r.ctx.dir { w with stdin := r.stdin }
  simp only [h1, h2, hl] at hk
  rw [hr] at hret
  generalize hw0 : ({ w with stdin := r.stdin, tick := w.tick + k, conf := m0, sess := Session.init } : World) = w0 at hk
  have e1 : w0.conf = m0 := by rw [← hw0]
  have e2 : w0.stdin = r.stdin := by rw [← hw0]
  have hmain : main r.ctx .configure { w with stdin := r.stdin } = configure r.ctx w0 := by
    unfold main
    rw [bind_run, h1, h2, hk]
    rfl
  rw [hmain] at hret
  cases hc : configure r.ctx w0 with
  | mk o w1 =>
    rw [hc] at hret
    have hret' : o = .ret () := hret
    subst hret'
    have hold0 : Conf.getConfig w0.conf = .ret old := by rw [e1]; exact hold
    obtain ⟨u1, u2, u3, new, -, -, -, h4, -, h6, -, h7⟩ := configure_ret r.ctx hold0 hc
    obtain ⟨m, m', -, h8, h9, h10, -⟩ := Conf.save_ret (by rw [h2]; exact hdir) h4
    refine ⟨new, (h7 _ _ _ _ _ _ (by rw [e2]; exact ht)).1, fun C stdin g1 g2 g3 => ?_⟩
    have hl1 : Conf.loaded X w1.disk dir = some (some m') := by
      rw [h6, ← h1, ← h2]; exact h8
    have hl2 : Conf.loaded X (history w (r :: between)).disk dir = some (some m') := by
      show Conf.loaded X (history (main r.ctx r.cmd { w with stdin := r.stdin }).2 between).disk dir = _
      rw [hr, hmain, hc]
      exact stays_history X dir hdir between hall w1 m' hl1 h10
    exact uses_file C g3 _ m' h10 (by rw [g1, g2]; exact hl2) new (Conf.getConfig_updated m m' new h9)

/-! ### Example -/

namespace Demo

/-- The disk of the examples without a configuration file. -/
def unset : Disk := { disk b!"1234" [] with fs := (disk b!"1234" []).fs.filter (fun e => e.1 ≠ [b!"h", b!"1pass.yml"]) }

def me : Ctx := ctx OnePass.Demo.pa

/-- The dialog, and two other commands. -/
def days : World := history (Toy.world unset [])
  [⟨me, b!"y\n/a\nn\n7\n3\n", .configure⟩, ⟨me, [], .categories⟩, ⟨me, [], .overview b!"/nowhere" b!"M" false⟩]

end Demo

set_option maxRecDepth 20000

/-- C118: the vault `/a`, seven seconds, no notifications, three days; then the item without the flag. -/
example : (match Conf.loaded Toy.ext Demo.days.disk b!"/h" with
    | some m => Conf.getConfig m | none => .fatal) = .ret { timeout := 7, notify := false, period := 3, vault := b!"/a" } := by
  decide +kernel
example : Conf.loaded Toy.ext Demo.unset b!"/h" = some (some []) := by decide +kernel
example : (main Demo.me (.details [] b!"M" false) { Demo.days with log := [] }).2.log.drop 10 =
    [.out b!"Pin: 1234\n", .out [10]] ∧
  (main Demo.me (.details [] b!"M" false) (Toy.world Demo.unset [])).2.log.head? =
    some (.out b!"Running 1pass for the first time? Let's configure it!\n") := by decide +kernel

end Cli
end OnePass
