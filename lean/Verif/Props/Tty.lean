/-
C132: the terminal after the GUI.
-/
import Verif.Model.Tty
import Verif.Props.Quit

set_option linter.unusedSimpArgs false

namespace OnePass
namespace Gui
open Act

variable (C : Ctx) (K : Kit)

theorem tty_ok {e : Event} {s t : St} (es : List Event) (h : step C K e s = (.ok (), t)) : tty C K (e :: es) s = tty C K es t := by
  conv_lhs => unfold tty
  rw [h]

theorem tty_stop {e : Event} {s : St} (es : List Event) (h : (step C K e s).1 ≠ .ok ()) :
    tty C K (e :: es) s = left e.inMain (step C K e s).1 := by
  unfold tty
  generalize step C K e s = q at h ⊢
  obtain ⟨r, u⟩ := q
  cases r with
  | ok a => exact absurd rfl h
  | err x => rfl
  | panic => rfl
  | fatal => rfl

theorem tty_append (es es' : List Event) (s t : St) (h : run C K es s = (.ok (), t)) : tty C K (es ++ es') s = tty C K es' t := by
  induction es generalizing s with
  | nil => cases h; rfl
  | cons e es ih =>
    rw [run_cons] at h
    rcases hs : step C K e s with ⟨r, u⟩
    cases r with
    | ok a =>
      rw [bind_ok hs] at h
      rw [List.cons_append, tty_ok C K _ hs]
      exact ih u h
    | err x => rw [bind_err hs] at h; cases h
    | panic => rw [bind_panic hs] at h; cases h
    | fatal => rw [bind_fatal hs] at h; cases h

theorem run_stopped {e : Event} {s : St} (es : List Event) (h : (step C K e s).1 ≠ .ok ()) :
    (run C K (e :: es) s).1 = (step C K e s).1 := by
  rw [run_cons]
  rcases hs : step C K e s with ⟨r, u⟩
  rw [hs] at h
  cases r with
  | ok a => exact absurd rfl h
  | err x => rw [bind_err hs]
  | panic => rw [bind_panic hs]
  | fatal => rw [bind_fatal hs]

theorem Live.tty_on {vault : Bytes} {w : World} {x y : Nat} {es : List Event} {s : St} (h : Live C K vault w x y es s)
    (more : List Event) : terminal C K vault x y (es ++ more) w = tty C K more s := by
  unfold terminal
  rw [← List.cons_append]
  exact tty_append C K _ _ _ _ h.goes

/-- C132 as one would wish it: when the process has ended, for whatever reason, the shell has its terminal back. -/
def C132_wish : Prop := ∀ (C : Ctx) (K : Kit) (vault : Bytes) (w : World) (x y : Nat) (es : List Event),
  w.sess.isUnlocked = false → Session.Reachable C.env w.sess → 80 ≤ x → 24 ≤ y →
    (run C K (.flush x y :: es) (start vault w)).1 ≠ .ok () → terminal C K vault x y es w = .shell

/-- C132, in general: when the process has ended, the shell has the terminal exactly if it was ended by CTRL+Q or by a crash on a
key. -/
theorem C132_when (vault : Bytes) (w : World) (x y : Nat) (es : List Event) (hl : w.sess.isUnlocked = false)
    (hr : Session.Reachable C.env w.sess) (h : (run C K (.flush x y :: es) (start vault w)).1 ≠ .ok ()) :
    terminal C K vault x y es w = .shell ↔ (run C K (.flush x y :: es) (start vault w)).1 = .err .quit ∨
      ∃ before k after s, es = before ++ .key k :: after ∧ Live C K vault w x y before s ∧ (step C K (.key k) s).1 = .panic := by
  have hback : (∃ before k after s, es = before ++ .key k :: after ∧ Live C K vault w x y before s ∧ (step C K (.key k) s).1 = .panic) →
      terminal C K vault x y es w = .shell := by
    rintro ⟨before, k, after, s, rfl, hs, hp⟩
    rw [hs.tty_on C K, tty_stop C K _ (by rw [hp]; nofun), hp]
    rfl
  by_cases hs : x < 2 ∨ y < 8
  · have h1 : (step C K (.flush x y) (start vault w)).1 = .err .dimensions := start_small C K hs
    have h2 : (step C K (.flush x y) (start vault w)).1 ≠ .ok () := by rw [h1]; nofun
    constructor
    · intro hq
      unfold terminal at hq
      rw [tty_stop C K _ h2, h1] at hq
      cases hq
    · rintro (hq | hq)
      · rw [run_stopped C K _ h2, h1] at hq
        cases hq
      · exact hback hq
  · have h0 : step C K (.flush x y) (start vault w) = (.ok (), firstSt vault w x y) := first_run C K (by omega) (by omega) hl
    have h1 : run C K (.flush x y :: es) (start vault w) = run C K es (firstSt vault w x y) := by rw [run_cons, bind_ok h0]
    rw [h1] at h ⊢
    obtain ⟨before, e, after, t, g1, g2, g3, g4, g5⟩ := run_stop C K (first_inv vault w x y hl) h
    have hlive : Live C K vault w x y before t := ⟨hl, hr, by rw [run_cons, bind_ok h0]; exact g2⟩
    rw [g4] at h g5 ⊢
    have hterm : terminal C K vault x y es w = left e.inMain (step C K e t).1 := by
      rw [g1, hlive.tty_on C K, tty_stop C K _ h]
    constructor
    · intro hq
      rw [hterm] at hq
      generalize hres : (step C K e t).1 = r at g5 hq
      cases g5 with
      | quit => exact .inl rfl
      | vaultPanics v h' => exact .inr ⟨before, .enter, after, t, g1, hlive, hres⟩
      | vaultFatal v h' => cases hq
      | emptyList h' hi => exact .inr ⟨before, .tab, after, t, g1, hlive, hres⟩
      | smallList k => cases hq
      | smallScreen a b => cases hq
      | checkPanics w' => cases hq
      | checkFatal w' => cases hq
    · rintro (hq | hq)
      · rw [hterm, hq]
        rfl
      · exact hback hq

/-- C132: as long as the GUI runs, it has the terminal. -/
theorem C132_running (vault : Bytes) (w : World) (x y : Nat) (es : List Event) (s : St) (h : Live C K vault w x y es s) :
    terminal C K vault x y es w = .gui := by
  have h1 := h.tty_on C K []
  rw [List.append_nil] at h1
  rw [h1]
  rfl

/-- C132, what holds: CTRL+Q gives the terminal back, from every screen. Missing: the other ends (`C132_refuted`, `C132_resize`,
`C132_vault`, `C132_server`). -/
theorem C132_quit_partial (vault : Bytes) (w : World) (x y : Nat) (es : List Event) (s : St) (h : Live C K vault w x y es s)
    (more : List Event) : terminal C K vault x y (es ++ .key .ctrlQ :: more) w = .shell := by
  have h1 : step C K (.key .ctrlQ) s = (.err .quit, s) := press_quit C K s
  rw [h.tty_on C K, tty_stop C K _ (by rw [h1]; nofun), h1]
  rfl

/-- C132, under conditions: on a terminal of at least 6 columns and 10 lines, with a vault and a server whose data do not crash the
program, every end of the GUI gives the terminal back, also the crash on an empty list. -/
theorem C132_calm_partial (vault : Bytes) (w : World) (x y : Nat) (es : List Event) (hl : w.sess.isUnlocked = false)
    (hr : Session.Reachable C.env w.sess) (hx : 6 ≤ x) (hy : 10 ≤ y) (hsize : ∀ a b, .flush a b ∈ es → 6 ≤ a ∧ 10 ≤ b)
    (hvault : ∀ before after, es = before ++ after → ∀ s v, Live C K vault w x y before s → s.views .prompt = some v →
      ∃ a, s.world.sess.unlock C.env (K.order s.opened) s.world.disk s.vault (entered v) = .ret a)
    (hserver : ∀ before after, es = before ++ after → ∀ s, Live C K vault w x y before s →
      ∃ a, (Upd.facadeCheck C.sys C.ext C.dir true s.world).1 = .ret a)
    (h : (run C K (.flush x y :: es) (start vault w)).1 ≠ .ok ()) : terminal C K vault x y es w = .shell := by
  rcases C68_reasons C K vault w x y es hl hr h with ⟨h1, _⟩ | ⟨before, e, after, s, he, hs, hreason⟩
  · omega
  · have hbig := big_enough C K hs hx hy (fun a b hab => hsize a b (by rw [he]; simp [hab]))
    rw [he, hs.tty_on C K]
    generalize hres : (run C K (.flush x y :: es) (start vault w)).1 = r at hreason
    cases hreason with
    | quit =>
      have h1 : step C K (.key .ctrlQ) s = (.err .quit, s) := press_quit C K s
      rw [tty_stop C K _ (by rw [h1]; nofun), h1]
      rfl
    | vault v r hc hv hu =>
      obtain ⟨a, ha⟩ := hvault before _ he s v hs hv
      exact absurd ha (hu a)
    | emptyList hc hi =>
      have h1 := step_tab C K (hs.inv C K) hc hi
      rw [tty_stop C K _ (by rw [h1]; nofun), h1]
      rfl
    | smallList k hk hc hs => omega
    | smallScreen a b hs =>
      have := hsize a b (by rw [he]; simp)
      omega
    | server r hp =>
      obtain ⟨a, ha⟩ := hserver before _ he s hs
      exact absurd ha (hp a)

/-- C132: a window of less than 2 columns or 8 lines ends the program from every screen, and the terminal is not given back. -/
theorem C132_resize (vault : Bytes) (w : World) (x y : Nat) (es : List Event) (s : St) (h : Live C K vault w x y es s)
    (a b : Nat) (hs : a < 2 ∨ b < 8) (more : List Event) : terminal C K vault x y (es ++ .flush a b :: more) w = .gui := by
  have h1 : (step C K (.flush a b) s).1 = .err .dimensions := flush_small C K (by omega)
  rw [h.tty_on C K, tty_stop C K _ (by rw [h1]; nofun), h1]
  rfl

/-- C132: nor if a server whose answer crashes the check for updates ends it. -/
theorem C132_server (vault : Bytes) (w : World) (x y : Nat) (es : List Event) (s : St) (h : Live C K vault w x y es s)
    (hp : s.pending = true) (hc : ∀ a, (Upd.facadeCheck C.sys C.ext C.dir true s.world).1 ≠ .ret a) (more : List Event) :
    (run C K (.flush x y :: (es ++ .checked :: more)) (start vault w)).1 ≠ .ok () ∧
    terminal C K vault x y (es ++ .checked :: more) w = .gui := by
  rw [h.tty_on C K, h.run_on C K, run_cons, tty]
  have h1 : (step C K .checked s).1 ≠ .ok () ∧ ∀ e, (step C K .checked s).1 ≠ .err e := by
    have e1 : ∀ m : Res Unit × St, (m.1 = .panic ∨ m.1 = .fatal) → m.1 ≠ .ok () ∧ ∀ e, m.1 ≠ .err e := by
      rintro ⟨r, u⟩ (h | h) <;> (simp only at h; subst h; exact ⟨nofun, nofun⟩)
    apply e1
    rcases step_trans C K (h.inv C K) .checked with ⟨t, h1, h2⟩ | ⟨-, h2⟩
    · exfalso
      generalize he : Event.checked = e at h2
      cases h2 with
      | idle h' => rw [hp] at h'; cases h'
      | checked v r w hp' hv hr => exact hc r (by rw [hr])
      | _ => cases he
    · generalize (step C K .checked s).1 = r at h2
      cases h2 with
      | checkPanics w' => exact .inl rfl
      | checkFatal w' => exact .inr rfl
  rcases h2 : step C K .checked s with ⟨r, u⟩
  rw [h2] at h1
  cases r with
  | ok a => exact absurd rfl h1.1
  | err x => exact absurd rfl (h1.2 x)
  | panic => rw [bind_panic h2]; exact ⟨nofun, rfl⟩
  | fatal => rw [bind_fatal h2]; exact ⟨nofun, rfl⟩

/-- C132: nor if the program ends on a file of the vault that it cannot read. -/
theorem C132_vault (vault : Bytes) (w : World) (x y : Nat) (es : List Event) (s : St) (v : View) (h : Live C K vault w x y es s)
    (hc : s.cur = some (.live .prompt)) (hv : s.views .prompt = some v)
    (hu : s.world.sess.unlock C.env (K.order s.opened) s.world.disk s.vault (entered v) = .fatal) (more : List Event) :
    (run C K (.flush x y :: (es ++ .key .enter :: more)) (start vault w)).1 = .fatal ∧
    terminal C K vault x y (es ++ .key .enter :: more) w = .gui := by
  have h1 : (step C K (.key .enter) s).1 = .fatal := by
    show (press C K .enter s).1 = _
    rw [press_bound C K (by simp) hc (show binding C K Name.prompt .enter (.live .prompt) = _ from rfl), unlock]
    simp only [look_bind, deref_live hv]
    rw [bind_ok (deleteView_cur hv hc)]
    have h3 : tryUnlock C K (entered v) { s with views := setAt s.views .prompt none, cur := some (.gone .prompt), orphan := v } =
        (.fatal, { s with views := setAt s.views .prompt none, cur := some (.gone .prompt), orphan := v, opened := s.opened + 1 }) := by
      rw [tryUnlock]
      simp only [get_bind, modify_bind, onWorld, Cli.onSession, hu]
    rw [bind_fatal (show tryUnlock C K (Str.trimSpace v.viewBuffer) _ = _ from h3)]
  have h2 : (step C K (.key .enter) s).1 ≠ .ok () := by rw [h1]; nofun
  rw [h.tty_on C K, h.run_on C K, tty_stop C K _ h2, run_stopped C K _ h2, h1]
  exact ⟨rfl, rfl⟩

/-- C132 is false. -/
theorem C132_refuted : ¬ C132_wish := by
  intro h
  obtain ⟨s, hs⟩ := Live.here Demo.ctx Demo.kit (vault := b!"/a") (x := 80) (y := 24) (Demo.world_locked Demo.tidy).1 (Demo.world_locked Demo.tidy).2
    (by omega) (by omega)
  have h1 := C132_resize _ _ _ _ _ _ _ _ hs 80 7 (by omega) []
  rw [h _ _ _ _ _ _ _ hs.locked hs.reach (by omega) (by omega)] at h1
  · cases h1
  · have h2 := (C121_resize _ _ _ _ _ _ _ _ hs 80 7).2 (by omega) []
    intro h3
    rw [loop, h3] at h2
    cases h2

set_option maxRecDepth 20000 in
/-- C132: CTRL+Q, and TAB on the empty trash (a crash), give the terminal back; a window of 7 lines does not. -/
example : terminal Demo.ctx Demo.kit b!"/a" 80 24 (Demo.opening ++ [.key .enter, .key .ctrlQ]) (Demo.world Demo.tidy) = .shell ∧
    terminal Demo.ctx Demo.kit b!"/a" 80 24 (Demo.atLast ++ [.key .enter, .key .tab]) (Demo.world Demo.tidy) = .shell ∧
    terminal Demo.ctx Demo.kit b!"/a" 80 24 (Demo.opening ++ [.key .enter, .flush 80 7]) (Demo.world Demo.tidy) = .gui := by
  decide +kernel

/-- A disk on which all files have been spoilt. -/
def Demo.spoilt (d : Disk) : Disk :=
  { d with fs := d.fs.map (fun p => match p.2 with | .file _ x => (p.1, .file b!"var profile=x;" x) | n => (p.1, n)) }

set_option maxRecDepth 20000 in
/-- C132: the vault is spoilt while the prompt is on the screen; a server that lists no releases. -/
example : terminal Demo.ctx Demo.kit b!"/a" 80 24 ([.disk (Demo.spoilt Demo.tidy)] ++ Demo.opening) (Demo.world Demo.tidy) = .gui ∧
    (Demo.go Demo.tidy ([.disk (Demo.spoilt Demo.tidy)] ++ Demo.opening)).1 = .fatal ∧
    terminal Demo.bare Demo.kit b!"/a" 80 24 [.checked] { Demo.world Demo.tidy with conf := some (Conf.updated [] Conf.myConf) } = .gui := by
  decide +kernel

end Gui
end OnePass
