/-
C123: the check in the background, one disk state at a time.
-/
import Verif.Props.GuiCheck

set_option linter.unusedSimpArgs false

namespace OnePass
namespace Gui
open Act

variable (C : Ctx) (K : Kit)

/-- The states the disk goes through while the check runs, in the order they occur. -/
def stages (w : World) : List Disk :=
  ((Upd.facadeCheck C.sys C.ext C.dir true w).2.log.drop w.log.length).filterMap fun
    | .disk d => some d
    | _ => none

/-- What can happen while the check runs: keys, drawings, and the disk being in one of the states the check leaves it in. -/
def During (w : World) (e : Event) : Prop := e.own = true ∨ ∃ d ∈ stages C w, e = .disk d

/-- The same, but for the disk. -/
def onDisk (d : Disk) (s : St) : St := { s with world := { s.world with disk := d } }

/-- The end of the check: the disk, the log and the count of system calls are those of the whole check, and its verdict is
written to the version line `v`. -/
def finish (r : Except Err UpdateInfo) (w : World) (v : View) (s : St) : St :=
  { s with
    pending := false, world := { s.world with disk := w.disk, log := w.log, tick := w.tick },
    views := setAt s.views .ver (some (v.write (checkText r))) }

theorem stages_elsewhere {s : St} (hE : Elsewhere C s) {d : Disk} (hd : d ∈ stages C s.world) (D : Bg) (hD : D.disk = d) :
    SameVault C D s.world.disk s.vault := by
  obtain ⟨-, -, es, h1, h2⟩ := Cli.foot_facadeCheck C s.world.disk.cwd (fun _ => True) (fun _ => trivial) s.world rfl
  rw [stages, h1, List.drop_left, List.mem_filterMap] at hd
  obtain ⟨e, he, hd⟩ := hd
  cases e with
  | disk d' =>
    cases hd
    obtain ⟨k1, k2⟩ := h2 _ he
    exact hE.same C (t := onDisk d s) k1 k2 D hD
  | _ => cases hd

theorem setAt_self (vs : Name → Option View) {n : Name} {v : View} (h : vs n = some v) : setAt vs n (some v) = vs := by
  funext m
  simp only [setAt]
  split
  · rename_i e
    rw [e, h]
  · rfl

theorem onDisk_upd {s : St} {v : View} (hv : s.views .ver = some v) (d : Disk) :
    onDisk d s = upd ⟨s.pending, d, s.world.log, s.world.tick, v⟩ s := by
  simp only [onDisk, upd, setAt_self _ hv]

theorem upd_onDisk {s t : St} {u : View} (hs : t.world = { s.world with sess := t.world.sess }) (hp : t.pending = s.pending)
    (hu : t.views .ver = some u) (d : Disk) : upd ⟨s.pending, d, s.world.log, s.world.tick, u⟩ t = onDisk d t := by
  rw [onDisk_upd hu, hp]
  have h1 : t.world.log = s.world.log := by rw [hs]
  have h2 : t.world.tick = s.world.tick := by rw [hs]
  rw [h1, h2]

/-- A key or a drawing does not notice a disk that differs elsewhere. -/
theorem step_onDisk {s : St} {v : View} (hv : s.views .ver = some v) {d : Disk}
    (hs : ∀ D : Bg, D.disk = d → SameVault C D s.world.disk s.vault) (e : Event) (he : e.own = true) :
    step C K e (onDisk d s) = ((step C K e s).1, onDisk d (step C K e s).2) ∧
    (∃ u, (step C K e s).2.views .ver = some u) ∧
    (step C K e s).2.world = { s.world with sess := (step C K e s).2.world.sess } ∧
    (step C K e s).2.vault = s.vault ∧ (step C K e s).2.pending = s.pending := by
  cases e with
  | checked => cases he
  | disk d => cases he
  | key k =>
    obtain ⟨h1, h2⟩ := indep_press C K (hs ⟨s.pending, d, s.world.log, s.world.tick, v⟩ rfl) k s rfl rfl
    refine ⟨?_, ⟨v, h2.2.2.2.trans hv⟩, h2.1, h2.2.1, h2.2.2.1⟩
    rw [onDisk_upd hv]
    show press C K k _ = _
    rw [h1, upd_onDisk h2.1 h2.2.2.1 (h2.2.2.2.trans hv)]
    rfl
  | flush x y =>
    show flush C K x y _ = ((flush C K x y s).1, onDisk d (flush C K x y s).2) ∧ (∃ u, (flush C K x y s).2.views .ver = some u) ∧
      (flush C K x y s).2.world = { s.world with sess := (flush C K x y s).2.world.sess } ∧
      (flush C K x y s).2.vault = s.vault ∧ (flush C K x y s).2.pending = s.pending
    by_cases hx : x < 2
    · rw [flush_line C K hv, flush_line C K (show (onDisk d s).views .ver = some v from hv), if_pos hx, if_pos hx]
      exact ⟨rfl, ⟨v, hv⟩, rfl, rfl, rfl⟩
    · rw [onDisk_upd hv, flush_upd C K (v := v) _ hx y, flush_sized C K hv hx y]
      have h2 := (indep_restLayout (D := ⟨s.pending, d, s.world.log, s.world.tick, v⟩) (d := s.world.disk) (vault := s.vault) C K
        (sized x y v s) rfl rfl).2
      rcases hr : restLayout C K (sized x y v s) with ⟨r, t⟩
      rw [hr] at h2
      have e1 : t.views .ver = some (shifted x v) := h2.2.2.2.trans (by simp [sized])
      have e2 : t.world = { s.world with sess := t.world.sess } := h2.1
      have e3 : t.vault = s.vault := h2.2.1
      have e4 : t.pending = s.pending := h2.2.2.1
      have e5 : (painted t).views .ver = some (redrawn x v) := by
        show (t.views .ver).map View.draw = _
        rw [e1]
        rfl
      cases r with
      | ok a =>
        refine ⟨?_, ⟨_, e5⟩, e2, e3, e4⟩
        dsimp only
        rw [upd_onDisk (s := s) (t := painted t) e2 e4 e5]
      | err e => exact ⟨by dsimp only; rw [upd_onDisk (s := s) e2 e4 e1], ⟨_, e1⟩, e2, e3, e4⟩
      | panic => exact ⟨by dsimp only; rw [upd_onDisk (s := s) e2 e4 e1], ⟨_, e1⟩, e2, e3, e4⟩
      | fatal => exact ⟨by dsimp only; rw [upd_onDisk (s := s) e2 e4 e1], ⟨_, e1⟩, e2, e3, e4⟩

theorem run_onDisk {P : Disk → Prop} (es : List Event) (hes : ∀ e ∈ es, e.own = true ∨ ∃ d, P d ∧ e = .disk d) {s : St} {v : View}
    (hv : s.views .ver = some v)
    (hs : ∀ d, P d → ∀ D : Bg, D.disk = d → SameVault C D s.world.disk s.vault) {d : Disk} (hd : P d) :
    (run C K es (onDisk d s)).1 = (run C K (es.filter Event.own) s).1 ∧
    (∃ d', P d' ∧ (run C K es (onDisk d s)).2 = onDisk d' (run C K (es.filter Event.own) s).2) ∧
    (∃ u, (run C K (es.filter Event.own) s).2.views .ver = some u) ∧
    (run C K (es.filter Event.own) s).2.world = { s.world with sess := (run C K (es.filter Event.own) s).2.world.sess } ∧
    (run C K (es.filter Event.own) s).2.pending = s.pending := by
  induction es generalizing s v d with
  | nil => exact ⟨rfl, ⟨d, hd, rfl⟩, ⟨v, hv⟩, rfl, rfl⟩
  | cons e es ih =>
    have hes' : ∀ e ∈ es, e.own = true ∨ ∃ d, P d ∧ e = .disk d := fun e' h' => hes e' (by simp [h'])
    rcases hes e (by simp) with he | ⟨d', hd', rfl⟩
    · obtain ⟨h1, ⟨u, h2⟩, h3, h4, h5⟩ := step_onDisk C K hv (hs d hd) e he
      rw [List.filter_cons, if_pos he]
      simp only [run]
      rw [bind_run, bind_run, h1]
      rcases hr : step C K e s with ⟨r, t⟩
      rw [hr] at h2 h3 h4 h5
      have hd3 : t.world.disk = s.world.disk := by rw [h3]
      cases r with
      | ok a =>
        obtain ⟨k1, k2, k3, k4, k5⟩ := ih hes' h2 (fun d hd D hD => by rw [hd3, h4]; exact hs d hd D hD) hd
        refine ⟨k1, k2, k3, ?_, k5.trans h5⟩
        dsimp only
        rw [k4, h3]
      | err e => exact ⟨rfl, ⟨d, hd, rfl⟩, ⟨u, h2⟩, h3, h5⟩
      | panic => exact ⟨rfl, ⟨d, hd, rfl⟩, ⟨u, h2⟩, h3, h5⟩
      | fatal => exact ⟨rfl, ⟨d, hd, rfl⟩, ⟨u, h2⟩, h3, h5⟩
    · rw [List.filter_cons, if_neg (by simp [Event.own])]
      have e1 : run C K (.disk d' :: es) (onDisk d s) = run C K es (onDisk d' s) := rfl
      rw [e1]
      exact ih hes' hv hs hd'

/-- C123. While the check runs, whatever state of its own making the disk is in at each moment, keys and drawings do what
they would do had the check not begun: they end the same way, and everything of the GUI and the session is the same. -/
theorem C123_meanwhile (vault : Bytes) (w : World) (x y : Nat) (es₀ : List Event) (s : St)
    (h : Live C K vault w x y es₀ s) (hE : Elsewhere C s) (es : List Event) (hes : ∀ e ∈ es, During C s.world e) :
    (run C K es s).1 = (run C K (es.filter Event.own) s).1 ∧
    ∃ d, (d = s.world.disk ∨ d ∈ stages C s.world) ∧
      (run C K es s).2 = onDisk d (run C K (es.filter Event.own) s).2 := by
  obtain ⟨v, hv⟩ := h.inv.frame.ver
  obtain ⟨h1, ⟨d, h2, h3⟩, -⟩ := run_onDisk C K (P := fun d => d = s.world.disk ∨ d ∈ stages C s.world) es
    (fun e he => (hes e he).imp id fun ⟨d, hd, e1⟩ => ⟨d, .inr hd, e1⟩) hv
    (fun d hd D hD => by
      rcases hd with rfl | hd
      · intro O k p
        rw [hD]
      · exact stages_elsewhere C hE hd D hD) (d := s.world.disk) (.inl rfl)
  exact ⟨h1, d, h2, h3⟩

/-- C123. The check may as well be one step. Let its disk states come one by one between the keys and the drawings, and
its verdict at the end: this is what happens if the whole check comes after those keys and drawings. -/
theorem C123_one_step (vault : Bytes) (w : World) (x y : Nat) (es₀ : List Event) (s t : St)
    (h : Live C K vault w x y es₀ s) (hE : Elsewhere C s) (hp : s.pending = true) (es : List Event)
    (hes : ∀ e ∈ es, During C s.world e) (ht : run C K es s = (.ok (), t)) (r : Except Err UpdateInfo) (w' : World)
    (hr : Upd.facadeCheck C.sys C.ext C.dir true s.world = (.ret r, w')) :
    ∃ v, t.views .ver = some v ∧ run C K (es.filter Event.own ++ [.checked]) s = (.ok (), finish r w' v t) := by
  obtain ⟨v, hv⟩ := h.inv.frame.ver
  obtain ⟨h1, ⟨d, h2, h3⟩, ⟨u, h4⟩, h5, h6⟩ := run_onDisk C K (P := fun d => d = s.world.disk ∨ d ∈ stages C s.world) es
    (fun e he => (hes e he).imp id fun ⟨d, hd, e1⟩ => ⟨d, .inr hd, e1⟩) hv
    (fun d hd D hD => by
      rcases hd with rfl | hd
      · intro O k p
        rw [hD]
      · exact stages_elsewhere C hE hd D hD) (d := s.world.disk) (.inl rfl)
  have hse : onDisk s.world.disk s = s := rfl
  rw [hse, ht] at h1 h3
  rcases hq : run C K (es.filter Event.own) s with ⟨q, t₀⟩
  rw [hq] at h1 h3 h4 h5 h6
  dsimp only at h1 h3 h4 h5 h6
  subst h1 h3
  have hb : Upd.facadeCheck C.sys C.ext C.dir true t₀.world = (.ret r, w'.on t₀.world.sess) := by
    have e : t₀.world = s.world.on t₀.world.sess := h5
    rw [e, Blind.facadeCheck, hr]
    rfl
  obtain ⟨c1, c2, c3⟩ := check_sess C hr
  refine ⟨u, h4, ?_⟩
  rw [run_append C K _ _ _ hq, run_one C K (step_checked C K (h6.trans hp) h4 hb)]
  have e1 : w'.on t₀.world.sess = { t₀.world with disk := w'.disk, log := w'.log, tick := w'.tick } := by
    rw [h5]
    simp only [World.on, ← c2, ← c3]
  simp only [checkedSt, finish, onDisk, e1]

/-- C123: also if the check crashes; then the program does, wherever the check is by then. -/
theorem C123_crash (vault : Bytes) (w : World) (x y : Nat) (es₀ : List Event) (s t : St)
    (h : Live C K vault w x y es₀ s) (hE : Elsewhere C s) (hp : s.pending = true) (es : List Event)
    (hes : ∀ e ∈ es, During C s.world e) (ht : run C K es s = (.ok (), t)) (w' : World)
    (hr : Upd.facadeCheck C.sys C.ext C.dir true s.world = (.panic, w')) :
    (run C K (es.filter Event.own ++ [.checked]) s).1 = .panic ∧
    (run C K (es.filter Event.own ++ [.checked]) s).2.world.disk = w'.disk := by
  obtain ⟨v, hv⟩ := h.inv.frame.ver
  obtain ⟨h1, -, ⟨u, h4⟩, h5, h6⟩ := run_onDisk C K (P := fun d => d = s.world.disk ∨ d ∈ stages C s.world) es
    (fun e he => (hes e he).imp id fun ⟨d, hd, e1⟩ => ⟨d, .inr hd, e1⟩) hv
    (fun d hd D hD => by
      rcases hd with rfl | hd
      · intro O k p
        rw [hD]
      · exact stages_elsewhere C hE hd D hD) (d := s.world.disk) (.inl rfl)
  have hse : onDisk s.world.disk s = s := rfl
  rw [hse, ht] at h1
  rcases hq : run C K (es.filter Event.own) s with ⟨q, t₀⟩
  rw [hq] at h1 h4 h5 h6
  dsimp only at h1 h4 h5 h6
  subst h1
  have hb : Upd.facadeCheck C.sys C.ext C.dir true t₀.world = (.panic, w'.on t₀.world.sess) := by
    have e : t₀.world = s.world.on t₀.world.sess := h5
    rw [e, Blind.facadeCheck, hr]
    rfl
  rw [run_append C K _ _ _ hq]
  have hs : step C K .checked t₀ = (.panic, { t₀ with pending := false, world := w'.on t₀.world.sess }) := by
    rw [step]
    simp only [get_bind, h6.trans hp, if_true, modify_bind]
    have k1 : onWorld (Upd.facadeCheck C.sys C.ext C.dir true) { t₀ with pending := false } =
        (.panic, { t₀ with pending := false, world := w'.on t₀.world.sess }) := by simp only [onWorld, hb]
    rw [verUpdate, bind_panic k1]
  have hrun : run C K [.checked] t₀ = (.panic, { t₀ with pending := false, world := w'.on t₀.world.sess }) := by
    rw [run_cons, bind_panic hs]
  rw [hrun]
  exact ⟨rfl, rfl⟩

/-! ### Examples -/

/-- The disk states of the demo's check. -/
def Demo.halves : List Disk := stages Demo.newer (Demo.at_ []).2.world

/-- The vault is opened while the time stamp has been created but not written. -/
def Demo.between : List Event :=
  .disk ((Demo.halves[0]?).getD Demo.home) :: Demo.opening ++ [.key .enter, .disk ((Demo.halves[1]?).getD Demo.home)]

set_option maxRecDepth 20000 in
/-- C123: there are two states in between; the time stamp is created, then written. -/
example : Demo.halves.map (fun d => d.readFile b!"/h/lastcheck") = [some [], some b!"5"] ∧
    Demo.home.readFile b!"/h/lastcheck" = none ∧ (Demo.at_ []).2.pending = true := by
  decide +kernel

set_option maxRecDepth 20000 in
theorem Demo.halves_two : Demo.halves.length = 2 := by decide +kernel

/-- C123: these events are such as can happen while the check runs. -/
example : ∀ e ∈ Demo.between, During Demo.newer (Demo.at_ []).2.world e := by
  have h : ∀ i, i < 2 → (Demo.halves[i]?).getD Demo.home ∈ Demo.halves := by
    intro i hi
    rw [List.getElem?_eq_getElem (by rw [Demo.halves_two]; exact hi), Option.getD_some]
    exact List.getElem_mem _
  intro e he
  simp only [Demo.between, List.mem_append, List.mem_cons, List.not_mem_nil, or_false] at he
  rcases he with (rfl | he) | rfl | rfl
  · exact .inr ⟨_, h 0 (by omega), rfl⟩
  · exact .inl ((show ∀ e ∈ Demo.opening, e.own = true by decide +kernel) e he)
  · exact .inl rfl
  · exact .inr ⟨_, h 1 (by omega), rfl⟩

set_option maxRecDepth 20000 in
/-- C123: the run with the states in between, and the run without them. -/
example : Demo.text .items (Demo.at_ (Demo.between ++ [.flush 80 24])) = some [b!"Mail", b!"Card", []] ∧
    Demo.text .items (Demo.at_ (Demo.between.filter Event.own ++ [.flush 80 24])) = some [b!"Mail", b!"Card", []] ∧
    (Demo.at_ Demo.between).2.world.disk.readFile b!"/h/lastcheck" = some b!"5" ∧
    (Demo.at_ (Demo.between.filter Event.own)).2.world.disk.readFile b!"/h/lastcheck" = none := by
  decide +kernel

end Gui
end OnePass
