/-
The background update check of the GUI: C75, and C60 for the GUI.
-/
import Verif.Model.GuiIndep
import Verif.Props.GuiCrash
import Verif.Props.Own

set_option linter.unusedSimpArgs false

namespace OnePass

/-! ### The check does not look at the session -/

/-- The world with another session. -/
def World.on (w : World) (k : Session) : World := { w with sess := k }

/-- A part of the program that does not look at the session. -/
def Blind {α : Type} (m : Prog α) : Prop := ∀ (w : World) (k : Session), m (w.on k) = ((m w).1, (m w).2.on k)

namespace Blind
open Prog

theorem pure {α : Type} (a : α) : Blind (Prog.pure a) := fun _ _ => rfl
theorem lift {α : Type} (o : Out α) : Blind (Prog.lift o) := fun _ _ => rfl
theorem tick : Blind Prog.tick := fun _ _ => rfl
theorem emit (e : Ev) : Blind (Prog.emit e) := fun _ _ => rfl
theorem through (ds : List Disk) : Blind (Prog.through ds) := fun _ _ => rfl
theorem read : Blind Conf.read := fun _ _ => rfl

theorem bind {α β : Type} {m : Prog α} {f : α → Prog β} (hm : Blind m) (hf : ∀ a, Blind (f a)) : Blind (m >>= f) := by
  intro w k
  rw [bind_run, bind_run, hm w k]
  rcases m w with ⟨o, w'⟩
  cases o with
  | ret a => exact hf a w' k
  | panic => rfl
  | fatal => rfl

theorem get {β : Type} {f : World → Prog β} (h : ∀ (w : World) k, f (w.on k) = f w) (hf : ∀ w, Blind (f w)) : Blind (Prog.get >>= f) := by
  intro w k
  have e1 : (Prog.get >>= f) (w.on k) = f (w.on k) (w.on k) := rfl
  have e2 : (Prog.get >>= f) w = f w w := rfl
  rw [e1, e2, h]
  exact hf w w k

theorem andThen {α β : Type} {m : Prog (Except Err α)} {f : α → Prog (Except Err β)} (hm : Blind m) (hf : ∀ a, Blind (f a)) :
    Blind (Prog.andThen m f) :=
  bind hm fun x => by
    cases x with
    | error e => exact pure _
    | ok a => exact hf a

theorem ite {α : Type} {p : Prop} [Decidable p] {a b : Prog α} (ha : Blind a) (hb : Blind b) : Blind (if p then a else b) := by
  split
  · exact ha
  · exact hb

variable (S : Sys)

theorem stat (p : Bytes) : Blind (Os.stat S p) :=
  bind tick fun n => get (fun _ _ => rfl) fun w => by cases S.fault n <;> exact pure _

theorem mkdirAll (p : Bytes) : Blind (Os.mkdirAll S p) :=
  bind tick fun n => get (fun _ _ => rfl) fun w => by
    cases w.disk.missing (Path.resolve w.disk.cwd p) with
    | none => exact pure _
    | some ls => cases S.fault n <;> exact bind (through _) fun _ => pure _

theorem ensureDir (p : Bytes) : Blind (Os.ensureDir S p) :=
  bind (stat S p) fun x => by
    cases x with
    | some _ => exact pure _
    | none => exact bind (mkdirAll S p) fun _ => pure _

theorem create (p : Bytes) : Blind (Os.create S p) :=
  bind tick fun n => get (fun _ _ => rfl) fun w => by
    cases S.fault n with
    | some _ => exact pure _
    | none =>
      refine ite (pure _) ?_
      cases w.disk.at? (Path.resolve w.disk.cwd p) with
      | none => exact bind (through _) fun _ => pure _
      | some x => cases x with
        | dir => exact pure _
        | file _ _ => exact bind (through _) fun _ => pure _

theorem write (f : List Bytes × Bool) (data : Bytes) (c : Bool) : Blind (Os.write S f data c) :=
  bind tick fun n => get (fun _ _ => rfl) fun w => by
    cases S.fault n <;> exact bind (through _) fun _ => pure _

theorem checkTimestamp (dir : Bytes) : Blind (Upd.checkTimestamp S dir) :=
  bind (bind tick fun _ => pure _) fun _ => bind (ensureDir S dir) fun _ =>
    bind (andThen (create S _) fun _ => write S _ _ _) fun _ => pure _

theorem fetchInfo (timeout : Int) : Blind (Upd.fetchInfo S timeout) :=
  bind (bind tick fun _ => bind (emit _) fun _ => pure _) fun x => by
    cases x with
    | failed => exact pure _
    | body data c => cases c <;> first | exact pure _ | exact lift _

theorem facadeCheck (X : Ext) (dir : Bytes) : Blind (Upd.facadeCheck S X dir true) :=
  bind read fun c => andThen (fetchInfo S c.timeout) fun x => by
    cases x with
    | none => exact bind (checkTimestamp S dir) fun _ => pure _
    | some i => exact bind (checkTimestamp S dir) fun _ => ite (pure _) (pure _)

end Blind

namespace Gui
open Act
variable (C : Ctx) (K : Kit)

/-! ### C75: what the check changes -/

/-- C75. When the check finishes, the version line changes: its verdict is written at the end. All other views, the
current view, the selections and everything else of the GUI stay, and so do the session, the configuration and what is
typed ahead; on the disk, only the time stamp of the check and the directories above it can change. -/
theorem C75_only_version (vault : Bytes) (w : World) (x y : Nat) (es : List Event) (s t : St)
    (h : Live C K vault w x y es s) (ht : step C K .checked s = (.ok (), t)) :
    (∀ n, n ≠ .ver → t.views n = s.views n) ∧
    { t with views := s.views, pending := s.pending, world := s.world } = s ∧
    t.world.sess = s.world.sess ∧ t.world.conf = s.world.conf ∧ t.world.stdin = s.world.stdin ∧
    t.world.disk.cwd = s.world.disk.cwd ∧
    (∀ l, ¬ Cli.StampLoc s.world.disk.cwd C.dir l → t.world.disk.at? l = s.world.disk.at? l) ∧
    t.pending = false ∧
    (if s.pending then
      ∃ r v, Upd.facadeCheck C.sys C.ext C.dir true s.world = (.ret r, t.world) ∧ s.views .ver = some v ∧
        t.views .ver = some (v.write (checkText r))
     else t = s) := by
  have hT := (inv_step C K h.inv ht).1
  cases hT with
  | idle hp => exact ⟨fun _ _ => rfl, rfl, rfl, rfl, rfl, rfl, fun _ _ => rfl, hp, by simp [hp]⟩
  | checked v r w' hp hv hr =>
    obtain ⟨h1, h2, h3⟩ := check_sess C hr
    have hf := Cli.foot_facadeCheck C s.world.disk.cwd (fun _ => True) (fun _ => trivial) s.world rfl
    rw [hr] at hf
    refine ⟨fun n hn => setAt_ne _ _ hn, rfl, h1, h2, h3, hf.1, hf.2.1, rfl, ?_⟩
    simp only [hp, if_true]
    exact ⟨r, v, hr, hv, by simp [checkedSt]⟩

/-! ### C75: it does not matter when -/

/-- The same line, up to a drawing: what `T` written to `v` is. -/
def Akin (T : Bytes) (a v : View) : Prop :=
  a.lines = (v.write T).lines ∧ a.cx = v.cx ∧ a.cy = v.cy ∧ a.ox = v.ox ∧ a.oy = v.oy ∧ a.attr = v.attr

/-- Up to the version line. -/
def Bg.but (D D' : Bg) : Prop := D'.pending = D.pending ∧ D'.disk = D.disk ∧ D'.log = D.log ∧ D'.tick = D.tick

/-- Keys and drawings; not somebody else writing to the disk. -/
def Event.own : Event → Bool
  | .key _ | .flush _ _ => true
  | _ => false

theorem SameVault.of_disk {D D' : Bg} {d : Disk} {vault : Bytes} (h : SameVault C D d vault) (hd : D'.disk = D.disk) :
    SameVault C D' d vault := by
  intro O s p
  rw [hd]
  exact h O s p

theorem draw_upd (D : Bg) (t : St) (z : List (Option Key)) :
    { upd D t with views := fun n => ((upd D t).views n).map View.draw, typed := z } =
      upd { D with line := D.line.draw } { t with views := fun n => (t.views n).map View.draw, typed := z } := by
  have : (fun n => (setAt t.views .ver (some D.line) n).map View.draw) =
      setAt (fun n => (t.views n).map View.draw) .ver (some D.line.draw) := by
    funext n
    simp only [setAt]
    split <;> rfl
  simp only [upd, this]

/-- The version line after a layout. -/
def shifted (x : Nat) (v : View) : View := { v with x0 := 0, y0 := 0, x1 := (x : Int) - 1, y1 := 2 }

/-- The state the other views are laid out in. -/
def sized (x y : Nat) (v : View) (s : St) : St :=
  { s with maxX := x, maxY := y, views := setAt s.views .ver (some (shifted x v)) }

/-- After drawing. -/
def painted (t : St) : St := { t with views := fun n => (t.views n).map View.draw, typed := t.typed ++ [none] }

theorem flush_upd {s : St} {v : View} (D : Bg) {x : Nat} (hx : ¬ x < 2) (y : Nat) :
    flush C K x y (upd D s) =
      match restLayout C K (sized x y v s) with
      | (.ok _, t) => (.ok (), upd { D with line := redrawn x D.line } (painted t))
      | (.err e, t) => (.err e, upd { D with line := shifted x D.line } t)
      | (.panic, t) => (.panic, upd { D with line := shifted x D.line } t)
      | (.fatal, t) => (.fatal, upd { D with line := shifted x D.line } t) := by
  rw [flush_line C K (show (upd D s).views .ver = some D.line by simp [upd]), if_neg hx]
  have hs2 : ({ upd D s with
      maxX := (x : Int), maxY := (y : Int),
      views := setAt (upd D s).views .ver (some { D.line with x0 := 0, y0 := 0, x1 := (x : Int) - 1, y1 := 2 }) } : St) =
      upd { D with line := shifted x D.line } (sized x y v s) := by
    simp only [upd, sized, setAt_twice, shifted]
  rw [hs2, (indep_restLayout (D := { D with line := shifted x D.line }) (d := s.world.disk) (vault := s.vault) C K (sized x y v s)
    rfl rfl).1]
  rcases restLayout C K (sized x y v s) with ⟨r, t⟩
  cases r with
  | ok a =>
    dsimp only
    rw [show (upd _ t).typed = t.typed from rfl, draw_upd]
    rfl
  | err e => rfl
  | panic => rfl
  | fatal => rfl

theorem flush_sized {s : St} {v : View} (hv : s.views .ver = some v) {x : Nat} (hx : ¬ x < 2) (y : Nat) :
    flush C K x y s =
      match restLayout C K (sized x y v s) with
      | (.ok _, t) => (.ok (), painted t)
      | (.err e, t) => (.err e, t)
      | (.panic, t) => (.panic, t)
      | (.fatal, t) => (.fatal, t) := by
  rw [flush_line C K hv, if_neg hx]
  rfl

theorem akin_redrawn {T : Bytes} {a v : View} (h : Akin T a v) (x : Nat) : redrawn x a = redrawn x (v.write T) := by
  obtain ⟨h1, h2, h3, h4, h5, h6⟩ := h
  cases a
  cases v
  simp only at h1 h2 h3 h4 h5 h6
  subst h1 h2 h3 h4 h5 h6
  rfl

theorem akin_moved {T : Bytes} {a v : View} (h : Akin T a v) (x : Nat) :
    Akin T (shifted x a) (shifted x v) ∧ Akin T (redrawn x a) (redrawn x v) :=
  ⟨⟨h.1, h.2.1, h.2.2.1, h.2.2.2.1, h.2.2.2.2.1, h.2.2.2.2.2⟩, ⟨h.1, h.2.1, h.2.2.1, h.2.2.2.1, h.2.2.2.2.1, h.2.2.2.2.2⟩⟩

theorem step_upd {D : Bg} {s : St} {v : View} {T : Bytes} (hv : s.views .ver = some v) (ha : Akin T D.line v)
    (hs : SameVault C D s.world.disk s.vault) (e : Event) (he : e.own = true) :
    ∃ D' v', step C K e (upd D s) = ((step C K e s).1, upd D' (step C K e s).2) ∧ D.but D' ∧
      (step C K e s).2.views .ver = some v' ∧ Akin T D'.line v' ∧
      (step C K e s).2.world = { s.world with sess := (step C K e s).2.world.sess } ∧
      (step C K e s).2.vault = s.vault ∧ (step C K e s).2.pending = s.pending := by
  cases e with
  | checked => cases he
  | disk d => cases he
  | key k =>
    obtain ⟨h1, h2⟩ := indep_press C K hs k s rfl rfl
    exact ⟨D, v, h1, ⟨rfl, rfl, rfl, rfl⟩, h2.2.2.2.trans hv, ha, h2.1, h2.2.1, h2.2.2.1⟩
  | flush x y =>
    show ∃ D' v', flush C K x y (upd D s) = ((flush C K x y s).1, upd D' (flush C K x y s).2) ∧ D.but D' ∧
      (flush C K x y s).2.views .ver = some v' ∧ Akin T D'.line v' ∧
      (flush C K x y s).2.world = { s.world with sess := (flush C K x y s).2.world.sess } ∧
      (flush C K x y s).2.vault = s.vault ∧ (flush C K x y s).2.pending = s.pending
    by_cases hx : x < 2
    · rw [flush_line C K hv, flush_line C K (show (upd D s).views .ver = some D.line by simp [upd]), if_pos hx, if_pos hx]
      exact ⟨D, v, rfl, ⟨rfl, rfl, rfl, rfl⟩, hv, ha, rfl, rfl, rfl⟩
    · rw [flush_upd C K (v := v) D hx y, flush_sized C K hv hx y]
      have h2 := (indep_restLayout (D := D) (d := s.world.disk) (vault := s.vault) C K (sized x y v s) rfl rfl).2
      rcases hr : restLayout C K (sized x y v s) with ⟨r, t⟩
      rw [hr] at h2
      have e1 : t.views .ver = some (shifted x v) := h2.2.2.2.trans (by simp [sized])
      have e2 : t.world = { s.world with sess := t.world.sess } := h2.1
      have e3 : t.vault = s.vault := h2.2.1
      have e4 : t.pending = s.pending := h2.2.2.1
      obtain ⟨m1, m2⟩ := akin_moved ha x
      cases r with
      | ok a =>
        exact ⟨_, _, rfl, ⟨rfl, rfl, rfl, rfl⟩, show (t.views .ver).map View.draw = some (redrawn x v) by rw [e1]; rfl, m2, e2, e3, e4⟩
      | err e => exact ⟨_, _, rfl, ⟨rfl, rfl, rfl, rfl⟩, e1, m1, e2, e3, e4⟩
      | panic => exact ⟨_, _, rfl, ⟨rfl, rfl, rfl, rfl⟩, e1, m1, e2, e3, e4⟩
      | fatal => exact ⟨_, _, rfl, ⟨rfl, rfl, rfl, rfl⟩, e1, m1, e2, e3, e4⟩

theorem run_upd {T : Bytes} (es : List Event) (hes : ∀ e ∈ es, e.own = true) {D : Bg} {s : St} {v : View}
    (hv : s.views .ver = some v) (ha : Akin T D.line v) (hs : SameVault C D s.world.disk s.vault) :
    ∃ D' v', run C K es (upd D s) = ((run C K es s).1, upd D' (run C K es s).2) ∧ D.but D' ∧
      (run C K es s).2.views .ver = some v' ∧ Akin T D'.line v' ∧
      (run C K es s).2.world = { s.world with sess := (run C K es s).2.world.sess } ∧
      (run C K es s).2.vault = s.vault ∧ (run C K es s).2.pending = s.pending := by
  induction es generalizing D s v with
  | nil => exact ⟨D, v, rfl, ⟨rfl, rfl, rfl, rfl⟩, hv, ha, rfl, rfl, rfl⟩
  | cons e es ih =>
    obtain ⟨D1, v1, h1, h2, h3, h4, h5, h6, h7⟩ := step_upd C K hv ha hs e (hes e (by simp))
    simp only [run]
    rw [bind_run, bind_run, h1]
    rcases hr : step C K e s with ⟨r, t⟩
    rw [hr] at h3 h5 h6 h7
    cases r with
    | ok a =>
      obtain ⟨D2, v2, k1, k2, k3, k4, k5, k6, k7⟩ := ih (fun e' h' => hes e' (by simp [h'])) h3 h4
        (SameVault.of_disk C (show SameVault C D t.world.disk t.vault by rw [h5, h6]; exact hs) h2.2.1)
      refine ⟨D2, v2, k1, ⟨k2.1.trans h2.1, k2.2.1.trans h2.2.1, k2.2.2.1.trans h2.2.2.1, k2.2.2.2.trans h2.2.2.2⟩, k3, k4, ?_,
        k6.trans h6, k7.trans h7⟩
      dsimp only
      rw [k5, h5]
    | err e => exact ⟨D1, v1, rfl, h2, h3, h4, h5, h6, h7⟩
    | panic => exact ⟨D1, v1, rfl, h2, h3, h4, h5, h6, h7⟩
    | fatal => exact ⟨D1, v1, rfl, h2, h3, h4, h5, h6, h7⟩

/-- The vault is literal and the time stamp of the check is kept elsewhere. -/
structure Elsewhere (s : St) : Prop where
  nonempty : s.vault ≠ []
  literal : ∀ b ∈ s.vault, b ≠ 42 ∧ b ≠ 63 ∧ b ≠ 91 ∧ b ≠ 92
  names : ∀ e ∈ s.world.disk.fs, ∀ c ∈ e.1, (47 : UInt8) ∉ c
  apart : ∀ l, Path.resolve s.world.disk.cwd s.vault ++ [b!"default"] <+: l → ¬ Cli.StampLoc s.world.disk.cwd C.dir l

theorem Elsewhere.same {s t : St} (h : Elsewhere C s) (hc : t.world.disk.cwd = s.world.disk.cwd)
    (hd : ∀ l, ¬ Cli.StampLoc s.world.disk.cwd C.dir l → t.world.disk.at? l = s.world.disk.at? l) (D : Bg)
    (hD : D.disk = t.world.disk) : SameVault C D s.world.disk s.vault := by
  intro O k p
  rw [hD]
  exact unlock_congr C.env O (loadItems_congr C.env O h.nonempty h.literal h.names hc fun l hl => hd l (h.apart l hl)) k p

/-- The state after the check, as a change of the background part. -/
theorem checked_upd {s : St} {v : View} {r : Except Err UpdateInfo} {w : World}
    (hr : Upd.facadeCheck C.sys C.ext C.dir true s.world = (.ret r, w)) :
    checkedSt s v r w = upd ⟨false, w.disk, w.log, w.tick, v.write (checkText r)⟩ s := by
  obtain ⟨h1, h2, h3⟩ := check_sess C hr
  simp only [checkedSt, upd, ← h1, ← h2, ← h3]

/-- C75. While the user goes on, nothing but the version line (and the time stamp on the disk) is different if the check
has finished already: all keys and drawings end the same way and leave the same views, selections and session. -/
theorem C75_meanwhile (vault : Bytes) (w : World) (x y : Nat) (es₀ : List Event) (s t : St)
    (h : Live C K vault w x y es₀ s) (hE : Elsewhere C s) (ht : step C K .checked s = (.ok (), t))
    (es : List Event) (hes : ∀ e ∈ es, e.own = true) :
    (run C K es t).1 = (run C K es s).1 ∧
    (∀ n, n ≠ .ver → (run C K es t).2.views n = (run C K es s).2.views n) ∧
    { (run C K es t).2 with
      views := (run C K es s).2.views, pending := (run C K es s).2.pending, world := (run C K es s).2.world } =
      (run C K es s).2 ∧
    (run C K es t).2.world.sess = (run C K es s).2.world.sess := by
  obtain ⟨c1, c2, c3, c4, c5, c6, c7, -, c9⟩ := C75_only_version C K vault w x y es₀ s t h ht
  cases hp : s.pending with
  | false =>
    simp only [hp, Bool.false_eq_true, if_false] at c9
    subst c9
    exact ⟨rfl, fun _ _ => rfl, rfl, rfl⟩
  | true =>
    simp only [hp, if_true] at c9
    obtain ⟨r, v, hr, hv, -⟩ := c9
    have hT := (inv_step C K h.inv ht).1
    cases hT with
    | idle hp' => rw [hp] at hp'; cases hp'
    | checked v' r' w' _ hv' hr' =>
      rw [checked_upd C hr'] at c6 c7 ⊢
      obtain ⟨D', v2, h1, -, -, -, -, -, -⟩ := run_upd C K (T := checkText r') es hes hv'
        (D := ⟨false, w'.disk, w'.log, w'.tick, v'.write (checkText r')⟩) ⟨rfl, rfl, rfl, rfl, rfl, rfl⟩
        (hE.same C c6 c7 _ rfl)
      rw [h1]
      exact ⟨rfl, fun n hn => upd_views hn _, rfl, rfl⟩

/-- Two version lines that look the same when painted. -/
theorem flush_same {s : St} {v : View} (hv : s.views .ver = some v) {D D' : Bg} (hb : D.but D') {x : Nat}
    (h : redrawn x D'.line = redrawn x D.line) (y : Nat) :
    (flush C K x y (upd D' s)).1 = (flush C K x y (upd D s)).1 ∧
    ((flush C K x y (upd D s)).1 = .ok () → flush C K x y (upd D' s) = flush C K x y (upd D s)) := by
  by_cases hx : x < 2
  · rw [flush_line C K (show (upd D s).views .ver = some D.line by simp [upd]),
      flush_line C K (show (upd D' s).views .ver = some D'.line by simp [upd]), if_pos hx, if_pos hx]
    exact ⟨rfl, fun h => by cases h⟩
  · rw [flush_upd C K (v := v) D hx y, flush_upd C K (v := v) D' hx y]
    rcases restLayout C K (sized x y v s) with ⟨r, t⟩
    obtain ⟨b1, b2, b3, b4⟩ := hb
    cases r with
    | ok a => exact ⟨rfl, fun _ => by dsimp only; rw [b1, b2, b3, b4, h]⟩
    | err e => exact ⟨rfl, fun h => by cases h⟩
    | panic => exact ⟨rfl, fun h => by cases h⟩
    | fatal => exact ⟨rfl, fun h => by cases h⟩

theorem run_cut {es fs : List Event} {s : St} (h : (run C K es s).1 ≠ .ok ()) : run C K (es ++ fs) s = run C K es s := by
  induction es generalizing s with
  | nil => exact absurd rfl h
  | cons e es ih =>
    rw [List.cons_append]
    simp only [run] at h ⊢
    rw [bind_run] at h ⊢
    rw [bind_run]
    rcases hx : step C K e s with ⟨r, t⟩
    rw [hx] at h
    cases r with
    | ok a => exact ih h
    | err e => rfl
    | panic => rfl
    | fatal => rfl

theorem step_checked {s : St} {v : View} {r : Except Err UpdateInfo} {w : World} (hp : s.pending = true)
    (hv : s.views .ver = some v) (hr : Upd.facadeCheck C.sys C.ext C.dir true s.world = (.ret r, w)) :
    step C K .checked s = (.ok (), checkedSt s v r w) := by
  rw [step]
  simp only [get_bind, hp, if_true, modify_bind]
  have h1 : onWorld (Upd.facadeCheck C.sys C.ext C.dir true) { s with pending := false } =
      (.ok r, { s with pending := false, world := w }) := by simp only [onWorld, hr]
  rw [verUpdate, bind_ok h1]
  simp only [get_bind, hv]
  rw [change_run (v := v) (by exact hv)]
  rfl

/-- C75. It does not matter when the check finishes: whatever keys and drawings are exchanged with it, after the next
drawing everything is the same (also the version line, the disk and the log), or the GUI has ended the same way. -/
theorem C75_any_time (vault : Bytes) (w : World) (x y : Nat) (es₀ : List Event) (s t : St)
    (h : Live C K vault w x y es₀ s) (hE : Elsewhere C s) (ht : step C K .checked s = (.ok (), t))
    (es : List Event) (hes : ∀ e ∈ es, e.own = true) (a b : Nat) :
    (run C K (.checked :: es ++ [.flush a b]) s).1 = (run C K (es ++ [.checked, .flush a b]) s).1 ∧
    ((run C K (es ++ [.checked, .flush a b]) s).1 = .ok () →
      run C K (.checked :: es ++ [.flush a b]) s = run C K (es ++ [.checked, .flush a b]) s) := by
  have hl : run C K (.checked :: es ++ [.flush a b]) s = run C K (es ++ [.flush a b]) t := by
    rw [List.cons_append]
    simp only [run]
    rw [bind_ok ht]
  rw [hl]
  have hT := (inv_step C K h.inv ht).1
  cases hT with
  | idle hp =>
    obtain ⟨v, hv⟩ := h.inv.frame.ver
    obtain ⟨D', v2, h1, h2, h3, h4, h5, h6, h7⟩ := run_upd C K (T := []) es hes hv
      (D := ⟨s.pending, s.world.disk, s.world.log, s.world.tick, v⟩) ⟨rfl, rfl, rfl, rfl, rfl, rfl⟩ (fun _ _ _ => rfl)
    rcases hq : run C K es s with ⟨q, t₀⟩
    rw [hq] at h7
    by_cases hok : q = .ok ()
    · subst hok
      have hs : step C K .checked t₀ = (.ok (), t₀) := by
        rw [step, get_bind, show t₀.pending = false from h7.trans hp]
        rfl
      rw [run_append C K _ _ _ hq, run_append C K _ _ _ hq,
        show ([Event.checked, .flush a b] : List Event) = [.checked] ++ [.flush a b] from rfl,
        run_append C K _ _ _ (run_one C K hs)]
      exact ⟨rfl, fun _ => rfl⟩
    · rw [run_cut C K (by rw [hq]; exact hok), run_cut C K (by rw [hq]; exact hok)]
      exact ⟨rfl, fun _ => rfl⟩
  | checked v r w' hp hv hr =>
    have c := C75_only_version C K vault w x y es₀ s _ h ht
    rw [checked_upd C hr] at c ⊢
    obtain ⟨D', v2, h1, h2, h3, h4, h5, h6, h7⟩ := run_upd C K (T := checkText r) es hes hv
      (D := ⟨false, w'.disk, w'.log, w'.tick, v.write (checkText r)⟩) ⟨rfl, rfl, rfl, rfl, rfl, rfl⟩
      (hE.same C c.2.2.2.2.2.1 c.2.2.2.2.2.2.1 _ rfl)
    rcases hq : run C K es s with ⟨q, t₀⟩
    rw [hq] at h1 h3 h5 h6 h7
    dsimp only at h1 h3 h5 h6 h7
    by_cases hok : q = .ok ()
    · subst hok
      rw [run_append C K _ _ _ h1, run_append C K _ _ _ hq]
      have hb : Upd.facadeCheck C.sys C.ext C.dir true t₀.world = (.ret r, w'.on t₀.world.sess) := by
        have e : t₀.world = s.world.on t₀.world.sess := h5
        rw [e, Blind.facadeCheck, hr]
        rfl
      rw [show ([Event.checked, .flush a b] : List Event) = [.checked] ++ [.flush a b] from rfl,
        run_append C K _ _ _ (run_one C K (step_checked C K (h7.trans hp) h3 hb)), checked_upd C hb]
      have key := flush_same C K h3 (D := ⟨false, w'.disk, w'.log, w'.tick, v2.write (checkText r)⟩) (D' := D') h2
        (akin_redrawn h4 a) b
      have hone : ∀ z, run C K [.flush a b] z = flush C K a b z := by
        intro z
        simp only [run, step]
        rw [bind_run]
        rcases flush C K a b z with ⟨r, z'⟩
        cases r <;> rfl
      rw [hone, hone]
      exact key
    · rw [run_cut C K (by rw [h1]; exact hok), run_cut C K (by rw [hq]; exact hok), h1, hq]
      exact ⟨rfl, fun hf => absurd hf hok⟩

/-! ### C60: the GUI -/

/-- C60 does not hold for the GUI: its check asks the server whatever the configuration says about notifications and
whenever the last check was. -/
theorem C60_gui_asks (vault : Bytes) (w : World) (x y : Nat) (es : List Event) (s : St) (h : Live C K vault w x y es s)
    (hp : s.pending = true) (c : Config) (hc : Conf.getConfig s.world.conf = .ret c) :
    ∃ l, (step C K .checked s).2.world.log = s.world.log ++ .request Upd.githubReleases c.timeout :: l := by
  obtain ⟨v, hv⟩ := h.inv.frame.ver
  have hf : Upd.facadeCheck C.sys C.ext C.dir true s.world =
      Upd.checkForUpdate C.sys C.ext c.period c.timeout true C.dir s.world := by
    unfold Upd.facadeCheck
    rw [Prog.bind_run]
    simp only [Conf.read, hc]
  obtain ⟨l, hl⟩ := Upd.C57_forced_asks C.sys C.ext c.period c.timeout C.dir s.world
  rw [← hf] at hl
  refine ⟨l, ?_⟩
  rw [← hl]
  rcases hr : Upd.facadeCheck C.sys C.ext C.dir true s.world with ⟨o, w'⟩
  cases o with
  | ret r => rw [step_checked C K hp hv hr]; rfl
  | panic =>
    rw [step]
    simp only [get_bind, hp, if_true, modify_bind]
    have h1 : onWorld (Upd.facadeCheck C.sys C.ext C.dir true) { s with pending := false } =
        (.panic, { s with pending := false, world := w' }) := by simp only [onWorld, hr]
    rw [verUpdate, bind_panic h1]
  | fatal =>
    rw [step]
    simp only [get_bind, hp, if_true, modify_bind]
    have h1 : onWorld (Upd.facadeCheck C.sys C.ext C.dir true) { s with pending := false } =
        (.fatal, { s with pending := false, world := w' }) := by simp only [onWorld, hr]
    rw [verUpdate, bind_fatal h1]

namespace Demo

/-- A server with a newer release. -/
def newer : Ctx := { ctx with sys := Toy.sys b!"[{\"body\":\"x\",\"tag_name\":\"9.9.9\",\"assets\":[]}]" 5000000000 }

/-- A configuration (notifications off) and a vault. -/
def home : Disk := Cli.Demo.disk b!"1234" b!"memo"

def homeWorld : World := { world home with conf := some (Conf.updated [] Conf.myConf) }

def at_ (es : List Event) : Res Unit × St := run newer kit (.flush 80 24 :: es) (start b!"/a" homeWorld)

end Demo

/-- C60 is false: a run of the GUI with notifications off, and the server is asked. -/
theorem C60_refuted : ¬ ∀ (C : Ctx) (K : Kit) (path : Bytes) (x y : Nat) (es : List Event) (w : World) (m : YMap),
    C.sys.Quiet → Conf.loaded C.ext w.disk C.dir = some (some m) → m.get b!"update-notification" = .bool false →
      ∃ l, (Gui.main C K path x y es w).2.log = w.log ++ l ∧ ∀ u t, Ev.request u t ∉ l := by
  intro h
  obtain ⟨l, h1, h2⟩ := h Demo.newer Demo.kit [] 80 24 [.checked] (Toy.world Demo.home [])
    (Conf.updated [] { Conf.myConf with vault := b!"/a" }) (fun _ => rfl) (by decide +kernel) (by decide +kernel)
  have h3 : (Gui.main Demo.newer Demo.kit [] 80 24 [.checked] (Toy.world Demo.home [])).2.log.head? =
      some (.request Upd.githubReleases 5) := by decide +kernel
  rw [h1] at h3
  have h4 : (Toy.world Demo.home []).log = [] := rfl
  rw [h4, List.nil_append] at h3
  exact h2 _ _ (List.mem_of_mem_head? h3)

set_option maxRecDepth 20000 in
/-- C75: the check may finish before the password is typed or while the list of all items is on the screen; its time stamp
is written and its verdict is on the screen. -/
example : (Demo.at_ (.checked :: (Demo.opening ++ [.key .enter, .flush 80 24]))).1 = .ok () ∧
    Demo.text .ver (Demo.at_ (.checked :: (Demo.opening ++ [.key .enter, .flush 80 24]))) =
      some [b!"1Pass v1.3.1 (new version is available: v9.9.9 - run '1pass update' to upgrade)"] ∧
    Demo.text .ver (Demo.at_ (Demo.opening ++ [.key .enter, .flush 80 24])) = some [b!"1Pass v1.3.1 "] ∧
    Demo.text .ver (Demo.at_ (Demo.opening ++ [.key .enter, .checked, .flush 80 24])) =
      some [b!"1Pass v1.3.1 (new version is available: v9.9.9 - run '1pass update' to upgrade)"] ∧
    Demo.text .items (Demo.at_ (.checked :: (Demo.opening ++ [.key .enter, .flush 80 24]))) = some [b!"Mail", b!"Card", []] ∧
    (Demo.at_ (Demo.opening ++ [.key .enter, .checked, .flush 80 24])).2.world.disk.readFile b!"/h/lastcheck" = some b!"5" := by
  decide +kernel

set_option maxRecDepth 20000 in
theorem Demo.elsewhere (es : List Event) (he : (Demo.at_ es).2.vault = b!"/a") (hd : (Demo.at_ es).2.world.disk = Demo.home) :
    Elsewhere Demo.newer (Demo.at_ es).2 := by
  refine ⟨by rw [he]; decide, by rw [he]; decide +kernel, by rw [hd]; decide +kernel, ?_⟩
  rw [he, hd]
  have h1 : Path.resolve Demo.home.cwd b!"/a" = [b!"a"] := by decide +kernel
  have h2 : Path.resolve Demo.home.cwd Demo.newer.dir = [b!"h"] := by decide +kernel
  have h3 : Path.resolve Demo.home.cwd (Path.join [Demo.newer.dir, Upd.lastCheckFile]) = [b!"h", Upd.lastCheckFile] := by
    decide +kernel
  rintro m ⟨r, rfl⟩
  unfold Cli.StampLoc
  rw [h1, h2, h3]
  rintro (⟨q, h⟩ | h) <;> simp at h

set_option maxRecDepth 20000 in
/-- C75: the hypotheses can be met. -/
example : Elsewhere Demo.newer (Demo.at_ Demo.opening).2 ∧ (Demo.at_ Demo.opening).2.pending = true ∧
    (step Demo.newer Demo.kit .checked (Demo.at_ Demo.opening).2).1 = .ok () :=
  ⟨Demo.elsewhere _ (by decide +kernel) (by decide +kernel), by decide +kernel, by decide +kernel⟩

end Gui
end OnePass
