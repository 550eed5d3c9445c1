/-
C120: the outcome of the check in the background on the screen.
-/
import Verif.Props.GuiCheck

set_option linter.unusedSimpArgs false

namespace OnePass
namespace Gui
open Act

variable (C : Ctx) (K : Kit)

/-- Nothing that makes gocui draw: no key, no change of size. -/
def Event.idle : Event → Bool
  | .checked | .disk _ => true
  | _ => false

/-- What is on the screen in a view: what was there to draw when it was last drawn. -/
def onScreen (s : St) (n : Name) : Option (List Bytes) := (s.views n).map (·.shown)

/-- The version line through a key or a drawing. -/
theorem ver_own {s t : St} {v : View} (hv : s.views .ver = some v) {e : Event} (he : e.own = true) (h : step C K e s = (.ok (), t)) :
    t.pending = s.pending ∧ ∃ v', t.views .ver = some v' ∧ v'.lines = v.lines ∧
      (∀ a b, e = .flush a b → v'.shown = v.lines) := by
  cases e with
  | checked => cases he
  | disk d => cases he
  | key k =>
    obtain ⟨-, h2⟩ := indep_press C K (D := ⟨s.pending, s.world.disk, s.world.log, s.world.tick, v⟩) (d := s.world.disk)
      (vault := s.vault) (fun _ _ _ => rfl) k s rfl rfl
    have h' : press C K k s = (.ok (), t) := h
    rw [h'] at h2
    exact ⟨h2.2.2.1, v, h2.2.2.2.trans hv, rfl, fun a b hh => by cases hh⟩
  | flush x y =>
    have h' : flush C K x y s = (.ok (), t) := h
    by_cases hx : x < 2
    · rw [flush_line C K hv, if_pos hx] at h'
      cases h'
    · rw [flush_sized C K hv hx y] at h'
      have h2 := (indep_restLayout (D := ⟨s.pending, s.world.disk, s.world.log, s.world.tick, v⟩) (d := s.world.disk)
        (vault := s.vault) C K (sized x y v s) rfl rfl).2
      rcases hr : restLayout C K (sized x y v s) with ⟨r, u⟩
      rw [hr] at h2 h'
      have e1 : u.views .ver = some (shifted x v) := h2.2.2.2.trans (by simp [sized])
      have e4 : u.pending = s.pending := h2.2.2.1
      cases r with
      | ok a =>
        simp only [Prod.mk.injEq, true_and] at h'
        subst h'
        refine ⟨e4, (shifted x v).draw, ?_, rfl, fun _ _ _ => rfl⟩
        show (u.views .ver).map View.draw = _
        rw [e1]
        rfl
      | err e => cases h'
      | panic => cases h'
      | fatal => cases h'

/-- The end of the check and what others do to the disk put nothing on the screen. -/
theorem screen_idle {s t : St} {e : Event} (he : e.idle = true) (h : step C K e s = (.ok (), t)) (n : Name) : onScreen t n = onScreen s n := by
  cases e with
  | key k => cases he
  | flush x y => cases he
  | disk d => cases h; rfl
  | checked =>
    simp only [step, get_bind] at h
    by_cases hp : s.pending = true
    · simp only [hp, if_true, modify_bind, verUpdate] at h
      rcases hr : Upd.facadeCheck C.sys C.ext C.dir true s.world with ⟨o, w'⟩
      cases o with
      | panic => rw [bind_run] at h; simp only [onWorld, hr] at h; cases h
      | fatal => rw [bind_run] at h; simp only [onWorld, hr] at h; cases h
      | ret r =>
        rw [bind_run] at h
        simp only [onWorld, hr, get_bind] at h
        cases hv : s.views .ver with
        | none => rw [hv] at h; cases h
        | some v =>
          rw [hv] at h
          simp only at h
          rw [change_run (v := v) (by exact hv)] at h
          cases h
          unfold onScreen
          show (setAt s.views .ver (some (v.write (checkText r))) n).map _ = _
          by_cases hn : n = .ver
          · subst hn
            rw [hv]
            simp [setAt, View.write]
          · simp [setAt, hn]
    · simp only [hp, if_false] at h
      cases h
      rfl

/-- C120 is false whenever the user only waits: after the last drawing, whatever the check says and however long it is ago, the
screen stays as it is. -/
theorem C120_waiting (es : List Event) (hes : ∀ e ∈ es, e.idle = true) (s t : St) (h : run C K es s = (.ok (), t)) (n : Name) :
    onScreen t n = onScreen s n := by
  induction es generalizing s with
  | nil => cases h; rfl
  | cons e es ih =>
    rw [run] at h
    rcases hr : step C K e s with ⟨r, u⟩
    cases r with
    | ok a =>
      rw [bind_ok hr] at h
      rw [ih (fun e' he' => hes e' (by simp [he'])) u h, screen_idle C K (hes e (by simp)) hr]
    | err e => rw [bind_err hr] at h; cases h
    | panic => rw [bind_run, hr] at h; cases h
    | fatal => rw [bind_run, hr] at h; cases h

/-- While the check is running, the version line is this. -/
def Ahead (s : St) : Prop := ∃ v, s.views .ver = some v ∧ (s.pending = true → v.lines = [b!"1Pass v1.3.1 "])

theorem ahead_step {s t : St} (hs : Ahead s) {e : Event} (h : step C K e s = (.ok (), t)) (hi : Inv s) : Ahead t := by
  obtain ⟨v, hv, hl⟩ := hs
  cases he : e.own with
  | true =>
    obtain ⟨h1, v', h2, h3, -⟩ := ver_own C K hv he h
    exact ⟨v', h2, fun hp => by rw [h3]; exact hl (by rw [← h1]; exact hp)⟩
  | false =>
    cases e with
    | key k => cases he
    | flush x y => cases he
    | disk d => cases h; exact ⟨v, hv, hl⟩
    | checked =>
      obtain ⟨hT, hi'⟩ := inv_step C K hi h
      obtain ⟨v', hv'⟩ := hi'.frame.ver
      refine ⟨v', hv', fun hp => ?_⟩
      exfalso
      cases hT with
      | idle hp' => rw [hp] at hp'; cases hp'
      | checked v r w' hp' hv hr => cases hp

theorem ahead_first (vault : Bytes) (w : World) (x y : Nat) : Ahead (firstSt vault w x y) :=
  ⟨_, rfl, fun _ => by
    show (b!"1Pass v" ++ Upd.version ++ b!" ").foldl View.putByte [] = _
    decide +kernel⟩

theorem Live.ahead {vault : Bytes} {w : World} {x y : Nat} {es : List Event} {s : St} (h : Live C K vault w x y es s) : Ahead s := by
  induction es using List.reverseRecOn generalizing s with
  | nil =>
    obtain ⟨_, _, h3⟩ := h.steps C K
    generalize hn : ([] : List Event) = l at h3
    cases h3 with
    | nil => exact ahead_first vault w x y
    | snoc _ _ _ => exact absurd hn (by simp)
  | append_singleton es e ih =>
    obtain ⟨u, hu, hs⟩ := h.snoc C K
    exact ahead_step C K (ih hu) hs (hu.inv C K)

/-- Whatever happens after the check, the version line stays as it is written; a drawing draws it. -/
theorem ver_after {s : St} {v : View} (hv : s.views .ver = some v) (hp : s.pending = false) (es : List Event) {t : St}
    (h : run C K es s = (.ok (), t)) : t.pending = false ∧ ∃ v', t.views .ver = some v' ∧ v'.lines = v.lines := by
  induction es generalizing s v with
  | nil => cases h; exact ⟨hp, v, hv, rfl⟩
  | cons e es ih =>
    rw [run] at h
    rcases hr : step C K e s with ⟨r, u⟩
    have key : r = .ok () → u.pending = false ∧ ∃ v', u.views .ver = some v' ∧ v'.lines = v.lines := by
      rintro rfl
      cases he : e.own with
      | true =>
        obtain ⟨h1, v', h2, h3, -⟩ := ver_own C K hv he hr
        exact ⟨h1.trans hp, v', h2, h3⟩
      | false =>
        cases e with
        | key k => cases he
        | flush x y => cases he
        | disk d => cases hr; exact ⟨hp, v, hv, rfl⟩
        | checked =>
          simp only [step, get_bind, hp, Bool.false_eq_true, if_false] at hr
          cases hr
          exact ⟨hp, v, hv, rfl⟩
    cases r with
    | ok a =>
      rw [bind_ok hr] at h
      obtain ⟨k1, v', k2, k3⟩ := key rfl
      obtain ⟨m1, v'', m2, m3⟩ := ih k2 k1 h
      exact ⟨m1, v'', m2, m3.trans k3⟩
    | err e => rw [bind_err hr] at h; cases h
    | panic => rw [bind_run, hr] at h; cases h
    | fatal => rw [bind_run, hr] at h; cases h

/-- C120, as far as it holds: from the first drawing after the end of the check on, what the check found is on the screen behind
the version of the program, and it stays there, whatever the user does. -/
theorem C120_drawn_partial (vault : Bytes) (w : World) (x y : Nat) (es : List Event) (s t u : St) (h : Live C K vault w x y es s)
    (hp : s.pending = true) (ht : step C K .checked s = (.ok (), t)) (later : List Event) (a b : Nat)
    (hu : run C K (later ++ [.flush a b]) t = (.ok (), u)) :
    ∃ r, Upd.facadeCheck C.sys C.ext C.dir true s.world = (.ret r, t.world) ∧
      (OneLine (checkText r) → onScreen u .ver = some [b!"1Pass v1.3.1 " ++ checkText r]) := by
  have h75 := (C75_only_version C K vault w x y es s t h ht).2.2.2.2.2.2.2
  simp only [hp, if_true] at h75
  obtain ⟨hp', r, v, hr, hv, hv'⟩ := h75
  refine ⟨r, hr, fun h1 => ?_⟩
  obtain ⟨v0, k1, k2⟩ := h.ahead C K
  rw [hv] at k1
  cases k1
  obtain ⟨m, hm, hf⟩ := run_split C K _ _ hu
  rw [run_cons] at hf
  obtain ⟨_, u', h6, h7⟩ := bind_split hf
  cases h7
  obtain ⟨-, v1, n1, n2⟩ := ver_after C K hv' hp' later hm
  obtain ⟨-, v2, q1, -, q3⟩ := ver_own C K n1 (e := .flush a b) rfl h6
  unfold onScreen
  rw [q1, Option.map_some, q3 a b rfl, n2]
  show some ((checkText r).foldl View.putByte v.lines) = _
  rw [k2 hp]
  exact congrArg some (put_line (checkText r) h1 [] b!"1Pass v1.3.1 ")

theorem Demo.world_reach (E : Env) (d : Disk) : Session.Reachable E (Demo.world d).sess := by
  unfold Demo.world
  rcases h : Session.init.validate d b!"/a" with ⟨r, s⟩ | _ | _
  · exact ⟨d, [.validate b!"/a"], [Session.answerErr r], d, by
      simp only [Session.run, Session.step, h, Out.ret_bind, Out.pure_eq]⟩
  · exact ⟨d, [], [], d, rfl⟩
  · exact ⟨d, [], [], d, rfl⟩

/-- C120 is false: the check is over, it found a new version, and the screen of a user who only waits does not say so. -/
theorem C120_refuted : ¬ ∀ (C : Ctx) (K : Kit) (vault : Bytes) (w : World) (x y : Nat) (es later : List Event) (s t u : St),
    Live C K vault w x y es s → s.pending = true → step C K .checked s = (.ok (), t) →
    (∀ e ∈ later, e.idle = true) → run C K later t = (.ok (), u) →
    ∃ r, Upd.facadeCheck C.sys C.ext C.dir true s.world = (.ret r, t.world) ∧
      (OneLine (checkText r) → onScreen u .ver = some [b!"1Pass v1.3.1 " ++ checkText r]) := by
  intro h
  have hr0 : (Demo.at_ []).1 = .ok () := by decide +kernel
  have hp : (Demo.at_ []).2.pending = true := by decide +kernel
  have ht : (step Demo.newer Demo.kit .checked (Demo.at_ []).2).1 = .ok () := by decide +kernel
  have h1 : (match (Upd.facadeCheck Demo.newer.sys Demo.newer.ext Demo.newer.dir true (Demo.at_ []).2.world).1 with
      | .ret r => decide (OneLine (checkText r))
      | _ => false) = true := by decide +kernel
  have h3 : onScreen (step Demo.newer Demo.kit .checked (Demo.at_ []).2).2 .ver = some [b!"1Pass v1.3.1 "] := by decide +kernel
  have hl : Live Demo.newer Demo.kit b!"/a" Demo.homeWorld 80 24 [] (Demo.at_ []).2 := by
    refine ⟨by decide +kernel, ?_, ?_⟩
    · have h5 := Demo.world_reach Demo.newer.env Demo.home
      unfold Demo.homeWorld
      generalize Demo.world Demo.home = w at h5
      exact h5
    · rw [← Demo.at_.eq_1, ← hr0]
  obtain ⟨s, hs⟩ : ∃ s, (Demo.at_ []).2 = s := ⟨_, rfl⟩
  rw [hs] at hp ht h1 h3 hl
  rcases hst : step Demo.newer Demo.kit .checked s with ⟨o, t⟩
  rw [hst] at ht h3
  simp only at ht h3
  subst ht
  obtain ⟨r, hr, hd⟩ := h _ _ _ _ _ _ [] [] _ t t hl hp hst (by simp) rfl
  rw [hr] at h1
  have h2 := hd (of_decide_eq_true h1)
  rw [h3] at h2
  cases r with
  | ok i => simp [checkText] at h2
  | error e => cases e <;> simp [checkText, Err.text] at h2

set_option maxRecDepth 20000 in
/-- C120: the new version is known, but not shown until the terminal is resized. -/
example : ((Demo.at_ [.checked]).2.views .ver).map (·.lines) =
      some [b!"1Pass v1.3.1 (new version is available: v9.9.9 - run '1pass update' to upgrade)"] ∧
    onScreen (Demo.at_ [.checked]).2 .ver = some [b!"1Pass v1.3.1 "] ∧
    onScreen (Demo.at_ [.checked, .flush 100 24]).2 .ver =
      some [b!"1Pass v1.3.1 (new version is available: v9.9.9 - run '1pass update' to upgrade)"] := by
  decide +kernel

end Gui
end OnePass
