/-
What a run of the GUI touches and asks (C83), and which vault it opens (C64).
-/
import Verif.Props.GuiCheck
import Verif.Props.Consent

set_option linter.unusedSimpArgs false

namespace OnePass
namespace Gui
open Cli Act
open Prog hiding pure bind get panic lift bind_run
variable (C : Ctx) (K : Kit)

/-! ### C83 -/

/-- A part that changes nothing but the GUI and the session. -/
def Inner (s t : St) : Prop := t.world = { s.world with sess := t.world.sess }

theorem Inner.trans {s t u : St} (h : Inner s t) (h' : Inner t u) : Inner s u := by
  unfold Inner at *
  rw [h', h]

theorem inner_bind {α β : Type} {m : Act α} {f : α → Act β} {s : St} (hm : Inner s (m s).2)
    (hf : ∀ a t, Inner t (f a t).2) : Inner s ((m >>= f) s).2 := by
  rw [bind_run]
  rcases h : m s with ⟨r, t⟩
  rw [h] at hm
  cases r with
  | ok a => exact hm.trans (hf a t)
  | err e => exact hm
  | panic => exact hm
  | fatal => exact hm

/-- Nothing is replaced. -/
def Bg.ofSt (s : St) : Bg := ⟨s.pending, s.world.disk, s.world.log, s.world.tick, View.new 0 0 0 0 verAttr⟩

theorem inner_press (k : Key) (s : St) : Inner s (press C K k s).2 :=
  (indep_press C K (D := Bg.ofSt s) (d := s.world.disk) (vault := s.vault) (fun _ _ _ => rfl) k s rfl rfl).2.1

theorem inner_verLayout (s : St) : Inner s (verLayout s).2 := by
  simp only [verLayout, get_bind]
  refine inner_bind ?_ fun new t => ?_
  · simp only [setView]
    split
    · rfl
    · split <;> rfl
  · cases new <;> rfl

theorem inner_flush (x y : Nat) (s : St) : Inner s (flush C K x y s).2 := by
  simp only [flush, modify_bind]
  refine Inner.trans (t := { s with maxX := (x : Int), maxY := (y : Int) }) rfl ?_
  refine inner_bind (inner_verLayout _) fun _ t => ?_
  refine inner_bind ?_ fun _ t => ?_
  · exact (indep_helpLayout (D := Bg.ofSt t) (d := t.world.disk) (vault := t.vault) t rfl rfl).2.1
  refine inner_bind ?_ fun _ t => rfl
  exact (indep_menuLayout (D := Bg.ofSt t) (d := t.world.disk) (vault := t.vault) C K t rfl rfl).2.1

theorem Inner.foot {s t : St} (h : Inner s t) (cwd : List Bytes) (P : List Bytes → Prop) (A : Ev → Prop) :
    Foot cwd P A s.world t.world := by
  rw [h]
  exact fun hw => ⟨hw, fun _ _ => rfl, [], by simp, by simp⟩

theorem foot_check (cwd : List Bytes) : Rel (Foot cwd (OwnLoc cwd C.dir) Ordinary) (Upd.facadeCheck C.sys C.ext C.dir true) := by
  refine Rel.bind (foot_chain _ _ _) (rel_read (foot_chain _ _ _)) (fun c => ?_)
  refine rel_checkForUpdate C.sys (foot_chain _ _ _) _ _ _ _ _ (foot_fetchInfo _ _ _ _ _ rfl) ?_
    (foot_shouldCheck _ _ _ _ _ _ _)
  exact foot_checkTimestamp _ _ _ _ _ (fun l hl _ => .inl (.inl hl)) (.inl (.inr rfl))

theorem foot_verUpdate (cwd : List Bytes) (s : St) : Foot cwd (OwnLoc cwd C.dir) Ordinary s.world (verUpdate C s).2.world := by
  have hf := foot_check C cwd s.world
  unfold verUpdate
  rw [bind_run]
  simp only [onWorld]
  rcases hr : Upd.facadeCheck C.sys C.ext C.dir true s.world with ⟨o, w⟩
  rw [hr] at hf
  cases o with
  | ret r =>
    simp only [get_bind]
    cases s.views .ver <;> exact hf
  | panic => exact hf
  | fatal => exact hf

/-- Somebody else writes to the disk. -/
def Event.foreign : Event → Bool
  | .disk _ => true
  | _ => false

theorem foot_step (cwd : List Bytes) (e : Event) (he : e.foreign = false) (s : St) :
    Foot cwd (OwnLoc cwd C.dir) Ordinary s.world (step C K e s).2.world := by
  cases e with
  | key k => exact (inner_press C K k s).foot cwd _ _
  | flush x y => exact (inner_flush C K x y s).foot cwd _ _
  | disk d => cases he
  | checked =>
    rw [step, get_bind]
    cases hp : s.pending with
    | false => exact (foot_chain _ _ _).refl _
    | true => exact foot_verUpdate C cwd { s with pending := false }

theorem foot_run (cwd : List Bytes) (es : List Event) (hes : ∀ e ∈ es, e.foreign = false) (s : St) :
    Foot cwd (OwnLoc cwd C.dir) Ordinary s.world (run C K es s).2.world := by
  induction es generalizing s with
  | nil => exact (foot_chain _ _ _).refl _
  | cons e es ih =>
    have h1 := foot_step C K cwd e (hes e (by simp)) s
    simp only [run]
    rw [bind_run]
    rcases hr : step C K e s with ⟨r, t⟩
    rw [hr] at h1
    cases r with
    | ok a => exact (foot_chain _ _ _).trans _ _ _ h1 (ih (fun e' h' => hes e' (by simp [h'])) t)
    | err e => exact h1
    | panic => exact h1
    | fatal => exact h1

/-- C83 for the GUI. Whatever keys are pressed and whatever fails, from the start of the program on: nothing is touched
at any time but the configuration file, the time stamp and directories above them, and only the list of releases is asked
for. In particular no vault is ever changed. -/
theorem C83_gui (path : Bytes) (x y : Nat) (es : List Event) (hes : ∀ e ∈ es, e.foreign = false) (w : World) :
    Foot w.disk.cwd (OwnLoc w.disk.cwd C.dir) Ordinary w (Gui.main C K path x y es w).2 := by
  have h0 := C83_footprint C (.gui path) (by simp) w
  generalize w.disk.cwd = cwd at *
  have hR := foot_chain cwd (OwnLoc cwd C.dir) Ordinary
  unfold Gui.main
  rw [Prog.bind_run]
  rcases hm : Cli.main C (.gui path) w with ⟨o, w1⟩
  rw [hm] at h0
  cases o with
  | panic => exact h0
  | fatal => exact h0
  | ret u =>
    refine hR.trans _ _ _ h0 ?_
    show Foot _ _ _ w1 (app C K path x y es w1).2
    unfold app
    refine Rel.bind hR ?_ (fun vault => ?_) w1
    · unfold chooseVault
      split
      · exact Rel.pure hR _
      · exact Rel.bind hR (rel_read hR) fun c => Rel.pure hR _
    refine Rel.bind hR (foot_onSession _ _ _ _) (fun r => ?_)
    cases r with
    | error e => exact Rel.bind hR (foot_emit _ _ _ (by simp) trivial) fun _ => Rel.lift hR _
    | ok _ =>
      intro w2
      exact foot_run C K cwd (.flush x y :: es) (by simpa [Event.foreign] using hes) (start vault w2)

/-! ### C64 -/

/-- C64 for the GUI: the vault opened is the one of the flag; without it the configured path does what it would do as a
flag. -/
theorem C64_gui (path : Bytes) (x y : Nat) (es : List Event) (w : World) :
    (path ≠ [] → app C K path x y es w =
      (do match ← Cli.onSession (fun d s => s.validate d path) with
          | .error e => Cli.die e
          | .ok _ => loop C K path x y es : Prog Unit) w) ∧
    (∀ c, Conf.getConfig w.conf = .ret c → c.vault ≠ [] → app C K [] x y es w = app C K c.vault x y es w) := by
  refine ⟨fun h => ?_, fun c hc h => ?_⟩
  · unfold app
    rw [Prog.bind_run]
    simp only [chooseVault, ne_eq, h, not_false_eq_true, if_true]
    rfl
  · unfold app
    rw [Prog.bind_run, Prog.bind_run]
    simp only [chooseVault, ne_eq, h, not_false_eq_true, if_true, not_true_eq_false, if_false]
    rw [Prog.bind_run]
    simp only [Conf.read, hc]

/-- C83: the check of the GUI writes its time stamp; nothing else is on the disk afterwards that was not there. -/
example : (Gui.main Demo.newer Demo.kit [] 80 24 [.checked] (Toy.world Demo.home [])).2.disk.at? [b!"h", b!"lastcheck"] =
      some (.file b!"5" false) ∧
    (Gui.main Demo.newer Demo.kit [] 80 24 [.checked] (Toy.world Demo.home [])).2.disk.fs.tail = Demo.home.fs := by
  decide +kernel

/-- C64: without a flag the configured vault is opened; with a wrong one the program stops. -/
example : (Gui.main Demo.newer Demo.kit [] 80 24 [] (Toy.world Demo.home [])).1 = .ret () ∧
    (Gui.main Demo.newer Demo.kit b!"/b" 80 24 [] (Toy.world Demo.home [])).1 = .fatal := by decide +kernel

end Gui
end OnePass
