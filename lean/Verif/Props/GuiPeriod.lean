/-
C143: the configured period and the GUI.
-/
import Verif.Props.GuiFoot
import Verif.Props.Wait
import Verif.Props.Throttle

set_option linter.unusedSimpArgs false

namespace OnePass
namespace Gui
open Cli Act Http
open Prog hiding pure bind get panic lift bind_run
variable (C : Ctx) (K : Kit)

/-! ### Once a start -/

/-- How many checks are still to come: the one that is running, and the one the version line starts when it is first laid out. -/
def debt (s : St) : Nat := (if (s.views .ver).isNone then 1 else 0) + (if s.pending then 1 else 0)

/-- The requests made are paid with checks that were still to come. -/
def Pays (s t : St) : Prop := ∃ es, t.world.log = s.world.log ++ es ∧ (requests es).length + debt t ≤ debt s

theorem Pays.refl (s : St) : Pays s s := ⟨[], by simp, by simp [requests]⟩

theorem Pays.trans {s t u : St} (h : Pays s t) (h' : Pays t u) : Pays s u := by
  obtain ⟨a, h1, h2⟩ := h
  obtain ⟨b, h3, h4⟩ := h'
  refine ⟨a ++ b, by rw [h3, h1, List.append_assoc], ?_⟩
  rw [requests_append, List.length_append]
  omega

theorem pays_bind {α β : Type} {m : Act α} {f : α → Act β} {s : St} (hm : Pays s (m s).2)
    (hf : ∀ a t, Pays t (f a t).2) : Pays s ((m >>= f) s).2 := by
  rw [bind_run]
  rcases h : m s with ⟨r, t⟩
  rw [h] at hm
  cases r with
  | ok a => exact hm.trans (hf a t)
  | err e => exact hm
  | panic => exact hm
  | fatal => exact hm

/-- Without a word to anybody. -/
theorem pays_quiet {s t : St} (h : t.world.log = s.world.log) (hd : debt t ≤ debt s) : Pays s t :=
  ⟨[], by simpa using h, by simpa [requests] using hd⟩

theorem Same.pays {s t : St} (h : Same s t) : Pays s t :=
  pays_quiet (by rw [h.1]) (by unfold debt; rw [h.2.2.1, h.2.2.2])

theorem pays_press (k : Key) (s : St) : Pays s (press C K k s).2 :=
  (indep_press C K (D := Bg.ofSt s) (d := s.world.disk) (vault := s.vault) (fun _ _ _ => rfl) k s rfl rfl).2.pays

theorem pays_verLayout (s : St) : Pays s (verLayout s).2 := by
  refine pays_quiet ?_ ?_
  · have := inner_verLayout s
    unfold Inner at this
    rw [this]
  · simp only [verLayout, get_bind]
    rw [bind_run]
    simp only [setView]
    unfold debt
    by_cases hx : s.maxX - 1 ≤ 0
    · simp [hx]
    · cases hv : s.views .ver <;> cases hp : s.pending <;>
        simp [hv, hp, hx, setAt, change, modify_run, Act.pure, bind_run]

theorem pays_flush (x y : Nat) (s : St) : Pays s (flush C K x y s).2 := by
  simp only [flush, modify_bind]
  refine Pays.trans (t := { s with maxX := (x : Int), maxY := (y : Int) }) (pays_quiet rfl (Nat.le_refl _)) ?_
  refine pays_bind (pays_verLayout _) fun _ t => ?_
  refine pays_bind ?_ fun _ t => ?_
  · exact (indep_helpLayout (D := Bg.ofSt t) (d := t.world.disk) (vault := t.vault) t rfl rfl).2.pays
  refine pays_bind ?_ fun _ t => ?_
  · exact (indep_menuLayout (D := Bg.ofSt t) (d := t.world.disk) (vault := t.vault) C K t rfl rfl).2.pays
  · refine pays_quiet rfl ?_
    unfold debt
    rw [modify_run]
    simp only [Option.isNone_map]
    exact Nat.le_refl _

theorem pays_checked (s : St) : Pays s (step C K .checked s).2 := by
  rw [step, get_bind]
  cases hp : s.pending with
  | false => exact Pays.refl s
  | true =>
    simp only [if_true, modify_bind]
    obtain ⟨es, h1, h2⟩ := few_facadeCheck C true s.world
    have hd : debt { s with pending := false } + 1 = debt s := by simp [debt, hp]
    unfold verUpdate
    rw [bind_run]
    simp only [onWorld]
    rcases hr : Upd.facadeCheck C.sys C.ext C.dir true s.world with ⟨o, w⟩
    rw [hr] at h1
    have hd' : debt { s with pending := false, world := w } = debt { s with pending := false } := rfl
    cases o with
    | panic => exact ⟨es, h1, by simp only; omega⟩
    | fatal => exact ⟨es, h1, by simp only; omega⟩
    | ret r =>
      simp only [get_bind]
      cases hv : s.views .ver with
      | none => exact ⟨es, h1, by simp only [Act.panic]; omega⟩
      | some v =>
        refine ⟨es, h1, ?_⟩
        have : debt (change (.live .ver) (fun v => v.write (checkText r)) { s with pending := false, world := w }).2 =
            debt { s with pending := false } := by
          simp [debt, change, modify_run, setAt, hv]
        rw [this]
        omega

theorem pays_step (e : Event) (s : St) : Pays s (step C K e s).2 := by
  cases e with
  | key k => exact pays_press C K k s
  | flush x y => exact pays_flush C K x y s
  | checked => exact pays_checked C K s
  | disk d => exact pays_quiet rfl (Nat.le_refl _)

theorem pays_run (es : List Event) (s : St) : Pays s (run C K es s).2 := by
  induction es generalizing s with
  | nil => exact Pays.refl s
  | cons e es ih =>
    simp only [run]
    exact pays_bind (pays_step C K e s) fun _ t => ih t

/-- C143, what remains: whatever is pressed, however often the screen is drawn and whoever changes the disk, a run of the GUI
contacts the server once at most (with a configuration; the first-run dialog may ask once more). -/
theorem C143_once_partial (path : Bytes) (x y : Nat) (es : List Event) (w : World) :
    ∃ l, (Gui.main C K path x y es w).2.log = w.log ++ l ∧ (requests l).length ≤ 2 ∧
      (∀ m, m ≠ [] → Conf.loaded C.ext w.disk C.dir = some (some m) → C.sys.Quiet → (requests l).length ≤ 1) := by
  have happ : ∀ w, ∃ l, (app C K path x y es w).2.log = w.log ++ l ∧ (requests l).length ≤ 1 := by
    have hq : ∀ w : World, ∃ l, w.log = w.log ++ l ∧ (requests l).length ≤ 0 := fun w => ⟨[], by simp, by simp [requests]⟩
    show Few 1 (app C K path x y es)
    unfold app
    refine few_bind (a := 0) (b := 1) ?_ fun vault => ?_
    · intro w
      unfold chooseVault
      split
      · exact hq w
      · rw [Prog.bind_run]
        unfold Conf.read
        cases Conf.getConfig w.conf <;> exact hq w
    refine few_bind (a := 0) (b := 1) ?_ fun r => ?_
    · intro w
      unfold onSession
      split <;> exact hq w
    cases r with
    | error e => exact fun w => ⟨[.out (e.text ++ b!"\n")], rfl, by simp [requests]⟩
    | ok _ =>
      intro w
      obtain ⟨l, h1, h2⟩ := pays_run C K (.flush x y :: es) (start vault w)
      refine ⟨l, h1, ?_⟩
      have : debt (start vault w) = 1 := rfl
      omega
  have hboot : Few 0 (Conf.boot C.sys C.ext C.dir) := few_none (noAsk_of_foot (fun cwd =>
    Rel.bind (foot_chain cwd _ _) (foot_load _ _ _ _ _ _) (fun m => foot_fresh _ _ _ m)))
  have hmain : Few 1 (Cli.main C (.gui path)) := by
    unfold Cli.main
    refine few_bind (a := 0) (b := 1) hboot fun _ => ?_
    exact few_firstRun C
  obtain ⟨l, h1, h2⟩ := few_bind (a := 1) (b := 1) hmain (fun _ => happ) w
  refine ⟨l, h1, h2, fun m hm hl hq => ?_⟩
  obtain ⟨k, hk⟩ := Conf.boot_run (X := C.ext) hq C.dir w
  simp only [hl] at hk
  generalize hw0 : ({ w with tick := w.tick + k, conf := some m, sess := Session.init } : World) = w0 at hk
  have hav : Conf.isAvailable w0.conf = true := by
    rw [← hw0]
    cases m with
    | nil => exact absurd rfl hm
    | cons a r => rfl
  have h3 : Cli.main C (.gui path) w = (.ret (), w0) := by
    unfold Cli.main
    rw [Prog.bind_run, hk]
    show firstRun C w0 = _
    unfold firstRun
    rw [Prog.bind_run]
    simp only [Prog.get, hav, if_true, Prog.pure]
  obtain ⟨l', h4, h5⟩ := happ w0
  have h6 : (Gui.main C K path x y es w).2.log = (app C K path x y es w0).2.log := by
    unfold Gui.main
    rw [Prog.bind_run, h3]
  have h7 : w0.log = w.log := by rw [← hw0]
  have h8 : (Gui.main C K path x y es w).2.log = w.log ++ l := h1
  rw [h6, h4, h7] at h8
  rw [← List.append_cancel_left h8]
  exact h5

/-! ### The period -/

namespace Demo

/-- That computer just after a check: the period is a week. -/
def justChecked : Disk := { home with fs := home.fs ++ [([b!"h", b!"lastcheck"], .file b!"5" false)] }

end Demo

/-- C143 is false: the last check was this very second, the period is a week, and the server is asked. -/
theorem C143_refuted : ¬ ∀ (C : Ctx) (K : Kit) (path : Bytes) (x y : Nat) (es : List Event) (w : World) (m : YMap) (c : Config) (s : Int),
    C.sys.Quiet → Conf.loaded C.ext w.disk C.dir = some (some m) → Conf.getConfig (some m) = .ret c → Upd.Stamped w.disk C.dir s →
      (∀ n, (C.sys.now n - s * 1000000000).natAbs < c.period * Upd.day) →
      ∃ l, (Gui.main C K path x y es w).2.log = w.log ++ l ∧ requests l = [] := by
  intro h
  obtain ⟨l, h1, h2⟩ := h Demo.newer Demo.kit [] 80 24 [.checked] (Toy.world Demo.justChecked [])
    (Conf.updated [] { Conf.myConf with vault := b!"/a" }) { Conf.myConf with vault := b!"/a" } 5 (fun _ => rfl)
    (by decide +kernel) (by decide +kernel) ⟨b!"5", by decide +kernel, by decide +kernel⟩ (fun n => by
      show ((5000000000 : Int) - 5 * 1000000000).natAbs < (7 : Int) * (86400000000000 : Nat)
      decide)
  have h3 : requests (Gui.main Demo.newer Demo.kit [] 80 24 [.checked] (Toy.world Demo.justChecked [])).2.log =
      [(Upd.githubReleases, 5)] := by decide +kernel
  have h4 : (Toy.world Demo.justChecked []).log = [] := rfl
  rw [h1, h4, List.nil_append, h2] at h3
  cases h3

/-- C143: the check of the GUI leaves the time stamp as fresh as it was; however often the screen is drawn, one request. -/
example : (Gui.main Demo.newer Demo.kit [] 80 24 [.checked] (Toy.world Demo.home [])).2.disk.readFile b!"/h/lastcheck" = some b!"5" ∧
    requests (Gui.main Demo.newer Demo.kit [] 80 24 [.flush 80 24, .checked, .flush 90 30, .checked] (Toy.world Demo.justChecked [])).2.log =
      [(Upd.githubReleases, 5)] ∧
    requests (Gui.main Demo.newer Demo.kit [] 80 24 [.flush 80 24, .key .ctrlQ, .checked] (Toy.world Demo.justChecked [])).2.log = [] := by
  decide +kernel

end Gui
end OnePass
