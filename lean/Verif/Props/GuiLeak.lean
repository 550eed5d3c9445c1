/-
What leaves the process while the GUI runs: C87.
-/
import Verif.Props.Leak

set_option linter.unusedSimpArgs false

namespace OnePass
namespace Gui
open Cli Act
open Prog hiding pure bind get panic lift bind_run

section
variable {C C' : Ctx} {K : Kit} {cwd : List Bytes} {V : List Bytes → Prop}

/-- The check of the version widget. -/
def bgCheck (C : Ctx) : Prog (Except Err UpdateInfo) := Upd.facadeCheck C.sys C.ext C.dir true

/-- How far a run of the GUI is, seen from outside: `r` is a world the check has not been done in. -/
def Phase (C : Ctx) (cwd : List Bytes) (V : List Bytes → Prop) (r : World) (s : St) : Prop :=
  (s.views .ver = none ∧ s.pending = false ∧ Sync cwd V r s.world) ∨
  (s.views .ver ≠ none ∧ s.pending = true ∧ Sync cwd V r s.world) ∨
  (s.views .ver ≠ none ∧ s.pending = false ∧ Sync cwd V (bgCheck C r).2 s.world)

theorem _root_.OnePass.Prog.Sync.inner {r w w' : World} (h : Sync cwd V r w) (e : w' = { w with sess := w'.sess }) : Sync cwd V r w' := by
  rw [e]
  exact ⟨h.cwd, h.off, h.trace, h.tick, h.stdin, h.conf⟩

theorem Phase.same {r : World} {s t : St} (h : Phase C cwd V r s) (hs : Same s t) : Phase C cwd V r t := by
  obtain ⟨h1, _, h3, h4⟩ := hs
  unfold Phase
  rw [h3, h4]
  rcases h with ⟨a, b, c⟩ | ⟨a, b, c⟩ | ⟨a, b, c⟩
  · exact .inl ⟨a, b, c.inner h1⟩
  · exact .inr (.inl ⟨a, b, c.inner h1⟩)
  · exact .inr (.inr ⟨a, b, c.inner h1⟩)

/-- A part that keeps the phase. -/
def Keeps {α : Type} (C : Ctx) (cwd : List Bytes) (V : List Bytes → Prop) (r : World) (m : Act α) : Prop :=
  ∀ s, Phase C cwd V r s → Phase C cwd V r (m s).2

theorem Keeps.bind {α β : Type} {r : World} {m : Act α} {f : α → Act β} (hm : Keeps C cwd V r m) (hf : ∀ a, Keeps C cwd V r (f a)) :
    Keeps C cwd V r (m >>= f) := by
  intro s h
  have h1 := hm s h
  rw [bind_run]
  rcases hr : m s with ⟨o, t⟩
  rw [hr] at h1
  cases o with
  | ok a => exact hf a t h1
  | err e => exact h1
  | panic => exact h1
  | fatal => exact h1

theorem keeps_verLayout (r : World) : Keeps C cwd V r verLayout := by
  intro s h
  unfold verLayout
  rw [get_bind]
  by_cases hb : (0 : Int) ≥ s.maxX - 1 ∨ (0 : Int) ≥ 2
  · rw [bind_err (setView_bad hb)]
    exact h
  · cases hv : s.views .ver with
    | some v =>
      rw [bind_ok (setView_old hv (by omega) (by omega))]
      rcases h with ⟨a, b, c⟩ | ⟨a, b, c⟩ | ⟨a, b, c⟩
      · rw [hv] at a; cases a
      · exact .inr (.inl ⟨by simp [Act.pure, setAt], b, c⟩)
      · exact .inr (.inr ⟨by simp [Act.pure, setAt], b, c⟩)
    | none =>
      rw [bind_ok (setView_new hv (by omega) (by omega))]
      rcases h with ⟨a, b, c⟩ | ⟨a, b, c⟩ | ⟨a, b, c⟩
      · exact .inr (.inl ⟨by simp [change, Act.modify, bind_run, setAt], rfl, c⟩)
      · exact absurd hv a
      · exact absurd hv a

theorem keeps_flush (r : World) (x y : Nat) : Keeps C cwd V r (flush C' K x y) := by
  unfold flush
  refine Keeps.bind (fun s h => h.same ⟨rfl, rfl, rfl, rfl⟩) fun _ => Keeps.bind (keeps_verLayout r) fun _ =>
    Keeps.bind (fun s h => ?_) fun _ => Keeps.bind (fun s h => ?_) fun _ s h => ?_
  · exact h.same (indep_helpLayout (D := Bg.ofSt s) (d := s.world.disk) (vault := s.vault) s rfl rfl).2
  · exact h.same (indep_menuLayout (D := Bg.ofSt s) (d := s.world.disk) (vault := s.vault) C' K s rfl rfl).2
  · rcases h with ⟨a, b, c⟩ | ⟨a, b, c⟩ | ⟨a, b, c⟩
    · exact .inl ⟨by simp [Act.modify, a], b, c⟩
    · exact .inr (.inl ⟨by simpa [Act.modify] using a, b, c⟩)
    · exact .inr (.inr ⟨by simpa [Act.modify] using a, b, c⟩)

theorem keeps_step (hC : Cli.Alike C C') (hV : Clear cwd V C.dir) (r : World) (e : Event) (he : e.foreign = false) :
    Keeps C cwd V r (step C' K e) := by
  intro s h
  cases e with
  | key k => exact h.same (indep_press C' K (D := Bg.ofSt s) (d := s.world.disk) (vault := s.vault) (fun _ _ _ => rfl) k s rfl rfl).2
  | flush x y => exact keeps_flush r x y s h
  | disk d => cases he
  | checked =>
    rw [step, get_bind]
    cases hp : s.pending with
    | false => exact h
    | true =>
      rcases h with ⟨a, b, c⟩ | ⟨a, b, c⟩ | ⟨a, b, c⟩
      · rw [hp] at b; cases b
      · have hs := (par_facadeCheck hC hV true r s.world c).2
        refine .inr (.inr (?_ : (verUpdate C' { s with pending := false }).2.views .ver ≠ none ∧
          (verUpdate C' { s with pending := false }).2.pending = false ∧
          Sync cwd V (bgCheck C r).2 (verUpdate C' { s with pending := false }).2.world))
        unfold verUpdate
        rw [bind_run]
        simp only [onWorld]
        rcases hr : Upd.facadeCheck C'.sys C'.ext C'.dir true s.world with ⟨o, w⟩
        rw [hr] at hs
        cases o with
        | ret u =>
          simp only [get_bind]
          cases hv : s.views .ver with
          | none => exact absurd hv a
          | some v => exact ⟨by simp [change, Act.modify, setAt, hv], rfl, hs⟩
        | panic => exact ⟨a, rfl, hs⟩
        | fatal => exact ⟨a, rfl, hs⟩
      · rw [hp] at b; cases b

theorem keeps_run (hC : Cli.Alike C C') (hV : Clear cwd V C.dir) (r : World) (es : List Event)
    (hes : ∀ e ∈ es, e.foreign = false) : Keeps C cwd V r (run C' K es) := by
  induction es with
  | nil => exact fun s h => h
  | cons e es ih =>
    exact Keeps.bind (keeps_step hC hV r e (hes e (by simp))) fun _ => ih fun e' h' => hes e' (by simp [h'])

/-- The same to somebody who sees the disk outside `V`, when it is written, and the network. -/
def Unseen (V : List Bytes → Prop) (w w' : World) : Prop :=
  (∀ l, ¬ V l → w.disk.at? l = w'.disk.at? l) ∧
  List.Forall₂ (Ev.Twin V) (w.log.filter Ev.leaves) (w'.log.filter Ev.leaves)

theorem _root_.OnePass.Prog.Sync.unseen {a b : World} (h : Sync cwd V a b) : Unseen V a b := ⟨h.off.2, h.trace⟩

theorem Phase.unseen {r : World} {s : St} (h : Phase C cwd V r s) : Unseen V r s.world ∨ Unseen V (bgCheck C r).2 s.world := by
  rcases h with ⟨a, b, c⟩ | ⟨a, b, c⟩ | ⟨a, b, c⟩
  · exact .inl c.unseen
  · exact .inl c.unseen
  · exact .inr c.unseen

/-- The GUI after the start of the program. -/
theorem unseen_app (hC : Cli.Alike C C') (hV : Clear cwd V C.dir) {r w : World} (h : Sync cwd V r w) (path : Bytes) (x y : Nat)
    (es : List Event) (hes : ∀ e ∈ es, e.foreign = false) :
    Unseen V r (app C' K path x y es w).2 ∨ Unseen V (bgCheck C r).2 (app C' K path x y es w).2 := by
  unfold app
  rw [Prog.bind_run]
  have h1 : (chooseVault path w).2 = w := by
    unfold chooseVault
    split
    · rfl
    · rw [Prog.bind_run]
      simp only [Conf.read]
      cases Conf.getConfig w.conf <;> rfl
  rcases hv : chooseVault path w with ⟨o, w1⟩
  rw [hv] at h1
  cases h1
  cases o with
  | panic => exact .inl h.unseen
  | fatal => exact .inl h.unseen
  | ret vault =>
    simp only
    rw [Prog.bind_run]
    unfold Cli.onSession
    simp only
    cases Session.validate w1.disk vault w1.sess with
    | panic => exact .inl h.unseen
    | fatal => exact .inl h.unseen
    | ret p =>
      obtain ⟨o, sess⟩ := p
      have h2 : Sync cwd V r { w1 with sess := sess } := h.inner rfl
      cases o with
      | error e =>
        refine .inl ?_
        exact ⟨h2.off.2, (h2.trace.quiet' (e := .out _) rfl)⟩
      | ok u =>
        have := keeps_run (K := K) hC hV r (.flush x y :: es) (by simpa [Event.foreign] using hes) (start vault { w1 with sess := sess })
          (.inl ⟨rfl, rfl, h2⟩)
        exact this.unseen

end

/-- C87 for the GUI. Seen from outside, disk and network, a run of the GUI is one of two: the start of the program,
or the start and the check of the version widget. Which of the two is all that can depend on the keys pressed, the
terminal, the contents of the vault, the cryptography, the password and the vault's path: `C`, `a` can be anything that agrees with `C'`, `b` about the rest. -/
theorem C87_gui (C C' : Ctx) (K : Kit) (path : Bytes) (x y : Nat) (es : List Event) (a b : World) (V : List Bytes → Prop)
    (hes : ∀ e ∈ es, e.foreign = false) (hC : Cli.Alike C C') (hdir : C.dir ≠ [])
    (hapart : ∀ l, V l → ¬ OwnLoc a.disk.cwd C.dir l) (hcwd : a.disk.cwd = b.disk.cwd)
    (hdisk : ∀ l, ¬ V l → a.disk.at? l = b.disk.at? l) (hlog : a.log = [] ∧ b.log = []) (htick : a.tick = b.tick)
    (hstdin : a.stdin = b.stdin) (hconf : a.conf = b.conf) :
    Unseen V (Cli.main C (.gui []) a).2 (Gui.main C' K path x y es b).2 ∨
    Unseen V ((do Cli.main C (.gui []); bgCheck C : Prog _) a).2 (Gui.main C' K path x y es b).2 := by
  have hV := clear_of hdir hapart
  have hs : Sync a.disk.cwd V a b :=
    ⟨rfl, ⟨hcwd, hdisk⟩, by unfold SameTrace; rw [hlog.1, hlog.2]; exact .nil, htick, hstdin, hconf⟩
  have hp : Par a.disk.cwd V (Cli.main C (.gui [])) (Cli.main C' (.gui path)) := by
    refine Par.bind ?_ fun _ => par_firstRun hC hV
    rw [← hC.ext, ← hC.dir]
    exact par_boot hC.sys _ (hV.conf _ (List.prefix_refl _))
  obtain ⟨h1, h2⟩ := hp a b hs
  unfold Gui.main
  rw [Prog.bind_run, Prog.bind_run]
  rcases ha : Cli.main C (.gui []) a with ⟨o, a'⟩
  rcases hb : Cli.main C' (.gui path) b with ⟨o', b'⟩
  rw [ha, hb] at h1 h2
  simp only at h1
  subst h1
  cases o with
  | panic => exact .inl h2.unseen
  | fatal => exact .inl h2.unseen
  | ret u => exact unseen_app hC hV h2 path x y es hes

/-- Both happen: the vault opened and an item revealed before the check is done, and after it. -/
example : ((Gui.main Demo.newer Demo.kit [] 80 24 (Demo.opening ++ [.key .enter, .key .tab]) (Toy.world Demo.home [])).2.log.filter
      Ev.leaves).length = 0 ∧
    ((Gui.main Demo.newer Demo.kit [] 80 24 (.checked :: Demo.opening ++ [.key .enter, .key .tab]) (Toy.world Demo.home [])).2.log.filter
      Ev.leaves).length = 3 := by decide +kernel

end Gui
end OnePass
