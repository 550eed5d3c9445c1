/-
C140: the terminal after CTRL+C.
-/
import Verif.Model.Echo
import Verif.Props.Timeout
import Verif.Props.Commands
import Verif.Props.Asked

set_option linter.unusedSimpArgs false

namespace OnePass
namespace Cli
open Prog Upd Fmt

theorem echoes_append (on : Bool) (a b : List Step) : echoes on (a ++ b) = echoes (echoes on a) b := by
  induction a generalizing on with
  | nil => rfl
  | cons s a ih => cases s <;> exact ih _

theorem echoes_event (e : Ev) : echoes true (stepsOf e) = true := by cases e <;> rfl

theorem steps_append (a b : List Ev) : steps (a ++ b) = steps a ++ steps b := List.flatMap_append

theorem echoes_events (es : List Ev) : echoes true (steps es) = true := by
  induction es with
  | nil => rfl
  | cons e es ih =>
    show echoes true (stepsOf e ++ steps es) = true
    rw [echoes_append, echoes_event, ih]

/-- C140 as one would wish it: whenever the user presses CTRL+C, the shell has a terminal that shows what is typed. -/
def C140_wish : Prop := ∀ (C : Ctx) (cmd : Cmd) (w : World) (es : List Ev) (k : Nat),
  (main C cmd w).2.log = w.log ++ es → interrupted es k = true

/-- C140, in general: the terminal is left without an echo exactly by a CTRL+C while the password is asked for. -/
theorem C140_when (es : List Ev) (k : Nat) :
    interrupted es k = false ↔ ∃ a b, es = a ++ .password :: b ∧ (k = (steps a).length + 1 ∨ k = (steps a).length + 2) := by
  unfold interrupted
  induction es generalizing k with
  | nil => simp [steps, echoes]
  | cons e es ih =>
    have hs : steps (e :: es) = stepsOf e ++ steps es := rfl
    by_cases hk : (stepsOf e).length ≤ k
    · rw [hs, List.take_append, List.take_of_length_le hk, echoes_append, echoes_event, ih]
      constructor
      · rintro ⟨a, b, rfl, h⟩
        refine ⟨e :: a, b, rfl, ?_⟩
        show k = (stepsOf e ++ steps a).length + 1 ∨ k = (stepsOf e ++ steps a).length + 2
        rw [List.length_append]
        omega
      · rintro ⟨a, b, h1, h2⟩
        cases a with
        | nil =>
          obtain ⟨rfl, rfl⟩ := List.cons.inj h1
          simp [stepsOf] at hk
          simp [steps] at h2
          omega
        | cons x a =>
          obtain ⟨rfl, rfl⟩ := List.cons.inj h1
          refine ⟨a, b, rfl, ?_⟩
          have : steps (e :: a) = stepsOf e ++ steps a := rfl
          rw [this, List.length_append] at h2
          omega
    · push Not at hk
      rw [hs, List.take_append_of_le_length hk.le]
      constructor
      · intro h
        refine ⟨[], es, ?_⟩
        cases e with
        | password =>
          refine ⟨rfl, ?_⟩
          simp [stepsOf] at hk
          obtain rfl | rfl | rfl : k = 0 ∨ k = 1 ∨ k = 2 := by omega
          · cases h
          · exact .inl rfl
          · exact .inr rfl
        | out t => simp [stepsOf] at hk; subst hk; cases h
        | table a b => simp [stepsOf] at hk; subst hk; cases h
        | scan => simp [stepsOf] at hk; subst hk; cases h
        | disk d => simp [stepsOf] at hk
        | request u t => simp [stepsOf] at hk
        | stage n => simp [stepsOf] at hk
      · rintro ⟨a, b, h1, h2⟩
        cases a with
        | nil =>
          obtain ⟨rfl, rfl⟩ := List.cons.inj h1
          rcases h2 with rfl | rfl <;> rfl
        | cons x a =>
          obtain ⟨rfl, rfl⟩ := List.cons.inj h1
          have : steps (e :: a) = stepsOf e ++ steps a := rfl
          rw [this, List.length_append] at h2
          omega

/-- C140: a command that comes to its end, whatever that is, leaves the terminal as it was. -/
theorem C140_end_partial (es : List Ev) (k : Nat) (hk : (steps es).length ≤ k) : interrupted es k = true := by
  unfold interrupted
  rw [List.take_of_length_le hk]
  exact echoes_events es

/-- The password is not asked for on the way. -/
def Unasked (w w' : World) : Prop := ∃ es, w'.log = w.log ++ es ∧ Ev.password ∉ es

theorem unasked_chain : Chain Unasked :=
  ⟨fun w => ⟨[], by simp, by simp⟩, fun a b c ⟨e1, h1, h2⟩ ⟨e2, h3, h4⟩ =>
    ⟨e1 ++ e2, by rw [h3, h1, List.append_assoc], fun h => (List.mem_append.1 h).elim h2 h4⟩⟩

theorem unasked_of {α : Type} {m : Prog α} (h : ∀ cwd, Rel (Foot cwd (fun _ => True) (fun e => e ≠ .password)) m) : Rel Unasked m := by
  intro w
  obtain ⟨-, -, es, h1, h2⟩ := h _ w rfl
  exact ⟨es, h1, fun he => h2 _ he rfl⟩

theorem unasked_emit {e : Ev} (h : e ≠ .password) : Rel Unasked (emit e) := fun w => ⟨[e], rfl, by simpa using Ne.symm h⟩

theorem unasked_read {α : Type} {f : Config → Prog α} (h : ∀ c, Rel Unasked (f c)) : Rel Unasked (Conf.read >>= f) := by
  intro w
  rw [bind_run, read_run]
  cases Conf.getConfig w.conf with
  | panic => exact unasked_chain.refl w
  | fatal => exact unasked_chain.refl w
  | ret c => exact h c w

theorem unasked_facadeCheck (C : Ctx) (force : Bool) : Rel Unasked (facadeCheck C.sys C.ext C.dir force) := by
  refine unasked_read fun c => rel_checkForUpdate C.sys unasked_chain _ _ _ _ _ ?_ ?_ ?_
  · exact unasked_of (fun cwd => foot_fetchInfo _ _ _ _ _ (by simp))
  · exact unasked_of (fun cwd => foot_checkTimestamp _ _ _ _ _ (fun _ _ _ => trivial) trivial)
  · exact unasked_of (fun cwd => foot_shouldCheck _ _ _ _ _ _ _)

theorem unasked_cliCheck (C : Ctx) : Rel Unasked (checkForUpdate C) := by
  unfold checkForUpdate
  refine unasked_read fun c => ?_
  show Rel _ (if c.notify then _ else _)
  split
  · refine Rel.bind unasked_chain (unasked_facadeCheck C false) (fun r => ?_)
    cases r with
    | error e => exact Rel.pure unasked_chain _
    | ok i => exact unasked_emit (by simp)
  · exact Rel.pure unasked_chain _

theorem unasked_install (S : Sys) (X : Ext) (t : Int) (cb : Nat → Ev) (hcb : ∀ n, cb n ≠ .password) (info : UpdateInfo) :
    Rel Unasked (install S X t cb info) := by
  have hR := unasked_chain
  have he : ∀ n, Rel Unasked (emit (cb n)) := fun n => unasked_emit (hcb n)
  have hrm : Rel Unasked (Os.removeAll S cacheDir) := unasked_of (fun cwd => foot_removeAll _ _ _ S _ (fun _ _ => trivial))
  have hmk : Rel Unasked (Os.mkdirAll S cacheDir) := unasked_of (fun cwd => foot_mkdirAll _ _ _ S _ (fun _ _ _ => trivial))
  have hcw : ∀ p d c, Rel Unasked (andThen (Os.create S p) fun f => Os.write S f d c) := fun p d c =>
    unasked_of (fun cwd => foot_createWrite _ _ _ S p d c trivial)
  have hread : ∀ p, Rel Unasked (Os.readFile S p) := fun p => unasked_of (fun cwd => foot_readFile _ _ _ S p)
  have hdl : ∀ dst url, Rel Unasked (downloadFile S dst url t) := fun dst url =>
    rel_downloadFile hR S dst url t (unasked_of (fun cwd => foot_httpGet _ _ _ S url t (by simp))) (hcw dst)
  unfold install
  refine Rel.bind hR (he 1) (fun _ => Rel.andThen hR hrm (fun _ => Rel.andThen hR hmk (fun _ => Rel.bind hR (he 2) (fun _ =>
    Rel.andThen hR (hdl _ _) (fun _ => Rel.bind hR (he 3) (fun _ => Rel.andThen hR (hdl _ _) (fun _ => Rel.bind hR (he 4) (fun _ =>
    Rel.andThen hR (rel_extract hR S X _ _ (hread _) (fun n => hcw _)) (fun _ => Rel.bind hR (he 5) (fun _ =>
    Rel.andThen hR (rel_validate hR S X _ _ hread) (fun _ => Rel.bind hR (he 6) (fun _ =>
    Rel.andThen hR ?_ (fun _ => Rel.bind hR (he 7) (fun _ => hrm))))))))))))))
  unfold replaceBinary
  cases S.exe with
  | none => exact Rel.pure hR _
  | some dst => exact unasked_of (fun cwd => foot_rename _ _ _ S _ dst trivial trivial)

theorem unasked_update (C : Ctx) : Rel Unasked (update C) := by
  have hR := unasked_chain
  have hout : ∀ b, Rel Unasked (emit (.out b)) := fun b => unasked_emit (by simp)
  have hstop : Rel Unasked (do println b!"Aborting update..."; Prog.exit : Prog Unit) := Rel.bind hR (hout _) (fun _ => Rel.lift hR _)
  have hup : ∀ cb, (∀ n, cb n ≠ .password) → Rel Unasked (facadeUpdate C.sys C.ext cb) := by
    intro cb hcb
    refine unasked_read fun c => ?_
    unfold Upd.update
    refine Rel.andThen hR (unasked_of (fun cwd => foot_fetchInfo _ _ _ _ _ (by simp))) (fun i => ?_)
    cases i with
    | none => exact Rel.pure hR _
    | some i =>
      show Rel _ (if _ then _ else _)
      split
      · exact unasked_install _ _ _ cb hcb i
      · exact Rel.pure hR _
  unfold update
  refine Rel.bind hR (hout _) (fun _ => Rel.bind hR (unasked_facadeCheck C true) (fun r => ?_))
  cases r with
  | error e => exact rel_die hR e hout
  | ok info =>
    refine Rel.bind hR (hout _) (fun _ => Rel.bind hR (hout _) (fun _ => Rel.bind hR ?_ (fun v => ?_)))
    · exact fun w => ⟨[.scan], rfl, by simp⟩
    · cases LogicVal.fromName C.env.text v with
      | error e => exact hstop
      | ok p =>
        show Rel _ (if _ then _ else _)
        split
        · exact hstop
        · refine Rel.bind hR (hout _) (fun _ => Rel.bind hR (hup _ (by simp)) (fun r => ?_))
          cases r with
          | error e => exact rel_die hR e hout
          | ok _ => exact hout _

theorem unasked_configure (C : Ctx) : Rel Unasked (configure C) :=
  rel_configure unasked_chain C (unasked_cliCheck C) (fun b => unasked_emit (by simp)) (fun w => ⟨[.scan], rfl, by simp⟩)
    (fun c => unasked_of (fun cwd => foot_save _ _ _ _ _ _ _ (fun _ _ => trivial) trivial))

/-- C140: commands other than list, overview and details may be interrupted at any time. -/
theorem C140_others_partial (C : Ctx) (cmd : Cmd) (hcmd : ∀ flag, ¬ ItemCmd cmd flag) (w : World) :
    ∃ es, (main C cmd w).2.log = w.log ++ es ∧ ∀ k, interrupted es k = true := by
  have hR := unasked_chain
  have hout : ∀ b, Rel Unasked (emit (.out b)) := fun b => unasked_emit (by simp)
  have hload : Rel Unasked (Conf.boot C.sys C.ext C.dir) := by
    unfold Conf.boot
    exact Rel.bind hR (unasked_of (fun cwd => foot_load _ _ _ _ _ _)) (fun m => unasked_of (fun cwd => foot_fresh _ _ _ _))
  have key : Rel Unasked (main C cmd) := by
    refine Rel.bind hR hload (fun _ => ?_)
    cases cmd with
    | gui v =>
      show Rel Unasked (firstRun C)
      unfold firstRun
      refine rel_get (fun v => ?_)
      show Rel Unasked (if _ then _ else _)
      split
      · exact Rel.pure hR _
      · exact Rel.bind hR (hout _) (fun _ => Rel.bind hR (hout _) (fun _ => Rel.bind hR (unasked_configure C) (fun _ => hout _)))
    | update => exact unasked_update C
    | configure => exact unasked_configure C
    | categories =>
      refine Rel.bind hR (unasked_cliCheck C) (fun _ => rel_get (fun w' => Rel.bind hR ?_ (fun _ => ?_)))
      · intro v; exact ⟨[], by simp [setSess], by simp⟩
      · exact unasked_emit (by simp)
    | list v c n t => exact absurd (.list v c n t) (hcmd v)
    | overview v u t => exact absurd (.overview v u t) (hcmd v)
    | details v u t => exact absurd (.details v u t) (hcmd v)
    | version => exact hout _
  obtain ⟨es, h1, h2⟩ := key w
  refine ⟨es, h1, fun k => ?_⟩
  cases hi : interrupted es k with
  | true => rfl
  | false =>
    obtain ⟨a, b, rfl, -⟩ := (C140_when es k).1 hi
    simp at h2

theorem grow_start (C : Ctx) : Rel Grow (firstRun C) := by
  have hout : ∀ b, Rel Grow (emit (.out b)) := fun b w => ⟨[_], rfl⟩
  unfold firstRun
  refine rel_get (fun v => ?_)
  show Rel Grow (if _ then _ else _)
  split
  · exact Rel.pure grow_chain _
  · exact Rel.bind grow_chain (hout _) (fun _ => Rel.bind grow_chain (hout _) (fun _ =>
      Rel.bind grow_chain (grow_firstRun C) (fun _ => hout _)))

/-- C140, what happens: with any valid vault, list, overview and details have a moment in which CTRL+C leaves the terminal without
an echo: it is right after the prompt. -/
theorem C140_asked (C : Ctx) (cmd : Cmd) (flag vault : Bytes) (hi : ItemCmd cmd flag) (w w1 : World)
    (hb : Begun C w w1) (hv : Meaning w1.conf flag vault) (s : Session) (h : w1.sess.validate w1.disk vault = .ret (.ok (), s)) :
    ∃ before after : List Ev, (command C cmd w).2.log = w.log ++ (before ++ .out b!"Password:\n" :: .password :: after) ∧
      interrupted (before ++ .out b!"Password:\n" :: .password :: after) ((steps before).length + 2) = false := by
  obtain ⟨pre, hpre⟩ : Grow w w1 := by
    obtain ⟨w0, h0, h1⟩ := hb
    have g0 := grow_start C w
    have g1 := grow_cliCheck C w0
    rw [h0] at g0
    rw [h1] at g1
    exact grow_chain.trans _ _ _ g0 g1
  have hopen : ∃ es, (openVault C flag w).2.log = w.log ++ (pre ++ [.out b!"Password:\n", .password]) ++ es := by
    rw [C64_vault C flag vault w w1 hb hv]
    unfold opening
    simp only [bind_run, onSession, h, println, emit, Os.readPassword_run]
    cases s.unlock C.env C.order w1.disk vault (C.sys.password w1.tick) with
    | panic => exact ⟨[], by simp [hpre]⟩
    | fatal => exact ⟨[], by simp [hpre]⟩
    | ret q =>
      obtain ⟨r, s'⟩ := q
      cases r with
      | error e => exact ⟨_, by simp [hpre, die, bind_run, println, emit, Prog.exit]; rfl⟩
      | ok u => exact ⟨[], by simp [hpre, Prog.pure]⟩
  have hout : ∀ b, Rel Grow (emit (.out b)) := fun b w => ⟨[_], rfl⟩
  have hcmd : ∃ es, (command C cmd w).2.log = w.log ++ (pre ++ [.out b!"Password:\n", .password]) ++ es := by
    cases hi with
    | list v c n t =>
      refine prefix_bind hopen (fun _ => rel_get (fun w => ?_))
      cases categoryFilter C w.sess.reg c with
      | error e => exact rel_die grow_chain e hout
      | ok cat =>
        show Rel Grow (if _ then _ else _)
        split
        · exact fun w => ⟨[_], rfl⟩
        · exact hout _
    | overview v u t => exact prefix_bind hopen (fun _ => rel_printItem grow_chain C true u t hout)
    | details v u t => exact prefix_bind hopen (fun _ => rel_printItem grow_chain C false u t hout)
  obtain ⟨es, hes⟩ := hcmd
  refine ⟨pre, es, by rw [hes]; simp, (C140_when _ _).2 ⟨pre ++ [.out b!"Password:\n"], es, by simp, .inl ?_⟩⟩
  rw [steps_append, List.length_append]
  rfl

set_option maxRecDepth 20000 in
/-- C140. The wish fails for `1pass list`, interrupted at the prompt. -/
theorem C140_refuted : ¬ C140_wish := by
  intro h
  have h1 : (main (Demo.ctx OnePass.Demo.pa) (.list [] [] [] false) (Toy.world (Demo.disk b!"1" []) [])).2.log =
      (Toy.world (Demo.disk b!"1" []) []).log ++ [.out b!"Password:\n", .password,
      .table [b!"lp.", b!"uid", b!"category", b!"title"]
        [[b!"1", b!"M", b!"Login", b!"Mail"], [b!"2", b!"N", b!"Credit Card", b!"Card"]]] := by decide +kernel
  have h2 := h (Demo.ctx OnePass.Demo.pa) (.list [] [] [] false) (Toy.world (Demo.disk b!"1" []) []) _ 2 h1
  exact absurd h2 (by decide)

/-- The steps of that run, and when CTRL+C does harm. -/
example : steps [.out b!"Password:\n", .password, .table [] []] = [.shows, .echo false, .waits, .echo true, .shows] ∧
    ([0, 1, 2, 3, 4, 5].map (interrupted [.out b!"Password:\n", .password, .table [] []])) = [true, true, false, false, true, true] := by
  decide +kernel

end Cli
end OnePass
