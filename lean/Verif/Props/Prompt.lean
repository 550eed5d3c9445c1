/-
C149: the password is asked for once, by commands that open a vault, when there is a vault.
-/
import Verif.Props.Interrupt
import Verif.Props.GuiFoot

namespace OnePass
namespace Cli
open Prog Fmt Spec Session

/-- There is a vault at this path: a directory with a file default/profile.js. -/
def Found (d : Disk) (vault : Bytes) : Prop :=
  d.at? (Path.resolve d.cwd vault) = some .dir ∧
    ∃ data x, d.at? (Path.resolve d.cwd vault ++ [b!"default", b!"profile.js"]) = some (.file data x)

theorem found_of {d : Disk} {v : Bytes} {s t : Session} (h : validate d v s = .ret (.ok (), t)) : Found d v := by
  obtain ⟨h1, h2, h3, h4, -⟩ := C17_validate d v s
  have hv : v ≠ [] := fun hv => by rw [h1 (.inl hv)] at h; cases h
  cases hd : d.at? (Path.resolve d.cwd v) with
  | none => rw [h1 (.inr hd)] at h; cases h
  | some n =>
    cases n with
    | file data x => rw [h2 hv ⟨data, x, hd⟩] at h; cases h
    | dir =>
      refine ⟨hd, ?_⟩
      cases hp : d.at? (Path.resolve d.cwd v ++ [b!"default", b!"profile.js"]) with
      | none => rw [h3 hv hd hp] at h; cases h
      | some n =>
        cases n with
        | file data x => exact ⟨data, x, rfl⟩
        | dir => rw [h4 hv hd hp] at h; cases h

/-- Nothing asked, nothing written. -/
def Tail (u v : World) : Prop := v.disk = u.disk ∧ Unasked u v

theorem tail_chain : Chain Tail :=
  ⟨fun w => ⟨rfl, unasked_chain.refl w⟩, fun a b c h1 h2 => ⟨h2.1.trans h1.1, unasked_chain.trans a b c h1.2 h2.2⟩⟩

theorem tail_out (b : Bytes) : Rel Tail (emit (.out b)) := fun w => ⟨rfl, unasked_emit (by simp) w⟩

/-- What is printed and read after the start `w`: no password, or one, right after the prompt, when there is a vault. -/
def Asks (flag : Bytes) (w r : World) : Prop :=
  Unasked w r ∨ ∃ before after vault, r.log = w.log ++ (before ++ .out b!"Password:\n" :: .password :: after) ∧
    Ev.password ∉ before ∧ Ev.password ∉ after ∧ (flag ≠ [] → vault = flag) ∧ Found r.disk vault

theorem once_after {α β : Type} {flag : Bytes} {m : Prog α} {f : α → Prog β} (hm : Rel Unasked m) {w : World}
    (hf : ∀ a u, m w = (.ret a, u) → Asks flag u (f a u).2) : Asks flag w ((m >>= f) w).2 := by
  rw [bind_run]
  have h := hm w
  rcases hr : m w with ⟨o, u⟩
  rw [hr] at h
  cases o with
  | ret a =>
    rcases hf a u hr with h' | ⟨x, y, v, h1, h2, h3, h4⟩
    · exact .inl (unasked_chain.trans _ _ _ h h')
    · obtain ⟨es, e1, e2⟩ := h
      refine .inr ⟨es ++ x, y, v, ?_, ?_, h3, h4⟩
      · rw [h1, e1]; simp
      · exact fun h => (List.mem_append.1 h).elim e2 h2
  | panic => exact .inl h
  | fatal => exact .inl h

theorem once_before {α β : Type} {flag : Bytes} {m : Prog α} {f : α → Prog β} {w : World} (hm : Asks flag w (m w).2)
    (hf : ∀ a, Rel Tail (f a)) : Asks flag w ((m >>= f) w).2 := by
  rw [bind_run]
  rcases hr : m w with ⟨o, u⟩
  rw [hr] at hm
  cases o with
  | ret a =>
    obtain ⟨hd, es, e1, e2⟩ := hf a u
    rcases hm with ⟨es', h1, h2⟩ | ⟨x, y, v, h1, h2, h3, h4, h5⟩
    · exact .inl ⟨es' ++ es, by rw [e1, h1, List.append_assoc], fun h => (List.mem_append.1 h).elim h2 e2⟩
    · refine .inr ⟨x, y ++ es, v, ?_, h2, fun h => (List.mem_append.1 h).elim h3 e2, h4, by rw [hd]; exact h5⟩
      rw [e1, h1]; simp
  | panic => exact hm
  | fatal => exact hm

theorem unasked_firstRun (C : Ctx) : Rel Unasked (firstRun C) :=
  rel_firstRun unasked_chain C (fun _ => unasked_emit (by simp)) (unasked_configure C)

theorem once_open (C : Ctx) (flag : Bytes) (w : World) : Asks flag w (openVault C flag w).2 := by
  refine once_after (unasked_firstRun C) fun _ u1 _ => once_after (unasked_cliCheck C) fun _ u2 _ =>
    once_after (rel_chooseVault unasked_chain flag) fun vault u3 h3 => ?_
  have hv : flag ≠ [] → vault = flag := fun hf => by
    unfold chooseVault at h3
    rw [if_pos hf] at h3
    cases h3; rfl
  rw [bind_run]
  cases hc : validate u3.disk vault u3.sess with
  | panic => rw [show onSession (fun d s => validate d vault s) u3 = (.panic, u3) by simp only [onSession, hc]]; exact .inl (unasked_chain.refl _)
  | fatal => rw [show onSession (fun d s => validate d vault s) u3 = (.fatal, u3) by simp only [onSession, hc]]; exact .inl (unasked_chain.refl _)
  | ret x =>
    obtain ⟨r, t⟩ := x
    rw [show onSession (fun d s => validate d vault s) u3 = (.ret r, { u3 with sess := t }) by simp only [onSession, hc]]
    cases r with
    | error e => exact .inl ⟨[.out (e.text ++ [10])], rfl, by simp⟩
    | ok _ =>
      have hf := found_of hc
      simp only [bind_run, println, emit, Os.readPassword_run, onSession]
      cases hu : unlock C.env C.order u3.disk vault (C.sys.password u3.tick) t with
      | panic => exact .inr ⟨[], [], vault, by simp, by simp, by simp, hv, hf⟩
      | fatal => exact .inr ⟨[], [], vault, by simp, by simp, by simp, hv, hf⟩
      | ret x =>
        obtain ⟨r, t'⟩ := x
        cases r with
        | error e =>
          exact .inr ⟨[], [.out (e.text ++ [10])], vault, by simp [die, bind_run, println, emit, Prog.exit]; rfl, by simp, by simp, hv, hf⟩
        | ok _ => exact .inr ⟨[], [], vault, by simp [Prog.pure], by simp, by simp, hv, hf⟩

theorem once_item (C : Ctx) {cmd : Cmd} {flag : Bytes} (hi : ItemCmd cmd flag) (w : World) : Asks flag w (command C cmd w).2 := by
  cases hi with
  | list v c n t =>
    refine once_before (once_open C flag w) fun _ => rel_get fun u => ?_
    cases categoryFilter C u.sess.reg c with
    | error e => exact rel_die tail_chain e tail_out
    | ok cat =>
      show Rel Tail (if _ then _ else _)
      split
      · exact fun w => ⟨rfl, unasked_emit (by simp) w⟩
      · exact tail_out _
  | overview v u t => exact once_before (once_open C flag w) fun _ => rel_printItem tail_chain C true u t tail_out
  | details v u t => exact once_before (once_open C flag w) fun _ => rel_printItem tail_chain C false u t tail_out

theorem unasked_boot (C : Ctx) : Rel Unasked (Conf.boot C.sys C.ext C.dir) := by
  unfold Conf.boot
  exact Rel.bind unasked_chain (unasked_of (fun cwd => foot_load _ _ _ _ _ _)) (fun m => unasked_of (fun cwd => foot_fresh _ _ _ _))

/-- C149. Whatever the command, the password is asked for once at most; only list, overview and details ask for it, right after the
prompt, and only if the path named on the command line (if there is one) leads to a vault. -/
theorem C149_once (C : Ctx) (cmd : Cmd) (w : World) :
    (∃ es, (main C cmd w).2.log = w.log ++ es ∧ Ev.password ∉ es) ∨
    ∃ flag before after vault, ItemCmd cmd flag ∧
      (main C cmd w).2.log = w.log ++ (before ++ .out b!"Password:\n" :: .password :: after) ∧
      Ev.password ∉ before ∧ Ev.password ∉ after ∧ (flag ≠ [] → vault = flag) ∧
      (main C cmd w).2.disk.at? (Path.resolve (main C cmd w).2.disk.cwd vault) = some .dir ∧
      ∃ data x, (main C cmd w).2.disk.at? (Path.resolve (main C cmd w).2.disk.cwd vault ++ [b!"default", b!"profile.js"]) =
        some (.file data x) := by
  by_cases hi : ∃ flag, ItemCmd cmd flag
  · obtain ⟨flag, hi⟩ := hi
    rcases (once_after (unasked_boot C) fun _ u _ => once_item C hi u : Asks flag w (main C cmd w).2) with h | ⟨x, y, v, h⟩
    · exact .inl h
    · exact .inr ⟨flag, x, y, v, hi, h⟩
  · obtain ⟨es, h1, h2⟩ := C140_others_partial C cmd (fun flag h => hi ⟨flag, h⟩) w
    refine .inl ⟨es, h1, fun h => ?_⟩
    obtain ⟨a, b, hab⟩ := List.append_of_mem h
    have h3 := (C140_when es ((steps a).length + 1)).2 ⟨a, b, hab, .inl rfl⟩
    rw [h2] at h3
    cases h3

set_option maxRecDepth 20000 in
/-- A run that asks, after the right password and after a wrong one; a path without a vault, and a command without one: none asks. -/
example :
    (main (Demo.ctx OnePass.Demo.pa) (.list [] [] [] false) (Toy.world (Demo.disk b!"1" []) [])).2.log.count .password = 1 ∧
    (main (Demo.ctx b!"wrong") (.list [] [] [] false) (Toy.world (Demo.disk b!"1" []) [])).2.log.count .password = 1 ∧
    (main (Demo.ctx OnePass.Demo.pa) (.list b!"/nowhere" [] [] false) (Toy.world (Demo.disk b!"1" []) [])).2.log.count .password = 0 ∧
    (main (Demo.ctx OnePass.Demo.pa) .categories (Toy.world (Demo.disk b!"1" []) [])).2.log.count .password = 0 := by
  decide +kernel

end Cli

namespace Gui
open Cli Act
variable (C : Ctx) (K : Kit)

theorem unasked_inner {s t : St} (h : Inner s t) : Unasked s.world t.world := by
  rw [h]
  exact ⟨[], by simp, by simp⟩

theorem unasked_verUpdate (s : St) : Unasked s.world (verUpdate C s).2.world := by
  have hf : Unasked s.world (Upd.facadeCheck C.sys C.ext C.dir true s.world).2 := unasked_facadeCheck C true s.world
  unfold verUpdate
  rw [bind_run]
  simp only [onWorld]
  rcases hr : Upd.facadeCheck C.sys C.ext C.dir true s.world with ⟨o, w⟩
  rw [hr] at hf
  cases o with
  | ret r =>
    simp only [get_bind]
    cases s.views .ver <;> exact hf
  | panic => exact hf
  | fatal => exact hf

theorem unasked_step (e : Event) (s : St) : Unasked s.world (step C K e s).2.world := by
  cases e with
  | key k => exact unasked_inner (inner_press C K k s)
  | flush x y => exact unasked_inner (inner_flush C K x y s)
  | disk d => exact unasked_chain.trans _ _ _ (unasked_chain.refl _) ⟨[], (List.append_nil _).symm, by simp⟩
  | checked =>
    rw [step, get_bind]
    cases hp : s.pending with
    | false => exact unasked_chain.refl _
    | true => exact unasked_verUpdate C { s with pending := false }

theorem unasked_run (es : List Event) (s : St) : Unasked s.world (run C K es s).2.world := by
  induction es generalizing s with
  | nil => exact unasked_chain.refl _
  | cons e es ih =>
    have h1 := unasked_step C K e s
    simp only [run]
    rw [bind_run]
    rcases hr : step C K e s with ⟨r, t⟩
    rw [hr] at h1
    cases r with
    | ok a => exact unasked_chain.trans _ _ _ h1 (ih t)
    | err e => exact h1
    | panic => exact h1
    | fatal => exact h1

/-- C149 for the GUI. From the start of the program on, whatever keys are pressed and whatever is done to the disk meanwhile, no
password is read at the terminal: the screen has a field of its own. -/
theorem C149_gui (path : Bytes) (x y : Nat) (es : List Event) (w : World) :
    ∃ l, (Gui.main C K path x y es w).2.log = w.log ++ l ∧ Ev.password ∉ l := by
  have hR := unasked_chain
  show Unasked w (Gui.main C K path x y es w).2
  refine Prog.Rel.bind hR ?_ (fun _ => ?_) w
  · intro w
    rcases C149_once C (.gui path) w with h | ⟨flag, _, _, _, hi, _⟩
    · exact h
    · cases hi
  · refine Prog.Rel.bind hR (rel_chooseVault hR path) fun vault => Prog.Rel.bind hR ?_ fun r => ?_
    · exact unasked_of (fun cwd => foot_onSession _ _ _ _)
    · cases r with
      | error e => exact rel_die hR e fun b => unasked_emit (by simp)
      | ok _ => exact fun w2 => unasked_run C K (.flush x y :: es) (start vault w2)

/-- A run that opens the vault: there is a log, and the vault is unlocked by the end, but nothing was read at the terminal. -/
example : (Gui.main Demo.newer Demo.kit [] 80 24 (.checked :: Demo.opening) (Toy.world Demo.home [])).2.log ≠ [] ∧
    (Gui.main Demo.newer Demo.kit [] 80 24 (.checked :: Demo.opening) (Toy.world Demo.home [])).2.sess.isUnlocked = true ∧
    (Gui.main Demo.newer Demo.kit [] 80 24 (.checked :: Demo.opening) (Toy.world Demo.home [])).2.log.count .password = 0 := by
  decide +kernel

end Gui
end OnePass
