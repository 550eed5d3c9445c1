/-
A password that cannot be read, C116.
-/
import Verif.Props.Commands

namespace OnePass
namespace Cli
open Prog Fmt

/-- The same outside, only that an empty line is typed where the password cannot be read. -/
def blank (C : Ctx) : Ctx := { C with sys := { C.sys with typed := fun n => some ((C.sys.typed n).getD []) } }

theorem blank_extractEntries (C : Ctx) : Upd.extractEntries (blank C).sys = Upd.extractEntries C.sys := by
  funext b c es
  induction es with
  | nil => rfl
  | cons e es ih => unfold Upd.extractEntries; rw [ih]; rfl

theorem blank_install (C : Ctx) : Upd.install (blank C).sys = Upd.install C.sys := by
  have h : Upd.extractArchive (blank C).sys = Upd.extractArchive C.sys := by
    funext X a b
    unfold Upd.extractArchive
    rw [blank_extractEntries]
    rfl
  funext X t cb
  unfold Upd.install
  rw [h]
  rfl

theorem blank_update (C : Ctx) : update (blank C) = update C := by
  have h : ∀ X cb, Upd.facadeUpdate (blank C).sys X cb = Upd.facadeUpdate C.sys X cb := by
    intro X cb
    unfold Upd.facadeUpdate Upd.update
    rw [blank_install]
    rfl
  unfold update
  simp only [h]
  rfl

/-- C116, what happens. A password that cannot be read is the empty password, in every command. -/
theorem C116_as_empty (C : Ctx) (cmd : Cmd) (w : World) : command (blank C) cmd w = command C cmd w := by
  have h : ∀ p, openVault (blank C) p = openVault C p := fun _ => rfl
  cases cmd with
  | gui v => rfl
  | categories => rfl
  | configure => rfl
  | update => exact congrFun (blank_update C) w
  | version => rfl
  | list v c t tr => show getItems (blank C) v c t tr w = getItems C v c t tr w; unfold getItems; rw [h]; rfl
  | overview v u tr => show getItemOverview (blank C) v u tr w = getItemOverview C v u tr w; unfold getItemOverview; rw [h]; rfl
  | details v u tr => show getItemDetails (blank C) v u tr w = getItemDetails C v u tr w; unfold getItemDetails; rw [h]; rfl

/-- C116, what does hold. If the password cannot be read, no item is shown and the status is 1, unless the vault opens with
the empty password. Missing: a vault that does (`C116_refuted`), and a message that says what went wrong. -/
theorem C116_unread_partial (C : Ctx) (cmd : Cmd) (flag vault : Bytes) (hi : ItemCmd cmd flag) (w w1 : World)
    (hb : Begun C w w1) (hv : Meaning w1.conf flag vault) (s : Session)
    (h : w1.sess.validate w1.disk vault = .ret (.ok (), s)) (ht : C.sys.typed w1.tick = none)
    (hu : ∀ s', s.unlock C.env C.order w1.disk vault [] ≠ .ret (.ok (), s')) :
    (command C cmd w).1 ≠ .ret () ∧ ((command C cmd w).2.log = w1.log ++ [.out b!"Password:\n", .password] ∨
      (command C cmd w).2.log = w1.log ++ [.out b!"Password:\n", .password, .out b!"invalid password\n"]) := by
  have hp : C.sys.password w1.tick = [] := by unfold Sys.password; rw [ht]; rfl
  have stop : ∀ o : Out Unit, (∀ a, o ≠ .ret a) → openVault C flag w = (o, after w1 s []) →
      (command C cmd w).1 ≠ .ret () ∧ (command C cmd w).2.log = w1.log ++ [.out b!"Password:\n", .password] := by
    intro o ho hopen
    cases o with
    | ret a => exact absurd rfl (ho a)
    | fatal => rw [itemCmd_ends hi hopen]; exact ⟨nofun, rfl⟩
    | panic =>
      have : command C cmd w = (.panic, after w1 s []) := by
        cases hi with
        | list v c n t => show getItems C flag c n t w = _; unfold getItems; rw [bind_run, hopen]
        | overview v u t => show getItemOverview C flag u t w = _; unfold getItemOverview; rw [bind_run, hopen]
        | details v u t => show getItemDetails C flag u t w = _; unfold getItemDetails; rw [bind_run, hopen]
      rw [this]
      exact ⟨nofun, rfl⟩
  cases hun : s.unlock C.env C.order w1.disk vault [] with
  | ret r =>
    obtain ⟨r, s'⟩ := r
    cases r with
    | ok u => exact absurd hun (hu s')
    | error e =>
      rw [C63_wrong_password C cmd flag vault hi w w1 hb hv s s' e h (by rw [hp]; exact hun)]
      exact ⟨nofun, .inr rfl⟩
  | panic =>
    have := stop .panic nofun (by
      rw [C64_vault C flag vault w w1 hb hv]
      unfold opening
      simp only [bind_run, onSession, h, println, emit, Os.readPassword_run, hp, hun, List.append_assoc]
      rfl)
    exact ⟨this.1, .inl this.2⟩
  | fatal =>
    have := stop .fatal nofun (by
      rw [C64_vault C flag vault w w1 hb hv]
      unfold opening
      simp only [bind_run, onSession, h, println, emit, Os.readPassword_run, hp, hun, List.append_assoc]
      rfl)
    exact ⟨this.1, .inl this.2⟩

/-! ### Examples and refutation -/

namespace Demo

/-- The vault of the other examples, with an empty password. -/
def openDisk : Disk :=
  { disk b!"1234" b!"memo" with
    fs := (disk b!"1234" b!"memo").fs.map (fun f => if f.1.getLast? = some b!"profile.js" then
      (f.1, .file (OnePass.Demo.profileText []) false) else f) }

/-- Standard input is not a terminal. -/
def noTerminal : Ctx := { demo [] 0 with sys := { Toy.sys [] 0 with typed := fun _ => none } }

end Demo

set_option maxRecDepth 10000

/-- C116: the vault does not open without a password; nothing is shown, the message is misleading. -/
example : (main Demo.noTerminal (.details [] b!"M" false) (Toy.world (Demo.disk b!"1234" b!"memo") [])).2.log =
    [.out b!"Password:\n", .password, .out b!"invalid password\n"] := by decide +kernel

/-- C116 is refuted: the password cannot be read, and the secrets are shown. -/
theorem C116_refuted : ∃ (C : Ctx) (cmd : Cmd) (w : World), (∀ n, C.sys.typed n = none) ∧ (main C cmd w).1 = .ret () ∧
    .out b!"Pin: 1234\n" ∈ (main C cmd w).2.log :=
  ⟨Demo.noTerminal, .details [] b!"M" false, Toy.world Demo.openDisk [], fun _ => rfl, by decide +kernel, by decide +kernel⟩

end Cli
end OnePass
