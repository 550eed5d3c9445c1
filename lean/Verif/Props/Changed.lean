/-
The master password is changed while the GUI runs: C135.
-/
import Verif.Props.Stray
import Verif.Props.Password

namespace OnePass
open Spec

namespace Gui
open Act Str
variable (C : Ctx) (K : Kit)

theorem pair_fst {α β : Type} {p : α × β} {a : α} (h : p.1 = a) : p = (a, p.2) := by rw [← h]

/-- Somebody else changes the disk. -/
theorem Live.disk {vault : Bytes} {w : World} {x y : Nat} {es : List Event} {s : St} (h : Live C K vault w x y es s) (d : Disk) :
    Live C K vault w x y (es ++ [.disk d]) { s with world := { s.world with disk := d } } :=
  ⟨h.locked, h.reach, by
    rw [← List.cons_append, run_append C K _ _ _ h.goes]
    exact run_one C K rfl⟩

/-- C135, what the code does instead: a vault is opened in the GUI with the password that was the right one when the GUI was
started. If another profile – with another password – takes the place of the first, the old password goes on opening the vault,
and the new one is refused. -/
theorem C135_old_password (vault : Bytes) (w : World) (x y : Nat) (es : List Event) (s : St) (h : Live C K vault w x y es s)
    (hc : s.cur = some (.live .prompt)) (v : View) (hv : s.views .prompt = some v) (p : Bytes) (hs : v.shown = [p])
    (hp : Bare p) (h0 : 0 ∉ p) (d : Disk) (dir : List Bytes) (hd : VaultDir s.world.disk vault dir) (hd' : VaultDir d vault dir)
    (hb : ∀ n, Path.IsBand n → d.at? (dir ++ [n]) = s.world.disk.at? (dir ++ [n])) :
    (∀ sess, s.world.sess.unlock C.env (K.order s.opened) s.world.disk vault p = .ret (.ok (), sess) →
      ∃ t, run C K [.disk d, .key .enter] s = (.ok (), t) ∧ t.cur = some (.live .menu) ∧ t.world.sess.isUnlocked = true ∧
        t.world.sess.items = sess.items) ∧
    (Refuses C w p → ∃ t, run C K [.disk d, .key .enter] s = (.ok (), t) ∧ t.cur = some (.live .error) ∧
      t.world.sess.isUnlocked = false) := by
  obtain ⟨h1, h2⟩ := C92_shown_partial C K vault w x y _ _ (h.disk C K d) hc v hv p hs hp h0
  have hrun : ∀ t, step C K (.key .enter) { s with world := { s.world with disk := d } } = (.ok (), t) →
      run C K [.disk d, .key .enter] s = (.ok (), t) := by
    intro t ht
    rw [run_cons, bind_ok (show step C K (.disk d) s = (.ok (), { s with world := { s.world with disk := d } }) from rfl)]
    exact run_one C K ht
  constructor
  · intro sess hu
    obtain ⟨t, h3, h4⟩ := h1 sess (by
      show s.world.sess.unlock C.env (K.order s.opened) d vault p = _
      rw [unlock_congr C.env (K.order s.opened) (loadItems_profileless C.env _ hd hd' hb)]
      exact hu)
    exact ⟨t, hrun t h3, h4⟩
  · intro hr
    obtain ⟨t, h3, h4⟩ := h2 hr
    exact ⟨t, hrun t h3, h4⟩

/-- A process that is started now refuses the password. -/
def RefusedNow (C : Ctx) (K : Kit) (vault : Bytes) (s : St) (p : Bytes) (now : Session) : Prop :=
  Session.init.validate s.world.disk vault = .ret (.ok (), now) ∧
    now.unlock C.env (K.order s.opened) s.world.disk vault p = .ret (.error .invalidPass, now)

/-- What C135 asks for: a password which the vault refuses as it is now does not open it. -/
def C135_wish : Prop :=
  ∀ (C : Ctx) (K : Kit) (vault : Bytes) (w : World) (x y : Nat) (es : List Event) (s : St), Live C K vault w x y es s →
    s.cur = some (.live .prompt) → ∀ v, s.views .prompt = some v → ∀ now, RefusedNow C K vault s (entered v) now →
    ∀ t, step C K (.key .enter) s = (.ok (), t) → t.world.sess.isUnlocked = false

/-- C135, what holds: as long as the profile is the one the GUI started with, the GUI refuses what a process that is started now
refuses, and nothing else. Missing: another profile (`C135_old_password`). -/
theorem C135_same_profile_partial (vault : Bytes) (w : World) (x y : Nat) (es : List Event) (s : St) (h : Live C K vault w x y es s)
    (hc : s.cur = some (.live .prompt)) (v : View) (hv : s.views .prompt = some v) (now : Session)
    (hn : Session.init.validate s.world.disk vault = .ret (.ok (), now)) (hsame : now.profile = w.sess.profile) :
    (RefusedNow C K vault s (entered v) now → ∃ t, step C K (.key .enter) s = (.ok (), t) ∧ t.world.sess.isUnlocked = false) ∧
    (∀ t, step C K (.key .enter) s = (.ok (), t) → t.world.sess.isUnlocked = false →
      RefusedNow C K vault s (entered v) now) := by
  have hk := h.kept C K
  have ha := atPrompt_of (h.inv C K) hc
  constructor
  · rintro ⟨-, hr⟩
    obtain ⟨t, h1, -, -, -, -, -, h2, -⟩ := C72_wrong_password C K vault w x y es s h hc v hv
      ⟨K.order s.opened, s.world.disk, vault, (refused_iff hsame).1 hr⟩
    exact ⟨t, h1, by rw [h2]; exact ha.locked⟩
  · intro t ht hl
    have hp : s.world.sess.profile = now.profile := hk.profile.trans hsame.symm
    have hb : step C K (.key .enter) s = unlock C K (.live .prompt) s := press_bound C K (by simp) ha.cur rfl
    cases hu : attemptUnlock C K s (entered v) with
    | ret r =>
      obtain ⟨r, sess⟩ := r
      cases r with
      | error e =>
        obtain ⟨rfl, rfl⟩ := locked_of_error hu
        exact ⟨hn, (refused_iff hp).1 hu⟩
      | ok u =>
        obtain ⟨t', h1, -, -, -, h2, -⟩ := C72_right_password C K vault w x y es s h hc v hv sess hu
        rw [h1] at ht
        cases ht
        rw [h2] at hl
        cases hl
    | panic =>
      rcases unlock_dies C K hv ha.cur (by intro r; rw [hu]; simp) with e | e <;>
        · rw [hb] at ht
          have := congrArg Prod.fst ht
          rw [e] at this
          cases this
    | fatal =>
      rcases unlock_dies C K hv ha.cur (by intro r; rw [hu]; simp) with e | e <;>
        · rw [hb] at ht
          have := congrArg Prod.fst ht
          rw [e] at this
          cases this

namespace Demo

/-- The vault at /a after its master password has been changed from `pa` to `pb`: the same keys under another password, the same
items. -/
def rekeyed : Disk :=
  { disk b!"1234" b!"memo" with
    fs := ([b!"a", b!"default", b!"profile.js"], .file (OnePass.Demo.profileText OnePass.Demo.pb) false) ::
      (disk b!"1234" b!"memo").fs }

/-- What a process that is started now says to a password. -/
def answer (s : St) (p : Bytes) : Option Bool :=
  match Session.init.validate s.world.disk b!"/a" with
  | .ret (.ok (), now) =>
    match now.unlock ctx.env (kit.order s.opened) s.world.disk b!"/a" p with
    | .ret (.ok (), _) => some true
    | .ret (.error _, _) => some false
    | _ => none
  | _ => none

/-- The GUI shows the prompt, the password is changed, and the old one is typed. -/
def retyped : Res Unit × St := go (disk b!"1234" b!"memo") ([.disk rekeyed] ++ keys OnePass.Demo.pa ++ [.flush 80 24])

end Demo

/-- C135 is false of the code: the master password has been changed, a process that is started now takes the new one and refuses the
old, and the GUI opens the vault with the old one. -/
theorem C135_refuted : ¬ C135_wish := by
  have e : Demo.retyped.1 = .ok () ∧ Demo.retyped.2.cur = some (.live .prompt) ∧
      Demo.text .prompt Demo.retyped = some [OnePass.Demo.pa] ∧
      Demo.answer Demo.retyped.2 OnePass.Demo.pa = some false ∧ Demo.answer Demo.retyped.2 OnePass.Demo.pb = some true ∧
      (step Demo.ctx Demo.kit (.key .enter) Demo.retyped.2).1 = .ok () ∧
      (step Demo.ctx Demo.kit (.key .enter) Demo.retyped.2).2.world.sess.isUnlocked = true := by decide +kernel
  obtain ⟨e1, e2, e3, e4, -, e5, e6⟩ := e
  intro hw
  have hl : Live Demo.ctx Demo.kit b!"/a" (Demo.world (Demo.disk b!"1234" b!"memo")) 80 24
      ([.disk Demo.rekeyed] ++ Demo.keys OnePass.Demo.pa ++ [.flush 80 24]) Demo.retyped.2 :=
    ⟨(Demo.world_locked _).1, (Demo.world_locked _).2, pair_fst e1⟩
  generalize Demo.retyped = r at e1 e2 e3 e4 e5 e6 hl
  obtain ⟨v, hv, hs⟩ := Option.map_eq_some_iff.1 e3
  have hent : entered v = OnePass.Demo.pa := entered_shown hs ((bare_iff _).2 (by decide +kernel)) (by decide +kernel)
  have hnow : ∃ now, RefusedNow Demo.ctx Demo.kit b!"/a" r.2 (entered v) now := by
    rw [hent]
    unfold Demo.answer at e4
    cases hval : Session.init.validate r.2.world.disk b!"/a" with
    | panic => simp [hval] at e4
    | fatal => simp [hval] at e4
    | ret q =>
      obtain ⟨q, now⟩ := q
      cases q with
      | error _ => simp [hval] at e4
      | ok u =>
        simp only [hval] at e4
        cases hu : now.unlock Demo.ctx.env (Demo.kit.order r.2.opened) r.2.world.disk b!"/a" OnePass.Demo.pa with
        | panic => simp [hu] at e4
        | fatal => simp [hu] at e4
        | ret q =>
          obtain ⟨q, now'⟩ := q
          cases q with
          | ok u => simp [hu] at e4
          | error x =>
            obtain ⟨rfl, rfl⟩ := locked_of_error hu
            exact ⟨_, hval, hu⟩
  obtain ⟨now, hnow⟩ := hnow
  have := hw Demo.ctx Demo.kit b!"/a" _ 80 24 _ r.2 hl e2 v hv now hnow _ (pair_fst e5)
  rw [e6] at this
  cases this

/-- C135: the new password is refused by the GUI that was started before. -/
example :
    let r := Demo.go (Demo.disk b!"1234" b!"memo") ([.disk Demo.rekeyed] ++ Demo.keys OnePass.Demo.pb ++ [.flush 80 24, .key .enter])
    r.1 = .ok () ∧ r.2.cur = some (.live .error) ∧ r.2.err = some .invalidPass ∧ r.2.world.sess.isUnlocked = false := by
  decide +kernel

end Gui
end OnePass
