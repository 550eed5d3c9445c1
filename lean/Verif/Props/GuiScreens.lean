/-
The GUI's screens: secrets (C67), locking (C71), wrong passwords (C72), scrolling (C73).
-/
import Verif.Model.GuiSteps
import Verif.Props.Commands
import Verif.Props.GuiDemo

set_option linter.unusedSimpArgs false

namespace OnePass
namespace Gui
open Act

variable (C : Ctx) (K : Kit)

/-- A run of the GUI that is still going on: the first drawing, then these events. The session is one a
process can be in, and locked, when it starts. -/
structure Live (vault : Bytes) (w : World) (x y : Nat) (es : List Event) (s : St) : Prop where
  locked : w.sess.isUnlocked = false
  reach : Session.Reachable C.env w.sess
  goes : run C K (.flush x y :: es) (start vault w) = (.ok (), s)

theorem nothing_held {E : Env} {s : Session} (h : Session.Reachable E s) (hl : s.isUnlocked = false) : s.items = none :=
  h.inv.locked (by simpa [Session.isUnlocked] using hl)

theorem start_small {vault : Bytes} {w : World} {x y : Nat} (h : x < 2 ∨ y < 8) :
    (flush C K x y (start vault w)).1 = .err .dimensions := flush_small C K (by omega)

theorem Live.steps {vault : Bytes} {w : World} {x y : Nat} {es : List Event} {s : St} (h : Live C K vault w x y es s) :
    2 ≤ x ∧ 8 ≤ y ∧ Steps C K (firstSt vault w x y) es s := by
  by_cases hs : x < 2 ∨ y < 8
  · have h1 := start_small C K (vault := vault) (w := w) hs
    have h2 := h.goes
    rw [run, show step C K (.flush x y) = flush C K x y from rfl] at h2
    cases hf : flush C K x y (start vault w) with
    | mk r t =>
      rw [hf] at h1
      simp only at h1
      subst h1
      rw [bind_err hf] at h2
      cases h2
  · have h2 := h.goes
    rw [run, bind_ok (show step C K (.flush x y) (start vault w) = _ from first_run C K (by omega) (by omega) h.locked)] at h2
    refine ⟨by omega, by omega, ?_⟩
    rcases run_steps C K (first_inv vault w x y h.locked) es with ⟨t, h3, h4⟩ | ⟨_, _, _, _, _, _, _, h3, _⟩
    · rw [h3] at h2
      cases h2
      exact h4
    · rw [h2] at h3
      exact absurd rfl h3

theorem Live.inv {vault : Bytes} {w : World} {x y : Nat} {es : List Event} {s : St} (h : Live C K vault w x y es s) : Inv s :=
  (h.steps C K).2.2.inv C K (first_inv vault w x y h.locked)

/-! ### C67 -/

/-- The item with everything secret replaced by ten asterisks. -/
def masked (i : Item) : Item :=
  { i with
    notes := if i.notes = [] then [] else b!"**********"
    sections := i.sections.map (fun ss => ss.map (fun s =>
      { s with fields := s.fields.map (fun fs => fs.map (fun f => { f with value := b!"**********" })) })) }

theorem covered_is_masked (i : Item) : detailsBody true i = detailsBody false (masked i) := by
  unfold detailsBody masked
  congr 1
  · cases i.sections with
    | none => rfl
    | some ss =>
      simp only [Option.map_some, List.flatMap_map]
      congr 1
      congr 1
      funext s
      cases s.fields with
      | none => rfl
      | some fs => simp only [Option.map_some, List.flatMap_map, if_true]; rfl
  · by_cases h : i.notes = []
    · simp [h]
    · simp only [h, if_false, if_true, ne_eq, not_false_eq_true, Option.map_eq_none_iff]
      simp only [Bool.false_eq_true, if_false]
      rfl

/-- The lines a text takes in an empty pane. -/
def textLines (t : Bytes) : List Bytes := t.foldl View.putByte []

/-- What the details pane shows while it does not have the focus: nothing, or the masked item. -/
structure Covered (C : Ctx) (s : St) : Prop where
  lines : ∀ v, s.views .details = some v → s.cur ≠ some (.live .details) →
    v.lines = [] ∨ ∃ i, s.item = some i ∧ v.lines = textLines (detailsHead C.env i ++ detailsBody true i)
  shown : ∀ v, s.views .details = some v → s.cur ≠ some (.live .details) → v.shown = [] ∨ v.shown = v.lines

theorem top_lines (v : View) : v.top.lines = v.lines ∧ v.top.shown = v.shown := by
  unfold View.top
  split <;> exact ⟨rfl, rfl⟩

theorem detailed_lines (E : Env) (c : Bool) (i : Option Item) (v : View) :
    (detailed E c i v).lines = [] ∧ i = none ∨
      ∃ j, i = some j ∧ (detailed E c i v).lines = textLines (detailsHead E j ++ detailsBody c j) := by
  cases i with
  | none => exact .inl ⟨(top_lines _).1, rfl⟩
  | some j =>
    refine .inr ⟨j, rfl, ?_⟩
    rw [detailed, View.write, (top_lines _).1]
    rfl

theorem detailed_shown (E : Env) (c : Bool) (i : Option Item) (v : View) : (detailed E c i v).shown = [] := by
  cases i with
  | none => exact (top_lines _).2
  | some j =>
    rw [detailed, View.write]
    exact (top_lines _).2

theorem covered_of {s : St} {i : Option Item} {u : View} (hv : s.views .details = some (detailed C.env true i u))
    (hi : s.item = i) : Covered C s := by
  refine ⟨fun v h _ => ?_, fun v h _ => ?_⟩
  · rw [hv] at h
    cases h
    rcases detailed_lines C.env true i u with h | ⟨j, h1, h2⟩
    · exact .inl h.1
    · exact .inr ⟨j, hi.trans h1, h2⟩
  · rw [hv] at h
    cases h
    exact .inl (detailed_shown _ _ _ _)

theorem covered_none {s : St} (hv : s.views .details = none) : Covered C s :=
  ⟨fun v h _ => (by rw [hv] at h; cases h), fun v h _ => (by rw [hv] at h; cases h)⟩

theorem covered_focus {s : St} (hv : s.cur = some (.live .details)) : Covered C s :=
  ⟨fun _ _ h => absurd hv h, fun _ _ h => absurd hv h⟩

theorem covered_same {s t : St} (h : Covered C s) (hv : t.views .details = s.views .details) (hc : t.cur = s.cur)
    (hi : t.item = s.item) : Covered C t :=
  ⟨fun v h1 h2 => by rw [hi]; exact h.lines v (hv ▸ h1) (hc ▸ h2), fun v h1 h2 => h.shown v (hv ▸ h1) (hc ▸ h2)⟩

theorem Trans.covered {s t : St} {e : Event} (h : Trans C K s e t) (hI : Inv s) (hc : Covered C s) : Covered C t := by
  cases h with
  | ignored k hk => exact hc
  | typed k hk v h hv => exact covered_same C hc (by simp [setAt]) rfl rfl
  | refused v e sess h hv hu => exact covered_none C (by simpa [setAt] using h.details)
  | accepted v vm sess h hv hm hu => exact covered_none C (by simpa [filled, triedSt, setAt] using h.details)
  | closeError v h hv => exact covered_none C (by simpa [setAt] using h.details)
  | menuDown k hk i v h hv hi hl => exact covered_none C (by simpa [setAt] using h.details)
  | menuUp k hk i v h hv hi => exact covered_none C (by simpa [setAt] using h.details)
  | openEntry k hk vh l h hh hx hy hm hl =>
    by_cases h0 : l = []
    · refine ⟨fun v h1 _ => ?_, fun v h1 _ => ?_⟩
      · simp [openedSt, setAt, h0] at h1
        subst h1
        exact .inl rfl
      · simp [openedSt, setAt, h0] at h1
        subst h1
        exact .inl rfl
    · exact covered_of C (u := newDetails s) (i := (openedSt C s vh l).item) (by simp [openedSt, setAt, h0]) rfl
  | lockMenu v vh h hv hh => exact covered_none C (by simpa [lockedSt, setAt] using h.details)
  | itemsDown k hk i v vi h hv hvi hi hl => exact covered_of C (u := v) (i := s.itemAt _) (by simp [setAt]) rfl
  | itemsUp k hk i v vi h hv hvi hi hl => exact covered_of C (u := v) (i := s.itemAt _) (by simp [setAt]) rfl
  | back k hk o h => exact covered_none C (by simp [closed, setAt])
  | reveal i v vh h hv hh hi hl => exact covered_focus C rfl
  | lockItems o vm vh h hm hh => exact covered_none C (by simp [lockedSt, closed, setAt])
  | scroll k hk v x y h hv => exact covered_focus C h.cur
  | cover v vh h hv hh => exact covered_of C (i := s.item) (u := v) (by simp [setAt]) rfl
  | flush x y vv vh vm hx hy hv hh hm =>
    have hd : placed s.views x y vv vh vm .details = s.views .details := by simp [placed, setAt]
    refine ⟨fun v h1 h2 => ?_, fun v h1 h2 => ?_⟩
    · simp only [hd] at h1
      cases hw : s.views .details with
      | none => rw [hw] at h1; cases h1
      | some w =>
        rw [hw] at h1
        cases h1
        exact hc.lines w hw h2
    · simp only [hd] at h1
      cases hw : s.views .details with
      | none => rw [hw] at h1; cases h1
      | some w =>
        rw [hw] at h1
        cases h1
        exact .inr rfl
  | idle h => exact hc
  | checked v r w hp hv hr => exact covered_same C hc (by simp [checkedSt, setAt]) rfl rfl
  | disk d => exact covered_same C hc rfl rfl rfl

theorem Steps.covered {s t : St} {es : List Event} (h : Steps C K s es t) (hc : Covered C s) : Covered C t := by
  induction h with
  | nil => exact hc
  | snoc _ hi ht ih => exact ht.covered C K hi ih

theorem Live.covered {vault : Bytes} {w : World} {x y : Nat} {es : List Event} {s : St} (h : Live C K vault w x y es s) :
    Covered C s := (h.steps C K).2.2.covered C K (covered_none C rfl)

/-- C67: whatever happened, while the details pane does not have the focus it is empty, or holds and shows the item with
all field values and notes replaced by asterisks. -/
theorem C67_covered (vault : Bytes) (w : World) (x y : Nat) (es : List Event) (s : St) (h : Live C K vault w x y es s)
    (v : View) (hv : s.views .details = some v) (hc : s.cur ≠ some (.live .details)) :
    (v.lines = [] ∨ ∃ i, s.item = some i ∧ v.lines = textLines (detailsHead C.env i ++ detailsBody false (masked i))) ∧
      (v.shown = [] ∨ v.shown = v.lines) := by
  have := h.covered C K
  refine ⟨?_, this.shown v hv hc⟩
  rcases this.lines v hv hc with h | ⟨i, h1, h2⟩
  · exact .inl h
  · exact .inr ⟨i, h1, by rw [h2, covered_is_masked]⟩

/-- C67: the details pane gets the focus only by TAB in the item list. -/
theorem C67_only_tab (vault : Bytes) (w : World) (x y : Nat) (es : List Event) (s t : St) (e : Event)
    (h : Live C K vault w x y es s) (hs : step C K e s = (.ok (), t)) (hc : s.cur ≠ some (.live .details))
    (ht : t.cur = some (.live .details)) : e = .key .tab ∧ s.cur = some (.live .items) := by
  rcases step_trans C K (h.inv C K) e with ⟨s', h1, h2⟩ | ⟨h1, _⟩
  · rw [hs] at h1
    cases h1
    cases h2 with
    | reveal i v vh h => exact ⟨rfl, h.cur⟩
    | refused => cases ht
    | accepted => cases ht
    | closeError => cases ht
    | openEntry => cases ht
    | lockMenu => cases ht
    | back => cases ht
    | lockItems => cases ht
    | cover => cases ht
    | _ => exact absurd ht hc
  · rw [hs] at h1
    exact absurd rfl h1

theorem inv_step {s t : St} {e : Event} (hI : Inv s) (h : step C K e s = (.ok (), t)) : Trans C K s e t ∧ Inv t := by
  rcases step_trans C K hI e with ⟨u, h1, h2⟩ | ⟨h1, _⟩
  · rw [h] at h1
    cases h1
    exact ⟨h2, h2.inv C K hI⟩
  · rw [h] at h1
    exact absurd rfl h1

theorem atPrompt_of {s : St} (hI : Inv s) (hc : s.cur = some (.live .prompt)) : AtPrompt s := by
  cases hI.screen with
  | prompt ha => exact ha
  | error ha => rw [ha.cur] at hc; cases hc
  | menu ha => rw [ha.cur] at hc; cases hc
  | items ha => rw [ha.cur] at hc; cases hc
  | details ha => rw [ha.cur] at hc; cases hc

theorem atError_of {s : St} (hI : Inv s) (hc : s.cur = some (.live .error)) : AtError s := by
  cases hI.screen with
  | error ha => exact ha
  | prompt ha => rw [ha.cur] at hc; cases hc
  | menu ha => rw [ha.cur] at hc; cases hc
  | items ha => rw [ha.cur] at hc; cases hc
  | details ha => rw [ha.cur] at hc; cases hc

theorem atMenu_of {s : St} (hI : Inv s) (hc : s.cur = some (.live .menu)) : AtMenu s := by
  cases hI.screen with
  | menu ha => exact ha
  | error ha => rw [ha.cur] at hc; cases hc
  | prompt ha => rw [ha.cur] at hc; cases hc
  | items ha => rw [ha.cur] at hc; cases hc
  | details ha => rw [ha.cur] at hc; cases hc

theorem atItems_of {s : St} (hI : Inv s) (hc : s.cur = some (.live .items)) : AtItems s := by
  cases hI.screen with
  | items ha => exact ha
  | error ha => rw [ha.cur] at hc; cases hc
  | menu ha => rw [ha.cur] at hc; cases hc
  | prompt ha => rw [ha.cur] at hc; cases hc
  | details ha => rw [ha.cur] at hc; cases hc

theorem atDetails_of {s : St} (hI : Inv s) (hc : s.cur = some (.live .details)) : AtDetails s := by
  cases hI.screen with
  | details ha => exact ha
  | error ha => rw [ha.cur] at hc; cases hc
  | menu ha => rw [ha.cur] at hc; cases hc
  | items ha => rw [ha.cur] at hc; cases hc
  | prompt ha => rw [ha.cur] at hc; cases hc

/-! ### C71 -/

/-- What the screen looks like when the password is asked for, and nothing of a vault is left. -/
structure Asking (s : St) : Prop where
  focus : s.cur = some (.live .prompt)
  prompt : ∃ v, s.views .prompt = some v ∧ v.lines = []
  menu : ∃ v, s.views .menu = some v ∧ v.lines = [] ∧ v.shown = []
  error : s.views .error = none
  items : s.views .items = none
  details : s.views .details = none

/-- C71: CTRL+L in the menu, the item list or the details pane locks the vault (no item can be had from it any more, C12),
removes list and details, empties the menu, asks for the password, shows the help of the menu, and does nothing else. -/
theorem C71_lock (vault : Bytes) (w : World) (x y : Nat) (es : List Event) (s : St) (h : Live C K vault w x y es s)
    (hc : s.cur = some (.live .menu) ∨ s.cur = some (.live .items) ∨ s.cur = some (.live .details)) :
    ∃ t, step C K (.key .ctrlL) s = (.ok (), t) ∧ Asking t ∧ t.world.sess.isUnlocked = false ∧ t.world.sess.items = none ∧
      t.menuIdx = -1 ∧ t.cats = [] ∧ t.help = onepassHelp ∧
      t.world = { s.world with sess := s.world.sess.lock } := by
  have hI := h.inv C K
  obtain ⟨vm, hvm⟩ := hI.frame.menu
  obtain ⟨vh, hvh⟩ := hI.frame.help
  have listed : ∀ hl : Listed s, (s.cur = some (.live .items) ∨ s.cur = some (.live .details)) → ∃ t,
      step C K (.key .ctrlL) s = (.ok (), t) ∧ Asking t ∧ t.world.sess.isUnlocked = false ∧ t.world.sess.items = none ∧
      t.menuIdx = -1 ∧ t.cats = [] ∧ t.help = onepassHelp ∧ t.world = { s.world with sess := s.world.sess.lock } := by
    intro hl hc
    obtain ⟨vi, hvi⟩ := hl.items
    obtain ⟨vd, hvd⟩ := hl.details
    obtain ⟨o, ho⟩ := itemsLock_run C K hvd hvi hvm hl.prompt hvh
    have hp : step C K (.key .ctrlL) s = itemsLock C K s := by
      rcases hc with hc | hc
      · exact press_bound C K (by simp) hc rfl
      · exact press_bound C K (by simp) hc rfl
    refine ⟨_, hp.trans ho, ⟨rfl, ⟨box s.maxX s.maxY promptAttr, by simp [lockedSt, setAt], rfl⟩,
      ⟨vm.home.clear, by simp [lockedSt, setAt], rfl, rfl⟩, by simpa [lockedSt, closed, setAt] using hl.error,
      by simp [lockedSt, closed, setAt], by simp [lockedSt, closed, setAt]⟩, rfl, Session.lock_items _, rfl, rfl, rfl, rfl⟩
  cases hI.screen with
  | prompt ha => rw [ha.cur] at hc; simp at hc
  | error ha => rw [ha.cur] at hc; simp at hc
  | menu ha =>
    have hp : step C K (.key .ctrlL) s = lock C K (.live .menu) s := press_bound C K (by simp) ha.cur rfl
    refine ⟨_, hp.trans (lock_run C K hvm ha.prompt hvh),
      ⟨rfl, ⟨box s.maxX s.maxY promptAttr, by simp [lockedSt, setAt], rfl⟩, ⟨vm.home.clear, by simp [lockedSt, setAt], rfl, rfl⟩,
        by simpa [lockedSt, setAt] using ha.error, by simpa [lockedSt, setAt] using ha.items,
        by simpa [lockedSt, setAt] using ha.details⟩, rfl, Session.lock_items _, rfl, rfl, rfl, rfl⟩
  | items ha => exact listed ha.toListed (.inl ha.cur)
  | details ha => exact listed ha.toListed (.inr ha.cur)

/-! ### C72 -/

/-- Whether a password is refused is decided by the profile alone. -/
theorem refused_iff {E : Env} {O O' : MapOrder} {d d' : Disk} {v v' p : Bytes} {s s' : Session} (hp : s.profile = s'.profile) :
    s.unlock E O d v p = .ret (.error .invalidPass, s) ↔ s'.unlock E O' d' v' p = .ret (.error .invalidPass, s') := by
  have one : ∀ {O O' : MapOrder} {d d' : Disk} {v v' : Bytes} {s s' : Session}, s.profile = s'.profile →
      s.unlock E O d v p = .ret (.error .invalidPass, s) → s'.unlock E O' d' v' p = .ret (.error .invalidPass, s') := by
    intro O O' d d' v v' s s' hp h
    unfold Session.unlock at h ⊢
    rw [← hp]
    rw [Out.bind_eq_ret] at h
    obtain ⟨r1, h1, h⟩ := h
    rw [h1]
    rcases r1 with e | ⟨dk, dm⟩
    · rfl
    simp only [Out.bind_eq_ret] at h
    obtain ⟨r2, h2, h⟩ := h
    simp only [Out.ret_bind, h2]
    rcases r2 with e | ⟨a, b⟩
    · rfl
    simp only [Out.bind_eq_ret] at h
    obtain ⟨r3, h3, h⟩ := h
    simp only [Out.ret_bind, h3]
    rcases r3 with e | ⟨o, m⟩
    · rfl
    · simp only [Out.bind_eq_ret, Out.pure_eq, Out.ret.injEq, Prod.mk.injEq] at h
      obtain ⟨_, _, h, _⟩ := h
      cases h
  exact ⟨one hp, one hp.symm⟩

/-- The profile stays, and a locked vault has no items. -/
structure Kept (vault : Bytes) (w : World) (s : St) : Prop where
  profile : s.world.sess.profile = w.sess.profile
  locked : s.world.sess.isUnlocked = false → s.world.sess.items = none
  vault : s.vault = vault

theorem Trans.profile {s t : St} {e : Event} (h : Trans C K s e t) : t.world.sess.profile = s.world.sess.profile ∧
    (t.world.sess.isUnlocked = true ∨ t.world.sess.items = none ∨ t.world.sess = s.world.sess) ∧ t.vault = s.vault := by
  cases h with
  | refused v e sess h hv hu =>
    obtain ⟨rfl, rfl⟩ := locked_of_error hu
    exact ⟨rfl, .inr (.inr rfl), rfl⟩
  | accepted v vm sess h hv hm hu =>
    have hk : sess.profile = s.world.sess.profile := by
      rcases Session.unlock_cases hu with h | h
      · cases h.1
      · obtain ⟨_, keys, raw, items, _, _, rfl, _⟩ := h
        rfl
    refine ⟨?_, .inl ?_, rfl⟩
    · show (sortCats C sess).profile = _
      rw [← hk]
      unfold sortCats
      split <;> rfl
    · show (sortCats C sess).isUnlocked = true
      have := unlocked_of_ok hu
      unfold sortCats
      split <;> exact this
  | lockMenu v vh h hv hh => exact ⟨rfl, .inr (.inl (Session.lock_items _)), rfl⟩
  | lockItems o vm vh h hm hh => exact ⟨rfl, .inr (.inl (Session.lock_items _)), rfl⟩
  | checked v r w hp hv hr =>
    have hs : (checkedSt s v r w).world.sess = s.world.sess := (check_sess C hr).1
    exact ⟨by rw [hs], .inr (.inr hs), rfl⟩
  | _ => exact ⟨rfl, .inr (.inr rfl), rfl⟩

theorem Steps.kept {vault : Bytes} {w : World} {s t : St} {es : List Event} (h : Steps C K s es t) (hk : Kept vault w s) :
    Kept vault w t := by
  induction h with
  | nil => exact hk
  | snoc _ _ ht ih =>
    obtain ⟨h1, h2, h3⟩ := ht.profile C K
    refine ⟨h1.trans ih.profile, fun hl => ?_, h3.trans ih.vault⟩
    rcases h2 with h2 | h2 | h2
    · rw [h2] at hl
      cases hl
    · exact h2
    · rw [h2] at hl ⊢
      exact ih.locked hl

theorem Live.kept {vault : Bytes} {w : World} {x y : Nat} {es : List Event} {s : St} (h : Live C K vault w x y es s) :
    Kept vault w s := (h.steps C K).2.2.kept C K ⟨rfl, fun _ => nothing_held h.reach h.locked, rfl⟩

/-- A password the vault does not open with: its profile refuses it (C09 says when that is). -/
def Refuses (C : Ctx) (w : World) (password : Bytes) : Prop :=
  ∃ O d v, w.sess.unlock C.env O d v password = .ret (.error .invalidPass, w.sess)

theorem refuses_attempt {vault : Bytes} {w : World} {s : St} (hk : Kept vault w s) {p : Bytes} (h : Refuses C w p) :
    attemptUnlock C K s p = .ret (.error .invalidPass, s.world.sess) := by
  obtain ⟨O, d, v, h⟩ := h
  exact (refused_iff hk.profile.symm).1 h

/-- C72: a password that is refused brings up the error dialog with the error's text and nothing else; ENTER then asks for the
password again. Disk, session and all the rest of the world are as before. -/
theorem C72_wrong_password (vault : Bytes) (w : World) (x y : Nat) (es : List Event) (s : St) (h : Live C K vault w x y es s)
    (hc : s.cur = some (.live .prompt)) (v : View) (hv : s.views .prompt = some v) (hr : Refuses C w (entered v)) :
    ∃ t, step C K (.key .enter) s = (.ok (), t) ∧ t.cur = some (.live .error) ∧ t.views .prompt = none ∧
      t.views .items = none ∧ t.views .details = none ∧
      (∃ u, t.views .error = some u ∧ u.lines = textLines Err.invalidPass.text) ∧ t.world = s.world ∧
      ∃ t', step C K (.key .enter) t = (.ok (), t') ∧ Asking t' ∧ t'.world = s.world := by
  have hI := h.inv C K
  have ha := atPrompt_of hI hc
  have hu := refuses_attempt C K (h.kept C K) hr
  have hs : step C K (.key .enter) s = _ :=
    (press_bound C K (by simp) ha.cur rfl).trans (unlock_refused C K hv ha.cur ha.error hu)
  obtain ⟨vm, hvm⟩ := hI.frame.menu
  refine ⟨_, hs, rfl, by simp [setAt], by simpa [setAt] using ha.items, by simpa [setAt] using ha.details,
    ⟨(box s.maxX s.maxY errorAttr).write Err.invalidPass.text, by simp, rfl⟩, rfl, ?_⟩
  refine ⟨_, (press_bound C K (by simp) rfl rfl).trans (closeError_run C K (v := (box s.maxX s.maxY errorAttr).write Err.invalidPass.text) (by simp) rfl (by simp [setAt]) ha.locked),
    ⟨rfl, ⟨box s.maxX s.maxY promptAttr, by simp [triedSt], rfl⟩, ⟨vm, by simpa [setAt, triedSt] using hvm, ha.empty vm hvm⟩, by simp [setAt],
      by simpa [setAt] using ha.items, by simpa [setAt] using ha.details⟩, rfl⟩

/-- C72: a password with which the vault opens brings up the menu; the items are those of the vault as it is on disk. -/
theorem C72_right_password (vault : Bytes) (w : World) (x y : Nat) (es : List Event) (s : St) (h : Live C K vault w x y es s)
    (hc : s.cur = some (.live .prompt)) (v : View) (hv : s.views .prompt = some v) (sess : Session)
    (hr : attemptUnlock C K s (entered v) = .ret (.ok (), sess)) :
    ∃ t, step C K (.key .enter) s = (.ok (), t) ∧ t.cur = some (.live .menu) ∧ t.views .prompt = none ∧ t.views .error = none ∧
      t.world.sess.isUnlocked = true ∧ t.world.disk = s.world.disk ∧ t.world.log = s.world.log ∧
      t.world.sess.items = sess.items ∧
      ∃ keys raw items, Repo.loadItems C.env (K.order s.opened) s.world.disk vault = .ret raw ∧
        ItemSvc.decodeItems C.env (K.order s.opened) s.world.sess.reg keys raw = .ret items ∧
        t.world.sess.items = some items := by
  have hI := h.inv C K
  have ha := atPrompt_of hI hc
  obtain ⟨vm, hvm⟩ := hI.frame.menu
  have hs : step C K (.key .enter) s = _ :=
    (press_bound C K (by simp) ha.cur rfl).trans (unlock_accepted C K hv ha.cur hvm hr (unlocked_of_ok hr))
  have hsort : (sortCats C sess).items = sess.items ∧ (sortCats C sess).keys = sess.keys := by
    unfold sortCats
    split <;> exact ⟨rfl, rfl⟩
  have hopen := unlocked_of_ok hr
  have hk := h.kept C K
  refine ⟨_, hs, rfl, by simp [filled, triedSt, setAt], by simpa [filled, triedSt, setAt] using ha.error, ?_, rfl, rfl,
    hsort.1, ?_⟩
  · show (sortCats C sess).keys.isSome = true
    rw [hsort.2]
    exact hopen
  · rcases Session.unlock_cases hr with h | h
    · cases h.1
    · obtain ⟨_, keys, raw, items, h1, h2, h3, _⟩ := h
      refine ⟨keys, raw, items, by rw [← hk.vault]; exact h1, h2, hsort.1.trans ?_⟩
      rw [h3]
      show Repo.storeItems s.world.sess.items items = _
      rw [hk.locked ha.locked]
      rfl

/-- C72: while the vault is locked, prompt or error dialog have the focus, and nothing of a vault is on screen or in the
session. -/
theorem C72_nothing_shown (vault : Bytes) (w : World) (x y : Nat) (es : List Event) (s : St) (h : Live C K vault w x y es s)
    (hl : s.world.sess.isUnlocked = false) :
    (s.cur = some (.live .prompt) ∨ s.cur = some (.live .error)) ∧ s.views .items = none ∧ s.views .details = none ∧
      (∀ v, s.views .menu = some v → v.lines = [] ∧ v.shown = []) ∧ s.world.sess.items = none := by
  have hn := (h.kept C K).locked hl
  cases (h.inv C K).screen with
  | prompt ha => exact ⟨.inl ha.cur, ha.items, ha.details, ha.empty, hn⟩
  | error ha => exact ⟨.inr ha.cur, ha.items, ha.details, ha.empty, hn⟩
  | menu ha => rw [ha.unlocked] at hl; cases hl
  | items ha => rw [ha.unlocked] at hl; cases hl
  | details ha => rw [ha.unlocked] at hl; cases hl

/-! #### Sequences of attempts -/

theorem run_append (a b : List Event) (s : St) {t : St} (h : run C K a s = (.ok (), t)) : run C K (a ++ b) s = run C K b t := by
  induction a generalizing s with
  | nil => cases h; rfl
  | cons e es ih =>
    rw [run_cons] at h
    rw [List.cons_append, run_cons]
    cases hs : step C K e s with
    | mk r u =>
      cases r with
      | ok a => rw [bind_ok hs] at h ⊢; exact ih u h
      | err x => rw [bind_err hs] at h; cases h
      | panic => rw [bind_panic hs] at h; cases h
      | fatal => rw [bind_fatal hs] at h; cases h

theorem run_one {e : Event} {s t : St} (h : step C K e s = (.ok (), t)) : run C K [e] s = (.ok (), t) := by
  rw [run_cons, bind_ok h]
  rfl

/-- The prompt is open, empty and drawn. -/
structure Ready (s : St) : Prop where
  inv : Inv s
  cur : s.cur = some (.live .prompt)
  typed : s.typed = [none]
  empty : ∀ v, s.views .prompt = some v → v.lines = []

/-- Typing into an empty prompt. -/
theorem type_run (ks : List Key) (hks : ∀ k ∈ ks, k ≠ .enter ∧ k ≠ .ctrlQ) :
    ∀ (s : St) (v : View), s.cur = some (.live .prompt) → s.views .prompt = some v →
      ∃ u, run C K (ks.map .key) s = (.ok (),
          { s with typed := s.typed ++ ks.map some, views := setAt s.views .prompt (some u) }) ∧
        u = { v with lines := if ks = [] then v.lines else K.edit (s.typed ++ ks.map some) } := by
  induction ks with
  | nil =>
    intro s v hc hv
    refine ⟨v, ?_, rfl⟩
    rw [show setAt s.views .prompt (some v) = s.views by rw [← hv]; exact setAt_id _ _]
    simp [run]
  | cons k ks ih =>
    intro s v hc hv
    have hk := hks k (by simp)
    have h1 := press_typed C K hk.2 hk.1 hc hv
    obtain ⟨u, h2, h3⟩ := ih (fun k hk => hks k (by simp [hk]))
      { s with
        typed := s.typed ++ [some k]
        views := setAt s.views .prompt (some { v with lines := K.edit (s.typed ++ [some k]) }) }
      { v with lines := K.edit (s.typed ++ [some k]) }
      (by exact hc) (by simp)
    refine ⟨u, ?_, ?_⟩
    · rw [List.map_cons, run_cons, bind_ok (show step C K (.key k) s = _ from h1)]
      refine h2.trans ?_
      simp [setAt_twice]
    · rw [h3]
      by_cases h0 : ks = []
      · simp [h0]
      · simp [h0]

/-- The text that reaches the vault when these keys are typed into an empty prompt and drawn before ENTER. -/
def typedText (ks : List Key) : Bytes :=
  Str.trimSpace (({ View.new 0 0 0 0 promptAttr with shown := if ks = [] then [] else K.edit (none :: ks.map some) } : View).viewBuffer)

/-- An attempt: the keys, drawn, and ENTER. -/
def attemptKeys (x y : Nat) (ks : List Key) : List Event := ks.map .key ++ [.flush x y, .key .enter]

/-- Closing the error dialog. -/
def dismiss (x y : Nat) : List Event := [.flush x y, .key .enter, .flush x y]

theorem flush_views {s : St} (hI : Inv s) {x y : Nat} (hx : 2 ≤ x) (hy : 8 ≤ y) : ∃ t, step C K (.flush x y) s = (.ok (), t) ∧
    (∀ n, n ≠ .ver → n ≠ .help → n ≠ .menu → t.views n = (s.views n).map View.draw) ∧ t.cur = s.cur ∧
    t.typed = s.typed ++ [none] ∧ t.world = s.world ∧ t.vault = s.vault ∧ t.opened = s.opened := by
  obtain ⟨vv, hv⟩ := hI.frame.ver
  obtain ⟨vh, hh⟩ := hI.frame.help
  obtain ⟨vm, hm⟩ := hI.frame.menu
  refine ⟨_, flush_run C K hv hh hm hx hy, ?_, rfl, rfl, rfl, rfl, rfl⟩
  intro n h1 h2 h3
  simp [placed, setAt, h1, h2, h3]

/-- The state when the keys have been typed and drawn. -/
theorem typed_run {s : St} (hs : Ready s) {x y : Nat} (hx : 2 ≤ x) (hy : 8 ≤ y) (ks : List Key)
    (hks : ∀ k ∈ ks, k ≠ .enter ∧ k ≠ .ctrlQ) :
    ∃ t v, run C K (ks.map .key ++ [.flush x y]) s = (.ok (), t) ∧ Inv t ∧ t.cur = some (.live .prompt) ∧
      t.views .prompt = some v ∧ entered v = typedText K ks ∧ t.world = s.world ∧ t.vault = s.vault ∧
      t.opened = s.opened := by
  have ha := atPrompt_of hs.inv hs.cur
  obtain ⟨v, hv⟩ := ha.prompt
  obtain ⟨u, h1, h2⟩ := type_run C K ks hks s v hs.cur hv
  have hI1 : Inv { s with typed := s.typed ++ ks.map some, views := setAt s.views .prompt (some u) } := by
    rcases run_steps C K hs.inv (ks.map .key) with ⟨t, h3, h4⟩ | ⟨_, _, _, _, _, _, _, h3, _⟩
    · rw [h1] at h3
      cases h3
      exact h4.inv C K hs.inv
    · rw [h1] at h3
      exact absurd rfl h3
  obtain ⟨t, h3, h4, h5, h6, h7, h8, h9⟩ := flush_views C K hI1 hx hy
  refine ⟨t, u.draw, ?_, (inv_step C K hI1 h3).2, h5.trans hs.cur, ?_, ?_, h7, h8, h9⟩
  · rw [run_append C K _ _ _ h1]
    exact run_one C K h3
  · rw [h4 .prompt (by simp) (by simp) (by simp)]
    simp
  · rw [h2, hs.typed]
    by_cases h0 : ks = []
    · simp only [h0, if_true, hs.empty v hv]
      rfl
    · simp only [h0, if_false]
      simp only [entered, typedText, View.draw, View.viewBuffer, h0, if_false, List.singleton_append]

theorem one_attempt {vault : Bytes} {w : World} {s : St} (hs : Ready s) (hk : Kept vault w s) {x y : Nat} (hx : 2 ≤ x)
    (hy : 8 ≤ y) (ks : List Key) (hks : ∀ k ∈ ks, k ≠ .enter ∧ k ≠ .ctrlQ) (hr : Refuses C w (typedText K ks)) :
    ∃ t, run C K (attemptKeys x y ks ++ dismiss x y) s = (.ok (), t) ∧ Ready t ∧ Kept vault w t ∧ t.world = s.world := by
  obtain ⟨s1, v, h1, hI1, hc1, hv1, he1, hw1, hva1, ho1⟩ := typed_run C K hs hx hy ks hks
  have ha1 := atPrompt_of hI1 hc1
  have hk1 : Kept vault w s1 := ⟨by rw [hw1]; exact hk.profile, by rw [hw1]; exact hk.locked, by rw [hva1]; exact hk.vault⟩
  have hu := refuses_attempt C K hk1 (p := entered v) (by rw [he1]; exact hr)
  have h2 := (press_bound C K (k := .enter) (by simp) hc1 rfl).trans (unlock_refused C K hv1 hc1 ha1.error hu)
  have hI2 := (inv_step C K hI1 (e := .key .enter) h2).2
  generalize hs2 : ({ triedSt s1 v s1.world.sess with
        err := some Err.invalidPass
        cur := some (.live .error)
        views := setAt (setAt s1.views .prompt none) .error (some ((box s1.maxX s1.maxY errorAttr).write Err.invalidPass.text)) } : St) = s2
    at h2 hI2
  have hc2 : s2.cur = some (.live .error) := by rw [← hs2]
  have hw2 : s2.world = s1.world := by rw [← hs2]; rfl
  have hva2 : s2.vault = s1.vault := by rw [← hs2]; rfl
  obtain ⟨s3, h3, _, hc3, _, hw3, hva3, _⟩ := flush_views C K hI2 hx hy
  have hI3 := (inv_step C K hI2 h3).2
  have ha3 := atError_of hI3 (hc3.trans hc2)
  obtain ⟨ve, hve⟩ := ha3.error
  have h4 := (press_bound C K (k := .enter) (by simp) ha3.cur rfl).trans (closeError_run C K hve ha3.cur ha3.prompt ha3.locked)
  have hI4 := (inv_step C K hI3 (e := .key .enter) h4).2
  obtain ⟨s5, h5, hv5, hc5, ht5, hw5, hva5, _⟩ := flush_views C K hI4 hx hy
  have hI5 := (inv_step C K hI4 h5).2
  have hw : s5.world = s.world := hw5.trans (hw3.trans (hw2.trans hw1))
  have hva : s5.vault = s.vault := hva5.trans (hva3.trans (hva2.trans hva1))
  refine ⟨s5, ?_, ⟨hI5, hc5, ht5, ?_⟩, ⟨by rw [hw]; exact hk.profile, by rw [hw]; exact hk.locked, hva.trans hk.vault⟩, hw⟩
  · rw [show attemptKeys x y ks ++ dismiss x y =
      (ks.map .key ++ [.flush x y]) ++ [.key .enter, .flush x y, .key .enter, .flush x y] by simp [attemptKeys, dismiss]]
    rw [run_append C K _ _ _ h1, run_cons, bind_ok (show step C K (.key .enter) s1 = _ from h2), run_cons, bind_ok h3,
      run_cons, bind_ok (show step C K (.key .enter) s3 = _ from h4), run_cons, bind_ok h5]
    rfl
  · intro u hu
    rw [hv5 .prompt (by simp) (by simp) (by simp)] at hu
    simp at hu
    subst hu
    rfl

/-- C72, for every sequence of attempts: however many wrong passwords are tried, the GUI asks again, nothing has changed, and a
password that opens the vault then brings up the menu. -/
theorem C72_attempts (vault : Bytes) (w : World) (x y : Nat) (hx : 2 ≤ x) (hy : 8 ≤ y) (hl : w.sess.isUnlocked = false)
    (hf : Session.Reachable C.env w.sess) (wrong : List (List Key))
    (hks : ∀ ks ∈ wrong, (∀ k ∈ ks, k ≠ .enter ∧ k ≠ .ctrlQ) ∧ Refuses C w (typedText K ks)) :
    ∃ s, run C K (.flush x y :: wrong.flatMap (fun ks => attemptKeys x y ks ++ dismiss x y)) (start vault w) = (.ok (), s) ∧
      Asking s ∧ s.world = w ∧
      ∀ ks sess, (∀ k ∈ ks, k ≠ .enter ∧ k ≠ .ctrlQ) →
        w.sess.unlock C.env (K.order s.opened) w.disk vault (typedText K ks) = .ret (.ok (), sess) →
        ∃ t, run C K (attemptKeys x y ks) s = (.ok (), t) ∧ t.cur = some (.live .menu) ∧ t.world.sess.isUnlocked = true ∧
          t.world.sess.items = sess.items := by
  have hfirst := first_run C K (vault := vault) hx hy hl
  have hinv := first_inv vault w x y hl
  have main : ∀ (wrong : List (List Key)) (s : St), Ready s → Kept vault w s →
      (∀ ks ∈ wrong, (∀ k ∈ ks, k ≠ .enter ∧ k ≠ .ctrlQ) ∧ Refuses C w (typedText K ks)) →
      ∃ t, run C K (wrong.flatMap (fun ks => attemptKeys x y ks ++ dismiss x y)) s = (.ok (), t) ∧ Ready t ∧ Kept vault w t ∧
        t.world = s.world := by
    intro wrong
    induction wrong with
    | nil => intro s hs hk _; exact ⟨s, rfl, hs, hk, rfl⟩
    | cons ks rest ih =>
      intro s hs hk hks
      obtain ⟨h1, h2⟩ := hks ks (by simp)
      obtain ⟨t, h3, h4, h5, h6⟩ := one_attempt C K hs hk hx hy ks h1 h2
      obtain ⟨u, h7, h8, h9, h10⟩ := ih t h4 h5 (fun k hk => hks k (by simp [hk]))
      refine ⟨u, ?_, h8, h9, h10.trans h6⟩
      rw [List.flatMap_cons, run_append C K _ _ _ h3, h7]
  obtain ⟨s, h1, h2, h3, h4⟩ := main wrong (firstSt vault w x y)
    ⟨hinv, rfl, rfl, by intro v hv; simp [firstSt] at hv; subst hv; rfl⟩ ⟨rfl, fun _ => nothing_held hf hl, rfl⟩ hks
  have ha := atPrompt_of h2.inv h2.cur
  obtain ⟨vm, hvm⟩ := h2.inv.frame.menu
  obtain ⟨vp, hvp⟩ := ha.prompt
  refine ⟨s, ?_, ⟨h2.cur, ⟨vp, hvp, h2.empty vp hvp⟩, ⟨vm, hvm, ha.empty vm hvm⟩, ha.error, ha.items, ha.details⟩, h4, ?_⟩
  · rw [run_cons, bind_ok (show step C K (.flush x y) (start vault w) = _ from hfirst)]
    exact h1
  · intro ks sess hks hu
    obtain ⟨t, v, g1, g2, g3, g4, g5, g6, g7, g8⟩ := typed_run C K h2 hx hy ks hks
    have hat := atPrompt_of g2 g3
    obtain ⟨vm', hvm'⟩ := g2.frame.menu
    have hatt : attemptUnlock C K t (entered v) = .ret (.ok (), sess) := by
      rw [attemptUnlock, g5, g6, g7, g8, h4, h3.vault]
      exact hu
    have hs := (press_bound C K (k := .enter) (by simp) g3 rfl).trans
      (unlock_accepted C K g4 g3 hvm' hatt (unlocked_of_ok hatt))
    refine ⟨filled C K { triedSt t v sess with cur := some (.live .menu) } vm', ?_, rfl, ?_, ?_⟩
    · rw [show attemptKeys x y ks = (ks.map .key ++ [.flush x y]) ++ [.key .enter] by simp [attemptKeys],
        run_append C K _ _ _ g1]
      exact run_one C K hs
    · have := unlocked_of_ok hatt
      show (sortCats C sess).isUnlocked = true
      unfold sortCats
      split <;> exact this
    · show (sortCats C sess).items = _
      unfold sortCats
      split <;> rfl

/-! ### C73 -/

theorem top_origin (v : View) : v.top.oy = 0 ∧ v.top.ox = if v.oy > 0 then v.ox else 0 := by
  unfold View.top
  by_cases h : v.oy > 0
  · simp [h]
  · simp only [h, if_false]
    exact ⟨Nat.eq_zero_of_not_pos h, trivial⟩

theorem detailed_origin (E : Env) (covered : Bool) (i : Option Item) (v : View) :
    (detailed E covered i v).oy = 0 ∧ (detailed E covered i v).ox = if v.oy > 0 then v.ox else 0 := by
  cases i with
  | none => exact top_origin v.clear
  | some i => exact top_origin v.clear

/-- The keys that show an item: moving to another one, TAB to reveal it, TAB to cover it. -/
def Shows (s t : St) (k : Key) : Prop :=
  (s.cur = some (.live .items) ∧ (s.itemIdx ≠ t.itemIdx ∨ k = .tab)) ∨ (s.cur = some (.live .details) ∧ k = .tab)

/-- Where the details pane is scrolled to after a key that shows an item: to the top; to the left only if it was at the top. -/
theorem C73_where (vault : Bytes) (w : World) (x y : Nat) (es : List Event) (s t : St) (k : Key) (h : Live C K vault w x y es s)
    (hs : step C K (.key k) s = (.ok (), t)) (hk : Shows s t k) (v v' : View) (hv : s.views .details = some v)
    (hv' : t.views .details = some v') : v'.oy = 0 ∧ v'.ox = if v.oy > 0 then v.ox else 0 := by
  obtain ⟨ht, _⟩ := inv_step C K (h.inv C K) hs
  have fromDetailed : ∀ c i (u : View), s.views .details = some u → t.views .details = some (detailed C.env c i u) →
      v'.oy = 0 ∧ v'.ox = if v.oy > 0 then v.ox else 0 := by
    intro c i u h1 h2
    rw [hv] at h1
    rw [hv'] at h2
    cases h1
    cases h2
    exact detailed_origin _ _ _ _
  generalize he : Event.key k = e at ht
  have hcur : s.cur = some (.live .items) ∨ s.cur = some (.live .details) := by
    rcases hk with hk | hk
    · exact .inl hk.1
    · exact .inr hk.1
  cases ht with
  | itemsDown k hk i u vi h hu hvi hi hl => exact fromDetailed true (s.itemAt (i + 1)) u hu (by simp [setAt])
  | itemsUp k hk i u vi h hu hvi hi hl => exact fromDetailed true (s.itemAt i) u hu (by simp [setAt])
  | reveal i u vh h hu hh hi hl => exact fromDetailed false (s.itemAt i) u hu (by simp [setAt])
  | cover u vh h hu hh => exact fromDetailed true s.item u hu (by simp [setAt])
  | back k hk o h => simp [closed, setAt] at hv'
  | lockItems o vm vh h hm hh => simp [lockedSt, closed, setAt] at hv'
  | scroll k hk' u x y h hu =>
    cases he
    rcases hk with hk | hk
    · rw [h.cur] at hk
      simp at hk
    · exact absurd hk.2 hk'.1
  | ignored k hi =>
    cases he
    rcases hk with ⟨h1, h2⟩ | ⟨h1, h2⟩
    · rcases h2 with h2 | h2
      · exact absurd rfl h2
      · subst h2
        obtain ⟨_, ⟨hc, _⟩ | ⟨hc, _⟩ | ⟨hc, _, _, _, _, hn⟩ | ⟨hc, _⟩⟩ := hi
        · rw [h1] at hc; cases hc
        · rw [h1] at hc; cases hc
        · exact absurd rfl hn
        · rw [h1] at hc; cases hc
    · subst h2
      obtain ⟨_, ⟨hc, _⟩ | ⟨hc, _⟩ | ⟨hc, _⟩ | ⟨hc, _, _, _, _, _, hn⟩⟩ := hi
      · rw [h1] at hc; cases hc
      · rw [h1] at hc; cases hc
      · rw [h1] at hc; cases hc
      · exact absurd rfl hn
  | typed k hk v h => rw [h.cur] at hcur; simp at hcur
  | refused v e sess h => rw [h.cur] at hcur; simp at hcur
  | accepted v vm sess h => rw [h.cur] at hcur; simp at hcur
  | closeError v h => rw [h.cur] at hcur; simp at hcur
  | menuDown k hk i v h => rw [h.cur] at hcur; simp at hcur
  | menuUp k hk i v h => rw [h.cur] at hcur; simp at hcur
  | openEntry k hk vh l h => rw [h.cur] at hcur; simp at hcur
  | lockMenu v vh h => rw [h.cur] at hcur; simp at hcur
  | flush => cases he
  | idle => cases he
  | checked => cases he
  | disk => cases he

/-- C73, for panes that are not scrolled both down and to the right: showing, revealing or covering an item shows it from its
top left corner. -/
theorem C73_reset_partial (vault : Bytes) (w : World) (x y : Nat) (es : List Event) (s t : St) (k : Key)
    (h : Live C K vault w x y es s) (hs : step C K (.key k) s = (.ok (), t)) (hk : Shows s t k) (v v' : View)
    (hv : s.views .details = some v) (hv' : t.views .details = some v') (ho : v.ox = 0 ∨ v.oy = 0) : v'.ox = 0 ∧ v'.oy = 0 := by
  obtain ⟨h1, h2⟩ := C73_where C K vault w x y es s t k h hs hk v v' hv hv'
  refine ⟨?_, h1⟩
  rw [h2]
  split
  · rcases ho with ho | ho
    · exact ho
    · omega
  · rfl

/-! ### Examples -/

namespace Demo

theorem live {x y : Nat} {d : Disk} {es : List Event} (h : (goOn x y d es).1 = .ok ()) :
    Live ctx kit b!"/a" (world d) x y es (goOn x y d es).2 := by
  refine ⟨(world_locked d).1, (world_locked d).2, ?_⟩
  show goOn x y d es = _
  rw [← h]

set_option maxRecDepth 20000

/-- C67: covered in the list, revealed by TAB, covered again by TAB. -/
example : text .details (go (disk b!"1234" b!"memo") (opening ++ [.key .enter, .flush 80 24])) =
    some [b!"Login", b!"------------------------------", b!"Mail", [], b!"Updated: 1970-01-01 00:00:06",
      b!"Created: 1970-01-01 00:00:05", b!"Trashed: false", [], b!"------------------------------", b!"Pin: **********", [],
      b!"Notes", b!"------------------------------", b!"**********", []] ∧
    text .details (go (disk b!"1234" b!"memo") (opening ++ [.key .enter, .key .tab, .flush 80 24])) =
    some [b!"Login", b!"------------------------------", b!"Mail", [], b!"Updated: 1970-01-01 00:00:06",
      b!"Created: 1970-01-01 00:00:05", b!"Trashed: false", [], b!"------------------------------", b!"Pin: 1234", [],
      b!"Notes", b!"------------------------------", b!"memo", []] ∧
    text .details (go (disk b!"1234" b!"memo") (opening ++ [.key .enter, .key .tab, .flush 80 24, .key .tab, .flush 80 24])) =
    text .details (go (disk b!"1234" b!"memo") (opening ++ [.key .enter, .flush 80 24])) := by decide +kernel

/-- C71: locked from the details pane. -/
example : let r := go (disk b!"1234" b!"memo") (opening ++ [.key .enter, .key .tab, .flush 80 24, .key .ctrlL, .flush 80 24])
    r.1 = .ok () ∧ text .details r = none ∧ text .items r = none ∧ text .menu r = some [] ∧ text .prompt r = some [] ∧
    r.2.world.sess.isUnlocked = false ∧ r.2.cur = some (.live .prompt) := by decide +kernel

/-- C72: a wrong password, the message, and the right password. -/
example : let r := go (disk b!"1234" b!"memo") (keys b!"guess" ++ [.flush 80 24, .key .enter, .flush 80 24])
    text .error r = some [Err.invalidPass.text] ∧ text .prompt r = none ∧ r.2.cur = some (.live .error) := by decide +kernel
example : text .menu (go (disk b!"1234" b!"memo")
      (attemptKeys 80 24 [.ch 120, .ch 121] ++ dismiss 80 24 ++ (attemptKeys 80 24 [] ++ dismiss 80 24) ++ opening)) =
    some [b!"All (2)", b!"Login (1)", b!"Credit Card (1)", b!"Trashed (1)"] := by decide +kernel

/-- Item revealed, scrolled right and down. -/
def scrolled : List Event := opening ++ [.key .enter, .key .tab, .key .right, .key .down]

end Demo

/-- C73: after scrolling both right and down, covering the item leaves the pane scrolled to the right. -/
theorem C73_refuted : ¬ ∀ (C : Ctx) (K : Kit) (vault : Bytes) (w : World) (x y : Nat) (es : List Event) (s t : St) (k : Key),
    Live C K vault w x y es s → step C K (.key k) s = (.ok (), t) → Shows s t k → ∀ v v', s.views .details = some v →
      t.views .details = some v' → v'.ox = 0 ∧ v'.oy = 0 := by
  intro h
  have hl := Demo.live (x := 80) (y := 24) (d := Demo.disk b!"1234" []) (es := Demo.scrolled) (by decide +kernel)
  generalize hs : (Demo.goOn 80 24 (Demo.disk b!"1234" []) Demo.scrolled).2 = s at hl
  have h1 : (step Demo.ctx Demo.kit (.key .tab) s).1 = .ok () := by rw [← hs]; decide +kernel
  have h2 : s.cur = some (.live .details) := by rw [← hs]; decide +kernel
  have h3 : (s.views .details).isSome = true ∧
      (((step Demo.ctx Demo.kit (.key .tab) s).2.views .details).map (·.ox)) = some 1 := by rw [← hs]; decide +kernel
  have hst : step Demo.ctx Demo.kit (.key .tab) s = (.ok (), (step Demo.ctx Demo.kit (.key .tab) s).2) := by rw [← h1]
  cases hv : s.views .details with
  | none => rw [hv] at h3; simp at h3
  | some v =>
    cases hv' : (step Demo.ctx Demo.kit (.key .tab) s).2.views .details with
    | none => rw [hv'] at h3; simp at h3
    | some v' =>
      have := (h _ _ _ _ _ _ _ s _ .tab hl hst (.inr ⟨h2, rfl⟩) v v' hv hv').1
      have h4 := h3.2
      rw [hv'] at h4
      simp only [Option.map_some, Option.some.injEq] at h4
      omega

end Gui
end OnePass
