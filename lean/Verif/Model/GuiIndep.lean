/-
Keys and drawings do not look at what the background check changes: the version line, whether the check is
running, the state of the system calls.
-/
import Verif.Model.GuiSteps

set_option linter.unusedSimpArgs false

namespace OnePass
namespace Gui
open Act

/-- What the background check can change. -/
structure Bg where
  pending : Bool
  disk : Disk
  log : List Ev
  tick : Nat
  line : View

/-- The state with that part replaced. -/
def upd (D : Bg) (s : St) : St :=
  { s with
    pending := D.pending, world := { s.world with disk := D.disk, log := D.log, tick := D.tick },
    views := setAt s.views .ver (some D.line) }

/-- What the GUI itself leaves alone. -/
def Same (s t : St) : Prop :=
  t.world = { s.world with sess := t.world.sess } ∧ t.vault = s.vault ∧ t.pending = s.pending ∧
  t.views .ver = s.views .ver

theorem Same.refl (s : St) : Same s s := ⟨rfl, rfl, rfl, rfl⟩

theorem Same.trans {s t u : St} (h : Same s t) (h' : Same t u) : Same s u :=
  ⟨by rw [h'.1, h.1], h'.2.1.trans h.2.1, h'.2.2.1.trans h.2.2.1, h'.2.2.2.trans h.2.2.2⟩

theorem Same.disk {s t : St} (h : Same s t) : t.world.disk = s.world.disk := by rw [h.1]

/-- A piece of the GUI does the same with that part replaced, and leaves it alone. -/
def Indep (D : Bg) (d : Disk) (vault : Bytes) {α : Type} (m : Act α) : Prop :=
  ∀ s, s.world.disk = d → s.vault = vault →
    m (upd D s) = ((m s).1, upd D (m s).2) ∧ Same s (m s).2

variable {D : Bg} {d : Disk} {vault : Bytes}

theorem indep_pure {α : Type} (a : α) : Indep D d vault (Act.pure a) := fun s _ _ => ⟨rfl, Same.refl s⟩
theorem indep_fail {α : Type} (e : Stop) : Indep D d vault (fail e : Act α) := fun s _ _ => ⟨rfl, Same.refl s⟩
theorem indep_panic {α : Type} : Indep D d vault (Act.panic : Act α) := fun s _ _ => ⟨rfl, Same.refl s⟩

theorem indep_bind {α β : Type} {m : Act α} {f : α → Act β} (hm : Indep D d vault m) (hf : ∀ a, Indep D d vault (f a)) :
    Indep D d vault (m >>= f) := by
  intro s h1 h2
  obtain ⟨e1, e2⟩ := hm s h1 h2
  rw [bind_run, bind_run, e1]
  rcases hr : m s with ⟨r, t⟩
  rw [hr] at e2
  cases r with
  | ok a =>
    obtain ⟨e3, e4⟩ := hf a t (e2.disk.trans h1) (e2.2.1.trans h2)
    exact ⟨e3, e2.trans e4⟩
  | err e => exact ⟨rfl, e2⟩
  | panic => exact ⟨rfl, e2⟩
  | fatal => exact ⟨rfl, e2⟩

/-- After looking at the state. -/
theorem indep_get {β : Type} {f : St → Act β} (h : ∀ s, s.world.disk = d → s.vault = vault → f (upd D s) = f s)
    (hf : ∀ s, Indep D d vault (f s)) : Indep D d vault (Act.get >>= f) := by
  intro s h1 h2
  rw [get_bind, get_bind, h s h1 h2]
  exact hf s s h1 h2

theorem indep_modify {f : St → St} (h : ∀ s, f (upd D s) = upd D (f s)) (hs : ∀ s, Same s (f s)) : Indep D d vault (modify f) :=
  fun s _ _ => ⟨by rw [modify_run, modify_run, h], hs s⟩

theorem indep_attempt {α : Type} {m : Act α} (hm : Indep D d vault m) : Indep D d vault (attempt m) := by
  intro s h1 h2
  obtain ⟨e1, e2⟩ := hm s h1 h2
  unfold attempt
  rw [e1]
  rcases hr : m s with ⟨r, t⟩
  rw [hr] at e2
  cases r <;> exact ⟨rfl, e2⟩

theorem upd_views {n : Name} (hn : n ≠ .ver) (s : St) : (upd D s).views n = s.views n := setAt_ne _ _ hn

theorem setAt_swap (vs : Name → Option View) {n m : Name} (h : n ≠ m) (a b : Option View) :
    setAt (setAt vs n a) m b = setAt (setAt vs m b) n a := by
  funext k
  simp only [setAt]
  by_cases h1 : k = n
  · by_cases h2 : k = m
    · exact absurd (h1.symm.trans h2) h
    · simp [h1, h]
  · simp [h1]

theorem upd_set {n : Name} (hn : n ≠ .ver) (s : St) (v : Option View) :
    { upd D s with views := setAt (upd D s).views n v } = upd D { s with views := setAt s.views n v } := by
  simp only [upd]
  rw [setAt_swap _ (fun h => hn h.symm)]

theorem same_set {n : Name} (hn : n ≠ .ver) (s : St) (v : Option View) : Same s { s with views := setAt s.views n v } :=
  ⟨rfl, rfl, rfl, setAt_ne _ _ (fun h => hn h.symm)⟩

theorem indep_viewOf {n : Name} (hn : n ≠ .ver) : Indep D d vault (viewOf n) := by
  intro s _ _
  simp only [viewOf, upd_views hn]
  cases s.views n <;> exact ⟨rfl, Same.refl s⟩

/-- The pointers the widgets use. -/
def Usual (r : Ref) : Prop := r.name ≠ .ver

theorem indep_viewOf_bind {β : Type} {n : Name} {f : Ref → Act β} (hn : n ≠ .ver) (hf : Indep D d vault (f (.live n))) :
    Indep D d vault (viewOf n >>= f) := by
  intro s h1 h2
  obtain ⟨e1, e2⟩ := indep_viewOf hn (D := D) s h1 h2
  rw [bind_run, bind_run, e1]
  simp only [viewOf]
  cases hv : s.views n with
  | none => exact ⟨rfl, Same.refl s⟩
  | some v => exact hf s h1 h2

theorem upd_deref {r : Ref} (h : Usual r) (s : St) : (upd D s).deref r = s.deref r := by
  cases r with
  | live n => simp only [St.deref, upd_views (show n ≠ .ver from h)]; rfl
  | gone n => rfl

theorem indep_look {β : Type} {r : Ref} {f : View → Act β} (h : Usual r) (hf : ∀ v, Indep D d vault (f v)) :
    Indep D d vault (look r >>= f) := by
  intro s h1 h2
  rw [look_bind, look_bind, upd_deref h]
  exact hf _ s h1 h2

theorem indep_change {r : Ref} (h : Usual r) (f : View → View) : Indep D d vault (change r f) := by
  unfold change
  cases r with
  | live n =>
    refine indep_modify (fun s => ?_) (fun s => same_set h s _)
    dsimp only
    rw [upd_views (show n ≠ .ver from h)]
    exact upd_set h s _
  | gone n => exact indep_modify (fun s => rfl) (fun s => ⟨rfl, rfl, rfl, rfl⟩)

theorem indep_setView {n : Name} (hn : n ≠ .ver) (x0 y0 x1 y1 : Int) (a : Attr) : Indep D d vault (setView n x0 y0 x1 y1 a) := by
  intro s _ _
  simp only [setView]
  by_cases hb : x0 ≥ x1 ∨ y0 ≥ y1
  · simp only [hb, if_true]; exact ⟨trivial, Same.refl s⟩
  · simp only [hb, if_false, upd_views hn]
    cases s.views n with
    | none => exact ⟨by dsimp only; rw [upd_set hn], same_set hn s _⟩
    | some v => exact ⟨by dsimp only; rw [upd_set hn], same_set hn s _⟩

theorem indep_setCurrentView {n : Name} (hn : n ≠ .ver) : Indep D d vault (setCurrentView n) := by
  intro s _ _
  simp only [setCurrentView, upd_views hn]
  cases s.views n with
  | none => exact ⟨rfl, Same.refl s⟩
  | some v => exact ⟨rfl, rfl, rfl, rfl, rfl⟩

theorem indep_deleteView {n : Name} (hn : n ≠ .ver) : Indep D d vault (deleteView n) := by
  intro s _ _
  simp only [deleteView, upd_views hn]
  cases s.views n with
  | none => exact ⟨rfl, Same.refl s⟩
  | some v =>
    dsimp only
    by_cases hc : s.cur = some (.live n)
    · have hc' : (upd D s).cur = some (.live n) := hc
      simp only [hc, hc', if_true]
      refine ⟨?_, (same_set hn s none)⟩
      simp only [upd]
      rw [setAt_swap _ (fun h => hn h.symm)]
    · have hc' : ¬ (upd D s).cur = some (.live n) := hc
      simp only [hc, hc', if_false]
      exact ⟨by rw [upd_set hn], same_set hn s none⟩

theorem indep_ite {α : Type} {p : Prop} [Decidable p] {a b : Act α} (ha : Indep D d vault a) (hb : Indep D d vault b) :
    Indep D d vault (if p then a else b) := by
  split
  · exact ha
  · exact hb

theorem indep_setCursor {r : Ref} (h : Usual r) (x y : Int) : Indep D d vault (setCursor r x y) :=
  indep_look h fun _ => indep_ite (indep_fail _) (indep_change h _)

theorem indep_setOrigin {r : Ref} (h : Usual r) (x y : Int) : Indep D d vault (setOrigin r x y) :=
  indep_ite (indep_fail _) (indep_change h _)

theorem usual_live {n : Name} (h : n ≠ .ver) : Usual (.live n) := h

theorem indep_helpUpdate : Indep D d vault helpUpdate :=
  indep_viewOf_bind (by decide) (indep_get (fun _ _ _ => rfl) fun _ => indep_change (usual_live (by decide)) _)

theorem indep_setHelp (h : List Bytes) : Indep D d vault (setHelp h) :=
  indep_bind (indep_modify (fun _ => rfl) (fun _ => ⟨rfl, rfl, rfl, rfl⟩)) fun _ => indep_helpUpdate

theorem indep_helpLayout : Indep D d vault helpLayout :=
  indep_get (fun _ _ _ => rfl) fun _ => indep_bind (indep_setView (by decide) _ _ _ _ _) fun new => by
    cases new with
    | true => exact indep_bind (indep_attempt indep_helpUpdate) fun _ => indep_pure _
    | false => exact indep_pure _

theorem indep_promptLayout : Indep D d vault promptLayout :=
  indep_get (fun _ _ _ => rfl) fun _ => indep_bind (indep_setView (by decide) _ _ _ _ _) fun new => by
    cases new with
    | true =>
      exact indep_bind (indep_modify (fun _ => rfl) (fun _ => ⟨rfl, rfl, rfl, rfl⟩)) fun _ => indep_setCurrentView (by decide)
    | false => exact indep_pure _

theorem indep_errorLayout : Indep D d vault errorLayout :=
  indep_get (fun _ _ _ => rfl) fun _ => indep_bind (indep_setView (by decide) _ _ _ _ _) fun new => by
    cases new with
    | true => exact indep_bind (indep_setCurrentView (by decide)) fun _ => indep_change (usual_live (by decide)) _
    | false => exact indep_pure _

theorem indep_resetOrigin {r : Ref} (h : Usual r) : Indep D d vault (resetOrigin r) :=
  indep_look h fun _ => indep_ite
    (indep_bind (indep_setOrigin h _ _) fun _ => indep_ite (indep_setOrigin h _ _) (indep_pure _))
    (indep_bind (indep_pure _) fun _ => indep_ite (indep_setOrigin h _ _) (indep_pure _))

theorem indep_scrollDown {r : Ref} (h : Usual r) : Indep D d vault (scrollDown r) := indep_look h fun _ => indep_setOrigin h _ _
theorem indep_scrollRight {r : Ref} (h : Usual r) : Indep D d vault (scrollRight r) := indep_look h fun _ => indep_setOrigin h _ _
theorem indep_scrollLeft {r : Ref} (h : Usual r) : Indep D d vault (scrollLeft r) :=
  indep_look h fun _ => indep_ite (indep_setOrigin h _ _) (indep_pure _)
theorem indep_scrollUp {r : Ref} (h : Usual r) : Indep D d vault (scrollUp r) :=
  indep_look h fun _ => indep_ite (indep_setOrigin h _ _) (indep_pure _)

variable (C : Ctx) (K : Kit)

theorem indep_detailsUpdate (covered : Bool) : Indep D d vault (detailsUpdate C covered) :=
  indep_viewOf_bind (by decide) <| indep_bind (indep_change (usual_live (by decide)) _) fun _ =>
    indep_bind (indep_resetOrigin (usual_live (by decide))) fun _ => indep_get (fun _ _ _ => rfl) fun s => by
      cases s.item with
      | none => exact indep_pure _
      | some i => exact indep_change (usual_live (by decide)) _

theorem indep_cover : Indep D d vault (cover C) :=
  indep_bind (indep_detailsUpdate C true) fun _ => indep_bind (indep_setCurrentView (by decide)) fun _ => indep_setHelp _

theorem indep_detailsLayout : Indep D d vault detailsLayout :=
  indep_get (fun _ _ _ => rfl) fun _ => indep_bind (indep_setView (by decide) _ _ _ _ _) fun _ => indep_pure _

theorem indep_rowDown {r : Ref} (h : Usual r) : Indep D d vault (rowDown r) :=
  indep_look h fun _ => indep_bind (indep_attempt (indep_setCursor h _ _)) fun _ => indep_ite (indep_pure _) (indep_setOrigin h _ _)

theorem indep_rowUp {r : Ref} (h : Usual r) : Indep D d vault (rowUp r) :=
  indep_look h fun _ => indep_bind (indep_attempt (indep_setCursor h _ _)) fun _ =>
    indep_ite (indep_pure _) (indep_ite (indep_setOrigin h _ _) (indep_pure _))

theorem indep_resetCursor {r : Ref} (h : Usual r) : Indep D d vault (resetCursor r) :=
  indep_look h fun _ => indep_bind (indep_attempt (indep_setCursor h _ _)) fun _ =>
    indep_ite (indep_pure _) (indep_ite (indep_setOrigin h _ _) (indep_pure _))

theorem indep_fetch : Indep D d vault fetch :=
  indep_get (fun _ _ _ => rfl) fun s => indep_ite indep_panic <| by
    cases s.items[s.itemIdx.toNat]? with
    | none => exact indep_panic
    | some i => exact indep_modify (fun _ => rfl) (fun _ => ⟨rfl, rfl, rfl, rfl⟩)

theorem indep_showOverview : Indep D d vault (showOverview C) :=
  indep_bind indep_fetch fun _ => indep_detailsUpdate C true

theorem indep_reveal : Indep D d vault (reveal C) :=
  indep_bind indep_fetch fun _ => indep_bind (indep_detailsUpdate C false) fun _ =>
    indep_bind (indep_setCurrentView (by decide)) fun _ => indep_setHelp _

theorem indep_itemsDown {r : Ref} (h : Usual r) : Indep D d vault (itemsDown C r) :=
  indep_get (fun _ _ _ => rfl) fun _ => indep_ite
    (indep_bind (indep_rowDown h) fun _ => indep_bind (indep_modify (fun _ => rfl) (fun _ => ⟨rfl, rfl, rfl, rfl⟩)) fun _ =>
      indep_showOverview C) (indep_pure _)

theorem indep_itemsUp {r : Ref} (h : Usual r) : Indep D d vault (itemsUp C r) :=
  indep_get (fun _ _ _ => rfl) fun _ => indep_ite
    (indep_bind (indep_rowUp h) fun _ => indep_bind (indep_modify (fun _ => rfl) (fun _ => ⟨rfl, rfl, rfl, rfl⟩)) fun _ =>
      indep_showOverview C) (indep_pure _)

theorem indep_goBack : Indep D d vault goBack :=
  indep_bind (indep_deleteView (by decide)) fun _ => indep_bind (indep_deleteView (by decide)) fun _ =>
    indep_setCurrentView (by decide)

theorem indep_itemsUpdate : Indep D d vault (itemsUpdate C) :=
  indep_viewOf_bind (by decide) <| indep_bind (indep_modify (fun _ => rfl) (fun _ => ⟨rfl, rfl, rfl, rfl⟩)) fun _ =>
    indep_bind (indep_resetCursor (usual_live (by decide))) fun _ =>
    indep_bind (indep_change (usual_live (by decide)) _) fun _ => indep_get (fun _ _ _ => rfl) fun _ =>
    indep_ite (indep_bind (indep_change (usual_live (by decide)) _) fun _ =>
      indep_bind (indep_modify (fun _ => rfl) (fun _ => ⟨rfl, rfl, rfl, rfl⟩)) fun _ => indep_showOverview C) (indep_pure _)

theorem indep_itemsLayout : Indep D d vault (itemsLayout C) :=
  indep_get (fun _ _ _ => rfl) fun _ => indep_bind (indep_setView (by decide) _ _ _ _ _) fun new => by
    cases new with
    | true =>
      exact indep_bind (indep_attempt (indep_itemsUpdate C)) fun _ => indep_bind indep_detailsLayout fun _ =>
        indep_bind (indep_setCurrentView (by decide)) fun _ => indep_setHelp _
    | false => exact indep_pure _

theorem indep_menuDown {r : Ref} (h : Usual r) : Indep D d vault (menuDown r) :=
  indep_get (fun _ _ _ => rfl) fun _ => indep_ite
    (indep_bind (indep_rowDown h) fun _ => indep_modify (fun _ => rfl) (fun _ => ⟨rfl, rfl, rfl, rfl⟩)) (indep_pure _)

theorem indep_menuUp {r : Ref} (h : Usual r) : Indep D d vault (menuUp r) :=
  indep_get (fun _ _ _ => rfl) fun _ => indep_ite
    (indep_bind (indep_rowUp h) fun _ => indep_modify (fun _ => rfl) (fun _ => ⟨rfl, rfl, rfl, rfl⟩)) (indep_pure _)

theorem indep_menuFill : Indep D d vault (menuFill C K) :=
  indep_viewOf_bind (by decide) <| indep_bind (indep_modify (fun _ => rfl) (fun _ => ⟨rfl, rfl, rfl, rfl⟩)) fun _ =>
    indep_get (fun _ _ _ => rfl) fun _ => indep_bind (indep_change (usual_live (by decide)) _) fun _ =>
    indep_bind (indep_modify (fun _ => rfl) (fun _ => ⟨rfl, rfl, rfl, rfl⟩)) fun _ =>
    indep_modify (fun s => by
      by_cases h : s.cats.length > 0
      · simp only [upd, h, if_true]
      · simp only [upd, h, if_false]) (fun s => by
      by_cases h : s.cats.length > 0
      · simp only [h, if_true]; exact ⟨rfl, rfl, rfl, rfl⟩
      · simp only [h, if_false]; exact Same.refl s)

theorem indep_menuUpdate : Indep D d vault (menuUpdate C K) :=
  indep_get (fun _ _ _ => rfl) fun _ => indep_ite (indep_menuFill C K) indep_promptLayout

theorem indep_lock {r : Ref} (h : Usual r) : Indep D d vault (lock C K r) :=
  indep_bind (indep_modify (fun _ => rfl) (fun _ => ⟨rfl, rfl, rfl, rfl⟩)) fun _ => indep_bind (indep_resetCursor h) fun _ =>
    indep_bind (indep_change h _) fun _ => indep_bind (indep_menuUpdate C K) fun _ => indep_setHelp _

theorem indep_itemsLock : Indep D d vault (itemsLock C K) :=
  indep_bind indep_goBack fun _ => indep_viewOf_bind (by decide) (indep_lock C K (usual_live (by decide)))

theorem indep_closeError : Indep D d vault (closeError C K) :=
  indep_bind (indep_deleteView (by decide)) fun _ => indep_menuUpdate C K

/-- Opening the vault gives the same on both disks. -/
def SameVault (D : Bg) (d : Disk) (vault : Bytes) : Prop :=
  ∀ (O : MapOrder) (s : Session) (p : Bytes), s.unlock C.env O D.disk vault p = s.unlock C.env O d vault p

theorem indep_tryUnlock (hv : SameVault C D d vault) (p : Bytes) : Indep D d vault (tryUnlock C K p) := by
  intro s h1 h2
  simp only [tryUnlock, get_bind, modify_bind, onWorld, Cli.onSession]
  have e : (upd D s).world.sess.unlock C.env (K.order (upd D s).opened) (upd D s).world.disk (upd D s).vault p =
      s.world.sess.unlock C.env (K.order s.opened) s.world.disk s.vault p := by
    rw [h1]
    exact h2 ▸ hv _ _ _
  rw [e]
  cases s.world.sess.unlock C.env (K.order s.opened) s.world.disk s.vault p with
  | ret x => exact ⟨rfl, rfl, rfl, rfl, rfl⟩
  | panic => exact ⟨rfl, rfl, rfl, rfl, rfl⟩
  | fatal => exact ⟨rfl, rfl, rfl, rfl, rfl⟩

theorem indep_unlock (hv : SameVault C D d vault) {r : Ref} (h : Usual r) : Indep D d vault (unlock C K r) :=
  indep_look h fun _ => indep_bind (indep_deleteView (by decide)) fun _ => indep_bind (indep_tryUnlock C K hv _) fun x => by
    cases x with
    | error e =>
      exact indep_bind (indep_modify (fun _ => rfl) (fun _ => ⟨rfl, rfl, rfl, rfl⟩)) fun _ => indep_errorLayout
    | ok _ => exact indep_bind (indep_setCurrentView (by decide)) fun _ => indep_menuUpdate C K

theorem indep_showItems : Indep D d vault (showItems C) :=
  indep_get (fun _ _ _ => rfl) fun _ => indep_ite
    (indep_bind (indep_itemsLayout C) fun _ => indep_get (fun _ _ _ => rfl) fun s => by
      cases entryItems C s with
      | none => exact indep_panic
      | some l =>
        exact indep_bind (indep_modify (fun _ => rfl) (fun _ => ⟨rfl, rfl, rfl, rfl⟩)) fun _ => indep_itemsUpdate C)
    (indep_pure _)

theorem indep_menuLayout : Indep D d vault (menuLayout C K) :=
  indep_get (fun _ _ _ => rfl) fun _ => indep_bind (indep_setView (by decide) _ _ _ _ _) fun new => by
    cases new with
    | true =>
      exact indep_bind (indep_setCurrentView (by decide)) fun _ => indep_bind (indep_menuUpdate C K) fun _ => indep_setHelp _
    | false => exact indep_pure _

theorem indep_ite_some {p : Prop} [Decidable p] {a b : Act Unit} {o : Option (Act Unit)} (h : (if p then some a else o) = some b)
    (ha : Indep D d vault a) (ho : o = some b → Indep D d vault b) : Indep D d vault b := by
  split at h
  · cases h; exact ha
  · exact ho h

theorem indep_binding (hv : SameVault C D d vault) {r : Ref} {k : Key} {a : Act Unit} (h : binding C K r.name k r = some a)
    (hr : Usual r) : Indep D d vault a := by
  unfold binding at h
  split at h
  · exact indep_ite_some h (indep_closeError C K) (fun h => by cases h)
  · exact indep_ite_some h (indep_unlock C K hv hr) (fun h => by cases h)
  · refine indep_ite_some h (indep_itemsLock C K) fun h => ?_
    refine indep_ite_some h (indep_scrollDown hr) fun h => ?_
    refine indep_ite_some h (indep_scrollUp hr) fun h => ?_
    refine indep_ite_some h (indep_scrollRight hr) fun h => ?_
    refine indep_ite_some h (indep_scrollLeft hr) fun h => ?_
    exact indep_ite_some h (indep_cover C) (fun h => by cases h)
  · refine indep_ite_some h (indep_itemsLock C K) fun h => ?_
    refine indep_ite_some h indep_goBack fun h => ?_
    refine indep_ite_some h (indep_itemsDown C hr) fun h => ?_
    refine indep_ite_some h (indep_itemsUp C hr) fun h => ?_
    exact indep_ite_some h (indep_reveal C) (fun h => by cases h)
  · refine indep_ite_some h (indep_lock C K hr) fun h => ?_
    refine indep_ite_some h (indep_menuDown hr) fun h => ?_
    refine indep_ite_some h (indep_menuUp hr) fun h => ?_
    exact indep_ite_some h (indep_showItems C) (fun h => by cases h)
  · cases h

theorem indep_typeKey (k : Key) {r : Ref} (h : Usual r) : Indep D d vault (typeKey K k r) :=
  indep_bind (indep_modify (fun _ => rfl) (fun _ => ⟨rfl, rfl, rfl, rfl⟩)) fun _ => indep_get (fun _ _ _ => rfl) fun _ =>
    indep_change h _

theorem indep_press (hv : SameVault C D d vault) (k : Key) : Indep D d vault (press C K k) := by
  refine indep_get (fun _ _ _ => rfl) fun s => indep_ite (indep_fail _) ?_
  cases s.cur with
  | none => exact indep_pure _
  | some r =>
    dsimp only
    by_cases hr : Usual r
    · cases hb : binding C K r.name k r with
      | none => exact indep_ite (indep_typeKey K k hr) (indep_pure _)
      | some a => exact indep_binding C K hv hb hr
    · have hn : r.name = .ver := not_not.1 hr
      have hb : binding C K r.name k r = none := by rw [hn]; rfl
      rw [hb]
      simp only [hn]
      exact indep_pure _

/-- The version line after a layout and a drawing. -/
def redrawn (x : Nat) (v : View) : View := View.draw { v with x0 := 0, y0 := 0, x1 := (x : Int) - 1, y1 := 2 }

/-- After laying out everything below the version line. -/
def restLayout : Act Unit := do
  helpLayout
  menuLayout C K

theorem indep_restLayout : Indep D d vault (restLayout C K) := indep_bind indep_helpLayout fun _ => indep_menuLayout C K

theorem flush_line {s : St} {v : View} (h : s.views .ver = some v) (x y : Nat) :
    flush C K x y s =
      if x < 2 then (.err .dimensions, { s with maxX := x, maxY := y })
      else
        match restLayout C K { s with
          maxX := x, maxY := y, views := setAt s.views .ver (some { v with x0 := 0, y0 := 0, x1 := (x : Int) - 1, y1 := 2 }) } with
        | (.ok _, t) => (.ok (), { t with views := fun n => (t.views n).map View.draw, typed := t.typed ++ [none] })
        | (.err e, t) => (.err e, t)
        | (.panic, t) => (.panic, t)
        | (.fatal, t) => (.fatal, t) := by
  simp only [flush, modify_bind]
  have hv : ({ s with maxX := (x : Int), maxY := (y : Int) } : St).views .ver = some v := h
  by_cases hx : x < 2
  · simp only [hx, if_true]
    exact bind_err (by
      simp only [verLayout, get_bind]
      exact bind_err (setView_bad (by left; show (0 : Int) ≥ (x : Int) - 1; omega)))
  · simp only [hx, if_false]
    rw [bind_ok (show verLayout _ = _ by
      simp only [verLayout, get_bind]
      rw [bind_ok (setView_old hv (by show (0 : Int) < (x : Int) - 1; omega) (by omega))]
      rfl)]
    simp only [restLayout]
    rw [bind_run helpLayout, bind_run helpLayout]
    generalize helpLayout _ = q
    rcases q with ⟨r, t⟩
    cases r with
    | ok a =>
      dsimp only
      rw [bind_run]
      rcases menuLayout C K t with ⟨r', t'⟩
      cases r' <;> rfl
    | err e => rfl
    | panic => rfl
    | fatal => rfl

end Gui
end OnePass
