/-
C148 for the GUI: another order of maps, another way to sort, the same screens.
-/
import Verif.Props.Repeat
import Verif.Props.GuiCheck

set_option linter.unusedSimpArgs false

namespace OnePass

namespace Session

/-- The category and the title tell the items of a list apart. -/
def Apart (s : Session) : Prop :=
  ∀ i ∈ held s, ∀ j ∈ held s, i.category = j.category → i.title = j.title → i.trashed = j.trashed → i = j

/-- Two sessions that hold the same, in any order; with the flag, the items are told apart. -/
structure Good (d : Bool) (a b : Session) : Prop where
  near : Near a b
  left : Session.Inv a
  right : Session.Inv b
  some : b.items.isSome = a.items.isSome
  apart : d = true → Apart a

theorem Good.weaken {d e : Bool} {a b : Session} (h : Good d a b) (hd : e = true → d = true) : Good e a b :=
  ⟨h.near, h.left, h.right, h.some, fun he => h.apart (hd he)⟩

/-- The same end, and sessions that hold the same items. -/
def Meet {α : Type} (x y : Out (α × Session)) : Prop :=
  (∃ r a b, x = .ret (r, a) ∧ y = .ret (r, b) ∧ b.keys = a.keys ∧ b.profile = a.profile ∧ b.reg = a.reg ∧ (held b).Perm (held a) ∧
    b.items.isSome = a.items.isSome) ∨ (∀ z, x ≠ .ret z) ∧ y = x

theorem Meet.bind {α β : Type} (m : Out β) {f g : β → Out (α × Session)} (h : ∀ a, Meet (f a) (g a)) : Meet (m >>= f) (m >>= g) := by
  cases m with
  | ret a => exact h a
  | panic => exact .inr ⟨nofun, rfl⟩
  | fatal => exact .inr ⟨nofun, rfl⟩

theorem Meet.end_ {α : Type} {x : Out (α × Session)} (h : ∀ z, x ≠ .ret z) : Meet x x := .inr ⟨h, rfl⟩

theorem meet_decode (E : Env) (O O' : MapOrder) (d : Disk) (v : Bytes) (keys : Keys) {a b : Session} (hk : b.keys = a.keys)
    (hp : b.profile = a.profile) (hr : b.reg = a.reg) (hh : (held b).Perm (held a)) (hs : b.items.isSome = a.items.isSome) :
    Meet (decodeItems E O d v keys a >>= fun s' => pure (Except.ok (ε := Err) (), s'))
      (decodeItems E O' d v keys b >>= fun s' => pure (Except.ok (), s')) := by
  unfold decodeItems
  rw [hr]
  rcases loadItems_order E O O' d v with ⟨raw, raw', l1, l2, l3⟩ | ⟨l1, l2⟩
  · rw [l1, l2]
    rcases decodeItems_order E O O' a.reg keys l3 with ⟨x, y, k1, k2, k3⟩ | ⟨k1, k2⟩
    · refine .inl ⟨.ok (), { a with items := Repo.storeItems a.items x }, { b with items := Repo.storeItems b.items y }, ?_, ?_,
        hk, hp, hr, ?_, ?_⟩
      · simp only [Out.ret_bind, k1, Out.pure_eq]
      · simp only [Out.ret_bind, k2, Out.pure_eq, hr]
      · unfold held Repo.storeItems at *
        cases ha : a.items with
        | none =>
          have hb : b.items = none := by
            rw [ha] at hs
            cases hb : b.items with
            | none => rfl
            | some l => rw [hb] at hs; cases hs
          rw [hb]
          exact k3.symm
        | some l =>
          rw [ha] at hs hh
          obtain ⟨m, hm⟩ := Option.isSome_iff_exists.1 hs
          rw [hm] at hh ⊢
          exact hh
      · simp only [Repo.storeItems]
        cases a.items <;> cases b.items <;> rfl
    · simp only [Out.ret_bind, k1, k2, Out.panic_bind]
      exact .end_ nofun
  · rw [l2]
    cases hl : Repo.loadItems E O d v with
    | ret a => exact absurd hl (l1 a)
    | panic => simp only [Out.panic_bind]; exact .end_ nofun
    | fatal => simp only [Out.fatal_bind]; exact .end_ nofun

theorem meet_unlock (E : Env) (O O' : MapOrder) (d : Disk) (v p : Bytes) {a b : Session} {f : Bool} (h : Good f a b) :
    Meet (unlock E O d v p a) (unlock E O' d v p b) := by
  have hsame : ∀ r : Except Err Unit, Meet (pure (r, a)) (pure (r, b)) := fun r =>
    .inl ⟨r, a, b, rfl, rfl, h.near.keys, h.near.profile, h.near.reg, h.near.held, h.some⟩
  unfold unlock
  rw [h.near.profile]
  refine Meet.bind _ fun r1 => ?_
  split
  · exact hsame _
  refine Meet.bind _ fun r2 => ?_
  split
  · exact hsame _
  refine Meet.bind _ fun r3 => ?_
  split
  · exact hsame _
  · dsimp only
    refine meet_decode E O O' d v _ ?_ ?_ ?_ ?_ ?_
    · rfl
    · rfl
    · exact h.near.reg
    · exact h.near.held
    · exact h.some

theorem near_of {a b : Session} (ha : Session.Inv a) (hb : Session.Inv b) (hk : b.keys = a.keys) (hp : b.profile = a.profile)
    (hr : b.reg = a.reg) (hh : (held b).Perm (held a)) : Near a b :=
  ⟨hk, hp, hr, hh, fun uid trashed => Option.ext fun i => by rw [inv_lookup ha, inv_lookup hb, hh.mem_iff]⟩

theorem good_unlock (E : Env) (O O' : MapOrder) (d : Disk) (v p : Bytes) {a b : Session} {f : Bool} (h : Good f a b) :
    (∃ r x y, unlock E O d v p a = .ret (r, x) ∧ unlock E O' d v p b = .ret (r, y) ∧ Good false x y) ∨
      (∀ z, unlock E O d v p a ≠ .ret z) ∧ unlock E O' d v p b = unlock E O d v p a := by
  rcases meet_unlock E O O' d v p h with ⟨r, x, y, h1, h2, k1, k2, k3, k4, k5⟩ | h
  · have i1 := inv_unlock h.left h1
    have i2 := inv_unlock h.right h2
    exact .inl ⟨r, x, y, h1, h2, near_of i1 i2 k1 k2 k3 k4, i1, i2, k5, nofun⟩
  · exact .inr h

theorem inv_lock {a : Session} (h : Session.Inv a) : Session.Inv a.lock :=
  inv_step (E := Env.toy) (st := ⟨⟨[], []⟩, a⟩) (st' := ⟨⟨[], []⟩, a.lock⟩) (o := .lock) (a := .none) rfl h

theorem good_lock {d : Bool} {a b : Session} (h : Good d a b) : Good d a.lock b.lock := by
  have hh : (held b.lock).Perm (held a.lock) := by
    unfold held; rw [lock_items, lock_items]
  refine ⟨near_of (inv_lock h.left) (inv_lock h.right) rfl h.near.profile h.near.reg hh, inv_lock h.left, inv_lock h.right,
    by rw [lock_items, lock_items], fun _ i hi => ?_⟩
  unfold held at hi; rw [lock_items] at hi; cases hi

theorem inv_sortReg {a : Session} (S : Sorter) (h : Session.Inv a) : Session.Inv (a.sortReg S Cli.lessCode) :=
  ⟨(S.perm _ _).trans h.reg, h.locked, h.uids, h.cats⟩

theorem good_sort {d : Bool} {a b : Session} (h : Good d a b) (S S' : Sorter) :
    Good d (a.sortReg S Cli.lessCode) (b.sortReg S' Cli.lessCode) :=
  ⟨near_of (inv_sortReg S h.left) (inv_sortReg S' h.right) h.near.keys h.near.profile
      (by simp only [sortReg, h.near.reg]; exact Cli.sort_unique S' S h.left.reg) h.near.held,
    inv_sortReg S h.left, inv_sortReg S' h.right, h.some, h.apart⟩

theorem good_count {d : Bool} {a b : Session} (h : Good d a b) (cat : Option Cat) (trashed : Bool) :
    b.countItems cat trashed = a.countItems cat trashed := by
  unfold countItems
  rw [count_eq, count_eq]
  exact ((h.near.held : (b.items.getD []).Perm (a.items.getD [])).filter _).length_eq

/-- Told apart, the items of a list come in one order. -/
theorem good_getItems {a b : Session} (h : Good true a b) (T : Text) (S S' : Sorter) (cat : Option Cat) (title : Bytes) (trashed : Bool) :
    b.getItems T S' cat title trashed = a.getItems T S cat title trashed := by
  have p1 := C32_list_is_filter T S a cat title trashed
  have p2 := C32_list_is_filter T S' b cat title trashed
  have hp : (b.getItems T S' cat title trashed).Perm (a.getItems T S cat title trashed) :=
    p2.trans (((h.near.held.filter _).map _).trans p1.symm)
  have hk := Gui.sorted_same hp (C33_sorted T S' b cat title trashed) (C33_sorted T S a cat title trashed)
  have hcats : ∀ i ∈ held a, i.category ∈ Cat.values := by
    intro i hi
    unfold held at hi
    cases hit : a.items with
    | none => rw [hit] at hi; cases hi
    | some l => rw [hit] at hi; exact h.left.cats l hit i hi
  have hn : (held a).Nodup := by
    unfold held
    cases hit : a.items with
    | none => exact List.nodup_nil
    | some l => exact (h.left.uids l hit).of_map _
  refine Cli.same_order hp hk ?_
  rw [hk]
  refine (p1.map _).nodup_iff.2 ?_
  rw [List.map_map]
  refine (hn.filter _).map_on fun i hi j hj he => ?_
  simp only [List.mem_filter, decide_eq_true_eq] at hi hj
  simp only [Function.comp, summary, Prod.mk.injEq] at he
  have l := (C38_lookup Text.toy Cat.values (List.Perm.refl _)).1
  have := ((l i.category.code i.category).2 ⟨hcats i hi.1, rfl⟩).symm.trans ((l i.category.code j.category).2 ⟨hcats j hj.1, he.1.symm⟩)
  exact h.apart rfl i hi.1 j hj.1 (Except.ok.inj this) he.2 (hi.2.1.trans hj.2.1.symm)

end Session

namespace Gui
open Cli Act Session
open Prog hiding pure bind get panic lift bind_run

/-- The GUI with another session. -/
def put (s : St) (x : Session) : St := { s with world := s.world.on x }

/-- A part of the GUI that does not look at the session. -/
def Deaf {α : Type} (m : Act α) : Prop := ∀ s x, m (put s x) = ((m s).1, put (m s).2 x)

theorem deaf_pure {α : Type} (a : α) : Deaf (Act.pure a) := fun _ _ => rfl
theorem deaf_fail {α : Type} (e : Stop) : Deaf (fail e : Act α) := fun _ _ => rfl
theorem deaf_panic {α : Type} : Deaf (Act.panic : Act α) := fun _ _ => rfl

theorem deaf_bind {α β : Type} {m : Act α} {f : α → Act β} (hm : Deaf m) (hf : ∀ a, Deaf (f a)) : Deaf (m >>= f) := by
  intro s x
  rw [bind_run, bind_run, hm s x]
  rcases m s with ⟨r, s'⟩
  cases r with
  | ok a => exact hf a s' x
  | err e => rfl
  | panic => rfl
  | fatal => rfl

theorem deaf_get {β : Type} {f : St → Act β} (h : ∀ s x, f (put s x) = f s) (hf : ∀ s, Deaf (f s)) : Deaf (Act.get >>= f) := by
  intro s x
  rw [get_bind, get_bind, h]
  exact hf s s x

theorem deaf_modify {f : St → St} (h : ∀ s x, f (put s x) = put (f s) x) : Deaf (modify f) := fun s x => by
  show (Res.ok (), f (put s x)) = _; rw [h]; rfl

theorem deaf_attempt {α : Type} {m : Act α} (hm : Deaf m) : Deaf (attempt m) := by
  intro s x
  unfold attempt
  rw [hm s x]
  rcases m s with ⟨r, s'⟩
  cases r <;> rfl

theorem deaf_ite {α : Type} {p : Prop} [Decidable p] {a b : Act α} (ha : Deaf a) (hb : Deaf b) : Deaf (if p then a else b) := by
  split
  · exact ha
  · exact hb

theorem deaf_viewOf (n : Name) : Deaf (viewOf n) := by
  intro s x
  unfold viewOf
  have : (put s x).views n = s.views n := rfl
  rw [this]
  cases s.views n <;> rfl

theorem deaf_look (r : Ref) : Deaf (look r) := fun s x => by cases r <;> rfl

theorem deaf_change (r : Ref) (f : View → View) : Deaf (change r f) := fun s x => by cases r <;> rfl

theorem deaf_setView (n : Name) (x0 y0 x1 y1 : Int) (a : Attr) : Deaf (setView n x0 y0 x1 y1 a) := by
  intro s x
  unfold setView
  split
  · rfl
  · have : (put s x).views n = s.views n := rfl
    rw [this]
    cases s.views n <;> rfl

theorem deaf_deleteView (n : Name) : Deaf (deleteView n) := by
  intro s x
  unfold deleteView
  have h1 : (put s x).views n = s.views n := rfl
  have h2 : (put s x).cur = s.cur := rfl
  rw [h1, h2]
  cases s.views n with
  | none => rfl
  | some v =>
    dsimp only
    split <;> rfl

theorem deaf_setCurrentView (n : Name) : Deaf (setCurrentView n) := by
  intro s x
  unfold setCurrentView
  have : (put s x).views n = s.views n := rfl
  rw [this]
  cases s.views n <;> rfl

theorem deaf_setCursor (r : Ref) (x y : Int) : Deaf (setCursor r x y) :=
  deaf_bind (deaf_look r) fun _ => deaf_ite (deaf_fail _) (deaf_change _ _)

theorem deaf_setOrigin (r : Ref) (x y : Int) : Deaf (setOrigin r x y) := deaf_ite (deaf_fail _) (deaf_change _ _)

theorem deaf_helpUpdate : Deaf helpUpdate :=
  deaf_bind (deaf_viewOf _) fun _ => deaf_get (fun _ _ => rfl) fun _ => deaf_change _ _

theorem deaf_setHelp (h : List Bytes) : Deaf (setHelp h) :=
  deaf_bind (deaf_modify fun _ _ => rfl) fun _ => deaf_helpUpdate

theorem deaf_helpLayout : Deaf helpLayout :=
  deaf_get (fun _ _ => rfl) fun _ => deaf_bind (deaf_setView _ _ _ _ _ _) fun _ =>
    deaf_ite (deaf_bind (deaf_attempt deaf_helpUpdate) fun _ => deaf_pure _) (deaf_pure _)

theorem deaf_verLayout : Deaf verLayout :=
  deaf_get (fun _ _ => rfl) fun _ => deaf_bind (deaf_setView _ _ _ _ _ _) fun _ =>
    deaf_ite (deaf_bind (deaf_change _ _) fun _ => deaf_modify fun _ _ => rfl) (deaf_pure _)

theorem deaf_promptLayout : Deaf promptLayout :=
  deaf_get (fun _ _ => rfl) fun _ => deaf_bind (deaf_setView _ _ _ _ _ _) fun _ =>
    deaf_ite (deaf_bind (deaf_modify fun _ _ => rfl) fun _ => deaf_setCurrentView _) (deaf_pure _)

theorem deaf_errorLayout : Deaf errorLayout :=
  deaf_get (fun _ _ => rfl) fun _ => deaf_bind (deaf_setView _ _ _ _ _ _) fun _ =>
    deaf_ite (deaf_bind (deaf_setCurrentView _) fun _ => deaf_change _ _) (deaf_pure _)

theorem deaf_resetOrigin (r : Ref) : Deaf (resetOrigin r) :=
  deaf_bind (deaf_look r) fun _ => deaf_ite
    (deaf_bind (deaf_setOrigin _ _ _) fun _ => deaf_ite (deaf_setOrigin _ _ _) (deaf_pure _))
    (deaf_bind (deaf_pure _) fun _ => deaf_ite (deaf_setOrigin _ _ _) (deaf_pure _))

theorem deaf_scrollDown (r : Ref) : Deaf (scrollDown r) := deaf_bind (deaf_look r) fun _ => deaf_setOrigin _ _ _
theorem deaf_scrollRight (r : Ref) : Deaf (scrollRight r) := deaf_bind (deaf_look r) fun _ => deaf_setOrigin _ _ _
theorem deaf_scrollLeft (r : Ref) : Deaf (scrollLeft r) :=
  deaf_bind (deaf_look r) fun _ => deaf_ite (deaf_setOrigin _ _ _) (deaf_pure _)
theorem deaf_scrollUp (r : Ref) : Deaf (scrollUp r) :=
  deaf_bind (deaf_look r) fun _ => deaf_ite (deaf_setOrigin _ _ _) (deaf_pure _)

theorem deaf_detailsUpdate (C : Ctx) (covered : Bool) : Deaf (detailsUpdate C covered) :=
  deaf_bind (deaf_viewOf _) fun r => deaf_bind (deaf_change _ _) fun _ => deaf_bind (deaf_resetOrigin r) fun _ =>
    deaf_get (fun _ _ => rfl) fun s => by
      cases s.item with
      | none => exact deaf_pure _
      | some i => exact deaf_change _ _

theorem deaf_cover (C : Ctx) : Deaf (cover C) :=
  deaf_bind (deaf_detailsUpdate C _) fun _ => deaf_bind (deaf_setCurrentView _) fun _ => deaf_setHelp _

theorem deaf_detailsLayout : Deaf detailsLayout :=
  deaf_get (fun _ _ => rfl) fun _ => deaf_bind (deaf_setView _ _ _ _ _ _) fun _ => deaf_pure _

theorem deaf_rowDown (r : Ref) : Deaf (rowDown r) :=
  deaf_bind (deaf_look r) fun _ => deaf_bind (deaf_attempt (deaf_setCursor _ _ _)) fun _ => deaf_ite (deaf_pure _) (deaf_setOrigin _ _ _)

theorem deaf_rowUp (r : Ref) : Deaf (rowUp r) :=
  deaf_bind (deaf_look r) fun _ => deaf_bind (deaf_attempt (deaf_setCursor _ _ _)) fun _ =>
    deaf_ite (deaf_pure _) (deaf_ite (deaf_setOrigin _ _ _) (deaf_pure _))

theorem deaf_resetCursor (r : Ref) : Deaf (resetCursor r) :=
  deaf_bind (deaf_look r) fun _ => deaf_bind (deaf_attempt (deaf_setCursor _ _ _)) fun _ =>
    deaf_ite (deaf_pure _) (deaf_ite (deaf_setOrigin _ _ _) (deaf_pure _))

theorem deaf_goBack : Deaf goBack :=
  deaf_bind (deaf_deleteView _) fun _ => deaf_bind (deaf_deleteView _) fun _ => deaf_setCurrentView _

theorem deaf_menuDown (r : Ref) : Deaf (menuDown r) :=
  deaf_get (fun _ _ => rfl) fun _ => deaf_ite (deaf_bind (deaf_rowDown r) fun _ => deaf_modify fun _ _ => rfl) (deaf_pure _)

theorem deaf_menuUp (r : Ref) : Deaf (menuUp r) :=
  deaf_get (fun _ _ => rfl) fun _ => deaf_ite (deaf_bind (deaf_rowUp r) fun _ => deaf_modify fun _ _ => rfl) (deaf_pure _)

theorem deaf_typeKey (K : Kit) (k : Key) (r : Ref) : Deaf (typeKey K k r) :=
  deaf_bind (deaf_modify fun _ _ => rfl) fun _ => deaf_get (fun _ _ => rfl) fun _ => deaf_change _ _

theorem deaf_onWorld {α : Type} {m : Prog α} (h : Blind m) : Deaf (onWorld m) := by
  intro s x
  unfold onWorld
  have : (put s x).world = s.world.on x := rfl
  rw [this, h]
  rcases m s.world with ⟨o, w⟩
  cases o <;> rfl

theorem deaf_verUpdate (C : Ctx) : Deaf (verUpdate C) :=
  deaf_bind (deaf_onWorld (Blind.facadeCheck C.sys C.ext C.dir)) fun _ => deaf_get (fun _ _ => rfl) fun s => by
    cases s.views .ver with
    | none => exact deaf_panic
    | some _ => exact deaf_change _ _

/-! ### Two runs side by side -/

/-- The same end, and the same in everything but the order of the items held. -/
def Level (e : Bool) {α : Type} (p q : Res α × St) : Prop := ∃ y, q = (p.1, put p.2 y) ∧ Good e p.2.world.sess y

def Par (d e : Bool) {α : Type} (m m' : Act α) : Prop := ∀ s x, Good d s.world.sess x → Level e (m s) (m' (put s x))

variable {d e g : Bool}

theorem deaf_sess {α : Type} {m : Act α} (h : Deaf m) (s : St) : (m s).2.world.sess = s.world.sess := by
  have := h s s.world.sess
  have e : put s s.world.sess = s := rfl
  rw [e] at this
  rw [this]; rfl

theorem par_deaf {α : Type} {m : Act α} (h : Deaf m) : Par d d m m := fun s x hg =>
  ⟨x, h s x, by rw [deaf_sess h]; exact hg⟩

theorem par_bind {α β : Type} {m m' : Act α} {f f' : α → Act β} (hm : Par d e m m') (hf : ∀ a, Par e g (f a) (f' a))
    (hg : g = true → e = true) : Par d g (m >>= f) (m' >>= f') := by
  intro s x h
  obtain ⟨y, h1, h2⟩ := hm s x h
  rw [bind_run, bind_run, h1]
  rcases hr : m s with ⟨r, s'⟩
  rw [hr] at h2
  cases r with
  | ok a => exact hf a s' y h2
  | err e => exact ⟨y, rfl, h2.weaken hg⟩
  | panic => exact ⟨y, rfl, h2.weaken hg⟩
  | fatal => exact ⟨y, rfl, h2.weaken hg⟩

theorem par_seq {α β : Type} {m m' : Act α} {f f' : α → Act β} (hm : Par d d m m') (hf : ∀ a, Par d d (f a) (f' a)) :
    Par d d (m >>= f) (m' >>= f') := par_bind hm hf id

theorem par_get {β : Type} {f f' : St → Act β} (h : ∀ s x, Good d s.world.sess x → Level e (f s s) (f' (put s x) (put s x))) :
    Par d e (Act.get >>= f) (Act.get >>= f') := fun s x hg => h s x hg

theorem par_modify {f f' : St → St} (h : ∀ s x, Good d s.world.sess x → ∃ y, f' (put s x) = put (f s) y ∧ Good e (f s).world.sess y) :
    Par d e (modify f) (modify f') := by
  intro s x hg
  obtain ⟨y, h1, h2⟩ := h s x hg
  exact ⟨y, by show (Res.ok (), f' (put s x)) = _; rw [h1]; rfl, h2⟩

theorem par_attempt {α : Type} {m m' : Act α} (hm : Par d e m m') : Par d e (attempt m) (attempt m') := by
  intro s x hg
  obtain ⟨y, h1, h2⟩ := hm s x hg
  unfold attempt
  rw [h1]
  rcases hr : m s with ⟨r, s'⟩
  rw [hr] at h2
  cases r <;> exact ⟨y, rfl, h2⟩

theorem par_ite {α : Type} {p : Prop} [Decidable p] {a a' b b' : Act α} (ha : Par d e a a') (hb : Par d e b b') :
    Par d e (if p then a else b) (if p then a' else b') := by
  split
  · exact ha
  · exact hb

theorem par_fetch : Par d d fetch fetch := par_get fun s x h => by
  have h1 : (put s x).itemIdx = s.itemIdx := rfl
  have h2 : (put s x).items = s.items := rfl
  rw [h1, h2]
  split
  · exact ⟨x, rfl, h⟩
  · cases s.items[s.itemIdx.toNat]? with
    | none => exact ⟨x, rfl, h⟩
    | some i =>
      refine ⟨x, ?_, h⟩
      show (Res.ok (), { put s x with item := (put s x).world.sess.getItem i.uid i.trashed }) = _
      have : (put s x).world.sess.getItem i.uid i.trashed = s.world.sess.getItem i.uid i.trashed := h.near.found _ _
      rw [this]
      rfl

variable (C : Ctx) (O : MapOrder) (S : Sorter)

theorem par_showOverview : Par d d (showOverview C) (showOverview (again C O S)) :=
  par_seq par_fetch fun _ => par_deaf (deaf_detailsUpdate C true)

theorem par_reveal : Par d d (reveal C) (reveal (again C O S)) :=
  par_seq par_fetch fun _ => par_seq (par_deaf (deaf_detailsUpdate C false)) fun _ =>
    par_deaf (deaf_bind (deaf_setCurrentView _) fun _ => deaf_setHelp _)

theorem par_itemsDown (r : Ref) : Par d d (itemsDown C r) (itemsDown (again C O S) r) := par_get fun s x h =>
  (par_ite (par_seq (par_deaf (deaf_rowDown r)) fun _ => par_seq (par_deaf (deaf_modify fun _ _ => rfl)) fun _ => par_showOverview C O S)
    (par_deaf (deaf_pure _))) s x h

theorem par_itemsUp (r : Ref) : Par d d (itemsUp C r) (itemsUp (again C O S) r) := par_get fun s x h =>
  (par_ite (par_seq (par_deaf (deaf_rowUp r)) fun _ => par_seq (par_deaf (deaf_modify fun _ _ => rfl)) fun _ => par_showOverview C O S)
    (par_deaf (deaf_pure _))) s x h

theorem par_itemsUpdate : Par d d (itemsUpdate C) (itemsUpdate (again C O S)) :=
  par_seq (par_deaf (deaf_viewOf _)) fun r => par_seq (par_deaf (deaf_modify fun _ _ => rfl)) fun _ =>
    par_seq (par_deaf (deaf_resetCursor r)) fun _ => par_seq (par_deaf (deaf_change _ _)) fun _ => par_get fun s x h =>
      (par_ite (par_seq (par_deaf (deaf_change _ _)) fun _ => par_seq (par_deaf (deaf_modify fun _ _ => rfl)) fun _ => par_showOverview C O S)
        (par_deaf (deaf_pure _))) s x h

theorem par_itemsLayout : Par d d (itemsLayout C) (itemsLayout (again C O S)) := par_get fun s x h =>
  (par_seq (par_deaf (deaf_setView _ _ _ _ _ _)) fun _ => par_ite (par_seq (par_attempt (par_itemsUpdate C O S)) fun _ =>
    par_deaf (deaf_bind deaf_detailsLayout fun _ => deaf_bind (deaf_setCurrentView _) fun _ => deaf_setHelp _))
    (par_deaf (deaf_pure _))) s x h

/-- The toolkit with another order of maps. -/
def other (K : Kit) (o : Nat → MapOrder) : Kit := { K with order := o }

variable (K : Kit) (o : Nat → MapOrder)

theorem good_usedCats {a b : Session} (h : Good d a b) : usedCats b = usedCats a := by
  unfold usedCats
  rw [h.near.reg]
  exact List.filter_congr fun c _ => by rw [good_count h]

theorem good_menuCats {a b : Session} (h : Good d a b) : menuCats b = menuCats a := by
  unfold menuCats
  rw [good_usedCats h, good_count h, good_count h]

theorem good_menuText {a b : Session} (h : Good d a b) (m : Int) : menuText (other K o) m b = menuText K m a := by
  unfold menuText
  simp only [good_usedCats h, good_count h]
  rfl

theorem good_sortCats {a b : Session} (h : Good d a b) : Good d (sortCats C a) (sortCats (again C O S) b) := by
  unfold sortCats
  rw [good_count h]
  split
  · exact good_sort h _ _
  · exact h

theorem par_menuFill : Par d d (menuFill C K) (menuFill (again C O S) (other K o)) :=
  par_seq (par_deaf (deaf_viewOf _)) fun r => par_seq (par_modify fun s x h => ⟨_, rfl, good_sortCats C O S h⟩) fun _ =>
    par_get fun s x h => by
      have h1 : menuText (other K o) (put s x).maxX (put s x).world.sess = menuText K s.maxX s.world.sess := good_menuText K o h _
      rw [h1]
      have h2 : Par d d (modify fun s => { s with cats := s.cats ++ menuCats s.world.sess })
          (modify fun s => { s with cats := s.cats ++ menuCats s.world.sess }) := par_modify fun s x h => ⟨x, by
        have : menuCats (put s x).world.sess = menuCats s.world.sess := good_menuCats h
        rw [this]; rfl, h⟩
      have h3 : Deaf (modify fun s => if s.cats.length > 0 then { s with menuIdx := 0 } else s) := deaf_modify fun s x => by
        have : (put s x).cats = s.cats := rfl
        rw [this]
        split <;> rfl
      exact (par_seq (par_deaf (deaf_change _ _)) fun _ => par_seq h2 fun _ => par_deaf h3) s x h

theorem par_menuUpdate : Par d d (menuUpdate C K) (menuUpdate (again C O S) (other K o)) := par_get fun s x h => by
  have : (put s x).world.sess.isUnlocked = s.world.sess.isUnlocked := by
    show x.keys.isSome = s.world.sess.keys.isSome
    rw [h.near.keys]
  rw [this]
  exact (par_ite (par_menuFill C O S K o) (par_deaf deaf_promptLayout)) s x h

theorem par_lock (r : Ref) : Par d d (lock C K r) (lock (again C O S) (other K o) r) :=
  par_seq (par_modify fun _ x h => ⟨x.lock, rfl, good_lock h⟩) fun _ => par_seq (par_deaf (deaf_resetCursor r)) fun _ =>
    par_seq (par_deaf (deaf_change _ _)) fun _ => par_seq (par_menuUpdate C O S K o) fun _ => par_deaf (deaf_setHelp _)

theorem par_itemsLock : Par d d (itemsLock C K) (itemsLock (again C O S) (other K o)) :=
  par_seq (par_deaf deaf_goBack) fun _ => par_seq (par_deaf (deaf_viewOf _)) fun r => par_lock C O S K o r

theorem par_closeError : Par d d (closeError C K) (closeError (again C O S) (other K o)) :=
  par_seq (par_deaf (deaf_deleteView _)) fun _ => par_menuUpdate C O S K o

theorem par_tryUnlock (p : Bytes) : Par d false (tryUnlock C K p) (tryUnlock (again C O S) (other K o) p) := by
  refine par_get fun s x h => ?_
  show Level false (onWorld _ { s with opened := s.opened + 1 }) (onWorld _ (put { s with opened := s.opened + 1 } x))
  unfold onWorld onSession
  have e1 : (put { s with opened := s.opened + 1 } x).world.sess = x := rfl
  have e2 : (put { s with opened := s.opened + 1 } x).world.disk = s.world.disk := rfl
  have e3 : (put s x).vault = s.vault := rfl
  have e4 : (again C O S).env = C.env := rfl
  simp only [e1, e2, e3, e4]
  rcases good_unlock C.env (K.order s.opened) ((other K o).order (put s x).opened) s.world.disk s.vault p h with
    ⟨r, a, b, h1, h2, h3⟩ | ⟨h1, h2⟩
  · rw [h1, h2]
    exact ⟨b, rfl, h3⟩
  · rw [h2]
    cases hu : s.world.sess.unlock C.env (K.order s.opened) s.world.disk s.vault p with
    | ret z => exact absurd hu (h1 z)
    | panic => exact ⟨x, rfl, h.weaken nofun⟩
    | fatal => exact ⟨x, rfl, h.weaken nofun⟩

theorem par_unlock (r : Ref) : Par d false (unlock C K r) (unlock (again C O S) (other K o) r) :=
  par_bind (par_deaf (deaf_look r)) (fun v => par_bind (par_deaf (deaf_deleteView _)) (fun _ =>
    par_bind (par_tryUnlock C O S K o _) (fun a => by
      cases a with
      | error e => exact par_deaf (deaf_bind (deaf_modify fun _ _ => rfl) fun _ => deaf_errorLayout)
      | ok u => exact par_seq (par_deaf (deaf_setCurrentView _)) fun _ => par_menuUpdate C O S K o) id) nofun) nofun

theorem good_entryItems {s : St} {x : Session} (h : Good true s.world.sess x) : entryItems (again C O S) (put s x) = entryItems C s := by
  unfold entryItems
  have h1 : ∀ cat tr, (put s x).world.sess.getItems (again C O S).env.text (again C O S).sorter cat [] tr =
      s.world.sess.getItems C.env.text C.sorter cat [] tr := fun cat tr => good_getItems h _ _ _ cat [] tr
  simp only [h1]
  rfl

theorem par_showItems : Par true true (showItems C) (showItems (again C O S)) := par_get fun s x h =>
  (par_ite (p := s.menuIdx ≠ -1) (par_seq (par_itemsLayout C O S) fun _ => par_get fun s x h => by
    rw [good_entryItems C O S h]
    cases entryItems C s with
    | none => exact ⟨x, rfl, h⟩
    | some l => exact (par_seq (par_deaf (deaf_modify fun _ _ => rfl)) fun _ => par_itemsUpdate C O S) s x h) (par_deaf (deaf_pure _))) s x h

theorem par_menuLayout : Par d d (menuLayout C K) (menuLayout (again C O S) (other K o)) := par_get fun s x h =>
  (par_seq (par_deaf (deaf_setView _ _ _ _ _ _)) fun _ => par_ite (par_seq (par_deaf (deaf_setCurrentView _)) fun _ =>
    par_seq (par_menuUpdate C O S K o) fun _ => par_deaf (deaf_setHelp _)) (par_deaf (deaf_pure _))) s x h

theorem par_flush (x y : Nat) : Par d d (flush C K x y) (flush (again C O S) (other K o) x y) :=
  par_seq (par_deaf (deaf_modify fun _ _ => rfl)) fun _ => par_seq (par_deaf deaf_verLayout) fun _ =>
    par_seq (par_deaf deaf_helpLayout) fun _ => par_seq (par_menuLayout C O S K o) fun _ => par_deaf (deaf_modify fun _ _ => rfl)

theorem Par.loose {m m' : Act Unit} (h : Par true true m m') : Par true false m m' := fun s x hg => by
  obtain ⟨y, h1, h2⟩ := h s x hg
  exact ⟨y, h1, h2.weaken nofun⟩

theorem par_binding (n : Name) (k : Key) (r : Ref) :
    (binding C K n k r = none ∧ binding (again C O S) (other K o) n k r = none) ∨
      ∃ a a', binding C K n k r = some a ∧ binding (again C O S) (other K o) n k r = some a' ∧ Par true false a a' := by
  cases n with
  | error =>
    simp only [binding]
    split
    · exact .inr ⟨_, _, rfl, rfl, (par_closeError C O S K o).loose⟩
    · exact .inl ⟨rfl, rfl⟩
  | prompt =>
    simp only [binding]
    split
    · exact .inr ⟨_, _, rfl, rfl, par_unlock C O S K o r⟩
    · exact .inl ⟨rfl, rfl⟩
  | details =>
    simp only [binding]
    split
    · exact .inr ⟨_, _, rfl, rfl, (par_itemsLock C O S K o).loose⟩
    split
    · exact .inr ⟨_, _, rfl, rfl, (par_deaf (deaf_scrollDown r)).loose⟩
    split
    · exact .inr ⟨_, _, rfl, rfl, (par_deaf (deaf_scrollUp r)).loose⟩
    split
    · exact .inr ⟨_, _, rfl, rfl, (par_deaf (deaf_scrollRight r)).loose⟩
    split
    · exact .inr ⟨_, _, rfl, rfl, (par_deaf (deaf_scrollLeft r)).loose⟩
    split
    · exact .inr ⟨_, _, rfl, rfl, (par_deaf (deaf_cover C)).loose⟩
    · exact .inl ⟨rfl, rfl⟩
  | items =>
    simp only [binding]
    split
    · exact .inr ⟨_, _, rfl, rfl, (par_itemsLock C O S K o).loose⟩
    split
    · exact .inr ⟨_, _, rfl, rfl, (par_deaf deaf_goBack).loose⟩
    split
    · exact .inr ⟨_, _, rfl, rfl, (par_itemsDown C O S r).loose⟩
    split
    · exact .inr ⟨_, _, rfl, rfl, (par_itemsUp C O S r).loose⟩
    split
    · exact .inr ⟨_, _, rfl, rfl, (par_reveal C O S).loose⟩
    · exact .inl ⟨rfl, rfl⟩
  | menu =>
    simp only [binding]
    split
    · exact .inr ⟨_, _, rfl, rfl, (par_lock C O S K o r).loose⟩
    split
    · exact .inr ⟨_, _, rfl, rfl, (par_deaf (deaf_menuDown r)).loose⟩
    split
    · exact .inr ⟨_, _, rfl, rfl, (par_deaf (deaf_menuUp r)).loose⟩
    split
    · exact .inr ⟨_, _, rfl, rfl, (par_showItems C O S).loose⟩
    · exact .inl ⟨rfl, rfl⟩
  | _ => exact .inl ⟨rfl, rfl⟩

theorem par_press (k : Key) : Par true false (press C K k) (press (again C O S) (other K o) k) := par_get fun s x h => by
  have hc : (put s x).cur = s.cur := rfl
  rw [hc]
  split
  · exact ⟨x, rfl, h.weaken nofun⟩
  · cases s.cur with
    | none => exact ⟨x, rfl, h.weaken nofun⟩
    | some r =>
      dsimp only
      rcases par_binding C O S K o r.name k r with ⟨h1, h2⟩ | ⟨a, a', h1, h2, h3⟩
      · rw [h1, h2]
        exact (par_ite (par_deaf (deaf_typeKey K k r)) (par_deaf (deaf_pure _)) : Par true true _ _).loose s x h
      · rw [h1, h2]
        exact h3 s x h

theorem par_step (e : Event) : Par true false (step C K e) (step (again C O S) (other K o) e) := by
  cases e with
  | key k => exact par_press C O S K o k
  | flush x y => exact (par_flush C O S K o x y).loose
  | checked =>
    refine Par.loose (par_get fun s x h => ?_)
    exact (par_ite (p := s.pending = true) (par_deaf (deaf_bind (deaf_modify fun _ _ => rfl) fun _ => deaf_verUpdate C))
      (par_deaf (deaf_pure _))) s x h
  | disk d => exact (par_deaf (deaf_modify fun _ _ => rfl)).loose

theorem level_run (es : List Event) (s : St) (x : Session) (h : Good false s.world.sess x)
    (hd : ∀ pre t, pre <+: es → run C K pre s = (.ok (), t) → Apart t.world.sess) :
    Level false (run C K es s) (run (again C O S) (other K o) es (put s x)) := by
  induction es generalizing s x with
  | nil => exact ⟨x, rfl, h⟩
  | cons e es ih =>
    have ha : Apart s.world.sess := hd [] s (List.nil_prefix) rfl
    obtain ⟨y, h1, h2⟩ := par_step C O S K o e s x ⟨h.near, h.left, h.right, h.some, fun _ => ha⟩
    rw [run, run, bind_run, bind_run, h1]
    rcases hr : step C K e s with ⟨r, s'⟩
    rw [hr] at h2
    cases r with
    | ok u =>
      refine ih s' y h2 fun pre t hp ht => hd (e :: pre) t (List.cons_prefix_cons.2 ⟨rfl, hp⟩) ?_
      rw [run, bind_ok hr]; exact ht
    | err e => exact ⟨y, rfl, h2⟩
    | panic => exact ⟨y, rfl, h2⟩
    | fatal => exact ⟨y, rfl, h2⟩

/-- C148 for the GUI: with the same keys on the same terminal, and others changing the disk in the same way, everything is the same
(the panes, the focus, what is selected, the disk, the outcome) but for the session, if at no point two items of the open vault, both in
the trash or both not, have the same category and the same title. -/
theorem C148_gui_partial (vault : Bytes) (es : List Event) (w : World) (hw : Session.Reachable C.env w.sess)
    (hd : ∀ pre t, pre <+: es → run C K pre (start vault w) = (.ok (), t) →
      ∀ i ∈ t.world.sess.items.getD [], ∀ j ∈ t.world.sess.items.getD [],
        i.category = j.category → i.title = j.title → i.trashed = j.trashed → i = j) :
    ∃ sess, run { C with order := O, sorter := S } { K with order := o } es (start vault w) =
      ((run C K es (start vault w)).1,
        { (run C K es (start vault w)).2 with world := { (run C K es (start vault w)).2.world with sess := sess } }) := by
  obtain ⟨y, h, -⟩ := level_run C O S K o es (start vault w) w.sess ⟨.refl _, hw.inv, hw.inv, rfl, nofun⟩ hd
  exact ⟨y, h⟩

/-- All states of a run tell their items apart. -/
def tells (C : Ctx) (K : Kit) : List Event → St → Bool
  | [], s => decide ((held s.world.sess).map (fun i => (i.category, i.title, i.trashed))).Nodup
  | e :: es, s => decide ((held s.world.sess).map (fun i => (i.category, i.title, i.trashed))).Nodup &&
    (match step C K e s with
     | (.ok _, t) => tells C K es t
     | _ => true)

theorem apart_of {s : Session} (h : ((held s).map (fun i => (i.category, i.title, i.trashed))).Nodup) : Apart s := by
  intro i hi j hj h1 h2 h3
  exact List.inj_on_of_nodup_map h hi hj (by rw [h1, h2, h3])

theorem apart_of_tells {C : Ctx} {K : Kit} {es : List Event} {s : St} (h : tells C K es s = true) (pre : List Event) (t : St)
    (hp : pre <+: es) (ht : run C K pre s = (.ok (), t)) : Apart t.world.sess := by
  induction es generalizing s pre with
  | nil =>
    rw [List.prefix_nil.1 hp] at ht
    cases ht
    exact apart_of (of_decide_eq_true h)
  | cons e es ih =>
    simp only [tells, Bool.and_eq_true, decide_eq_true_eq] at h
    cases pre with
    | nil => cases ht; exact apart_of h.1
    | cons e' pre =>
      obtain ⟨rfl, hp'⟩ := List.cons_prefix_cons.1 hp
      rw [run, bind_run] at ht
      rcases hr : step C K e' s with ⟨r, s'⟩
      rw [hr] at ht h
      cases r with
      | ok u => exact ih h.2 pre hp' ht
      | err x => cases ht
      | panic => cases ht
      | fatal => cases ht

namespace Demo
set_option maxRecDepth 20000

/-- Two items alike in category and title, and another one. -/
def twinDisk : Disk :=
  diskOf [(b!"N", Cli.Demo.stored b!"001" b!"Mail" b!"1" [] false), (b!"C", Cli.Demo.stored b!"002" b!"Card" b!"2" [] false),
    (b!"M", Cli.Demo.stored b!"001" b!"Mail" b!"3" [] false)]

/-- Opening the vault, listing everything and revealing the first item. -/
def first : List Event := .flush 80 24 :: opening ++ [.key .enter, .flush 80 24, .key .tab, .flush 80 24]

def replay (d : Disk) (o : MapOrder) : Res Unit × St := run ctx { kit with order := fun _ => o } first (start b!"/a" (world d))

/-- The same keys, and another item revealed: its PIN is 3 or 1. The list looks the same. -/
example : (replay twinDisk .doc).1 = .ok () ∧ (replay twinDisk .rev).1 = .ok () ∧
    (text .details (replay twinDisk .doc)).map (·.contains b!"Pin: 3") = some true ∧
    (text .details (replay twinDisk .rev)).map (·.contains b!"Pin: 1") = some true ∧
    text .items (replay twinDisk .doc) = some [b!"Mail", b!"Mail", b!"Card", []] ∧
    text .items (replay twinDisk .rev) = some [b!"Mail", b!"Mail", b!"Card", []] := by decide +kernel

/-- Items that are told apart: the same screen in both orders. -/
example : text .details (replay (disk b!"1234" b!"memo") .rev) = text .details (replay (disk b!"1234" b!"memo") .doc) ∧
    (text .details (replay (disk b!"1234" b!"memo") .rev)).map (·.contains b!"Pin: 1234") = some true := by decide +kernel

theorem first_tells : tells ctx kit first (start b!"/a" (world (disk b!"1234" b!"memo"))) = true := by decide +kernel

/-- C148_gui_partial applies to this run, for every order and every way to sort. -/
example (O : MapOrder) (S : Sorter) (o : Nat → MapOrder) := C148_gui_partial ctx O S kit o b!"/a" first _
  (world_locked (disk b!"1234" b!"memo")).2 (apart_of_tells first_tells)

end Demo

set_option maxRecDepth 20000 in
/-- The negation of C148 for the GUI: the same keys on the same vault reveal another item, from the order of a map alone. -/
theorem C148_gui_refuted : ¬ ∀ (C : Ctx) (K : Kit) (o : Nat → MapOrder) (vault : Bytes) (es : List Event) (w : World),
    Session.Reachable C.env w.sess → ((run C { K with order := o } es (start vault w)).2.views .details).map (·.shown) =
      ((run C K es (start vault w)).2.views .details).map (·.shown) := by
  intro h
  have := h Demo.ctx Demo.kit (fun _ => .rev) b!"/a" Demo.first (Demo.world Demo.twinDisk) (Demo.world_locked _).2
  revert this
  decide +kernel

end Gui
end OnePass
