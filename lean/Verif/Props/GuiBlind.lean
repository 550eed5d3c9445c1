/-
Two runs of the GUI on vaults that differ only in secrets, with the same keys: the screens are the same wherever nothing
is revealed. C96.
-/
import Verif.Props.GuiLeak

set_option linter.unusedSimpArgs false

namespace OnePass
namespace Gui
open Cli Act
open Prog hiding pure bind get panic lift bind_run

/-- The same item but for its secrets. -/
def SameItem (i j : Item) : Prop := i.uid = j.uid ∧ SameButSecrets i j

/-- Sessions that hold the same but for secrets. -/
structure SameHeld (a b : Session) : Prop where
  open_ : a.isUnlocked = b.isUnlocked
  reg : a.reg = b.reg
  items : (a.items = none ∧ b.items = none) ∨ ∃ l m, a.items = some l ∧ b.items = some m ∧ List.Forall₂ SameItem l m

theorem SameHeld.list {a b : Session} (h : SameHeld a b) : List.Forall₂ SameItem (a.items.getD []) (b.items.getD []) := by
  rcases h.items with ⟨h1, h2⟩ | ⟨l, m, h1, h2, h3⟩
  · rw [h1, h2]; exact .nil
  · rw [h1, h2]; exact h3

theorem count_same {l m : List Item} (h : List.Forall₂ SameItem l m) (cat : Option Cat) (trashed : Bool) (n : Nat) :
    l.foldl (fun n item =>
      match cat with
      | none => if item.trashed = trashed then n + 1 else n
      | some c => if item.category = c ∧ item.trashed = trashed then n + 1 else n) n =
    m.foldl (fun n item =>
      match cat with
      | none => if item.trashed = trashed then n + 1 else n
      | some c => if item.category = c ∧ item.trashed = trashed then n + 1 else n) n := by
  induction h generalizing n with
  | nil => rfl
  | cons h1 _ ih =>
    simp only [List.foldl_cons, h1.2.trashed, h1.2.category]
    exact ih _

theorem SameHeld.count {a b : Session} (h : SameHeld a b) (cat : Option Cat) (trashed : Bool) :
    a.countItems cat trashed = b.countItems cat trashed := count_same h.list cat trashed 0

theorem matches_same (T : Text) (cat : Option Cat) (title : Bytes) (trashed : Bool) {i j : Item} (h : SameItem i j) :
    Repo.matches? T cat title trashed i = Repo.matches? T cat title trashed j := by
  unfold Repo.matches?
  rw [h.2.trashed, h.2.category, h.2.title]

theorem SameHeld.getItems {a b : Session} (h : SameHeld a b) (T : Text) (S : Sorter) (cat : Option Cat) (title : Bytes) (trashed : Bool) :
    a.getItems T S cat title trashed = b.getItems T S cat title trashed := by
  unfold Session.getItems Repo.findBy
  congr 1
  have h1 := h.list
  generalize a.items.getD [] = l at h1
  generalize b.items.getD [] = m at h1
  induction h1 with
  | nil => rfl
  | cons h1 _ ih =>
    simp only [List.filter_cons, matches_same T cat _ trashed h1]
    split
    · rw [List.map_cons, List.map_cons, ih]
      congr 1
      simp only [Session.simple, h1.1, h1.2.category, h1.2.title, h1.2.trashed]
    · exact ih

/-- Both have an item, the same but for its secrets, or neither has one. -/
def SameShown (x y : Option Item) : Prop := (x = none ∧ y = none) ∨ ∃ i j, x = some i ∧ y = some j ∧ SameItem i j

theorem SameHeld.getItem {a b : Session} (h : SameHeld a b) (uid : Bytes) (trashed : Bool) :
    SameShown (a.getItem uid trashed) (b.getItem uid trashed) := by
  unfold Session.getItem Repo.findFirst
  have h1 := h.list
  generalize a.items.getD [] = l at h1
  generalize b.items.getD [] = m at h1
  induction h1 with
  | nil => exact .inl ⟨rfl, rfl⟩
  | @cons i j _ _ h1 _ ih =>
    simp only [List.find?_cons, h1.1, h1.2.trashed]
    split
    · exact .inr ⟨i, j, rfl, rfl, h1⟩
    · exact ih

theorem SameHeld.lock {a b : Session} (h : SameHeld a b) : SameHeld a.lock b.lock := by
  refine ⟨rfl, h.reg, .inl ?_⟩
  unfold Session.lock Repo.removeItems
  constructor <;> (dsimp only; split <;> rfl)

theorem usedCats_same {a b : Session} (h : SameHeld a b) : usedCats a = usedCats b := by
  unfold usedCats
  rw [h.reg]
  congr 1
  funext c
  rw [h.count]

theorem menuCats_same {a b : Session} (h : SameHeld a b) : menuCats a = menuCats b := by
  unfold menuCats
  rw [h.count, h.count, usedCats_same h]

theorem menuText_same (K : Kit) {a b : Session} (h : SameHeld a b) (x : Int) : menuText K x a = menuText K x b := by
  unfold menuText
  rw [h.count, h.count, usedCats_same h]
  simp only [h.count]

theorem sortCats_same (C : Ctx) {a b : Session} (h : SameHeld a b) : SameHeld (sortCats C a) (sortCats C b) := by
  unfold sortCats
  rw [h.count]
  split
  · exact ⟨h.open_, by simp only [Session.sortReg, h.reg], h.items⟩
  · exact h

/-- What the covered pane shows does not depend on secrets. -/
theorem covered_text_same (E : Env) {i j : Item} (h : SameItem i j) :
    detailsHead E i ++ detailsBody true i = detailsHead E j ++ detailsBody true j := by
  obtain ⟨-, h⟩ := h
  have hsec : (i.sections = none) = (j.sections = none) := by
    rcases h.sections with ⟨h1, h2⟩ | ⟨ss, ts, h1, h2, -⟩
    · rw [h1, h2]
    · rw [h1, h2]; simp
  have hfields : ∀ {fs gs : List Field}, List.Forall₂ SameField fs gs →
      fs.flatMap (fun f => f.name ++ b!": " ++ (if true = true then Cli.mask else f.value) ++ b!"\n") =
      gs.flatMap (fun f => f.name ++ b!": " ++ (if true = true then Cli.mask else f.value) ++ b!"\n") := by
    intro fs gs hf
    induction hf with
    | nil => rfl
    | cons h7 _ ih => rw [List.flatMap_cons, List.flatMap_cons, ih, show _ = _ from h7, if_pos rfl, if_pos rfl]
  congr 1
  · unfold detailsHead
    rw [h.category, h.title, h.trashed, h.url, h.updated, h.created]
  · unfold detailsBody
    congr 1
    · rcases h.sections with ⟨h1, h2⟩ | ⟨ss, ts, h1, h2, h3⟩
      · rw [h1, h2]
      · rw [h1, h2]
        dsimp only
        congr 1
        clear h1 h2 hsec
        induction h3 with
        | nil => rfl
        | cons h1 _ ih =>
          rw [List.flatMap_cons, List.flatMap_cons, ih]
          congr 1
          obtain ⟨h2, h3⟩ := h1
          rw [h2]
          congr 1
          rcases h3 with ⟨h4, h5⟩ | ⟨fs, gs, h4, h5, h6⟩
          · rw [h4, h5]
          · rw [h4, h5]
            exact hfields h6
    · by_cases hn : i.notes = []
      · rw [if_neg (not_not.2 hn), if_neg (not_not.2 (h.notes.1 hn))]
      · have hm : j.notes ≠ [] := fun h0 => hn (h.notes.2 h0)
        rw [if_pos hn, if_pos hm]
        simp only [hsec, if_true]

/-- Views of the same place, size, cursor and origin. -/
def LikeView (v w : View) : Prop := w = { v with lines := w.lines, shown := w.shown }

theorem LikeView.refl (v : View) : LikeView v v := rfl

/-- Two states of the GUI that differ only in secrets; if `b`, also in the text of the details pane. -/
structure Veil (cwd : List Bytes) (V : List Bytes → Prop) (b : Bool) (s t : St) : Prop where
  rest : t = { s with views := t.views, orphan := t.orphan, item := t.item, world := t.world }
  views : ∀ n, n ≠ .details → t.views n = s.views n
  details : (s.views .details = none ∧ t.views .details = none) ∨
    ∃ v w, s.views .details = some v ∧ t.views .details = some w ∧ LikeView v w ∧ (b = false → w = v)
  orphan : LikeView s.orphan t.orphan
  item : SameShown s.item t.item
  held : SameHeld s.world.sess t.world.sess
  world : Sync cwd V s.world t.world

section
variable {cwd : List Bytes} {V : List Bytes → Prop} {b b' b'' : Bool}

theorem Veil.weaken {s t : St} (h : Veil cwd V b s t) (hb : b = true → b' = true) : Veil cwd V b' s t := by
  refine ⟨h.rest, h.views, ?_, h.orphan, h.item, h.held, h.world⟩
  rcases h.details with h1 | ⟨v, w, h1, h2, h3, h4⟩
  · exact .inl h1
  · refine .inr ⟨v, w, h1, h2, h3, fun hf => h4 ?_⟩
    cases b with
    | false => rfl
    | true => rw [hb rfl] at hf; cases hf

/-- Two pieces of the GUI that end the same way and keep the difference within secrets. -/
def Twins {α : Type} (cwd : List Bytes) (V : List Bytes → Prop) (b b' : Bool) (m m' : Act α) : Prop :=
  ∀ s t, Veil cwd V b s t → (m s).1 = (m' t).1 ∧ Veil cwd V b' (m s).2 (m' t).2

theorem Twins.weaken {α : Type} {m m' : Act α} (h : Twins cwd V b b' m m') (hb : b' = true → b'' = true) : Twins cwd V b b'' m m' :=
  fun s t hv => ⟨(h s t hv).1, (h s t hv).2.weaken hb⟩

theorem twins_pure {α : Type} (a : α) : Twins cwd V b b (Act.pure a) (Act.pure a) := fun _ _ h => ⟨rfl, h⟩
theorem twins_fail {α : Type} (e : Stop) : Twins cwd V b b (fail e : Act α) (fail e) := fun _ _ h => ⟨rfl, h⟩
theorem twins_panic {α : Type} : Twins cwd V b b (Act.panic : Act α) Act.panic := fun _ _ h => ⟨rfl, h⟩

theorem twins_bind {α β : Type} {m m' : Act α} {f f' : α → Act β} (hm : Twins cwd V b b' m m')
    (hf : ∀ a, Twins cwd V b' b'' (f a) (f' a)) (hb : b' = true → b'' = true) : Twins cwd V b b'' (m >>= f) (m' >>= f') := by
  intro s t h
  obtain ⟨h1, h2⟩ := hm s t h
  rw [bind_run, bind_run]
  rcases hr : m s with ⟨r, s'⟩
  rcases hr' : m' t with ⟨r', t'⟩
  rw [hr, hr'] at h1 h2
  simp only at h1
  subst h1
  cases r with
  | ok a => exact hf a s' t' h2
  | err e => exact ⟨rfl, h2.weaken hb⟩
  | panic => exact ⟨rfl, h2.weaken hb⟩
  | fatal => exact ⟨rfl, h2.weaken hb⟩

/-- The usual case: both parts keep the same difference. -/
theorem twins_seq {α β : Type} {m m' : Act α} {f f' : α → Act β} (hm : Twins cwd V b b m m')
    (hf : ∀ a, Twins cwd V b b (f a) (f' a)) : Twins cwd V b b (m >>= f) (m' >>= f') := twins_bind hm hf id

theorem twins_get {β : Type} {f f' : St → Act β} (h : ∀ s t, Veil cwd V b s t → Twins cwd V b b' (f s) (f' t)) :
    Twins cwd V b b' (Act.get >>= f) (Act.get >>= f') := fun s t hv => h s t hv s t hv

theorem twins_modify {f f' : St → St} (h : ∀ s t, Veil cwd V b s t → Veil cwd V b' (f s) (f' t)) :
    Twins cwd V b b' (modify f) (modify f') := fun s t hv => ⟨rfl, h s t hv⟩

theorem twins_attempt {α : Type} {m m' : Act α} (hm : Twins cwd V b b' m m') : Twins cwd V b b' (attempt m) (attempt m') := by
  intro s t h
  obtain ⟨h1, h2⟩ := hm s t h
  unfold attempt
  rcases hr : m s with ⟨r, s'⟩
  rcases hr' : m' t with ⟨r', t'⟩
  rw [hr, hr'] at h1 h2
  simp only at h1
  subst h1
  cases r <;> exact ⟨rfl, h2⟩

theorem twins_ite {α : Type} {p q : Prop} [Decidable p] [Decidable q] {a a' c c' : Act α} (hpq : p ↔ q)
    (ha : Twins cwd V b b' a a') (hc : Twins cwd V b b' c c') : Twins cwd V b b' (if p then a else c) (if q then a' else c') := by
  by_cases hp : p
  · rw [if_pos hp, if_pos (hpq.1 hp)]; exact ha
  · rw [if_neg hp, if_neg (fun hq => hp (hpq.2 hq))]; exact hc

theorem Veil.some_iff {s t : St} (h : Veil cwd V b s t) (n : Name) : s.views n = none ↔ t.views n = none := by
  by_cases hn : n = .details
  · subst hn
    rcases h.details with ⟨h1, h2⟩ | ⟨v, w, h1, h2, -⟩
    · rw [h1, h2]
    · rw [h1, h2]; simp
  · rw [h.views n hn]

theorem twins_viewOf (n : Name) : Twins cwd V b b (viewOf n) (viewOf n) := by
  intro s t h
  have hi := h.some_iff n
  unfold viewOf
  cases h1 : s.views n with
  | none => rw [hi.1 h1]; exact ⟨rfl, h⟩
  | some v =>
    cases h2 : t.views n with
    | none => rw [hi.2 h2] at h1; cases h1
    | some w => exact ⟨rfl, h⟩

theorem twins_viewOf_bind {β : Type} {n : Name} {f f' : Ref → Act β} (hf : Twins cwd V b b' (f (.live n)) (f' (.live n)))
    (hb : b = true → b' = true) : Twins cwd V b b' (viewOf n >>= f) (viewOf n >>= f') := by
  intro s t h
  have hi := h.some_iff n
  rw [bind_run, bind_run]
  unfold viewOf
  cases h1 : s.views n with
  | none => rw [hi.1 h1]; exact ⟨rfl, h.weaken hb⟩
  | some v =>
    cases h2 : t.views n with
    | none => rw [hi.2 h2] at h1; cases h1
    | some w => exact hf s t h

theorem Veil.deref {s t : St} (h : Veil cwd V b s t) (r : Ref) : LikeView (s.deref r) (t.deref r) := by
  cases r with
  | gone n => exact h.orphan
  | live n =>
    simp only [St.deref]
    by_cases hn : n = .details
    · subst hn
      rcases h.details with ⟨h1, h2⟩ | ⟨v, w, h1, h2, h3, -⟩
      · rw [h1, h2]; exact h.orphan
      · rw [h1, h2]; exact h3
    · rw [h.views n hn]
      cases s.views n with
      | none => exact h.orphan
      | some v => rfl

theorem twins_look {β : Type} {r : Ref} {f f' : View → Act β} (hf : ∀ v w, LikeView v w → Twins cwd V b b' (f v) (f' w)) :
    Twins cwd V b b' (look r >>= f) (look r >>= f') := by
  intro s t h
  rw [look_bind, look_bind]
  exact hf _ _ (h.deref r) s t h

/-- Replacing one view by the same. -/
theorem Veil.set {s t : St} (h : Veil cwd V b s t) {n : Name} {v w : Option View} (hn : n ≠ .details → w = v)
    (hd : n = .details → (v = none ∧ w = none) ∨ ∃ a c, v = some a ∧ w = some c ∧ LikeView a c ∧ (b' = false → c = a))
    (hb : n ≠ .details → b = true → b' = true) :
    Veil cwd V b' { s with views := setAt s.views n v } { t with views := setAt t.views n w } := by
  refine ⟨?_, ?_, ?_, h.orphan, h.item, h.held, h.world⟩
  · rw [h.rest]
  · intro m hm
    simp only [setAt]
    split
    · rename_i e; exact hn (e ▸ hm)
    · exact h.views m hm
  · by_cases e : n = .details
    · subst e
      simpa [setAt] using hd rfl
    · have e' : Name.details ≠ n := fun h => e h.symm
      simp only [setAt, if_neg e']
      exact (h.weaken (hb e)).details

theorem twins_change {r : Ref} {f : View → View} (hf : ∀ v w, LikeView v w → LikeView (f v) (f w)) :
    Twins cwd V b b (change r f) (change r f) := by
  refine twins_modify fun s t h => ?_
  cases r with
  | gone n => exact ⟨by rw [h.rest], h.views, h.details, hf _ _ h.orphan, h.item, h.held, h.world⟩
  | live n =>
    refine h.set (fun hn => by rw [h.views n hn]) (fun e => ?_) (fun _ => id)
    subst e
    rcases h.details with ⟨h1, h2⟩ | ⟨v, w, h1, h2, h3, h4⟩
    · rw [h1, h2]; exact .inl ⟨rfl, rfl⟩
    · rw [h1, h2]; exact .inr ⟨f v, f w, rfl, rfl, hf _ _ h3, fun hb => by rw [h4 hb]⟩

theorem twins_setView (n : Name) (x0 y0 x1 y1 : Int) (a : Attr) : Twins cwd V b b (setView n x0 y0 x1 y1 a) (setView n x0 y0 x1 y1 a) := by
  intro s t h
  have hi := h.some_iff n
  unfold setView
  by_cases hb : x0 ≥ x1 ∨ y0 ≥ y1
  · rw [if_pos hb, if_pos hb]; exact ⟨rfl, h⟩
  · rw [if_neg hb, if_neg hb]
    cases h1 : s.views n with
    | none =>
      rw [hi.1 h1]
      exact ⟨rfl, h.set (fun _ => rfl) (fun _ => .inr ⟨_, _, rfl, rfl, rfl, fun _ => rfl⟩) (fun _ => id)⟩
    | some v =>
      cases h2 : t.views n with
      | none => rw [hi.2 h2] at h1; cases h1
      | some w =>
        refine ⟨rfl, h.set (fun hn => ?_) (fun e => ?_) (fun _ => id)⟩
        · have := h.views n hn
          rw [h1, h2] at this
          cases this
          rfl
        · subst e
          rcases h.details with ⟨h3, -⟩ | ⟨v', w', h3, h4, h5, h6⟩
          · rw [h1] at h3; cases h3
          · rw [h1] at h3; rw [h2] at h4
            cases h3; cases h4
            refine .inr ⟨_, _, rfl, rfl, ?_, fun hb => by rw [h6 hb]⟩
            unfold LikeView at h5 ⊢
            rw [h5]

theorem twins_setCurrentView (n : Name) : Twins cwd V b b (setCurrentView n) (setCurrentView n) := by
  intro s t h
  have hi := h.some_iff n
  unfold setCurrentView
  cases h1 : s.views n with
  | none => rw [hi.1 h1]; exact ⟨rfl, h⟩
  | some v =>
    cases h2 : t.views n with
    | none => rw [hi.2 h2] at h1; cases h1
    | some w => exact ⟨rfl, by rw [h.rest], h.views, h.details, h.orphan, h.item, h.held, h.world⟩

theorem Veil.cur {s t : St} (h : Veil cwd V b s t) : t.cur = s.cur := by rw [h.rest]

/-- Without the details pane there is nothing that could be revealed. -/
theorem twins_deleteView (n : Name) (hb : n ≠ .details → b = true → b' = true) : Twins cwd V b b' (deleteView n) (deleteView n) := by
  intro s t h
  have hi := h.some_iff n
  unfold deleteView
  cases h1 : s.views n with
  | none =>
    rw [hi.1 h1]
    refine ⟨rfl, ?_⟩
    by_cases e : n = .details
    · subst e
      exact ⟨h.rest, h.views, .inl ⟨h1, hi.1 h1⟩, h.orphan, h.item, h.held, h.world⟩
    · exact h.weaken (hb e)
  | some v =>
    cases h2 : t.views n with
    | none => rw [hi.2 h2] at h1; cases h1
    | some w =>
      have hs : Veil cwd V b' { s with views := setAt s.views n none } { t with views := setAt t.views n none } :=
        h.set (fun _ => rfl) (fun _ => .inl ⟨rfl, rfl⟩) hb
      have hvw : LikeView v w := by
        have := h.deref (.live n)
        simp only [St.deref] at this
        rwa [h1, h2] at this
      dsimp only
      rw [h.cur]
      split
      · exact ⟨rfl, by rw [h.rest], hs.views, hs.details, hvw, hs.item, hs.held, hs.world⟩
      · have e := h.cur
        rw [e] at hs
        exact ⟨rfl, hs⟩

theorem LikeView.cx {v w : View} (h : LikeView v w) : w.cx = v.cx := by rw [h]
theorem LikeView.cy {v w : View} (h : LikeView v w) : w.cy = v.cy := by rw [h]
theorem LikeView.ox {v w : View} (h : LikeView v w) : w.ox = v.ox := by rw [h]
theorem LikeView.oy {v w : View} (h : LikeView v w) : w.oy = v.oy := by rw [h]
theorem LikeView.width {v w : View} (h : LikeView v w) : w.width = v.width := by rw [h]; rfl
theorem LikeView.height {v w : View} (h : LikeView v w) : w.height = v.height := by rw [h]; rfl

theorem twins_setCursor (r : Ref) (x y : Int) : Twins cwd V b b (setCursor r x y) (setCursor r x y) :=
  twins_look fun v w h => twins_ite (by rw [h.width, h.height]) (twins_fail _) (twins_change fun v w h => by
    unfold LikeView at h ⊢; rw [h])

theorem twins_setOrigin (r : Ref) (x y : Int) : Twins cwd V b b (setOrigin r x y) (setOrigin r x y) :=
  twins_ite Iff.rfl (twins_fail _) (twins_change fun v w h => by unfold LikeView at h ⊢; rw [h])

theorem likeView_write (x : Bytes) {v w : View} (h : LikeView v w) : LikeView (v.write x) (w.write x) := by
  unfold LikeView View.write at *
  rw [h]

theorem likeView_clear {v w : View} (h : LikeView v w) : LikeView v.clear w.clear := by
  unfold LikeView View.clear at *
  rw [h]

theorem Veil.help {s t : St} (h : Veil cwd V b s t) : t.help = s.help := by rw [h.rest]
theorem Veil.maxX {s t : St} (h : Veil cwd V b s t) : t.maxX = s.maxX := by rw [h.rest]
theorem Veil.maxY {s t : St} (h : Veil cwd V b s t) : t.maxY = s.maxY := by rw [h.rest]
theorem Veil.err {s t : St} (h : Veil cwd V b s t) : t.err = s.err := by rw [h.rest]
theorem Veil.menuIdx {s t : St} (h : Veil cwd V b s t) : t.menuIdx = s.menuIdx := by rw [h.rest]
theorem Veil.itemIdx {s t : St} (h : Veil cwd V b s t) : t.itemIdx = s.itemIdx := by rw [h.rest]
theorem Veil.items {s t : St} (h : Veil cwd V b s t) : t.items = s.items := by rw [h.rest]
theorem Veil.cats {s t : St} (h : Veil cwd V b s t) : t.cats = s.cats := by rw [h.rest]
theorem Veil.typed {s t : St} (h : Veil cwd V b s t) : t.typed = s.typed := by rw [h.rest]
theorem Veil.pending {s t : St} (h : Veil cwd V b s t) : t.pending = s.pending := by rw [h.rest]
theorem Veil.opened {s t : St} (h : Veil cwd V b s t) : t.opened = s.opened := by rw [h.rest]
theorem Veil.vault {s t : St} (h : Veil cwd V b s t) : t.vault = s.vault := by rw [h.rest]

/-- A change of what the two states share. -/
theorem Veil.mod {s t : St} (h : Veil cwd V b s t) (f : St → St)
    (hf : ∀ (u : St) vs o i w, f { u with views := vs, orphan := o, item := i, world := w } =
      { f u with views := vs, orphan := o, item := i, world := w }) : Veil cwd V b (f s) (f t) := by
  have hs : f s = { f s with views := s.views, orphan := s.orphan, item := s.item, world := s.world } := hf s _ _ _ _
  have ht : f t = { f s with views := t.views, orphan := t.orphan, item := t.item, world := t.world } := by
    conv_lhs => rw [h.rest]
    exact hf s _ _ _ _
  rw [hs, ht]
  exact ⟨rfl, h.views, h.details, h.orphan, h.item, h.held, h.world⟩

theorem twins_mod (f : St → St)
    (hf : ∀ (u : St) vs o i w, f { u with views := vs, orphan := o, item := i, world := w } =
      { f u with views := vs, orphan := o, item := i, world := w }) : Twins cwd V b b (modify f) (modify f) :=
  twins_modify fun _ _ h => h.mod f hf

theorem twins_helpUpdate : Twins cwd V b b helpUpdate helpUpdate :=
  twins_viewOf_bind (twins_get fun s t h => by
    rw [h.help]
    exact twins_change fun v w hv => likeView_write _ (likeView_clear hv)) id

theorem twins_setHelp (l : List Bytes) : Twins cwd V b b (setHelp l) (setHelp l) :=
  twins_seq (twins_mod _ fun _ _ _ _ _ => rfl) fun _ => twins_helpUpdate

theorem twins_helpLayout : Twins cwd V b b helpLayout helpLayout :=
  twins_get fun s t h => by
    rw [h.maxX, h.maxY]
    refine twins_seq (twins_setView _ _ _ _ _ _) fun new => ?_
    cases new with
    | true => exact twins_seq (twins_attempt twins_helpUpdate) fun _ => twins_pure _
    | false => exact twins_pure _

theorem twins_promptLayout : Twins cwd V b b promptLayout promptLayout :=
  twins_get fun s t h => by
    rw [h.maxX, h.maxY]
    refine twins_seq (twins_setView _ _ _ _ _ _) fun new => ?_
    cases new with
    | true => exact twins_seq (twins_mod _ fun _ _ _ _ _ => rfl) fun _ => twins_setCurrentView _
    | false => exact twins_pure _

theorem twins_errorLayout : Twins cwd V b b errorLayout errorLayout :=
  twins_get fun s t h => by
    rw [h.maxX, h.maxY, h.err]
    refine twins_seq (twins_setView _ _ _ _ _ _) fun new => ?_
    cases new with
    | true => exact twins_seq (twins_setCurrentView _) fun _ => twins_change fun v w hv => likeView_write _ hv
    | false => exact twins_pure _

theorem twins_resetOrigin (r : Ref) : Twins cwd V b b (resetOrigin r) (resetOrigin r) :=
  twins_look fun v w h => by
    rw [h.ox, h.oy]
    exact twins_ite Iff.rfl
      (twins_seq (twins_setOrigin _ _ _) fun _ => twins_ite Iff.rfl (twins_setOrigin _ _ _) (twins_pure _))
      (twins_seq (twins_pure _) fun _ => twins_ite Iff.rfl (twins_setOrigin _ _ _) (twins_pure _))

theorem twins_scrollDown (r : Ref) : Twins cwd V b b (scrollDown r) (scrollDown r) :=
  twins_look fun v w h => by rw [h.ox, h.oy]; exact twins_setOrigin _ _ _
theorem twins_scrollRight (r : Ref) : Twins cwd V b b (scrollRight r) (scrollRight r) :=
  twins_look fun v w h => by rw [h.ox, h.oy]; exact twins_setOrigin _ _ _
theorem twins_scrollLeft (r : Ref) : Twins cwd V b b (scrollLeft r) (scrollLeft r) :=
  twins_look fun v w h => by rw [h.ox, h.oy]; exact twins_ite Iff.rfl (twins_setOrigin _ _ _) (twins_pure _)
theorem twins_scrollUp (r : Ref) : Twins cwd V b b (scrollUp r) (scrollUp r) :=
  twins_look fun v w h => by rw [h.ox, h.oy]; exact twins_ite Iff.rfl (twins_setOrigin _ _ _) (twins_pure _)

/-- An emptied details pane is the same in both. -/
theorem twins_clear : Twins cwd V b false (change (.live .details) View.clear) (change (.live .details) View.clear) :=
  twins_modify fun s t h => h.set (fun hn => absurd rfl hn) (fun _ => by
    rcases h.details with ⟨h1, h2⟩ | ⟨v, w, h1, h2, h3, h4⟩
    · rw [h1, h2]; exact .inl ⟨rfl, rfl⟩
    · rw [h1, h2]
      refine .inr ⟨v.clear, w.clear, rfl, rfl, likeView_clear h3, fun _ => ?_⟩
      unfold LikeView at h3
      rw [h3]
      rfl) (fun hn => absurd rfl hn)

variable (C : Ctx) (K : Kit)

theorem Veil.none_details {s t : St} (h : Veil cwd V b s t) (h1 : s.views .details = none) : Veil cwd V b' s t :=
  ⟨h.rest, h.views, .inl ⟨h1, (h.some_iff _).1 h1⟩, h.orphan, h.item, h.held, h.world⟩

/-- Covering makes both the same, also if the pane is not there. -/
theorem twins_viewOf_details {β : Type} {f f' : Ref → Act β} (hf : Twins cwd V b b' (f (.live .details)) (f' (.live .details))) :
    Twins cwd V b b' (viewOf .details >>= f) (viewOf .details >>= f') := by
  intro s t h
  have hi := h.some_iff .details
  rw [bind_run, bind_run]
  unfold viewOf
  cases h1 : s.views .details with
  | none => rw [hi.1 h1]; exact ⟨rfl, h.none_details h1⟩
  | some v =>
    cases h2 : t.views .details with
    | none => rw [hi.2 h2] at h1; cases h1
    | some w => exact hf s t h

theorem twins_detailsUpdate (covered : Bool) : Twins cwd V b (!covered) (detailsUpdate C covered) (detailsUpdate C covered) := by
  refine twins_viewOf_details ?_
  refine twins_bind (b' := false) twins_clear (fun _ => ?_) (by simp)
  refine twins_bind (b' := false) (twins_resetOrigin _) (fun _ => ?_) (by simp)
  refine twins_get fun s t h => ?_
  rcases h.item with ⟨h1, h2⟩ | ⟨i, j, h1, h2, h3⟩
  · rw [h1, h2]; exact (twins_pure _).weaken (by simp)
  · rw [h1, h2]
    cases covered with
    | true =>
      dsimp only
      rw [covered_text_same C.env h3]
      exact twins_change fun v w hv => likeView_write _ hv
    | false =>
      refine twins_modify fun s t h => h.set (fun hn => absurd rfl hn) (fun _ => ?_) (fun hn => absurd rfl hn)
      rcases h.details with ⟨h1, h2⟩ | ⟨v, w, h1, h2, h3, h4⟩
      · rw [h1, h2]; exact .inl ⟨rfl, rfl⟩
      · rw [h1, h2]
        refine .inr ⟨_, _, rfl, rfl, ?_, by simp⟩
        unfold LikeView View.write at *
        rw [h3]

theorem twins_cover : Twins cwd V b false (cover C) (cover C) :=
  twins_bind (b' := false) (twins_detailsUpdate C true) (fun _ => twins_seq (twins_setCurrentView _) fun _ => twins_setHelp _) id

theorem twins_detailsLayout : Twins cwd V b b detailsLayout detailsLayout :=
  twins_get fun s t h => by
    rw [h.maxX, h.maxY]
    exact twins_seq (twins_setView _ _ _ _ _ _) fun _ => twins_pure _

theorem twins_rowDown (r : Ref) : Twins cwd V b b (rowDown r) (rowDown r) :=
  twins_look fun v w h => by
    rw [h.cx, h.cy, h.ox, h.oy]
    exact twins_seq (twins_attempt (twins_setCursor _ _ _)) fun _ => twins_ite Iff.rfl (twins_pure _) (twins_setOrigin _ _ _)

theorem twins_rowUp (r : Ref) : Twins cwd V b b (rowUp r) (rowUp r) :=
  twins_look fun v w h => by
    rw [h.cx, h.cy, h.ox, h.oy]
    exact twins_seq (twins_attempt (twins_setCursor _ _ _)) fun _ =>
      twins_ite Iff.rfl (twins_pure _) (twins_ite Iff.rfl (twins_setOrigin _ _ _) (twins_pure _))

theorem twins_resetCursor (r : Ref) : Twins cwd V b b (resetCursor r) (resetCursor r) :=
  twins_look fun v w h => by
    rw [h.cx, h.ox, h.oy]
    exact twins_seq (twins_attempt (twins_setCursor _ _ _)) fun _ =>
      twins_ite Iff.rfl (twins_pure _) (twins_ite Iff.rfl (twins_setOrigin _ _ _) (twins_pure _))

theorem twins_fetch : Twins cwd V b b fetch fetch :=
  twins_get fun s t h => by
    rw [h.itemIdx, h.items]
    refine twins_ite Iff.rfl twins_panic ?_
    cases s.items[s.itemIdx.toNat]? with
    | none => exact twins_panic
    | some i =>
      refine twins_modify fun s t h => ?_
      exact ⟨by rw [h.rest], h.views, h.details, h.orphan, h.held.getItem _ _, h.held, h.world⟩

theorem twins_showOverview : Twins cwd V b b (showOverview C) (showOverview C) :=
  twins_seq twins_fetch fun _ => (twins_detailsUpdate C true).weaken (by simp)

theorem twins_reveal : Twins cwd V b true (reveal C) (reveal C) :=
  twins_bind (b' := b) twins_fetch (fun _ => twins_bind (b' := true) (twins_detailsUpdate C false)
    (fun _ => twins_seq (twins_setCurrentView _) fun _ => twins_setHelp _) id) (fun _ => rfl)

theorem twins_itemsDown (r : Ref) : Twins cwd V b b (itemsDown C r) (itemsDown C r) :=
  twins_get fun s t h => by
    rw [h.itemIdx, h.items]
    exact twins_ite Iff.rfl
      (twins_seq (twins_rowDown _) fun _ => twins_seq (twins_mod _ fun _ _ _ _ _ => rfl) fun _ => twins_showOverview C) (twins_pure _)

theorem twins_itemsUp (r : Ref) : Twins cwd V b b (itemsUp C r) (itemsUp C r) :=
  twins_get fun s t h => by
    rw [h.itemIdx]
    exact twins_ite Iff.rfl
      (twins_seq (twins_rowUp _) fun _ => twins_seq (twins_mod _ fun _ _ _ _ _ => rfl) fun _ => twins_showOverview C) (twins_pure _)

theorem twins_goBack : Twins cwd V b false goBack goBack :=
  twins_bind (b' := false) (twins_deleteView _ fun h => absurd rfl h)
    (fun _ => twins_seq (twins_deleteView _ fun _ => id) fun _ => twins_setCurrentView _) id

theorem twins_itemsUpdate : Twins cwd V b b (itemsUpdate C) (itemsUpdate C) :=
  twins_viewOf_bind (twins_seq (twins_mod _ fun _ _ _ _ _ => rfl) fun _ => twins_seq (twins_resetCursor _) fun _ =>
    twins_seq (twins_change fun _ _ hv => likeView_clear hv) fun _ => twins_get fun s t h => by
      rw [h.items]
      exact twins_ite Iff.rfl (twins_seq (twins_change fun _ _ hv => likeView_write _ hv) fun _ =>
        twins_seq (twins_mod _ fun _ _ _ _ _ => rfl) fun _ => twins_showOverview C) (twins_pure _)) id

theorem twins_itemsLayout : Twins cwd V b b (itemsLayout C) (itemsLayout C) :=
  twins_get fun s t h => by
    rw [h.maxX, h.maxY]
    refine twins_seq (twins_setView _ _ _ _ _ _) fun new => ?_
    cases new with
    | true =>
      exact twins_seq (twins_attempt (twins_itemsUpdate C)) fun _ => twins_seq twins_detailsLayout fun _ =>
        twins_seq (twins_setCurrentView _) fun _ => twins_setHelp _
    | false => exact twins_pure _

theorem twins_menuDown (r : Ref) : Twins cwd V b b (menuDown r) (menuDown r) :=
  twins_get fun s t h => by
    rw [h.menuIdx, h.cats]
    exact twins_ite Iff.rfl (twins_seq (twins_rowDown _) fun _ => twins_mod _ fun _ _ _ _ _ => rfl) (twins_pure _)

theorem twins_menuUp (r : Ref) : Twins cwd V b b (menuUp r) (menuUp r) :=
  twins_get fun s t h => by
    rw [h.menuIdx]
    exact twins_ite Iff.rfl (twins_seq (twins_rowUp _) fun _ => twins_mod _ fun _ _ _ _ _ => rfl) (twins_pure _)

/-- The sessions replaced. -/
theorem Veil.sess {s t : St} (h : Veil cwd V b s t) {x y : Session} (hx : SameHeld x y) :
    Veil cwd V b { s with world := { s.world with sess := x } } { t with world := { t.world with sess := y } } :=
  ⟨by rw [h.rest], h.views, h.details, h.orphan, h.item, hx,
    ⟨h.world.cwd, h.world.off, h.world.trace, h.world.tick, h.world.stdin, h.world.conf⟩⟩

theorem twins_menuFill : Twins cwd V b b (menuFill C K) (menuFill C K) := by
  refine twins_viewOf_bind ?_ id
  refine twins_seq (twins_modify fun s t h => h.sess (sortCats_same C h.held)) fun _ => ?_
  refine twins_get fun s t h => ?_
  rw [h.maxX, menuText_same K h.held]
  refine twins_seq (twins_change fun _ _ hv => likeView_write _ hv) fun _ => ?_
  refine twins_seq (twins_modify fun s t h => ?_) fun _ => twins_mod _ fun u _ _ _ _ => ?_
  · have hc : t.cats ++ menuCats t.world.sess = s.cats ++ menuCats s.world.sess := by
      rw [h.cats, menuCats_same h.held]
    rw [hc]
    exact ⟨by rw [h.rest], h.views, h.details, h.orphan, h.item, h.held, h.world⟩
  · split <;> rfl

theorem twins_menuUpdate : Twins cwd V b b (menuUpdate C K) (menuUpdate C K) :=
  twins_get fun s t h => by
    rw [h.held.open_]
    exact twins_ite Iff.rfl (twins_menuFill C K) twins_promptLayout

theorem twins_lock (r : Ref) : Twins cwd V b b (lock C K r) (lock C K r) := by
  refine twins_seq (twins_modify fun s t h => ?_) fun _ => twins_seq (twins_resetCursor _) fun _ =>
    twins_seq (twins_change fun _ _ hv => likeView_clear hv) fun _ => twins_seq (twins_menuUpdate C K) fun _ => twins_setHelp _
  have := (h.sess h.held.lock).mod (fun u => { u with menuIdx := -1, cats := [] }) fun _ _ _ _ _ => rfl
  exact this

theorem twins_itemsLock : Twins cwd V b false (itemsLock C K) (itemsLock C K) :=
  twins_bind (b' := false) twins_goBack (fun _ => twins_viewOf_bind (twins_lock C K _) id) id

theorem twins_closeError : Twins cwd V b b (closeError C K) (closeError C K) :=
  twins_seq (twins_deleteView _ fun _ => id) fun _ => twins_menuUpdate C K

theorem entryItems_same {s t : St} (h : Veil cwd V b s t) : entryItems C t = entryItems C s := by
  unfold entryItems
  simp only [h.cats, h.menuIdx, h.held.getItems]

theorem twins_showItems : Twins cwd V b b (showItems C) (showItems C) :=
  twins_get fun s t h => by
    rw [h.menuIdx]
    refine twins_ite Iff.rfl (twins_seq (twins_itemsLayout C) fun _ => twins_get fun s t h => ?_) (twins_pure _)
    rw [entryItems_same C h]
    cases entryItems C s with
    | none => exact twins_panic
    | some l => exact twins_seq (twins_mod _ fun _ _ _ _ _ => rfl) fun _ => twins_itemsUpdate C

theorem twins_menuLayout : Twins cwd V b b (menuLayout C K) (menuLayout C K) :=
  twins_get fun s t h => by
    rw [h.maxX, h.maxY]
    refine twins_seq (twins_setView _ _ _ _ _ _) fun new => ?_
    cases new with
    | true => exact twins_seq (twins_setCurrentView _) fun _ => twins_seq (twins_menuUpdate C K) fun _ => twins_setHelp _
    | false => exact twins_pure _

theorem twins_verLayout : Twins cwd V b b verLayout verLayout :=
  twins_get fun s t h => by
    rw [h.maxX]
    refine twins_seq (twins_setView _ _ _ _ _ _) fun new => ?_
    cases new with
    | true => exact twins_seq (twins_change fun _ _ hv => likeView_write _ hv) fun _ => twins_mod _ fun _ _ _ _ _ => rfl
    | false => exact twins_pure _

theorem twins_flush (x y : Nat) : Twins cwd V b b (flush C K x y) (flush C K x y) := by
  refine twins_seq (twins_mod _ fun _ _ _ _ _ => rfl) fun _ => twins_seq twins_verLayout fun _ => twins_seq twins_helpLayout fun _ =>
    twins_seq (twins_menuLayout C K) fun _ => twins_modify fun s t h => ?_
  refine ⟨by rw [h.rest], fun n hn => by simp only [h.views n hn], ?_, h.orphan, h.item, h.held, h.world⟩
  rcases h.details with ⟨h1, h2⟩ | ⟨v, w, h1, h2, h3, h4⟩
  · exact .inl ⟨by simp only [h1]; rfl, by simp only [h2]; rfl⟩
  · refine .inr ⟨v.draw, w.draw, by simp only [h1]; rfl, by simp only [h2]; rfl, ?_, fun hb => by rw [h4 hb]⟩
    unfold LikeView View.draw at *
    rw [h3]

theorem twins_typeKey (k : Key) (r : Ref) : Twins cwd V b b (typeKey K k r) (typeKey K k r) :=
  twins_seq (twins_mod _ fun _ _ _ _ _ => rfl) fun _ => twins_get fun s t h => by
    rw [h.typed]
    refine twins_change fun v w hv => ?_
    unfold LikeView at *
    rw [hv]

/-- The background check, on disks that differ in places it does not look at. -/
theorem twins_checked (hV : Clear cwd V C.dir) : Twins cwd V b b (step C K .checked) (step C K .checked) := by
  have hA : Cli.Alike C C := ⟨⟨rfl, rfl, rfl⟩, rfl, rfl, rfl⟩
  refine twins_get fun s t h => ?_
  rw [h.pending]
  refine twins_ite Iff.rfl (twins_seq (twins_mod _ fun _ _ _ _ _ => rfl) fun _ => ?_) (twins_pure _)
  refine twins_seq (fun s t h => ?_) fun r => twins_get fun s t h => ?_
  · obtain ⟨h1, h2⟩ := par_facadeCheck hA hV true s.world t.world h.world
    have k1 := Cli.calm_facadeCheck C s.world
    have k2 := Cli.calm_facadeCheck C t.world
    unfold onWorld
    rcases hr : Upd.facadeCheck C.sys C.ext C.dir true s.world with ⟨o, w⟩
    rcases hr' : Upd.facadeCheck C.sys C.ext C.dir true t.world with ⟨o', w'⟩
    rw [hr] at h1 h2 k1
    rw [hr'] at h1 h2 k2
    simp only at h1
    subst h1
    have hh : SameHeld w.sess w'.sess := by
      rw [k1.2.2, k2.2.2]; exact h.held
    have hv : Veil cwd V b { s with world := w } { t with world := w' } :=
      ⟨by rw [h.rest], h.views, h.details, h.orphan, h.item, hh, h2⟩
    cases o <;> exact ⟨rfl, hv⟩
  · rw [h.views .ver (by decide)]
    cases s.views .ver with
    | none => exact twins_panic
    | some v => exact twins_change fun _ _ hv => likeView_write _ hv

/-- Opening the vault ends the same way, with the same in the session but for secrets. -/
def Matched (x y : Out (Except Err Unit × Session)) : Prop :=
  (∃ r a c, x = .ret (r, a) ∧ y = .ret (r, c) ∧ SameHeld a c) ∨ (x = .panic ∧ y = .panic) ∨ (x = .fatal ∧ y = .fatal)

theorem deleteView_some {n : Name} {v : View} {s : St} (h : s.views n = some v) :
    ∃ c o, deleteView n s = (.ok (), { s with views := setAt s.views n none, cur := c, orphan := o }) := by
  unfold deleteView
  rw [h]
  dsimp only
  split
  · exact ⟨_, _, rfl⟩
  · exact ⟨s.cur, s.orphan, rfl⟩

theorem unlock_twins {s t : St} (h : Veil cwd V b s t) {v : View} (hv : s.views .prompt = some v)
    (hM : Matched (attemptUnlock C K s (entered v)) (attemptUnlock C K t (entered v))) :
    (unlock C K (.live .prompt) s).1 = (unlock C K (.live .prompt) t).1 ∧
      Veil cwd V b (unlock C K (.live .prompt) s).2 (unlock C K (.live .prompt) t).2 := by
  have hv' : t.views .prompt = some v := (h.views _ (by decide)).trans hv
  obtain ⟨c, o, hs⟩ := deleteView_some hv
  obtain ⟨c', o', ht⟩ := deleteView_some hv'
  have hd := (twins_deleteView .prompt (fun _ => id) : Twins cwd V b b _ _) s t h
  rw [hs, ht] at hd
  obtain ⟨-, hd⟩ := hd
  unfold unlock
  rw [look_bind, look_bind, deref_live hv, deref_live hv']
  rw [bind_ok hs, bind_ok ht]
  simp only at hd
  have hd' := hd.mod (fun u => { u with opened := u.opened + 1 }) fun _ _ _ _ _ => rfl
  have e1 : ∀ (u : St) p, tryUnlock C K p u = onWorld (onSession (fun d sess => sess.unlock C.env (K.order u.opened) d u.vault p))
      { u with opened := u.opened + 1 } := fun u p => rfl
  unfold attemptUnlock at hM
  unfold entered at hM
  rcases hM with ⟨r, x, y, hx, hy, hxy⟩ | ⟨hx, hy⟩ | ⟨hx, hy⟩
  · rw [bind_ok (show tryUnlock C K (Str.trimSpace v.viewBuffer) _ = (.ok r, _) by
        rw [e1]; simp only [onWorld, onSession, hx]; rfl),
      bind_ok (show tryUnlock C K (Str.trimSpace v.viewBuffer) _ = (.ok r, _) by
        rw [e1]; simp only [onWorld, onSession, hy]; rfl)]
    have hf := hd'.sess hxy
    cases r with
    | error e =>
      exact (twins_seq (twins_mod _ fun _ _ _ _ _ => rfl) fun _ => twins_errorLayout : Twins cwd V b b _ _) _ _ hf
    | ok u =>
      exact (twins_seq (twins_setCurrentView _) fun _ => twins_menuUpdate C K : Twins cwd V b b _ _) _ _ hf
  · rw [bind_panic (show tryUnlock C K (Str.trimSpace v.viewBuffer) _ = (.panic, _) by
        rw [e1]; simp only [onWorld, onSession, hx]; rfl),
      bind_panic (show tryUnlock C K (Str.trimSpace v.viewBuffer) _ = (.panic, _) by
        rw [e1]; simp only [onWorld, onSession, hy]; rfl)]
    exact ⟨rfl, hd'⟩
  · rw [bind_fatal (show tryUnlock C K (Str.trimSpace v.viewBuffer) _ = (.fatal, _) by
        rw [e1]; simp only [onWorld, onSession, hx]; rfl),
      bind_fatal (show tryUnlock C K (Str.trimSpace v.viewBuffer) _ = (.fatal, _) by
        rw [e1]; simp only [onWorld, onSession, hy]; rfl)]
    exact ⟨rfl, hd'⟩

/-- The details pane is in front. -/
def Front (s : St) : Prop := s.cur = some (.live .details)

/-- The same but for secrets, and for the details pane if it is in front. -/
def Twin (cwd : List Bytes) (V : List Bytes → Prop) (s t : St) : Prop := ∃ b, Veil cwd V b s t ∧ (b = true → Front s)

/-- Two ends of a step. -/
def TwinEnd (cwd : List Bytes) (V : List Bytes → Prop) (x y : Res Unit × St) : Prop :=
  x.1 = y.1 ∧ (x.1 = .ok () → Twin cwd V x.2 y.2)

theorem twinEnd_calm {m m' : Act Unit} (hm : Twins cwd V b false m m') {s t : St} (h : Veil cwd V b s t) :
    TwinEnd cwd V (m s) (m' t) := ⟨(hm s t h).1, fun _ => ⟨false, (hm s t h).2, by simp⟩⟩

theorem ok_bind {α β : Type} {m : Act α} {f : α → Act β} {s s' : St} {x : β} (h : (m >>= f) s = (.ok x, s')) :
    ∃ a s1, m s = (.ok a, s1) ∧ f a s1 = (.ok x, s') := by
  rw [bind_run] at h
  rcases hr : m s with ⟨r, s1⟩
  rw [hr] at h
  cases r with
  | ok a => exact ⟨a, s1, rfl, h⟩
  | err e => cases h
  | panic => cases h
  | fatal => cases h

theorem reveal_front {s s' : St} (h : reveal C s = (.ok (), s')) : Front s' := by
  unfold reveal at h
  obtain ⟨_, s1, -, h⟩ := ok_bind h
  obtain ⟨_, s2, -, h⟩ := ok_bind h
  obtain ⟨_, s3, h3, h⟩ := ok_bind h
  have hc : s3.cur = some (.live .details) := by
    unfold setCurrentView at h3
    cases hv : s2.views .details with
    | none => rw [hv] at h3; cases h3
    | some v => rw [hv] at h3; cases h3; rfl
  unfold setHelp at h
  rw [modify_bind] at h
  unfold helpUpdate at h
  obtain ⟨r, s4, h4, h⟩ := ok_bind h
  have h4' : s4.cur = s3.cur := by
    unfold viewOf at h4
    split at h4
    · cases h4; rfl
    · cases h4
  rw [get_bind] at h
  unfold change at h
  rw [modify_run] at h
  cases h
  unfold Front
  cases r <;> exact h4'.trans hc

theorem setOrigin_cur (r : Ref) (x y : Int) (s : St) : (setOrigin r x y s).2.cur = s.cur := by
  unfold setOrigin change
  split
  · rfl
  · cases r <;> rfl

theorem twinEnd_scroll {m : Act Unit} (hm : Twins cwd V true true m m) (hc : ∀ s, (m s).2.cur = s.cur) {s t : St}
    (h : Veil cwd V true s t) (hf : Front s) : TwinEnd cwd V (m s) (m t) :=
  ⟨(hm s t h).1, fun _ => ⟨true, (hm s t h).2, fun _ => (hc s).trans hf⟩⟩

/-- One step of both. -/
theorem twin_step (hV : Clear cwd V C.dir) {s t : St} (hI : Inv s) (h : Twin cwd V s t) (e : Event) (he : e.foreign = false)
    (hu : ∀ v, e = .key .enter → s.cur = some (.live .prompt) → s.views .prompt = some v →
      Matched (attemptUnlock C K s (entered v)) (attemptUnlock C K t (entered v))) :
    TwinEnd cwd V (step C K e s) (step C K e t) := by
  obtain ⟨b, hv, hb⟩ := h
  cases e with
  | disk d => cases he
  | checked =>
    obtain ⟨h1, h2⟩ := twins_checked C K hV s t hv
    refine ⟨h1, fun hok => ⟨b, h2, fun hbt => ?_⟩⟩
    have hs : step C K .checked s = (.ok (), (step C K .checked s).2) := Prod.ext hok rfl
    have hT := (inv_step C K hI hs).1
    generalize (step C K .checked s).2 = s' at hT
    cases hT with
    | idle _ => exact hb hbt
    | checked _ _ _ _ _ _ => exact hb hbt
  | flush x y =>
    obtain ⟨h1, h2⟩ := twins_flush C K x y s t hv
    refine ⟨h1, fun hok => ⟨b, h2, fun hbt => ?_⟩⟩
    have hs : step C K (.flush x y) s = (.ok (), (step C K (.flush x y) s).2) := Prod.ext hok rfl
    have hT := (inv_step C K hI hs).1
    show Front (step C K (.flush x y) s).2
    generalize (step C K (.flush x y) s).2 = s' at hT
    cases hT with
    | flush _ _ _ _ _ _ _ _ _ _ => exact hb hbt
  | key k =>
    show TwinEnd cwd V (press C K k s) (press C K k t)
    by_cases hq : k = .ctrlQ
    · subst hq
      rw [press_quit, press_quit]
      exact ⟨rfl, fun h => by cases h⟩
    have hbf : ∀ n, n ≠ .details → s.cur = some (.live n) → b = false := by
      intro n hn hc
      cases b with
      | false => rfl
      | true =>
        have := hb rfl
        unfold Front at this
        rw [hc] at this
        cases this
        exact absurd rfl hn
    have hpress : ∀ (u : St) (n : Name), u.cur = some (.live n) →
        press C K k u = (match binding C K n k (.live n) with
          | some act => act u
          | none => (if n = .prompt then typeKey K k (.live n) else Act.pure ()) u) := by
      intro u n hc
      unfold press
      rw [get_bind, if_neg hq, hc]
      dsimp only [Ref.name]
      cases binding C K n k (.live n) <;> rfl
    have calm : ∀ (n : Name), n ≠ .details → s.cur = some (.live n) →
        (∀ act, binding C K n k (.live n) = some act → TwinEnd cwd V (act s) (act t)) →
        TwinEnd cwd V (press C K k s) (press C K k t) := by
      intro n hn hc hact
      have := hbf n hn hc
      subst this
      rw [hpress s n hc, hpress t n (hv.cur.trans hc)]
      cases hbd : binding C K n k (.live n) with
      | some act => exact hact act hbd
      | none =>
        dsimp only
        split
        · exact twinEnd_calm (twins_typeKey K k _) hv
        · exact twinEnd_calm (twins_pure _) hv
    cases hI.screen with
    | prompt ha =>
      have := hbf _ (by decide) ha.cur
      subst this
      refine calm .prompt (by decide) ha.cur fun act hact => ?_
      simp only [binding] at hact
      split at hact
      · rename_i hk
        subst hk
        cases hact
        obtain ⟨v, hvp⟩ := ha.prompt
        have := unlock_twins C K hv hvp (hu v rfl ha.cur hvp)
        exact ⟨this.1, fun _ => ⟨false, this.2, by simp⟩⟩
      · cases hact
    | error ha =>
      have := hbf _ (by decide) ha.cur
      subst this
      refine calm .error (by decide) ha.cur fun act hact => ?_
      simp only [binding] at hact
      split at hact
      · cases hact
        exact twinEnd_calm (twins_closeError C K) hv
      · cases hact
    | menu ha =>
      have := hbf _ (by decide) ha.cur
      subst this
      refine calm .menu (by decide) ha.cur fun act hact => ?_
      simp only [binding] at hact
      split at hact
      · cases hact; exact twinEnd_calm (twins_lock C K _) hv
      · split at hact
        · cases hact; exact twinEnd_calm (twins_menuDown _) hv
        · split at hact
          · cases hact; exact twinEnd_calm (twins_menuUp _) hv
          · split at hact
            · cases hact; exact twinEnd_calm (twins_showItems C) hv
            · cases hact
    | items ha =>
      have := hbf _ (by decide) ha.cur
      subst this
      refine calm .items (by decide) ha.cur fun act hact => ?_
      simp only [binding] at hact
      split at hact
      · cases hact; exact twinEnd_calm (twins_itemsLock C K) hv
      · split at hact
        · cases hact; exact twinEnd_calm twins_goBack hv
        · split at hact
          · cases hact; exact twinEnd_calm (twins_itemsDown C _) hv
          · split at hact
            · cases hact; exact twinEnd_calm (twins_itemsUp C _) hv
            · split at hact
              · cases hact
                have := twins_reveal C s t hv
                exact ⟨this.1, fun hok => ⟨true, this.2, fun _ => reveal_front C (Prod.ext hok rfl : reveal C s = (.ok (), (reveal C s).2))⟩⟩
              · cases hact
    | details ha =>
      have hv := hv.weaken (b' := true) fun _ => rfl
      have hf : Front s := ha.cur
      rw [hpress s _ ha.cur, hpress t _ (hv.cur.trans ha.cur)]
      cases hact : binding C K .details k (.live .details) with
      | none => exact ⟨rfl, fun _ => ⟨true, hv, fun _ => hf⟩⟩
      | some act =>
        show TwinEnd cwd V (act s) (act t)
        simp only [binding] at hact
        split at hact
        · cases hact; exact twinEnd_calm (twins_itemsLock C K) hv
        · split at hact
          · cases hact; exact twinEnd_scroll (twins_scrollDown _) (fun u => by unfold scrollDown; rw [look_bind]; exact setOrigin_cur _ _ _ _) hv hf
          · split at hact
            · cases hact
              refine twinEnd_scroll (twins_scrollUp _) (fun u => ?_) hv hf
              unfold scrollUp
              rw [look_bind]
              split
              · exact setOrigin_cur _ _ _ _
              · rfl
            · split at hact
              · cases hact; exact twinEnd_scroll (twins_scrollRight _) (fun u => by unfold scrollRight; rw [look_bind]; exact setOrigin_cur _ _ _ _) hv hf
              · split at hact
                · cases hact
                  refine twinEnd_scroll (twins_scrollLeft _) (fun u => ?_) hv hf
                  unfold scrollLeft
                  rw [look_bind]
                  split
                  · exact setOrigin_cur _ _ _ _
                  · rfl
                · split at hact
                  · cases hact; exact twinEnd_calm (twins_cover C) hv
                  · cases hact

/-- Any number of steps of both. -/
theorem twin_run (hV : Clear cwd V C.dir) (es : List Event) (hes : ∀ e ∈ es, e.foreign = false) {s t : St} (hI : Inv s)
    (h : Twin cwd V s t)
    (hu : ∀ pre post s1 t1 v, es = pre ++ .key .enter :: post → run C K pre s = (.ok (), s1) → run C K pre t = (.ok (), t1) →
      s1.cur = some (.live .prompt) → s1.views .prompt = some v →
      Matched (attemptUnlock C K s1 (entered v)) (attemptUnlock C K t1 (entered v))) :
    TwinEnd cwd V (run C K es s) (run C K es t) := by
  induction es generalizing s t with
  | nil => exact ⟨rfl, fun _ => h⟩
  | cons e es ih =>
    obtain ⟨h1, h2⟩ := twin_step C K hV hI h e (hes e (by simp)) fun v he hc hv =>
      hu [] es s t v (by rw [he]; rfl) rfl rfl hc hv
    rw [run, bind_run, bind_run]
    rcases hs : step C K e s with ⟨r, s'⟩
    rcases ht : step C K e t with ⟨r', t'⟩
    rw [hs, ht] at h1 h2
    simp only at h1 h2
    subst h1
    cases r with
    | ok u =>
      refine ih (fun e' he' => hes e' (by simp [he'])) ((inv_step C K hI hs).2) (h2 rfl) ?_
      intro pre post s1 t1 v h3 h4 h5
      refine hu (e :: pre) post s1 t1 v (by rw [h3]; rfl) ?_ ?_
      · rw [run, bind_ok hs]; exact h4
      · rw [run, bind_ok ht]; exact h5
    | err x => exact ⟨rfl, fun h => by cases h⟩
    | panic => exact ⟨rfl, fun h => by cases h⟩
    | fatal => exact ⟨rfl, fun h => by cases h⟩

end

/-- C96. Two runs of the GUI with the same keys on the same terminal, on disks that may differ in `V` (where the vaults
are, away from the program's own files). Assume that whenever a password is tried, both vaults give the same answer, and
what is then held differs only in secrets: field values and the text of notes. Then both runs end the same way, or both go on; all
panes show the same, but for the details pane while it has the focus (which takes a TAB: C67). -/
theorem C96_screens (C : Ctx) (K : Kit) (vault : Bytes) (x y : Nat) (es : List Event) (w w' : World) (V : List Bytes → Prop)
    (hes : ∀ e ∈ es, e.foreign = false) (hdir : C.dir ≠ []) (hapart : ∀ l, V l → ¬ OwnLoc w.disk.cwd C.dir l)
    (hcwd : w.disk.cwd = w'.disk.cwd) (hdisk : ∀ l, ¬ V l → w.disk.at? l = w'.disk.at? l)
    (hlog : w.log = [] ∧ w'.log = []) (htick : w.tick = w'.tick) (hstdin : w.stdin = w'.stdin)
    (hconf : w.conf = w'.conf) (hl : w.sess.isUnlocked = false) (hh : SameHeld w.sess w'.sess)
    (hu : ∀ pre post s t v, es = pre ++ .key .enter :: post → run C K (.flush x y :: pre) (start vault w) = (.ok (), s) →
      run C K (.flush x y :: pre) (start vault w') = (.ok (), t) → s.cur = some (.live .prompt) → s.views .prompt = some v →
      Matched (attemptUnlock C K s (entered v)) (attemptUnlock C K t (entered v))) :
    (run C K (.flush x y :: es) (start vault w)).1 = (run C K (.flush x y :: es) (start vault w')).1 ∧
    ∀ s t, run C K (.flush x y :: es) (start vault w) = (.ok (), s) → run C K (.flush x y :: es) (start vault w') = (.ok (), t) →
      s.cur = t.cur ∧ (∀ n, n ≠ .details → s.views n = t.views n) ∧
      (s.cur ≠ some (.live .details) → s.views .details = t.views .details) := by
  have hV := clear_of hdir hapart
  have hs : Sync w.disk.cwd V w w' :=
    ⟨rfl, ⟨hcwd, hdisk⟩, by unfold SameTrace; rw [hlog.1, hlog.2]; exact .nil, htick, hstdin, hconf⟩
  have h0 : Veil w.disk.cwd V false (start vault w) (start vault w') :=
    ⟨rfl, fun _ _ => rfl, .inl ⟨rfl, rfl⟩, rfl, .inl ⟨rfl, rfl⟩, hh, hs⟩
  have hend : TwinEnd w.disk.cwd V (run C K (.flush x y :: es) (start vault w)) (run C K (.flush x y :: es) (start vault w')) := by
    obtain ⟨h1, h2⟩ := twins_flush C K x y _ _ h0
    have hh' : w'.sess.isUnlocked = false := hh.open_.symm.trans hl
    rcases hs1 : flush C K x y (start vault w) with ⟨r, s1⟩
    rcases ht1 : flush C K x y (start vault w') with ⟨r', t1⟩
    rw [hs1, ht1] at h1 h2
    simp only at h1 h2
    subst h1
    have es1 : step C K (.flush x y) (start vault w) = (r, s1) := hs1
    have et1 : step C K (.flush x y) (start vault w') = (r, t1) := ht1
    rw [run, bind_run, bind_run, es1, et1]
    cases r with
    | ok u =>
      by_cases hsize : x ≤ 1 ∨ y ≤ 7
      · have := flush_small C K (s := start vault w) hsize
        rw [hs1] at this
        cases this
      · have hI := first_inv vault w x y hl
        rw [first_run C K (by omega) (by omega) hl] at hs1
        cases hs1
        refine twin_run C K hV es hes hI ⟨false, h2, by simp⟩ fun pre post s2 t2 v he h3 h4 => hu pre post s2 t2 v he ?_ ?_
        · rw [run, bind_ok es1]; exact h3
        · rw [run, bind_ok et1]; exact h4
    | err x => exact ⟨rfl, fun h => by cases h⟩
    | panic => exact ⟨rfl, fun h => by cases h⟩
    | fatal => exact ⟨rfl, fun h => by cases h⟩
  obtain ⟨h1, h2⟩ := hend
  refine ⟨h1, fun s t e1 e2 => ?_⟩
  rw [e1, e2] at h2
  obtain ⟨b, hv, hb⟩ := h2 rfl
  refine ⟨hv.cur.symm, fun n hn => (hv.views n hn).symm, fun hc => ?_⟩
  rcases hv.details with ⟨h3, h4⟩ | ⟨v, u, h3, h4, -, h5⟩
  · rw [h3, h4]
  · rw [h3, h4]
    cases b with
    | true => exact absurd (hb rfl) hc
    | false => rw [h5 rfl]

/-! ### A concrete pair -/

/-- An item with its secrets taken out. -/
def blankItem (i : Item) : Item :=
  { i with notes := if i.notes = [] then [] else [0],
           sections := i.sections.map (List.map fun s => { s with fields := s.fields.map (List.map fun f => { f with value := [] }) }) }

theorem forall₂_of_map {α β : Type} {R : α → α → Prop} {f : α → β} (hf : ∀ a c, f a = f c → R a c) :
    ∀ {l m : List α}, l.map f = m.map f → List.Forall₂ R l m
  | [], [], _ => .nil
  | a :: l, c :: m, h => by
    simp only [List.map_cons, List.cons.injEq] at h
    exact .cons (hf a c h.1) (forall₂_of_map hf h.2)
  | [], c :: m, h => by cases h
  | a :: l, [], h => by cases h

theorem sameItem_of_blank {i j : Item} (h : blankItem i = blankItem j) : SameItem i j := by
  unfold blankItem at h
  simp only [Item.mk.injEq] at h
  obtain ⟨h1, h2, h3, h4, h5, h6, h7, h8, h9⟩ := h
  refine ⟨h7, h1, h4, h5, h8, h9, h2, ?_, ?_⟩
  · by_cases a : i.notes = [] <;> by_cases c : j.notes = [] <;> simp_all
  · cases a : i.sections <;> cases c : j.sections <;> rw [a, c] at h6
    · exact .inl ⟨rfl, rfl⟩
    · cases h6
    · cases h6
    · refine .inr ⟨_, _, rfl, rfl, forall₂_of_map (fun s t hst => ?_) (Option.some.inj h6)⟩
      simp only [Section.mk.injEq] at hst
      refine ⟨hst.1, ?_⟩
      have h := hst.2
      cases e : s.fields <;> cases f : t.fields <;> rw [e, f] at h
      · exact .inl ⟨rfl, rfl⟩
      · cases h
      · cases h
      · refine .inr ⟨_, _, rfl, rfl, forall₂_of_map (fun x y hxy => ?_) (Option.some.inj h)⟩
        simp only [Field.mk.injEq] at hxy
        exact hxy.1

theorem sameHeld_of_blank {a b : Session} (h1 : a.isUnlocked = b.isUnlocked) (h2 : a.reg = b.reg)
    (h3 : a.items.map (List.map blankItem) = b.items.map (List.map blankItem)) : SameHeld a b := by
  refine ⟨h1, h2, ?_⟩
  cases e : a.items <;> cases f : b.items <;> rw [e, f] at h3
  · exact .inl ⟨rfl, rfl⟩
  · cases h3
  · cases h3
  · exact .inr ⟨_, _, rfl, rfl, forall₂_of_map (fun _ _ => sameItem_of_blank) (Option.some.inj h3)⟩

/-- A check for `Matched`. -/
def matchedB : Out (Except Err Unit × Session) → Out (Except Err Unit × Session) → Bool
  | .ret (.ok (), a), .ret (.ok (), c) => decide (a.isUnlocked = c.isUnlocked) && decide (a.reg = c.reg) &&
      decide (a.items.map (List.map blankItem) = c.items.map (List.map blankItem))
  | _, _ => false

theorem matched_of {x y : Out (Except Err Unit × Session)} (h : matchedB x y = true) : Matched x y := by
  unfold matchedB at h
  split at h
  · simp only [Bool.and_eq_true, decide_eq_true_eq] at h
    exact .inl ⟨_, _, _, rfl, rfl, sameHeld_of_blank h.1.1 h.1.2 h.2⟩
  · cases h

namespace Demo

/-- Opening the vault, listing, revealing and covering. -/
def looked : List Event := opening ++ [.key .enter, .flush 80 24, .key .tab, .flush 80 24, .key .tab, .flush 80 24]

def isEnter : Event → Bool
  | .key .enter => true
  | _ => false

/-- What the theorem asks of a password being tried, for the `k`-th event. -/
def tried (d d' : Disk) (k : Nat) : Bool :=
  let s := (go d (looked.take k)).2
  let t := (go d' (looked.take k)).2
  match looked[k]?, s.cur, s.views .prompt with
  | some (.key .enter), some (.live .prompt), some v => matchedB (attemptUnlock ctx kit s (entered v)) (attemptUnlock ctx kit t (entered v))
  | some (.key .enter), some (.live .prompt), none => false
  | _, _, _ => true

theorem world_same (d d' : Disk) :
    (world d).disk = d ∧ (world d).log = [] ∧ (world d).tick = (world d').tick ∧ (world d).stdin = (world d').stdin ∧
      (world d).conf = (world d').conf := by
  unfold world
  cases Session.init.validate d b!"/a" <;> cases Session.init.validate d' b!"/a" <;> exact ⟨rfl, rfl, rfl, rfl, rfl⟩

theorem disk_at (s n s' n' : Bytes) (l : List Bytes) (h : ¬ [b!"a"] <+: l) : (disk s n).at? l = (disk s' n').at? l := by
  cases l with
  | nil => simp [disk, diskOf, Disk.at?, List.lookup]
  | cons x l =>
    have hx : x ≠ b!"a" := fun hx => h (by rw [hx]; exact ⟨l, rfl⟩)
    have hx' : (x == b!"a") = false := by simpa using hx
    simp [disk, diskOf, Disk.at?, List.find?_cons, hx, hx', Ne.symm hx]

theorem tried_of {d d' : Disk} {k : Nat} (h : tried d d' k = true) {s t : St} {v : View}
    (he : looked[k]? = some (.key .enter)) (hs : go d (looked.take k) = (.ok (), s)) (ht : go d' (looked.take k) = (.ok (), t))
    (hc : s.cur = some (.live .prompt)) (hv : s.views .prompt = some v) :
    Matched (attemptUnlock ctx kit s (entered v)) (attemptUnlock ctx kit t (entered v)) := by
  unfold tried at h
  rw [hs, ht, he] at h
  simp only [hc, hv] at h
  exact matched_of h

theorem enters : ∀ k, looked[k]? = some (.key .enter) → k = 41 ∨ k = 43 := by
  intro k hk
  have hlt : k < 49 := by
    have := (List.getElem?_eq_some_iff.mp hk).1
    have e : looked.length = 49 := by decide +kernel
    omega
  have h := (by decide +kernel : ∀ k : Fin 49, (looked[k.val]?.map isEnter) = some true → k.val = 41 ∨ k.val = 43) ⟨k, hlt⟩
  exact h (by simp only; rw [hk]; rfl)

set_option maxRecDepth 20000 in
/-- The hypotheses of C96 hold of two vaults with different secrets, and the panes are the same at the end, the details
pane included. -/
example : let r := go (disk b!"1234" b!"memo") looked
    let r' := go (disk b!"secret" b!"another") looked
    r.1 = .ok () ∧ r.1 = r'.1 ∧ ∀ n, r.2.views n = r'.2.views n := by
  intro r r'
  obtain ⟨a1, a2, a3, a4, a5⟩ := world_same (disk b!"1234" b!"memo") (disk b!"secret" b!"another")
  obtain ⟨c1, c2, -⟩ := world_same (disk b!"secret" b!"another") (disk b!"1234" b!"memo")
  obtain ⟨hok, hcur⟩ : r.1 = .ok () ∧ r.2.cur ≠ some (.live .details) := by decide +kernel
  obtain ⟨h1, h2⟩ := C96_screens ctx kit b!"/a" 80 24 looked (world (disk b!"1234" b!"memo")) (world (disk b!"secret" b!"another"))
    ([b!"a"] <+: ·) (by decide +kernel) (by decide) (by
      rw [a1]
      rintro l ⟨m, rfl⟩ h
      have e1 : Path.resolve [] b!"/h" = [b!"h"] := by decide +kernel
      have e2 : Path.resolve [] (Path.join [b!"/h", Upd.lastCheckFile]) = [b!"h", b!"lastcheck"] := by decide +kernel
      have e3 : Path.resolve [] (Conf.path b!"/h") = [b!"h", b!"1pass.yml"] := by decide +kernel
      change OwnLoc [] b!"/h" _ at h
      unfold OwnLoc StampLoc at h
      rw [e1, e2, e3] at h
      rcases h with (h | h) | h
      · obtain ⟨x, hx⟩ := h
        simp at hx
      · simp at h
      · simp at h)
    (by rw [a1, c1]; rfl) (by rw [a1, c1]; exact fun l => disk_at _ _ _ _ l) (by rw [a2, c2]; exact ⟨rfl, rfl⟩) a3 a4 a5
    (world_locked _).1 (sameHeld_of_blank (by decide +kernel) (by decide +kernel) (by decide +kernel)) (by
      intro pre post s t v he hs ht hc hv
      have hk : looked[pre.length]? = some (.key .enter) := by rw [he]; simp
      have hp : pre = looked.take pre.length := by rw [he]; simp
      rw [hp] at hs ht
      refine tried_of ?_ hk hs ht hc hv
      rcases enters _ hk with h | h <;> rw [h] <;> decide +kernel)
  change r.1 = r'.1 at h1
  change ∀ s t, r = (.ok (), s) → r' = (.ok (), t) → _ at h2
  clear_value r r'
  obtain ⟨o, s⟩ := r
  obtain ⟨o', t⟩ := r'
  simp only at hok hcur h1
  subst hok h1
  refine ⟨rfl, rfl, fun n => ?_⟩
  obtain ⟨-, h3, h4⟩ := h2 s t rfl rfl
  by_cases hn : n = .details
  · rw [hn]
    exact h4 hcur
  · exact h3 n hn

set_option maxRecDepth 20000 in
/-- While the details pane has the focus it shows the secrets, which are different. -/
example : text .details (go (disk b!"1234" b!"memo") (looked.take 47)) ≠ text .details (go (disk b!"secret" b!"another") (looked.take 47)) ∧
    text .details (go (disk b!"1234" b!"memo") (looked.take 45)) = text .details (go (disk b!"secret" b!"another") (looked.take 45)) ∧
    text .details (go (disk b!"1234" b!"memo") (looked.take 45)) ≠ none := by decide +kernel

end Demo
end Gui
end OnePass
