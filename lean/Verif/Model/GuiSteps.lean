/-
The states the GUI can be in and its steps: the program as a transition system.
-/
import Verif.Model.GuiFacts
import Verif.Model.FootFacts
import Verif.Model.SessionFacts
import Verif.Props.Consent

set_option linter.unusedSimpArgs false

namespace OnePass
namespace Gui
open Act

variable (C : Ctx) (K : Kit)

/-- The views of the three managers exist. -/
structure Frame (s : St) : Prop where
  ver : ∃ v, s.views .ver = some v
  help : ∃ v, s.views .help = some v
  menu : ∃ v, s.views .menu = some v

/-- The vault is locked and nothing of it is on screen. -/
structure Closed (s : St) : Prop where
  locked : s.world.sess.isUnlocked = false
  cats : s.cats = []
  idx : s.menuIdx = -1
  items : s.views .items = none
  details : s.views .details = none
  empty : ∀ v, s.views .menu = some v → v.lines = [] ∧ v.shown = []

/-- The vault is open and the menu stands for its contents. -/
structure Opened (s : St) : Prop where
  unlocked : s.world.sess.isUnlocked = true
  cats : s.cats = menuCats s.world.sess
  idx : (s.menuIdx = -1 ∧ s.cats = []) ∨ (0 ≤ s.menuIdx ∧ s.menuIdx < s.cats.length)
  prompt : s.views .prompt = none
  error : s.views .error = none

/-- Item list and details are on screen. -/
structure Listed (s : St) : Prop extends Opened s where
  items : ∃ v, s.views .items = some v
  details : ∃ v, s.views .details = some v
  row : (s.itemIdx = -1 ∧ s.items = []) ∨ (0 ≤ s.itemIdx ∧ s.itemIdx < s.items.length)

structure AtPrompt (s : St) : Prop extends Closed s where
  cur : s.cur = some (.live .prompt)
  prompt : ∃ v, s.views .prompt = some v
  error : s.views .error = none

structure AtError (s : St) : Prop extends Closed s where
  cur : s.cur = some (.live .error)
  prompt : s.views .prompt = none
  error : ∃ v, s.views .error = some v

structure AtMenu (s : St) : Prop extends Opened s where
  cur : s.cur = some (.live .menu)
  items : s.views .items = none
  details : s.views .details = none

structure AtItems (s : St) : Prop extends Listed s where
  cur : s.cur = some (.live .items)

structure AtDetails (s : St) : Prop extends Listed s where
  cur : s.cur = some (.live .details)

/-- The five screens. -/
inductive Screen (s : St) : Prop where
  | prompt (h : AtPrompt s)
  | error (h : AtError s)
  | menu (h : AtMenu s)
  | items (h : AtItems s)
  | details (h : AtDetails s)

/-- What holds all the time. -/
structure Inv (s : St) : Prop where
  frame : Frame s
  screen : Screen s

/-- The world after the background check. -/
def checkedSt (s : St) (v : View) (r : Except Err UpdateInfo) (w : World) : St :=
  { s with pending := false, world := w, views := setAt s.views .ver (some (v.write (checkText r))) }

/-- Keys that do nothing. -/
def Idle (s : St) (k : Key) : Prop :=
  k ≠ .ctrlQ ∧
  ((s.cur = some (.live .error) ∧ k ≠ .enter) ∨
   (s.cur = some (.live .menu) ∧ k ≠ .ctrlL ∧
     ((k.isChar 'j' ∨ k = .down) → ¬ (s.menuIdx ≠ -1 ∧ s.menuIdx < (s.cats.length : Int) - 1)) ∧
     ((k.isChar 'k' ∨ k = .up) → ¬ s.menuIdx > 0) ∧
     ((k.isChar 'l' ∨ k = .right ∨ k = .enter) → s.menuIdx = -1)) ∨
   (s.cur = some (.live .items) ∧ k ≠ .ctrlL ∧ ¬ (k.isChar 'h' ∨ k = .left ∨ k.isChar 'q') ∧
     ((k.isChar 'j' ∨ k = .down) → ¬ (s.itemIdx ≠ -1 ∧ s.itemIdx < (s.items.length : Int) - 1)) ∧
     ((k.isChar 'k' ∨ k = .up) → ¬ s.itemIdx > 0) ∧ k ≠ .tab) ∨
   (s.cur = some (.live .details) ∧ k ≠ .ctrlL ∧ ¬ (k.isChar 'j' ∨ k = .down) ∧ ¬ (k.isChar 'l' ∨ k = .right) ∧
     ((k.isChar 'k' ∨ k = .up) → ∀ v, s.views .details = some v → v.oy = 0) ∧
     ((k.isChar 'h' ∨ k = .left) → ∀ v, s.views .details = some v → v.ox = 0) ∧ k ≠ .tab))

/-- The steps, each with the state it leads to. -/
inductive Trans (s : St) : Event → St → Prop where
  | ignored (k : Key) (hk : Idle s k) : Trans s (.key k) s
  | typed (k : Key) (hk : k ≠ .enter) (v : View) (h : AtPrompt s) (hv : s.views .prompt = some v) :
    Trans s (.key k)
      { s with
        typed := s.typed ++ [some k]
        views := setAt s.views .prompt (some { v with lines := K.edit (s.typed ++ [some k]) }) }
  | refused (v : View) (e : Err) (sess : Session) (h : AtPrompt s) (hv : s.views .prompt = some v)
      (hu : attemptUnlock C K s (entered v) = .ret (.error e, sess)) :
    Trans s (.key .enter)
      { triedSt s v sess with
        err := some e
        cur := some (.live .error)
        views := setAt (setAt s.views .prompt none) .error (some ((box s.maxX s.maxY errorAttr).write e.text)) }
  | accepted (v vm : View) (sess : Session) (h : AtPrompt s) (hv : s.views .prompt = some v)
      (hm : s.views .menu = some vm) (hu : attemptUnlock C K s (entered v) = .ret (.ok (), sess)) :
    Trans s (.key .enter) (filled C K { triedSt s v sess with cur := some (.live .menu) } vm)
  | closeError (v : View) (h : AtError s) (hv : s.views .error = some v) :
    Trans s (.key .enter)
      { s with
        orphan := v
        views := setAt (setAt s.views .error none) .prompt (some (box s.maxX s.maxY promptAttr))
        typed := []
        cur := some (.live .prompt) }
  | menuDown (k : Key) (hk : k.isChar 'j' ∨ k = .down) (i : Nat) (v : View) (h : AtMenu s) (hv : s.views .menu = some v) (hi : s.menuIdx = i)
      (hl : i + 1 < s.cats.length) :
    Trans s (.key k) { s with menuIdx := (i + 1 : Nat), views := setAt s.views .menu (some v.down) }
  | menuUp (k : Key) (hk : k.isChar 'k' ∨ k = .up) (i : Nat) (v : View) (h : AtMenu s) (hv : s.views .menu = some v) (hi : s.menuIdx = (i + 1 : Nat)) :
    Trans s (.key k) { s with menuIdx := i, views := setAt s.views .menu (some v.up) }
  | openEntry (k : Key) (hk : k.isChar 'l' ∨ k = .right ∨ k = .enter) (vh : View) (l : List SimpleItem) (h : AtMenu s) (hh : s.views .help = some vh)
      (hx : 6 ≤ s.maxX) (hy : 10 ≤ s.maxY) (hm : s.menuIdx ≠ -1) (hl : entryItems C s = some l) :
    Trans s (.key k) (openedSt C s vh l)
  | lockMenu (v vh : View) (h : AtMenu s) (hv : s.views .menu = some v) (hh : s.views .help = some vh) :
    Trans s (.key .ctrlL) (lockedSt s v vh)
  | itemsDown (k : Key) (hk : k.isChar 'j' ∨ k = .down) (i : Nat) (v vi : View) (h : AtItems s) (hv : s.views .details = some v)
      (hvi : s.views .items = some vi) (hi : s.itemIdx = i) (hl : i + 1 < s.items.length) :
    Trans s (.key k)
      { s with
        itemIdx := (i + 1 : Nat)
        item := s.itemAt (i + 1)
        views := setAt (setAt s.views .items (some vi.down)) .details
          (some (detailed C.env true (s.itemAt (i + 1)) v)) }
  | itemsUp (k : Key) (hk : k.isChar 'k' ∨ k = .up) (i : Nat) (v vi : View) (h : AtItems s) (hv : s.views .details = some v)
      (hvi : s.views .items = some vi) (hi : s.itemIdx = (i + 1 : Nat)) (hl : i < s.items.length) :
    Trans s (.key k)
      { s with
        itemIdx := i
        item := s.itemAt i
        views := setAt (setAt s.views .items (some vi.up)) .details (some (detailed C.env true (s.itemAt i) v)) }
  | back (k : Key) (hk : k.isChar 'h' ∨ k = .left ∨ k.isChar 'q') (o : View) (h : AtItems s) :
    Trans s (.key k) { s with views := closed s.views, cur := some (.live .menu), orphan := o }
  | reveal (i : Nat) (v vh : View) (h : AtItems s) (hv : s.views .details = some v) (hh : s.views .help = some vh)
      (hi : s.itemIdx = i) (hl : i < s.items.length) :
    Trans s (.key .tab)
      { s with
        item := s.itemAt i
        cur := some (.live .details)
        help := detailsHelp
        views := setAt (setAt s.views .details (some (detailed C.env false (s.itemAt i) v))) .help
          (some (helped vh detailsHelp)) }
  | lockItems (o vm vh : View) (h : Listed s) (hm : s.views .menu = some vm) (hh : s.views .help = some vh) :
    Trans s (.key .ctrlL) { lockedSt { s with views := closed s.views } vm vh with orphan := o }
  | scroll (k : Key) (hk : k ≠ .tab ∧ k ≠ .ctrlL) (v : View) (x y : Nat) (h : AtDetails s) (hv : s.views .details = some v) :
    Trans s (.key k) { s with views := setAt s.views .details (some { v with ox := x, oy := y }) }
  | cover (v vh : View) (h : AtDetails s) (hv : s.views .details = some v) (hh : s.views .help = some vh) :
    Trans s (.key .tab)
      { s with
        cur := some (.live .items)
        help := itemsHelp
        views := setAt (setAt s.views .details (some (detailed C.env true s.item v))) .help
          (some (helped vh itemsHelp)) }
  | flush (x y : Nat) (vv vh vm : View) (hx : 2 ≤ x) (hy : 8 ≤ y) (hv : s.views .ver = some vv)
      (hh : s.views .help = some vh) (hm : s.views .menu = some vm) :
    Trans s (.flush x y)
      { s with
        maxX := x
        maxY := y
        views := fun n => (placed s.views x y vv vh vm n).map View.draw
        typed := s.typed ++ [none] }
  | idle (h : s.pending = false) : Trans s .checked s
  | checked (v : View) (r : Except Err UpdateInfo) (w : World) (hp : s.pending = true) (hv : s.views .ver = some v)
      (hr : Upd.facadeCheck C.sys C.ext C.dir true s.world = (.ret r, w)) :
    Trans s .checked (checkedSt s v r w)
  | disk (d : Disk) : Trans s (.disk d) { s with world := { s.world with disk := d } }

/-- The ways the GUI ends. -/
inductive Ends (s : St) : Event → Res Unit → Prop where
  | quit : Ends s (.key .ctrlQ) (.err .quit)
  | vaultPanics (v : View) (h : AtPrompt s) (hv : s.views .prompt = some v)
      (hu : ∀ r, attemptUnlock C K s (entered v) ≠ .ret r) : Ends s (.key .enter) .panic
  | vaultFatal (v : View) (h : AtPrompt s) (hv : s.views .prompt = some v)
      (hu : ∀ r, attemptUnlock C K s (entered v) ≠ .ret r) : Ends s (.key .enter) .fatal
  | emptyList (h : AtItems s) (hi : s.items = []) : Ends s (.key .tab) .panic
  | smallList (k : Key) (hk : k.isChar 'l' ∨ k = .right ∨ k = .enter) (h : AtMenu s) (hs : s.maxX < 6 ∨ s.maxY < 10) : Ends s (.key k) (.err .dimensions)
  | smallScreen (x y : Nat) (hs : x < 2 ∨ y < 8) : Ends s (.flush x y) (.err .dimensions)
  | checkPanics (w : World) (hr : Upd.facadeCheck C.sys C.ext C.dir true s.world = (.panic, w)) :
    Ends s .checked .panic
  | checkFatal (w : World) (hr : Upd.facadeCheck C.sys C.ext C.dir true s.world = (.fatal, w)) :
    Ends s .checked .fatal

/-- What a step is. -/
def Does (s : St) (e : Event) (r : Res Unit × St) : Prop :=
  (∃ s', r = (.ok (), s') ∧ Trans C K s e s') ∨ (r.1 ≠ .ok () ∧ Ends C K s e r.1)

theorem does_ok {s s' : St} {e : Event} {r : Res Unit × St} (h : r = (.ok (), s')) (t : Trans C K s e s') : Does C K s e r :=
  .inl ⟨s', h, t⟩

theorem entryItems_some {s : St} (h : Opened s) (hi : s.menuIdx ≠ -1) : ∃ l, entryItems C s = some l := by
  rcases h.idx with h1 | ⟨h1, h2⟩
  · exact absurd h1.1 hi
  · unfold entryItems
    simp only []
    split
    · exact ⟨_, rfl⟩
    · split
      · exact ⟨_, rfl⟩
      · split
        · exact ⟨_, rfl⟩
        · split
          · omega
          · have : s.menuIdx.toNat < s.cats.length := by omega
            simp [this]

theorem half_le {n : Int} (h : 0 ≤ n) : half n = n / 2 := Int.tdiv_eq_ediv_of_nonneg h

theorem unlocked_of_ok {E : Env} {O : MapOrder} {d : Disk} {v p : Bytes} {s s' : Session}
    (h : s.unlock E O d v p = .ret (.ok (), s')) : s'.isUnlocked = true := by
  rcases Session.unlock_cases h with h | h
  · cases h.1
  · obtain ⟨_, keys, raw, items, _, _, rfl, _⟩ := h
    rfl

theorem locked_of_error {E : Env} {O : MapOrder} {d : Disk} {v p : Bytes} {s s' : Session} {e : Err}
    (h : s.unlock E O d v p = .ret (.error e, s')) : e = .invalidPass ∧ s' = s := by
  rcases Session.unlock_cases h with h | h
  · exact ⟨by simpa using h.1, h.2⟩
  · cases h.1

theorem isChar_iff {k : Key} {c : Char} : k.isChar c = true ↔ k = .ch c.toNat := by
  simp [Key.isChar]

theorem ite_some_none {α : Type} {p : Prop} [Decidable p] {a : α} {r : Option α} :
    (if p then some a else r) = none ↔ ¬ p ∧ r = none := by
  split <;> simp_all

theorem press_trans {s : St} (hI : Inv s) (k : Key) : Does C K s (.key k) (press C K k s) := by
  by_cases hq : k = .ctrlQ
  · subst hq
    right
    rw [press_quit]
    exact ⟨by simp, .quit⟩
  obtain ⟨vh, hh⟩ := hI.frame.help
  obtain ⟨vm, hm⟩ := hI.frame.menu
  cases hI.screen with
  | prompt h =>
    obtain ⟨v, hv⟩ := h.prompt
    by_cases he : k = .enter
    · subst he
      have hb : press C K .enter s = unlock C K (.live .prompt) s := press_bound C K (by simp) h.cur rfl
      cases hu : attemptUnlock C K s (entered v) with
      | ret r =>
        obtain ⟨r, sess⟩ := r
        cases r with
        | error e => exact does_ok C K (hb.trans (unlock_refused C K hv h.cur h.error hu)) (.refused v e sess h hv hu)
        | ok u =>
          exact does_ok C K (hb.trans (unlock_accepted C K hv h.cur hm hu (unlocked_of_ok hu)))
            (.accepted v vm sess h hv hm hu)
      | panic =>
        right
        have hn : ∀ r, attemptUnlock C K s (entered v) ≠ .ret r := by intro r; rw [hu]; simp
        rcases unlock_dies C K hv h.cur hn with e | e <;> rw [hb, e]
        · exact ⟨by simp, .vaultPanics v h hv hn⟩
        · exact ⟨by simp, .vaultFatal v h hv hn⟩
      | fatal =>
        right
        have hn : ∀ r, attemptUnlock C K s (entered v) ≠ .ret r := by intro r; rw [hu]; simp
        rcases unlock_dies C K hv h.cur hn with e | e <;> rw [hb, e]
        · exact ⟨by simp, .vaultPanics v h hv hn⟩
        · exact ⟨by simp, .vaultFatal v h hv hn⟩
    · exact does_ok C K (press_typed C K hq he h.cur hv) (.typed k he v h hv)
  | error h =>
    obtain ⟨v, hv⟩ := h.error
    by_cases he : k = .enter
    · subst he
      have hb : press C K .enter s = Gui.closeError C K s := press_bound C K (by simp) h.cur rfl
      exact does_ok C K (hb.trans (closeError_run C K hv h.cur h.prompt h.locked)) (.closeError v h hv)
    · exact does_ok C K (press_free C K hq h.cur (by simp [binding, Ref.name, he]) (by simp [Ref.name])) (.ignored k ⟨hq, .inl ⟨h.cur, he⟩⟩)
  | menu h =>
    cases hb : binding C K .menu k (.live .menu) with
    | none => exact does_ok C K (press_free C K hq h.cur hb (by simp [Ref.name])) (.ignored k ⟨hq, by
        simp only [binding, ite_some_none] at hb; simp_all [h.cur]⟩)
    | some act =>
      have hp : press C K k s = act s := press_bound C K hq h.cur hb
      rw [hp]
      simp only [binding] at hb
      split at hb
      · rename_i hk
        subst hk
        obtain rfl := Option.some.inj hb
        exact does_ok C K (lock_run C K hm h.prompt hh) (.lockMenu vm vh h hm hh)
      · split at hb
        · obtain rfl := Option.some.inj hb
          by_cases hc : s.menuIdx ≠ -1 ∧ s.menuIdx < (s.cats.length : Int) - 1
          · have hi : s.menuIdx = (s.menuIdx.toNat : Nat) := by
              rcases h.idx with h1 | h1 <;> omega
            exact does_ok C K (menuDown_run hi (by omega) hm) (.menuDown k ‹_› _ vm h hm hi (by omega))
          · exact does_ok C K (menuDown_stay _ hc) (.ignored k ⟨hq, by
              rename_i hk
              simp only [isChar_iff] at *
              rcases hk with hk | hk <;> subst hk <;> simp_all [h.cur]⟩)
        · split at hb
          · obtain rfl := Option.some.inj hb
            by_cases hc : s.menuIdx > 0
            · have hi : s.menuIdx = (s.menuIdx.toNat - 1 + 1 : Nat) := by omega
              exact does_ok C K (menuUp_run hi hm) (.menuUp k ‹_› _ vm h hm hi)
            · exact does_ok C K (menuUp_stay _ hc) (.ignored k ⟨hq, by
              rename_i hk
              simp only [isChar_iff] at *
              rcases hk with hk | hk <;> subst hk <;> simp_all [h.cur]⟩)
          · split at hb
            · obtain rfl := Option.some.inj hb
              by_cases hi : s.menuIdx = -1
              · exact does_ok C K (showItems_none C hi) (.ignored k ⟨hq, by
              rename_i hk
              simp only [isChar_iff] at *
              rcases hk with hk | hk | hk <;> subst hk <;> simp_all [h.cur]⟩)
              · by_cases hs : s.maxX < 6 ∨ s.maxY < 10
                · right
                  have hsm : half (s.maxX - 2) ≤ 1 ∨ s.maxY ≤ 9 := by
                    by_cases h9 : s.maxY ≤ 9
                    · exact .inr h9
                    · left
                      by_cases h0 : 0 ≤ s.maxX - 2
                      · rw [half_le h0]; omega
                      · rw [half, show s.maxX - 2 = -(2 - s.maxX) by omega, Int.neg_tdiv,
                          Int.tdiv_eq_ediv_of_nonneg (by omega)]
                        omega
                  rw [showItems_small C hi hsm]
                  exact ⟨by simp, .smallList k ‹_› h hs⟩
                · obtain ⟨l, hl⟩ := entryItems_some C h.toOpened hi
                  exact does_ok C K (showItems_run C h.items h.details hh (by omega) (by omega) hi hl)
                    (.openEntry k ‹_› vh l h hh (by omega) (by omega) hi hl)
            · cases hb
  | items h =>
    obtain ⟨vi, hvi⟩ := h.items
    obtain ⟨vd, hvd⟩ := h.details
    cases hb : binding C K .items k (.live .items) with
    | none => exact does_ok C K (press_free C K hq h.cur hb (by simp [Ref.name])) (.ignored k ⟨hq, by
        simp only [binding, ite_some_none] at hb; simp_all [h.cur]⟩)
    | some act =>
      have hp : press C K k s = act s := press_bound C K hq h.cur hb
      rw [hp]
      simp only [binding] at hb
      split at hb
      · rename_i hk
        subst hk
        obtain rfl := Option.some.inj hb
        obtain ⟨o, ho⟩ := itemsLock_run C K hvd hvi hm h.prompt hh
        exact does_ok C K ho (.lockItems o vm vh h.toListed hm hh)
      · split at hb
        · obtain rfl := Option.some.inj hb
          obtain ⟨o, ho⟩ := goBack_run hvd hvi hm
          exact does_ok C K ho (.back k ‹_› o h)
        · split at hb
          · obtain rfl := Option.some.inj hb
            by_cases hc : s.itemIdx ≠ -1 ∧ s.itemIdx < (s.items.length : Int) - 1
            · have hi : s.itemIdx = (s.itemIdx.toNat : Nat) := by
                rcases h.row with h1 | h1 <;> omega
              exact does_ok C K (itemsDown_run C hi (by omega) hvd hvi) (.itemsDown k ‹_› _ vd vi h hvd hvi hi (by omega))
            · exact does_ok C K (itemsDown_stay C _ hc) (.ignored k ⟨hq, by
              rename_i hk
              simp only [isChar_iff] at *
              rcases hk with hk | hk <;> subst hk <;> simp_all [h.cur]⟩)
          · split at hb
            · obtain rfl := Option.some.inj hb
              by_cases hc : s.itemIdx > 0
              · have hi : s.itemIdx = (s.itemIdx.toNat - 1 + 1 : Nat) := by omega
                have hl : s.itemIdx.toNat - 1 < s.items.length := by
                  rcases h.row with h1 | h1 <;> omega
                exact does_ok C K (itemsUp_run C hi hl hvd hvi) (.itemsUp k ‹_› _ vd vi h hvd hvi hi hl)
              · exact does_ok C K (itemsUp_stay C _ hc) (.ignored k ⟨hq, by
              rename_i hk
              simp only [isChar_iff] at *
              rcases hk with hk | hk <;> subst hk <;> simp_all [h.cur]⟩)
            · split at hb
              · rename_i hk
                subst hk
                obtain rfl := Option.some.inj hb
                rcases h.row with ⟨h1, h2⟩ | ⟨h1, h2⟩
                · right
                  have : Gui.reveal C s = (.panic, s) := by
                    rw [Gui.reveal]
                    exact bind_panic (fetch_panic (by omega))
                  rw [this]
                  exact ⟨by simp, .emptyList h h2⟩
                · have hi : s.itemIdx = (s.itemIdx.toNat : Nat) := by omega
                  exact does_ok C K (reveal_run C hi (by omega) hvd hh) (.reveal _ vd vh h hvd hh hi (by omega))
              · cases hb
  | details h =>
    obtain ⟨vi, hvi⟩ := h.items
    obtain ⟨vd, hvd⟩ := h.details
    cases hb : binding C K .details k (.live .details) with
    | none => exact does_ok C K (press_free C K hq h.cur hb (by simp [Ref.name])) (.ignored k ⟨hq, by
        simp only [binding, ite_some_none] at hb; simp_all [h.cur]⟩)
    | some act =>
      have hp : press C K k s = act s := press_bound C K hq h.cur hb
      rw [hp]
      simp only [binding] at hb
      split at hb
      · rename_i hk
        subst hk
        obtain rfl := Option.some.inj hb
        obtain ⟨o, ho⟩ := itemsLock_run C K hvd hvi hm h.prompt hh
        exact does_ok C K ho (.lockItems o vm vh h.toListed hm hh)
      · split at hb
        · obtain rfl := Option.some.inj hb
          rw [Gui.scrollDown]
          simp only [look_bind, deref_live hvd]
          exact does_ok C K (setOrigin_run hvd vd.ox (vd.oy + 1)) (.scroll k ⟨by rintro rfl; simp_all [isChar_iff], by rintro rfl; simp_all [isChar_iff]⟩ vd _ _ h hvd)
        · split at hb
          · obtain rfl := Option.some.inj hb
            rw [Gui.scrollUp]
            simp only [look_bind, deref_live hvd]
            by_cases h0 : vd.oy > 0
            · simp only [h0, if_true]
              rw [show ((vd.oy : Int) - 1) = ((vd.oy - 1 : Nat) : Int) by omega]
              exact does_ok C K (setOrigin_run hvd vd.ox (vd.oy - 1)) (.scroll k ⟨by rintro rfl; simp_all [isChar_iff], by rintro rfl; simp_all [isChar_iff]⟩ vd _ _ h hvd)
            · simp only [h0, if_false]
              exact does_ok C K rfl (.ignored k ⟨hq, by
              rename_i hk
              simp only [isChar_iff] at *
              rcases hk with hk | hk <;> subst hk <;> simp_all [h.cur]⟩)
          · split at hb
            · obtain rfl := Option.some.inj hb
              rw [Gui.scrollRight]
              simp only [look_bind, deref_live hvd]
              exact does_ok C K (setOrigin_run hvd (vd.ox + 1) vd.oy) (.scroll k ⟨by rintro rfl; simp_all [isChar_iff], by rintro rfl; simp_all [isChar_iff]⟩ vd _ _ h hvd)
            · split at hb
              · obtain rfl := Option.some.inj hb
                rw [Gui.scrollLeft]
                simp only [look_bind, deref_live hvd]
                by_cases h0 : vd.ox > 0
                · simp only [h0, if_true]
                  rw [show ((vd.ox : Int) - 1) = ((vd.ox - 1 : Nat) : Int) by omega]
                  exact does_ok C K (setOrigin_run hvd (vd.ox - 1) vd.oy) (.scroll k ⟨by rintro rfl; simp_all [isChar_iff], by rintro rfl; simp_all [isChar_iff]⟩ vd _ _ h hvd)
                · simp only [h0, if_false]
                  exact does_ok C K rfl (.ignored k ⟨hq, by
              rename_i hk
              simp only [isChar_iff] at *
              rcases hk with hk | hk <;> subst hk <;> simp_all [h.cur]⟩)
              · split at hb
                · rename_i hk
                  subst hk
                  obtain rfl := Option.some.inj hb
                  exact does_ok C K (cover_run C hvd hvi hh) (.cover vd vh h hvd hh)
                · cases hb

theorem step_trans {s : St} (hI : Inv s) (e : Event) : Does C K s e (step C K e s) := by
  cases e with
  | key k => exact press_trans C K hI k
  | flush x y =>
    obtain ⟨vv, hv⟩ := hI.frame.ver
    obtain ⟨vh, hh⟩ := hI.frame.help
    obtain ⟨vm, hm⟩ := hI.frame.menu
    by_cases hs : x < 2 ∨ y < 8
    · right
      rw [step, flush_small C K (by omega)]
      exact ⟨by simp, .smallScreen x y hs⟩
    · exact does_ok C K (flush_run C K hv hh hm (by omega) (by omega))
        (.flush x y vv vh vm (by omega) (by omega) hv hh hm)
  | checked =>
    obtain ⟨vv, hv⟩ := hI.frame.ver
    rw [step]
    simp only [get_bind]
    cases hp : s.pending with
    | false => exact does_ok C K rfl (.idle hp)
    | true =>
      simp only [if_true, modify_bind]
      cases hr : Upd.facadeCheck C.sys C.ext C.dir true s.world with
      | mk o w =>
        cases o with
        | ret r =>
          refine does_ok C K ?_ (.checked vv r w hp hv hr)
          have h1 : onWorld (Upd.facadeCheck C.sys C.ext C.dir true) { s with pending := false } =
              (.ok r, { s with pending := false, world := w }) := by simp only [onWorld, hr]
          rw [verUpdate, bind_ok h1]
          simp only [get_bind, hv]
          rw [change_run (v := vv) (by exact hv)]
          rfl
        | panic =>
          right
          have h1 : onWorld (Upd.facadeCheck C.sys C.ext C.dir true) { s with pending := false } =
              (.panic, { s with pending := false, world := w }) := by simp only [onWorld, hr]
          rw [verUpdate, bind_panic h1]
          exact ⟨by simp, .checkPanics w hr⟩
        | fatal =>
          right
          have h1 : onWorld (Upd.facadeCheck C.sys C.ext C.dir true) { s with pending := false } =
              (.fatal, { s with pending := false, world := w }) := by simp only [onWorld, hr]
          rw [verUpdate, bind_fatal h1]
          exact ⟨by simp, .checkFatal w hr⟩
  | disk d => exact does_ok C K rfl (.disk d)

/-- The check leaves the session alone. -/
theorem check_sess {w w' : World} {r : Except Err UpdateInfo}
    (h : Upd.facadeCheck C.sys C.ext C.dir true w = (.ret r, w')) :
    w'.sess = w.sess ∧ w'.conf = w.conf ∧ w'.stdin = w.stdin := by
  have hc := Cli.calm_facadeCheck C w
  rw [h] at hc
  exact ⟨hc.2.2, hc.1, hc.2.1⟩

/-- The invariant is kept by every step. -/
theorem Trans.inv {s s' : St} {e : Event} (h : Trans C K s e s') (hI : Inv s) : Inv s' := by
  obtain ⟨⟨⟨vv0, hv0⟩, ⟨vh0, hh0⟩, ⟨vm0, hm0⟩⟩, hscr⟩ := hI
  have hI : Inv s := ⟨⟨⟨vv0, hv0⟩, ⟨vh0, hh0⟩, ⟨vm0, hm0⟩⟩, hscr⟩
  cases h with
  | ignored k => exact hI
  | typed k hk v h hv =>
    refine ⟨⟨⟨vv0, by simpa [setAt] using hv0⟩, ⟨vh0, by simpa [setAt] using hh0⟩, ⟨vm0, by simpa [setAt] using hm0⟩⟩,
      .prompt ⟨⟨h.locked, h.cats, h.idx, by simpa [setAt] using h.items, by simpa [setAt] using h.details,
        by simpa [setAt] using h.empty⟩, h.cur, ⟨_, rfl⟩, by simpa [setAt] using h.error⟩⟩
  | refused v e sess h hv hu =>
    obtain ⟨rfl, rfl⟩ := locked_of_error hu
    refine ⟨⟨⟨vv0, by simpa [setAt] using hv0⟩, ⟨vh0, by simpa [setAt] using hh0⟩, ⟨vm0, by simpa [setAt] using hm0⟩⟩,
      .error ⟨⟨h.locked, h.cats, h.idx, by simpa [setAt] using h.items, by simpa [setAt] using h.details,
        by simpa [setAt] using h.empty⟩, rfl, by simp [setAt], ⟨_, rfl⟩⟩⟩
  | accepted v vm sess h hv hm hu =>
    have hU := unlocked_of_ok hu
    refine ⟨⟨⟨vv0, by simpa [filled, triedSt, setAt] using hv0⟩, ⟨vh0, by simpa [filled, triedSt, setAt] using hh0⟩,
      ⟨_, rfl⟩⟩, .menu ⟨⟨?_, ?_, ?_, by simp [filled, triedSt, setAt],
        by simpa [filled, triedSt, setAt] using h.error⟩, rfl, by simpa [filled, triedSt, setAt] using h.items,
        by simpa [filled, triedSt, setAt] using h.details⟩⟩
    · show (sortCats C sess).isUnlocked = true
      unfold sortCats
      split
      · exact hU
      · exact hU
    · show s.cats ++ _ = _
      rw [h.cats]
      rfl
    · show ((if (s.cats ++ menuCats (sortCats C sess)).length > 0 then 0 else s.menuIdx) = -1 ∧
        (s.cats ++ menuCats (sortCats C sess)) = []) ∨
        (0 ≤ (if (s.cats ++ menuCats (sortCats C sess)).length > 0 then (0 : Int) else s.menuIdx) ∧ _)
      rw [h.cats, h.idx]
      by_cases hl : menuCats (sortCats C sess) = []
      · left
        simp [hl]
      · right
        have : (([] : List (Option Cat)) ++ menuCats (sortCats C sess)).length > 0 := by
          simpa using List.length_pos_of_ne_nil hl
        simp only [this, if_true]
        refine ⟨by omega, ?_⟩
        show (if (s.cats ++ menuCats (sortCats C sess)).length > 0 then (0 : Int) else s.menuIdx) <
          ((s.cats ++ menuCats (sortCats C sess)).length : Int)
        rw [h.cats]
        simp only [this, if_true]
        omega
  | closeError v h hv =>
    refine ⟨⟨⟨vv0, by simpa [setAt] using hv0⟩, ⟨vh0, by simpa [setAt] using hh0⟩, ⟨vm0, by simpa [setAt] using hm0⟩⟩,
      .prompt ⟨⟨h.locked, h.cats, h.idx, by simpa [setAt] using h.items, by simpa [setAt] using h.details,
        by simpa [setAt] using h.empty⟩, rfl, ⟨_, rfl⟩, by simp [setAt]⟩⟩
  | menuDown k hk i v h hv hi hl =>
    refine ⟨⟨⟨vv0, by simpa [setAt] using hv0⟩, ⟨vh0, by simpa [setAt] using hh0⟩, ⟨_, rfl⟩⟩,
      .menu ⟨⟨h.unlocked, h.cats, .inr ⟨?_, ?_⟩, by simpa [setAt] using h.prompt, by simpa [setAt] using h.error⟩,
        h.cur, by simpa [setAt] using h.items, by simpa [setAt] using h.details⟩⟩
    · show (0 : Int) ≤ (i + 1 : Nat)
      omega
    · show ((i + 1 : Nat) : Int) < (s.cats.length : Int)
      omega
  | menuUp k hk i v h hv hi =>
    refine ⟨⟨⟨vv0, by simpa [setAt] using hv0⟩, ⟨vh0, by simpa [setAt] using hh0⟩, ⟨_, rfl⟩⟩,
      .menu ⟨⟨h.unlocked, h.cats, .inr ⟨?_, ?_⟩, by simpa [setAt] using h.prompt, by simpa [setAt] using h.error⟩,
        h.cur, by simpa [setAt] using h.items, by simpa [setAt] using h.details⟩⟩
    · show (0 : Int) ≤ (i : Nat)
      omega
    · show ((i : Nat) : Int) < (s.cats.length : Int)
      rcases h.idx with h1 | h1 <;> omega
  | openEntry k hk vh l h hh hx hy hm hl =>
    refine ⟨⟨⟨vv0, by simpa [openedSt, setAt] using hv0⟩, ⟨_, rfl⟩,
      ⟨vm0, by simpa [openedSt, setAt] using hm0⟩⟩, .items ⟨⟨⟨h.unlocked, h.cats, h.idx,
        by simpa [openedSt, setAt] using h.prompt, by simpa [openedSt, setAt] using h.error⟩,
        by simp [openedSt, setAt], by simp [openedSt, setAt], ?_⟩, rfl⟩⟩
    by_cases h0 : l = []
    · left
      simp [openedSt, h0]
    · right
      have := List.length_pos_of_ne_nil h0
      simp [openedSt, h0, this]
  | lockMenu v vh h hv hh =>
    refine ⟨⟨⟨vv0, by simpa [lockedSt, setAt] using hv0⟩, ⟨_, rfl⟩,
      ⟨v.home.clear, by simp [lockedSt, setAt]⟩⟩,
      .prompt ⟨⟨rfl, rfl, rfl, by simpa [lockedSt, setAt] using h.items, by simpa [lockedSt, setAt] using h.details, ?_⟩,
        rfl, ⟨box s.maxX s.maxY promptAttr, by simp [lockedSt, setAt]⟩, by simpa [lockedSt, setAt] using h.error⟩⟩
    intro w hw
    simp [lockedSt, setAt] at hw
    subst hw
    exact ⟨rfl, rfl⟩
  | itemsDown k hk i v vi h hv hvi hi hl =>
    refine ⟨⟨⟨vv0, by simpa [setAt] using hv0⟩, ⟨vh0, by simpa [setAt] using hh0⟩, ⟨vm0, by simpa [setAt] using hm0⟩⟩,
      .items ⟨⟨⟨h.unlocked, h.cats, h.idx, by simpa [setAt] using h.prompt, by simpa [setAt] using h.error⟩,
        by simp [setAt], by simp [setAt], .inr ⟨?_, ?_⟩⟩, h.cur⟩⟩
    · show (0 : Int) ≤ (i + 1 : Nat)
      omega
    · show ((i + 1 : Nat) : Int) < (s.items.length : Int)
      omega
  | itemsUp k hk i v vi h hv hvi hi hl =>
    refine ⟨⟨⟨vv0, by simpa [setAt] using hv0⟩, ⟨vh0, by simpa [setAt] using hh0⟩, ⟨vm0, by simpa [setAt] using hm0⟩⟩,
      .items ⟨⟨⟨h.unlocked, h.cats, h.idx, by simpa [setAt] using h.prompt, by simpa [setAt] using h.error⟩,
        by simp [setAt], by simp [setAt], .inr ⟨?_, ?_⟩⟩, h.cur⟩⟩
    · show (0 : Int) ≤ (i : Nat)
      omega
    · show ((i : Nat) : Int) < (s.items.length : Int)
      omega
  | back k hk o h =>
    refine ⟨⟨⟨vv0, by simpa [closed, setAt] using hv0⟩, ⟨vh0, by simpa [closed, setAt] using hh0⟩,
      ⟨vm0, by simpa [closed, setAt] using hm0⟩⟩,
      .menu ⟨⟨h.unlocked, h.cats, h.idx, by simpa [closed, setAt] using h.prompt,
        by simpa [closed, setAt] using h.error⟩, rfl, by simp [closed, setAt], by simp [closed, setAt]⟩⟩
  | reveal i v vh h hv hh hi hl =>
    refine ⟨⟨⟨vv0, by simpa [setAt] using hv0⟩, ⟨_, rfl⟩, ⟨vm0, by simpa [setAt] using hm0⟩⟩,
      .details ⟨⟨⟨h.unlocked, h.cats, h.idx, by simpa [setAt] using h.prompt, by simpa [setAt] using h.error⟩,
        by simpa [setAt] using h.items, by simp [setAt], h.row⟩, rfl⟩⟩
  | lockItems o vm vh h hm hh =>
    refine ⟨⟨⟨vv0, by simpa [lockedSt, closed, setAt] using hv0⟩, ⟨_, rfl⟩,
      ⟨vm.home.clear, by simp [lockedSt, setAt]⟩⟩,
      .prompt ⟨⟨rfl, rfl, rfl, by simp [lockedSt, closed, setAt], by simp [lockedSt, closed, setAt], ?_⟩,
        rfl, ⟨box s.maxX s.maxY promptAttr, by simp [lockedSt, setAt]⟩, by simpa [lockedSt, closed, setAt] using h.error⟩⟩
    intro w hw
    simp [lockedSt, setAt] at hw
    subst hw
    exact ⟨rfl, rfl⟩
  | scroll k hk v x y h hv =>
    refine ⟨⟨⟨vv0, by simpa [setAt] using hv0⟩, ⟨vh0, by simpa [setAt] using hh0⟩, ⟨vm0, by simpa [setAt] using hm0⟩⟩,
      .details ⟨⟨⟨h.unlocked, h.cats, h.idx, by simpa [setAt] using h.prompt, by simpa [setAt] using h.error⟩,
        by simpa [setAt] using h.items, by simp [setAt], h.row⟩, h.cur⟩⟩
  | cover v vh h hv hh =>
    refine ⟨⟨⟨vv0, by simpa [setAt] using hv0⟩, ⟨_, rfl⟩, ⟨vm0, by simpa [setAt] using hm0⟩⟩,
      .items ⟨⟨⟨h.unlocked, h.cats, h.idx, by simpa [setAt] using h.prompt, by simpa [setAt] using h.error⟩,
        by simpa [setAt] using h.items, by simp [setAt], h.row⟩, rfl⟩⟩
  | flush x y vv vh vm hx hy hv hh hm =>
    have hnone : ∀ n, s.views n = none → (placed s.views x y vv vh vm n).map View.draw = none := by
      intro n hn
      cases n <;> simp_all [placed, setAt]
    have hsome : ∀ n, (∃ v, s.views n = some v) → ∃ v, (placed s.views x y vv vh vm n).map View.draw = some v := by
      intro n ⟨v, hn⟩
      cases n <;> simp_all [placed, setAt]
    refine ⟨⟨hsome _ ⟨_, hv⟩, hsome _ ⟨_, hh⟩, hsome _ ⟨_, hm⟩⟩, ?_⟩
    have hempty : (∀ v, s.views .menu = some v → v.lines = [] ∧ v.shown = []) →
        ∀ v, (placed s.views x y vv vh vm .menu).map View.draw = some v → v.lines = [] ∧ v.shown = [] := by
      intro he v hv
      have := he vm hm
      simp only [placed, setAt_same, Option.map_some, Option.some.injEq] at hv
      subst hv
      exact ⟨this.1, this.1⟩
    cases hscr with
    | prompt h =>
      exact .prompt ⟨⟨h.locked, h.cats, h.idx, hnone _ h.items, hnone _ h.details, hempty h.empty⟩, h.cur,
        hsome _ h.prompt, hnone _ h.error⟩
    | error h =>
      exact .error ⟨⟨h.locked, h.cats, h.idx, hnone _ h.items, hnone _ h.details, hempty h.empty⟩, h.cur,
        hnone _ h.prompt, hsome _ h.error⟩
    | menu h =>
      exact .menu ⟨⟨h.unlocked, h.cats, h.idx, hnone _ h.prompt, hnone _ h.error⟩, h.cur, hnone _ h.items,
        hnone _ h.details⟩
    | items h =>
      exact .items ⟨⟨⟨h.unlocked, h.cats, h.idx, hnone _ h.prompt, hnone _ h.error⟩, hsome _ h.items,
        hsome _ h.details, h.row⟩, h.cur⟩
    | details h =>
      exact .details ⟨⟨⟨h.unlocked, h.cats, h.idx, hnone _ h.prompt, hnone _ h.error⟩, hsome _ h.items,
        hsome _ h.details, h.row⟩, h.cur⟩
  | idle h => exact hI
  | checked v r w hp hv hr =>
    have hs : (checkedSt s v r w).world.sess = s.world.sess := (check_sess C hr).1
    have hview : ∀ n, n ≠ .ver → (checkedSt s v r w).views n = s.views n := by
      intro n hn
      simp [checkedSt, setAt, hn]
    refine ⟨⟨⟨_, rfl⟩, ⟨vh0, (hview _ (by decide)).trans hh0⟩, ⟨vm0, (hview _ (by decide)).trans hm0⟩⟩, ?_⟩
    have hempty : (∀ v, s.views .menu = some v → v.lines = [] ∧ v.shown = []) →
        ∀ u, (checkedSt s v r w).views .menu = some u → u.lines = [] ∧ u.shown = [] := by
      intro he u hu
      rw [hview _ (by decide)] at hu
      exact he u hu
    cases hscr with
    | prompt h =>
      exact .prompt ⟨⟨by rw [hs]; exact h.locked, h.cats, h.idx, (hview _ (by decide)).trans h.items,
        (hview _ (by decide)).trans h.details, hempty h.empty⟩, h.cur,
        by rw [hview _ (by decide)]; exact h.prompt, (hview _ (by decide)).trans h.error⟩
    | error h =>
      exact .error ⟨⟨by rw [hs]; exact h.locked, h.cats, h.idx, (hview _ (by decide)).trans h.items,
        (hview _ (by decide)).trans h.details, hempty h.empty⟩, h.cur,
        (hview _ (by decide)).trans h.prompt, by rw [hview _ (by decide)]; exact h.error⟩
    | menu h =>
      exact .menu ⟨⟨by rw [hs]; exact h.unlocked, by rw [hs]; exact h.cats, h.idx,
        (hview _ (by decide)).trans h.prompt, (hview _ (by decide)).trans h.error⟩, h.cur,
        (hview _ (by decide)).trans h.items, (hview _ (by decide)).trans h.details⟩
    | items h =>
      exact .items ⟨⟨⟨by rw [hs]; exact h.unlocked, by rw [hs]; exact h.cats, h.idx,
        (hview _ (by decide)).trans h.prompt, (hview _ (by decide)).trans h.error⟩,
        by rw [hview _ (by decide)]; exact h.items, by rw [hview _ (by decide)]; exact h.details, h.row⟩, h.cur⟩
    | details h =>
      exact .details ⟨⟨⟨by rw [hs]; exact h.unlocked, by rw [hs]; exact h.cats, h.idx,
        (hview _ (by decide)).trans h.prompt, (hview _ (by decide)).trans h.error⟩,
        by rw [hview _ (by decide)]; exact h.items, by rw [hview _ (by decide)]; exact h.details, h.row⟩, h.cur⟩
  | disk d =>
    refine ⟨⟨⟨vv0, hv0⟩, ⟨vh0, hh0⟩, ⟨vm0, hm0⟩⟩, ?_⟩
    cases hscr with
    | prompt h =>
      exact .prompt ⟨⟨h.locked, h.cats, h.idx, h.items, h.details, h.empty⟩, h.cur, h.prompt, h.error⟩
    | error h =>
      exact .error ⟨⟨h.locked, h.cats, h.idx, h.items, h.details, h.empty⟩, h.cur, h.prompt, h.error⟩
    | menu h =>
      exact .menu ⟨⟨h.unlocked, h.cats, h.idx, h.prompt, h.error⟩, h.cur, h.items, h.details⟩
    | items h =>
      exact .items ⟨⟨⟨h.unlocked, h.cats, h.idx, h.prompt, h.error⟩, h.items, h.details, h.row⟩, h.cur⟩
    | details h =>
      exact .details ⟨⟨⟨h.unlocked, h.cats, h.idx, h.prompt, h.error⟩, h.items, h.details, h.row⟩, h.cur⟩

/-- The invariant holds when the first screen has been drawn. -/
theorem first_inv (vault : Bytes) (w : World) (x y : Nat) (hu : w.sess.isUnlocked = false) : Inv (firstSt vault w x y) := by
  refine ⟨⟨⟨_, rfl⟩, ⟨_, rfl⟩, ⟨_, rfl⟩⟩, .prompt ⟨⟨hu, rfl, rfl, rfl, rfl, ?_⟩, rfl, ⟨_, rfl⟩, rfl⟩⟩
  intro v hv
  simp only [firstSt, Option.map_some, Option.some.injEq] at hv
  subst hv
  exact ⟨rfl, rfl⟩

/-- Everything reached from a drawn first screen. -/
inductive Steps (s : St) : List Event → St → Prop where
  | nil : Steps s [] s
  | snoc {es : List Event} {t u : St} {e : Event} (h : Steps s es t) (hi : Inv t) (ht : Trans C K t e u) : Steps s (es ++ [e]) u

theorem Steps.inv {s t : St} {es : List Event} (h : Steps C K s es t) (hI : Inv s) : Inv t := by
  induction h with
  | nil => exact hI
  | snoc _ _ ht ih => exact ht.inv C K ih

theorem Steps.cons {s t u : St} {e : Event} {es : List Event} (hI : Inv s) (ht : Trans C K s e t) (h : Steps C K t es u) :
    Steps C K s (e :: es) u := by
  induction h with
  | nil => exact .snoc (es := []) .nil hI ht
  | snoc _ hi h' ih => exact .snoc (es := _ :: _) ih hi h'

/-- A run either takes all its steps, or stops after some of them. -/
theorem run_steps {s : St} (hI : Inv s) (es : List Event) :
    (∃ t, run C K es s = (.ok (), t) ∧ Steps C K s es t) ∨
    (∃ pre e post t, es = pre ++ e :: post ∧ Steps C K s pre t ∧ (run C K es s).1 = (step C K e t).1 ∧
      (run C K es s).1 ≠ .ok () ∧ Ends C K t e (run C K es s).1) := by
  induction es generalizing s with
  | nil => exact .inl ⟨s, rfl, .nil⟩
  | cons e es ih =>
    rcases step_trans C K hI e with ⟨s', h1, h2⟩ | ⟨h1, h2⟩
    · have hr : run C K (e :: es) s = run C K es s' := by
        rw [run]
        exact bind_ok h1
      rcases ih (h2.inv C K hI) with ⟨t, h3, h4⟩ | ⟨pre, e', post, t, h3, h4, h5, h6, h7⟩
      · exact .inl ⟨t, hr.trans h3, .cons C K hI h2 h4⟩
      · refine .inr ⟨e :: pre, e', post, t, by rw [h3]; rfl, .cons C K hI h2 h4, ?_, ?_, ?_⟩
        · rw [hr]; exact h5
        · rw [hr]; exact h6
        · rw [hr]; exact h7
    · have hr : (run C K (e :: es) s).1 = (step C K e s).1 := by
        rw [run]
        cases hs : step C K e s with
        | mk r t =>
          rw [hs] at h1
          cases r with
          | ok u => exact absurd rfl h1
          | err x => rw [bind_err hs]
          | panic => rw [bind_panic hs]
          | fatal => rw [bind_fatal hs]
      refine .inr ⟨[], e, es, s, rfl, .nil, hr, ?_, ?_⟩
      · rw [hr]; exact h1
      · rw [hr]; exact h2

end Gui
end OnePass
