/-
What the pieces of the GUI do, as equations.
-/
import Verif.Model.Gui
import Verif.Model.WorldFacts

set_option linter.unusedSimpArgs false

namespace OnePass
namespace Gui
open Act

/-! ### Running -/

theorem bind_run {α β : Type} (m : Act α) (f : α → Act β) (s : St) :
    (m >>= f) s = match m s with
      | (.ok a, s') => f a s'
      | (.err e, s') => (.err e, s')
      | (.panic, s') => (.panic, s')
      | (.fatal, s') => (.fatal, s') := rfl

theorem bind_ok {α β : Type} {m : Act α} {f : α → Act β} {s s' : St} {a : α} (h : m s = (.ok a, s')) :
    (m >>= f) s = f a s' := by rw [bind_run, h]

theorem bind_err {α β : Type} {m : Act α} {f : α → Act β} {s s' : St} {e : Stop} (h : m s = (.err e, s')) :
    (m >>= f) s = (.err e, s') := by rw [bind_run, h]

theorem bind_panic {α β : Type} {m : Act α} {f : α → Act β} {s s' : St} (h : m s = (.panic, s')) :
    (m >>= f) s = (.panic, s') := by rw [bind_run, h]

theorem bind_fatal {α β : Type} {m : Act α} {f : α → Act β} {s s' : St} (h : m s = (.fatal, s')) :
    (m >>= f) s = (.fatal, s') := by rw [bind_run, h]

@[simp] theorem pure_run {α : Type} (a : α) (s : St) : (Act.pure a) s = (.ok a, s) := rfl
@[simp] theorem pure_run' {α : Type} (a : α) (s : St) : (Pure.pure a : Act α) s = (.ok a, s) := rfl
@[simp] theorem get_run (s : St) : Act.get s = (.ok s, s) := rfl
@[simp] theorem modify_run (f : St → St) (s : St) : modify f s = (.ok (), f s) := rfl
@[simp] theorem fail_run {α : Type} (e : Stop) (s : St) : (fail e : Act α) s = (.err e, s) := rfl
@[simp] theorem panic_run {α : Type} (s : St) : (Act.panic : Act α) s = (.panic, s) := rfl
@[simp] theorem look_run (r : Ref) (s : St) : look r s = (.ok (s.deref r), s) := rfl

@[simp] theorem get_bind {β : Type} (f : St → Act β) (s : St) : (Act.get >>= f) s = f s s := rfl
@[simp] theorem modify_bind {β : Type} (g : St → St) (f : Unit → Act β) (s : St) : (modify g >>= f) s = f () (g s) := rfl
@[simp] theorem look_bind {β : Type} (r : Ref) (f : View → Act β) (s : St) : (look r >>= f) s = f (s.deref r) s := rfl
@[simp] theorem pure_bind' {α β : Type} (a : α) (f : α → Act β) (s : St) : (Act.pure a >>= f) s = f a s := rfl
@[simp] theorem fail_bind {α β : Type} (e : Stop) (f : α → Act β) (s : St) : ((fail e : Act α) >>= f) s = (.err e, s) := rfl

@[simp] theorem setAt_same (vs : Name → Option View) (n : Name) (v : Option View) : setAt vs n v n = v := by simp [setAt]
theorem setAt_ne (vs : Name → Option View) {n m : Name} (v : Option View) (h : m ≠ n) : setAt vs n v m = vs m := by simp [setAt, h]
@[simp] theorem setAt_twice (vs : Name → Option View) (n : Name) (v v' : Option View) : setAt (setAt vs n v) n v' = setAt vs n v' := by
  funext m
  simp only [setAt]
  split <;> rfl

theorem setAt_id (vs : Name → Option View) (n : Name) : setAt vs n (vs n) = vs := by
  funext m
  simp only [setAt]
  split
  · rename_i h; rw [h]
  · rfl

@[simp] theorem deref_live {s : St} {n : Name} {v : View} (h : s.views n = some v) : s.deref (.live n) = v := by
  simp [St.deref, h]

theorem change_run {s : St} {n : Name} {v : View} (h : s.views n = some v) (f : View → View) :
    change (.live n) f s = (.ok (), { s with views := setAt s.views n (some (f v)) }) := by
  simp [change, h]

theorem viewOf_run {s : St} {n : Name} {v : View} (h : s.views n = some v) : viewOf n s = (.ok (.live n), s) := by
  simp [viewOf, h]

theorem setCurrentView_run {s : St} {n : Name} {v : View} (h : s.views n = some v) :
    setCurrentView n s = (.ok (), { s with cur := some (.live n) }) := by
  simp [setCurrentView, h]

theorem setView_new {s : St} {n : Name} {x0 y0 x1 y1 : Int} {a : Attr} (h : s.views n = none) (hx : x0 < x1) (hy : y0 < y1) :
    setView n x0 y0 x1 y1 a s = (.ok true, { s with views := setAt s.views n (some (View.new x0 y0 x1 y1 a)) }) := by
  simp only [setView, h, show ¬ (x0 ≥ x1 ∨ y0 ≥ y1) by omega, if_false]

theorem setView_old {s : St} {n : Name} {v : View} {x0 y0 x1 y1 : Int} {a : Attr} (h : s.views n = some v) (hx : x0 < x1)
    (hy : y0 < y1) :
    setView n x0 y0 x1 y1 a s = (.ok false, { s with views := setAt s.views n (some { v with x0, y0, x1, y1 }) }) := by
  simp only [setView, h, show ¬ (x0 ≥ x1 ∨ y0 ≥ y1) by omega, if_false]

theorem setView_bad {s : St} {n : Name} {x0 y0 x1 y1 : Int} {a : Attr} (h : x0 ≥ x1 ∨ y0 ≥ y1) :
    setView n x0 y0 x1 y1 a s = (.err .dimensions, s) := by
  simp only [setView, h, if_true]

/-! ### Cursor and origin of one view -/

namespace View

/-- Whether the cursor may be put there. -/
def fits (v : View) (x y : Int) : Bool := decide (0 ≤ x ∧ x < v.width ∧ 0 ≤ y ∧ y < v.height)

def down (v : View) : View :=
  if v.fits v.cx (v.cy + 1) then { v with cy := v.cy + 1 } else { v with oy := v.oy + 1 }

def up (v : View) : View :=
  if v.fits v.cx (v.cy - 1) then { v with cy := v.cy - 1 } else { v with oy := v.oy - 1 }

def home (v : View) : View :=
  if v.fits v.cx 0 then { v with cy := 0 } else { v with oy := 0 }

/-- What `resetOrigin` makes of a view. -/
def top (v : View) : View := if v.oy > 0 then { v with oy := 0 } else { v with ox := 0 }

end View

theorem setCursor_run {s : St} {n : Name} {v : View} (h : s.views n = some v) (x y : Int) :
    setCursor (.live n) x y s =
      if v.fits x y then (.ok (), { s with views := setAt s.views n (some { v with cx := x.toNat, cy := y.toNat }) })
      else (.err .point, s) := by
  simp only [setCursor, look_bind, deref_live h, View.fits, decide_eq_true_eq]
  by_cases hb : 0 ≤ x ∧ x < v.width ∧ 0 ≤ y ∧ y < v.height
  · simp only [hb, show ¬ (x < 0 ∨ x ≥ v.width ∨ y < 0 ∨ y ≥ v.height) by omega, if_false, change_run h, and_self,
      if_true]
  · simp only [hb, show (x < 0 ∨ x ≥ v.width ∨ y < 0 ∨ y ≥ v.height) by omega, if_true, if_false, fail_run]

theorem setOrigin_run {s : St} {n : Name} {v : View} (h : s.views n = some v) (x y : Nat) :
    setOrigin (.live n) x y s =
      (.ok (), { s with views := setAt s.views n (some { v with ox := x, oy := y }) }) := by
  simp only [setOrigin, show ¬ ((x : Int) < 0 ∨ (y : Int) < 0) by omega, if_false, change_run h, Int.toNat_natCast]

theorem attempt_ok {α : Type} {m : Act α} {s s' : St} {a : α} (h : m s = (.ok a, s')) : attempt m s = (.ok true, s') := by
  simp only [attempt, h]

theorem attempt_err {α : Type} {m : Act α} {s s' : St} {e : Stop} (h : m s = (.err e, s')) : attempt m s = (.ok false, s') := by
  simp only [attempt, h]

theorem cursor_ok {s : St} {n : Name} {v : View} (h : s.views n = some v) {x y : Int} (hf : v.fits x y = true) :
    attempt (setCursor (.live n) x y) s =
      (.ok true, { s with views := setAt s.views n (some { v with cx := x.toNat, cy := y.toNat }) }) :=
  attempt_ok (a := ()) (by rw [setCursor_run h, hf]; rfl)

theorem cursor_err {s : St} {n : Name} {v : View} (h : s.views n = some v) {x y : Int} (hf : v.fits x y = false) :
    attempt (setCursor (.live n) x y) s = (.ok false, s) :=
  attempt_err (e := .point) (by rw [setCursor_run h, hf]; rfl)

theorem rowDown_run {s : St} {n : Name} {v : View} (h : s.views n = some v) :
    rowDown (.live n) s = (.ok (), { s with views := setAt s.views n (some v.down) }) := by
  simp only [rowDown, look_bind, deref_live h, View.down]
  cases hf : v.fits v.cx (v.cy + 1) with
  | true => rw [bind_ok (cursor_ok h hf)]; rfl
  | false => rw [bind_ok (cursor_err h hf)]; exact setOrigin_run h v.ox (v.oy + 1)

theorem rowUp_run {s : St} {n : Name} {v : View} (h : s.views n = some v) :
    rowUp (.live n) s = (.ok (), { s with views := setAt s.views n (some v.up) }) := by
  simp only [rowUp, look_bind, deref_live h, View.up]
  cases hf : v.fits v.cx (v.cy - 1) with
  | true =>
    rw [bind_ok (cursor_ok h hf)]
    simp only [View.fits, decide_eq_true_eq] at hf
    simp only [if_true, pure_run, Int.toNat_natCast, show ((v.cy : Int) - 1).toNat = v.cy - 1 by omega]
  | false =>
    rw [bind_ok (cursor_err h hf)]
    simp only [Bool.false_eq_true, if_false]
    by_cases ho : v.oy > 0
    · simp only [ho, if_true]
      rw [show ((v.oy : Int) - 1) = ((v.oy - 1 : Nat) : Int) by omega]
      exact setOrigin_run h v.ox (v.oy - 1)
    · simp only [ho, if_false, pure_run, show v.oy - 1 = v.oy by omega, ← h, setAt_id]

theorem resetCursor_run {s : St} {n : Name} {v : View} (h : s.views n = some v) :
    resetCursor (.live n) s = (.ok (), { s with views := setAt s.views n (some v.home) }) := by
  simp only [resetCursor, look_bind, deref_live h, View.home]
  cases hf : v.fits v.cx 0 with
  | true => rw [bind_ok (cursor_ok h hf)]; rfl
  | false =>
    rw [bind_ok (cursor_err h hf)]
    simp only [Bool.false_eq_true, if_false]
    by_cases ho : v.oy > 0
    · simp only [ho, if_true]
      exact setOrigin_run h v.ox 0
    · simp only [ho, if_false, pure_run]
      have : ({ v with oy := 0 } : View) = v := by
        have : v.oy = 0 := by omega
        cases v; simp_all
      simp only [this, ← h, setAt_id]

theorem resetOrigin_run {s : St} {n : Name} {v : View} (h : s.views n = some v) :
    resetOrigin (.live n) s = (.ok (), { s with views := setAt s.views n (some v.top) }) := by
  simp only [resetOrigin, look_bind, deref_live h, View.top]
  by_cases hx : v.ox > 0
  · simp only [hx, if_true]
    rw [bind_ok (show setOrigin (.live n) 0 v.oy s = _ from setOrigin_run h 0 v.oy)]
    by_cases hy : v.oy > 0
    · simp only [hy, if_true]
      have := setOrigin_run (s := { s with views := setAt s.views n (some { v with ox := 0, oy := v.oy }) }) (n := n)
        (v := { v with ox := 0, oy := v.oy }) (by simp) v.ox 0
      simpa using this
    · simp only [hy, if_false, pure_run]
  · simp only [hx, if_false]
    rw [bind_ok (pure_run () s)]
    have h0 : v.ox = 0 := by omega
    by_cases hy : v.oy > 0
    · simp only [hy, if_true]
      exact setOrigin_run h v.ox 0
    · simp only [hy, if_false, pure_run]
      have : ({ v with ox := 0 } : View) = v := by cases v; simp_all
      simp only [this, ← h, setAt_id]

/-! ### Help -/

/-- What the help view shows. -/
def helped (v : View) (h : List Bytes) : View := v.clear.write (helpBody h)

theorem helpUpdate_run {s : St} {v : View} (h : s.views .help = some v) :
    helpUpdate s = (.ok (), { s with views := setAt s.views .help (some (helped v s.help)) }) := by
  rw [helpUpdate, bind_ok (viewOf_run h)]
  simp only [get_bind]
  exact change_run h _

theorem setHelp_run {s : St} {v : View} (h : s.views .help = some v) (t : List Bytes) :
    setHelp t s = (.ok (), { s with help := t, views := setAt s.views .help (some (helped v t)) }) := by
  rw [setHelp]
  simp only [modify_bind]
  exact helpUpdate_run (s := { s with help := t }) h

/-! ### Details -/

/-- What the details view shows of an item (or of none). -/
def detailed (E : Env) (covered : Bool) (i : Option Item) (v : View) : View :=
  match i with
  | none => v.clear.top
  | some i => v.clear.top.write (detailsHead E i ++ detailsBody covered i)

theorem detailsUpdate_run (C : Ctx) {s : St} {v : View} (h : s.views .details = some v) (covered : Bool) :
    detailsUpdate C covered s =
      (.ok (), { s with views := setAt s.views .details (some (detailed C.env covered s.item v)) }) := by
  rw [detailsUpdate, bind_ok (viewOf_run h), bind_ok (change_run h _)]
  rw [bind_ok (resetOrigin_run (v := v.clear) (by simp))]
  simp only [get_bind, setAt_twice]
  cases hi : s.item with
  | none => simp [detailed]
  | some i =>
    simp only [detailed]
    have := change_run (s := { s with views := setAt s.views .details (some v.clear.top) }) (n := .details)
      (v := v.clear.top) (by simp) (fun v => v.write (detailsHead C.env i ++ detailsBody covered i))
    simpa [hi] using this

theorem detailsUpdate_missing (C : Ctx) {s : St} (h : s.views .details = none) (covered : Bool) :
    detailsUpdate C covered s = (.err .unknownView, s) := by
  rw [detailsUpdate]
  exact bind_err (by simp [viewOf, h])

theorem fetch_run {s : St} (h : 0 ≤ s.itemIdx) {i : SimpleItem} (hi : s.items[s.itemIdx.toNat]? = some i) :
    fetch s = (.ok (), { s with item := s.world.sess.getItem i.uid i.trashed }) := by
  simp only [fetch, get_bind, show ¬ s.itemIdx < 0 by omega, if_false, hi, modify_run]


/-! ### Items -/

/-- The item a row stands for. -/
def St.itemAt (s : St) (k : Nat) : Option Item := (s.items[k]?).bind (fun i => s.world.sess.getItem i.uid i.trashed)

theorem fetch_at {s : St} {k : Nat} (h : s.itemIdx = k) (hk : k < s.items.length) :
    fetch s = (.ok (), { s with item := s.itemAt k }) := by
  have hi : s.items[s.itemIdx.toNat]? = some s.items[k] := by simp [h, hk]
  rw [fetch_run (by omega) hi]
  simp [St.itemAt, hk]

theorem fetch_panic {s : St} (h : s.itemIdx < 0) : fetch s = (.panic, s) := by
  simp only [fetch, get_bind, h, if_true, panic_run]

theorem showOverview_run (C : Ctx) {s : St} {k : Nat} {v : View} (h : s.itemIdx = k) (hk : k < s.items.length)
    (hv : s.views .details = some v) :
    showOverview C s = (.ok (), { s with item := s.itemAt k, views := setAt s.views .details (some (detailed C.env true (s.itemAt k) v)) }) := by
  rw [showOverview, bind_ok (fetch_at h hk), detailsUpdate_run C (v := v) (by exact hv)]

theorem reveal_run (C : Ctx) {s : St} {k : Nat} {v vh : View} (h : s.itemIdx = k) (hk : k < s.items.length)
    (hv : s.views .details = some v) (hh : s.views .help = some vh) :
    reveal C s = (.ok (),
      { s with
        item := s.itemAt k
        cur := some (.live .details)
        help := detailsHelp
        views := setAt (setAt s.views .details (some (detailed C.env false (s.itemAt k) v))) .help
          (some (helped vh detailsHelp)) }) := by
  rw [reveal, bind_ok (fetch_at h hk), bind_ok (detailsUpdate_run C (v := v) (by exact hv) false),
    bind_ok (setCurrentView_run (v := detailed C.env false (s.itemAt k) v) (by simp)),
    setHelp_run (v := vh) (by simp [setAt, hh])]

theorem cover_run (C : Ctx) {s : St} {v vh vi : View} (hv : s.views .details = some v) (hi : s.views .items = some vi)
    (hh : s.views .help = some vh) :
    cover C s = (.ok (),
      { s with
        cur := some (.live .items)
        help := itemsHelp
        views := setAt (setAt s.views .details (some (detailed C.env true s.item v))) .help
          (some (helped vh itemsHelp)) }) := by
  rw [cover, bind_ok (detailsUpdate_run C (v := v) (by exact hv) true),
    bind_ok (setCurrentView_run (v := vi) (by simp [setAt, hi])), setHelp_run (v := vh) (by simp [setAt, hh])]

theorem itemsDown_run (C : Ctx) {s : St} {k : Nat} {v vi : View} (h : s.itemIdx = k) (hk : k + 1 < s.items.length)
    (hv : s.views .details = some v) (hi : s.views .items = some vi) :
    itemsDown C (.live .items) s = (.ok (),
      { s with
        itemIdx := (k + 1 : Nat)
        item := s.itemAt (k + 1)
        views := setAt (setAt s.views .items (some vi.down)) .details
          (some (detailed C.env true (s.itemAt (k + 1)) v)) }) := by
  have hc : s.itemIdx ≠ -1 ∧ s.itemIdx < (s.items.length : Int) - 1 := by omega
  rw [itemsDown]
  simp only [get_bind, hc, and_self, if_true, ne_eq, not_false_eq_true]
  rw [bind_ok (rowDown_run hi)]
  simp only [modify_bind]
  rw [showOverview_run C (k := k + 1) (v := v) (by simp [h]) (by exact hk) (by simp [setAt, hv])]
  simp [h, St.itemAt]

theorem itemsDown_stay (C : Ctx) {s : St} (r : Ref) (h : ¬ (s.itemIdx ≠ -1 ∧ s.itemIdx < (s.items.length : Int) - 1)) :
    itemsDown C r s = (.ok (), s) := by
  rw [itemsDown]
  simp only [get_bind, h, if_false, pure_run]

theorem itemsUp_run (C : Ctx) {s : St} {k : Nat} {v vi : View} (h : s.itemIdx = (k + 1 : Nat)) (hk : k < s.items.length)
    (hv : s.views .details = some v) (hi : s.views .items = some vi) :
    itemsUp C (.live .items) s = (.ok (),
      { s with
        itemIdx := k
        item := s.itemAt k
        views := setAt (setAt s.views .items (some vi.up)) .details (some (detailed C.env true (s.itemAt k) v)) }) := by
  have hc : s.itemIdx > 0 := by omega
  rw [itemsUp]
  simp only [get_bind, hc, if_true]
  rw [bind_ok (rowUp_run hi)]
  simp only [modify_bind]
  rw [showOverview_run C (k := k) (v := v) (by simp [h]) (by exact hk) (by simp [setAt, hv])]
  simp [h, St.itemAt]

theorem itemsUp_stay (C : Ctx) {s : St} (r : Ref) (h : ¬ s.itemIdx > 0) : itemsUp C r s = (.ok (), s) := by
  rw [itemsUp]
  simp only [get_bind, h, if_false, pure_run]

theorem deleteView_other {s : St} {n : Name} {v : View} (h : s.views n = some v) (hc : s.cur ≠ some (.live n)) :
    deleteView n s = (.ok (), { s with views := setAt s.views n none }) := by
  simp only [deleteView, h, hc, if_false]

theorem deleteView_cur {s : St} {n : Name} {v : View} (h : s.views n = some v) (hc : s.cur = some (.live n)) :
    deleteView n s = (.ok (), { s with views := setAt s.views n none, cur := some (.gone n), orphan := v }) := by
  simp only [deleteView, h, hc, if_true]

/-- Without item list and details. -/
def closed (vs : Name → Option View) : Name → Option View := setAt (setAt vs .details none) .items none

theorem goBack_run {s : St} {vd vi vm : View} (hd : s.views .details = some vd) (hi : s.views .items = some vi)
    (hm : s.views .menu = some vm) :
    ∃ o, goBack s = (.ok (), { s with views := closed s.views, cur := some (.live .menu), orphan := o }) := by
  by_cases h1 : s.cur = some (.live .details)
  · refine ⟨vd, ?_⟩
    rw [goBack, bind_ok (deleteView_cur hd h1), bind_ok (deleteView_other (v := vi) (by simp [setAt, hi]) (by simp)),
      setCurrentView_run (v := vm) (by simp [setAt, hm])]
    rfl
  · by_cases h2 : s.cur = some (.live .items)
    · refine ⟨vi, ?_⟩
      rw [goBack, bind_ok (deleteView_other hd h1), bind_ok (deleteView_cur (v := vi) (by simp [setAt, hi]) (by exact h2)),
        setCurrentView_run (v := vm) (by simp [setAt, hm])]
      rfl
    · refine ⟨s.orphan, ?_⟩
      rw [goBack, bind_ok (deleteView_other hd h1), bind_ok (deleteView_other (v := vi) (by simp [setAt, hi]) (by exact h2)),
        setCurrentView_run (v := vm) (by simp [setAt, hm])]
      rfl

/-! ### Prompt and error dialog -/

/-- A box in the middle of the screen. -/
def box (maxX maxY : Int) (a : Attr) : View :=
  View.new (maxX.tdiv 2 - 30) (maxY.tdiv 2 - 1) (maxX.tdiv 2 + 30) (maxY.tdiv 2 + 1) a

theorem promptLayout_run {s : St} (h : s.views .prompt = none) :
    promptLayout s = (.ok (),
      { s with views := setAt s.views .prompt (some (box s.maxX s.maxY promptAttr)), typed := [], cur := some (.live .prompt) }) := by
  rw [promptLayout]
  simp only [get_bind]
  rw [bind_ok (setView_new h (by omega) (by omega))]
  simp only [if_true, modify_bind]
  rw [setCurrentView_run (v := box s.maxX s.maxY promptAttr) (by simp [box])]
  rfl

theorem errorLayout_run {s : St} (h : s.views .error = none) (e : Err) (he : s.err = some e) :
    errorLayout s = (.ok (),
      { s with views := setAt s.views .error (some ((box s.maxX s.maxY errorAttr).write e.text)), cur := some (.live .error) }) := by
  rw [errorLayout]
  simp only [get_bind]
  rw [bind_ok (setView_new h (by omega) (by omega))]
  simp only [if_true]
  rw [bind_ok (setCurrentView_run (v := box s.maxX s.maxY errorAttr) (by simp [box])),
    change_run (v := box s.maxX s.maxY errorAttr) (by simp [box])]
  simp [he, box]

variable (C : Ctx) (K : Kit)

/-! ### Menu -/

theorem menuDown_run {s : St} {k : Nat} {v : View} (h : s.menuIdx = k) (hk : k + 1 < s.cats.length)
    (hv : s.views .menu = some v) :
    menuDown (.live .menu) s = (.ok (), { s with menuIdx := (k + 1 : Nat), views := setAt s.views .menu (some v.down) }) := by
  have hc : s.menuIdx ≠ -1 ∧ s.menuIdx < (s.cats.length : Int) - 1 := by omega
  rw [menuDown]
  simp only [get_bind, hc, and_self, if_true, ne_eq, not_false_eq_true]
  rw [bind_ok (rowDown_run hv)]
  simp [h]

theorem menuDown_stay {s : St} (r : Ref) (h : ¬ (s.menuIdx ≠ -1 ∧ s.menuIdx < (s.cats.length : Int) - 1)) :
    menuDown r s = (.ok (), s) := by
  rw [menuDown]
  simp only [get_bind, h, if_false, pure_run]

theorem menuUp_run {s : St} {k : Nat} {v : View} (h : s.menuIdx = (k + 1 : Nat)) (hv : s.views .menu = some v) :
    menuUp (.live .menu) s = (.ok (), { s with menuIdx := k, views := setAt s.views .menu (some v.up) }) := by
  have hc : s.menuIdx > 0 := by omega
  rw [menuUp]
  simp only [get_bind, hc, if_true]
  rw [bind_ok (rowUp_run hv)]
  simp [h]

theorem menuUp_stay {s : St} (r : Ref) (h : ¬ s.menuIdx > 0) : menuUp r s = (.ok (), s) := by
  rw [menuUp]
  simp only [get_bind, h, if_false, pure_run]

/-- The state after the menu was filled. -/
def filled (s : St) (v : View) : St :=
  { s with
    world := { s.world with sess := sortCats C s.world.sess }
    views := setAt s.views .menu (some (v.write (menuText K s.maxX (sortCats C s.world.sess))))
    cats := s.cats ++ menuCats (sortCats C s.world.sess)
    menuIdx := if (s.cats ++ menuCats (sortCats C s.world.sess)).length > 0 then 0 else s.menuIdx }

theorem menuFill_run {s : St} {v : View} (hv : s.views .menu = some v) : menuFill C K s = (.ok (), filled C K s v) := by
  rw [menuFill, bind_ok (viewOf_run hv)]
  simp only [modify_bind, get_bind]
  rw [bind_ok (change_run (v := v) (by exact hv) _)]
  simp only [modify_bind, modify_run, filled]
  split <;> rfl

theorem menuUpdate_open {s : St} {v : View} (hv : s.views .menu = some v) (hu : s.world.sess.isUnlocked = true) :
    menuUpdate C K s = (.ok (), filled C K s v) := by
  rw [menuUpdate]
  simp only [get_bind, hu, if_true]
  exact menuFill_run C K hv

theorem menuUpdate_locked {s : St} (hp : s.views .prompt = none) (hu : s.world.sess.isUnlocked = false) :
    menuUpdate C K s = (.ok (),
      { s with views := setAt s.views .prompt (some (box s.maxX s.maxY promptAttr)), typed := [], cur := some (.live .prompt) }) := by
  rw [menuUpdate]
  simp only [get_bind, hu, Bool.false_eq_true, if_false]
  exact promptLayout_run hp

theorem lock_unlocked (s : Session) : s.lock.isUnlocked = false := rfl

/-- The state after the menu was locked. -/
def lockedSt (s : St) (v vh : View) : St :=
  { s with
    menuIdx := -1
    cats := []
    world := { s.world with sess := s.world.sess.lock }
    views := setAt (setAt (setAt s.views .menu (some v.home.clear)) .prompt (some (box s.maxX s.maxY promptAttr))) .help
      (some (helped vh onepassHelp))
    typed := []
    cur := some (.live .prompt)
    help := onepassHelp }

theorem lock_run {s : St} {v vh : View} (hv : s.views .menu = some v) (hp : s.views .prompt = none)
    (hh : s.views .help = some vh) : lock C K (.live .menu) s = (.ok (), lockedSt s v vh) := by
  rw [lock]
  simp only [modify_bind]
  rw [bind_ok (resetCursor_run (v := v) (by exact hv)), bind_ok (change_run (v := v.home) (by simp) _),
    bind_ok (menuUpdate_locked C K (by simp [setAt, hp]) (lock_unlocked _)),
    setHelp_run (v := vh) (by simp [setAt, hh])]
  simp [lockedSt]

theorem itemsLock_run {s : St} {vd vi vm vh : View} (hd : s.views .details = some vd) (hi : s.views .items = some vi)
    (hm : s.views .menu = some vm) (hp : s.views .prompt = none) (hh : s.views .help = some vh) :
    ∃ o, itemsLock C K s = (.ok (), { lockedSt { s with views := closed s.views } vm vh with orphan := o }) := by
  obtain ⟨o, ho⟩ := goBack_run hd hi hm
  refine ⟨o, ?_⟩
  rw [itemsLock, bind_ok ho, bind_ok (viewOf_run (v := vm) (by simp [closed, setAt, hm])),
    lock_run C K (v := vm) (vh := vh) (by simp [closed, setAt, hm]) (by simp [closed, setAt, hp])
      (by simp [closed, setAt, hh])]
  rfl


/-! ### Opening an entry -/

theorem home_top {v : View} (h1 : v.cy = 0) (h2 : v.oy = 0) : v.home = v := by
  unfold View.home
  split
  · cases v; simp_all
  · cases v; simp_all

/-- The rows of the item list. -/
def rows (v : View) (l : List SimpleItem) : View := if l = [] then v.clear else v.clear.write (l.flatMap itemRow)

theorem itemsUpdate_run {s : St} {v vd : View} (hv : s.views .items = some v) (hd : s.views .details = some vd) :
    itemsUpdate C s = (.ok (),
      if s.items = [] then { s with itemIdx := -1, views := setAt s.views .items (some (rows v.home s.items)) }
      else
        { s with
          itemIdx := 0
          item := s.itemAt 0
          views := setAt (setAt s.views .items (some (rows v.home s.items))) .details
            (some (detailed C.env true (s.itemAt 0) vd)) }) := by
  rw [itemsUpdate, bind_ok (viewOf_run hv)]
  simp only [modify_bind]
  rw [bind_ok (resetCursor_run (v := v) (by exact hv)), bind_ok (change_run (v := v.home) (by simp) _)]
  simp only [get_bind, setAt_twice]
  by_cases hi : s.items = []
  · simp [hi, rows]
  · have hl : s.items.length > 0 := List.length_pos_iff.2 hi
    simp only [hl, if_true, hi, if_false, rows]
    rw [bind_ok (change_run (v := v.home.clear) (by simp) _)]
    simp only [modify_bind, setAt_twice]
    rw [showOverview_run C (k := 0) (v := vd) rfl (by exact hl) (by simp [setAt, hd])]
    simp [St.itemAt]

theorem itemsUpdate_early {s : St} {v : View} (hv : s.views .items = some v) (hd : s.views .details = none) :
    ∃ b, attempt (itemsUpdate C) s = (.ok b,
      if s.items = [] then { s with itemIdx := -1, views := setAt s.views .items (some (rows v.home s.items)) }
      else { s with itemIdx := 0, item := s.itemAt 0, views := setAt s.views .items (some (rows v.home s.items)) }) := by
  by_cases hi : s.items = []
  · refine ⟨true, attempt_ok (a := ()) ?_⟩
    rw [itemsUpdate, bind_ok (viewOf_run hv)]
    simp only [modify_bind]
    rw [bind_ok (resetCursor_run (v := v) (by exact hv)), bind_ok (change_run (v := v.home) (by simp) _)]
    simp [hi, rows]
  · refine ⟨false, attempt_err (e := .unknownView) ?_⟩
    have hl : s.items.length > 0 := List.length_pos_iff.2 hi
    rw [itemsUpdate, bind_ok (viewOf_run hv)]
    simp only [modify_bind]
    rw [bind_ok (resetCursor_run (v := v) (by exact hv)), bind_ok (change_run (v := v.home) (by simp) _)]
    simp only [get_bind, setAt_twice, hl, if_true, hi, if_false, rows]
    rw [bind_ok (change_run (v := v.home.clear) (by simp) _)]
    simp only [modify_bind, setAt_twice]
    rw [showOverview, bind_ok (fetch_at (k := 0) rfl (by exact hl)),
      detailsUpdate_missing C (by simp [setAt, hd])]
    simp [St.itemAt]

/-- The new item list and details view. -/
def newItems (s : St) : View := View.new 1 4 (half (s.maxX - 2)) (s.maxY - 5) itemsAttr
def newDetails (s : St) : View := View.new (half s.maxX) 4 (s.maxX - 2) (s.maxY - 5) detailsAttr

/-- The item left over from the list shown before. -/
def stale (s : St) : Option Item := if s.items = [] then s.item else s.itemAt 0

theorem itemsLayout_run {s : St} {vh : View} (hi : s.views .items = none) (hd : s.views .details = none)
    (hh : s.views .help = some vh) (hx : 6 ≤ s.maxX) (hy : 10 ≤ s.maxY) :
    itemsLayout C s = (.ok (),
      { s with
        itemIdx := if s.items = [] then -1 else 0
        item := stale s
        cur := some (.live .items)
        help := itemsHelp
        views := setAt (setAt (setAt s.views .items (some (rows (newItems s) s.items))) .details
          (some (newDetails s))) .help (some (helped vh itemsHelp)) }) := by
  have h1 : (1 : Int) < half (s.maxX - 2) := by unfold half; rw [Int.tdiv_eq_ediv_of_nonneg (by omega)]; omega
  have h2 : half s.maxX < s.maxX - 2 := by unfold half; rw [Int.tdiv_eq_ediv_of_nonneg (by omega)]; omega
  rw [itemsLayout]
  simp only [get_bind]
  rw [bind_ok (setView_new hi h1 (by omega))]
  simp only [if_true]
  obtain ⟨b, hb⟩ := itemsUpdate_early C (s := { s with views := setAt s.views .items (some (newItems s)) })
    (v := newItems s) (by simp) (by simp [setAt, hd])
  rw [show View.new 1 4 (half (s.maxX - 2)) (s.maxY - 5) itemsAttr = newItems s from rfl, bind_ok hb]
  have hhome : (newItems s).home = newItems s := home_top rfl rfl
  have key : ∀ t : St, t.maxX = s.maxX → t.maxY = s.maxY →
      t.views = setAt s.views .items (some (rows (newItems s) s.items)) →
      (detailsLayout >>= fun _ => setCurrentView .items >>= fun _ => setHelp itemsHelp) t = (.ok (),
        { t with
          cur := some (.live .items)
          help := itemsHelp
          views := setAt (setAt t.views .details (some (newDetails s))) .help (some (helped vh itemsHelp)) }) := by
    intro t e1 e2 e3
    have hl : detailsLayout t = (.ok (), { t with views := setAt t.views .details (some (newDetails s)) }) := by
      rw [detailsLayout]
      simp only [get_bind]
      rw [bind_ok (setView_new (by simp [e3, setAt, hd]) (by rw [e1]; exact h2) (by omega))]
      simp [newDetails, e1, e2]
    rw [bind_ok hl, bind_ok (setCurrentView_run (v := rows (newItems s) s.items) (by simp [e3, setAt])),
      setHelp_run (v := vh) (by simp [e3, setAt, hh])]
  by_cases he : s.items = []
  · simp only [he, if_true, hhome, setAt_twice, stale]
    simp only [he] at key
    exact key _ rfl rfl rfl
  · simp only [he, if_false, hhome, setAt_twice, stale]
    exact key _ rfl rfl rfl

/-- The state after an entry was opened. -/
def openedSt (s : St) (vh : View) (l : List SimpleItem) : St :=
  let t : St := { s with items := l }
  { s with
    items := l
    itemIdx := if l = [] then -1 else 0
    item := if l = [] then stale s else t.itemAt 0
    cur := some (.live .items)
    help := itemsHelp
    views := setAt (setAt (setAt s.views .items (some (rows (newItems s) l))) .details
      (some (if l = [] then newDetails s else detailed C.env true (t.itemAt 0) (newDetails s)))) .help
      (some (helped vh itemsHelp)) }

theorem rows_rows (v : View) (l l' : List SimpleItem) (h1 : v.cy = 0) (h2 : v.oy = 0) : rows (rows v l).home l' = rows v l' := by
  have : (rows v l).cy = 0 ∧ (rows v l).oy = 0 := by
    unfold rows
    split <;> exact ⟨h1, h2⟩
  rw [home_top this.1 this.2]
  unfold rows
  split <;> split <;> rfl

theorem setAt_comm (vs : Name → Option View) {n m : Name} (a b : Option View) (h : n ≠ m) :
    setAt (setAt vs n a) m b = setAt (setAt vs m b) n a := by
  funext k
  simp only [setAt]
  by_cases h1 : k = m <;> by_cases h2 : k = n <;> simp_all

theorem showItems_run {s : St} {vh : View} {l : List SimpleItem} (hi : s.views .items = none)
    (hd : s.views .details = none) (hh : s.views .help = some vh) (hx : 6 ≤ s.maxX) (hy : 10 ≤ s.maxY)
    (hm : s.menuIdx ≠ -1) (hl : entryItems C s = some l) :
    showItems C s = (.ok (), openedSt C s vh l) := by
  rw [showItems]
  simp only [get_bind, hm, ne_eq, not_false_eq_true, if_true]
  rw [bind_ok (itemsLayout_run C hi hd hh hx hy)]
  simp only [get_bind]
  have he : ∀ t : St, t.world = s.world → t.cats = s.cats → t.menuIdx = s.menuIdx → entryItems C t = some l := by
    intro t e1 e2 e3
    rw [← hl]
    simp only [entryItems, e1, e2, e3]
  rw [he _ (by rfl) (by rfl) (by rfl)]
  simp only [modify_bind]
  rw [itemsUpdate_run C (v := rows (newItems s) s.items) (vd := newDetails s) (by simp [setAt]) (by simp [setAt])]
  simp only [rows_rows (newItems s) s.items l rfl rfl, openedSt]
  by_cases hn : l = []
  · simp only [hn, if_true]
    rw [setAt_comm _ _ _ (show Name.help ≠ .items by decide), setAt_comm _ _ _ (show Name.details ≠ .items by decide),
      setAt_twice]
  · simp only [hn, if_false, St.itemAt]
    rw [setAt_comm _ _ _ (show Name.help ≠ .items by decide), setAt_comm _ _ _ (show Name.details ≠ .items by decide),
      setAt_twice, setAt_comm _ _ _ (show Name.help ≠ .details by decide), setAt_twice]

theorem showItems_none {s : St} (hm : s.menuIdx = -1) : showItems C s = (.ok (), s) := by
  rw [showItems]
  simp [hm]

theorem showItems_small {s : St} (hm : s.menuIdx ≠ -1)
    (h : half (s.maxX - 2) ≤ 1 ∨ s.maxY ≤ 9) : showItems C s = (.err .dimensions, s) := by
  rw [showItems]
  simp only [get_bind, hm, ne_eq, not_false_eq_true, if_true]
  apply bind_err
  rw [itemsLayout]
  simp only [get_bind]
  exact bind_err (setView_bad (by omega))

/-! ### Unlocking -/

/-- What the prompt hands to `Unlock`. -/
def entered (v : View) : Bytes := Str.trimSpace v.viewBuffer

/-- `Unlock` as the GUI calls it. -/
def attemptUnlock (s : St) (password : Bytes) : Out (Except Err Unit × Session) :=
  s.world.sess.unlock C.env (K.order s.opened) s.world.disk s.vault password

/-- The state when `Unlock` returns. -/
def triedSt (s : St) (v : View) (sess : Session) : St :=
  { s with
    views := setAt s.views .prompt none
    cur := some (.gone .prompt)
    orphan := v
    opened := s.opened + 1
    world := { s.world with sess := sess } }

theorem tryUnlock_ret {s : St} {p : Bytes} {r : Except Err Unit} {sess : Session}
    (h : attemptUnlock C K s p = .ret (r, sess)) :
    tryUnlock C K p s = (.ok r, { s with opened := s.opened + 1, world := { s.world with sess := sess } }) := by
  rw [attemptUnlock] at h
  rw [tryUnlock]
  simp only [get_bind, modify_bind, onWorld, Cli.onSession, h]

theorem tryUnlock_die {s : St} {p : Bytes} (h : ∀ r, attemptUnlock C K s p ≠ .ret r) :
    tryUnlock C K p s = (.panic, { s with opened := s.opened + 1 }) ∨
      tryUnlock C K p s = (.fatal, { s with opened := s.opened + 1 }) := by
  rw [tryUnlock]
  simp only [get_bind, modify_bind, onWorld, Cli.onSession]
  rw [attemptUnlock] at h
  cases hu : s.world.sess.unlock C.env (K.order s.opened) s.world.disk s.vault p with
  | ret r => exact absurd hu (h r)
  | panic => exact .inl rfl
  | fatal => exact .inr rfl

theorem unlock_refused {s : St} {v : View} {e : Err} {sess : Session} (hp : s.views .prompt = some v)
    (hc : s.cur = some (.live .prompt)) (he : s.views .error = none)
    (h : attemptUnlock C K s (entered v) = .ret (.error e, sess)) :
    unlock C K (.live .prompt) s = (.ok (),
      { triedSt s v sess with
        err := some e
        cur := some (.live .error)
        views := setAt (setAt s.views .prompt none) .error (some ((box s.maxX s.maxY errorAttr).write e.text)) }) := by
  rw [unlock]
  simp only [look_bind, deref_live hp]
  rw [bind_ok (deleteView_cur hp hc)]
  have h' := tryUnlock_ret C K
    (s := { s with views := setAt s.views .prompt none, cur := some (.gone .prompt), orphan := v })
    (p := entered v) (r := .error e) (sess := sess) h
  rw [bind_ok (show tryUnlock C K (Str.trimSpace v.viewBuffer) _ = _ from h')]
  simp only [modify_bind]
  rw [errorLayout_run (by simp [setAt, he]) e rfl]
  rfl

theorem unlock_accepted {s : St} {v vm : View} {sess : Session} (hp : s.views .prompt = some v)
    (hc : s.cur = some (.live .prompt)) (hm : s.views .menu = some vm)
    (h : attemptUnlock C K s (entered v) = .ret (.ok (), sess)) (hu : sess.isUnlocked = true) :
    unlock C K (.live .prompt) s = (.ok (), filled C K { triedSt s v sess with cur := some (.live .menu) } vm) := by
  rw [unlock]
  simp only [look_bind, deref_live hp]
  rw [bind_ok (deleteView_cur hp hc)]
  have h' := tryUnlock_ret C K
    (s := { s with views := setAt s.views .prompt none, cur := some (.gone .prompt), orphan := v })
    (p := entered v) (r := .ok ()) (sess := sess) h
  rw [bind_ok (show tryUnlock C K (Str.trimSpace v.viewBuffer) _ = _ from h')]
  simp only []
  rw [bind_ok (setCurrentView_run (v := vm) (by simp [setAt, hm])),
    menuUpdate_open C K (v := vm) (by simp [setAt, hm]) (by exact hu)]
  rfl

theorem unlock_dies {s : St} {v : View} (hp : s.views .prompt = some v)
    (hc : s.cur = some (.live .prompt)) (h : ∀ r, attemptUnlock C K s (entered v) ≠ .ret r) :
    (unlock C K (.live .prompt) s).1 = .panic ∨ (unlock C K (.live .prompt) s).1 = .fatal := by
  rw [unlock]
  simp only [look_bind, deref_live hp]
  rw [bind_ok (deleteView_cur hp hc)]
  rcases tryUnlock_die C K
    (s := { s with views := setAt s.views .prompt none, cur := some (.gone .prompt), orphan := v })
    (p := entered v) h with h' | h'
  · left; rw [bind_panic (show tryUnlock C K (Str.trimSpace v.viewBuffer) _ = _ from h')]
  · right; rw [bind_fatal (show tryUnlock C K (Str.trimSpace v.viewBuffer) _ = _ from h')]

theorem closeError_run {s : St} {v : View} (he : s.views .error = some v) (hc : s.cur = some (.live .error))
    (hp : s.views .prompt = none) (hu : s.world.sess.isUnlocked = false) :
    closeError C K s = (.ok (),
      { s with
        orphan := v
        views := setAt (setAt s.views .error none) .prompt (some (box s.maxX s.maxY promptAttr))
        typed := []
        cur := some (.live .prompt) }) := by
  rw [closeError, bind_ok (deleteView_cur he hc), menuUpdate_locked C K (by simp [setAt, hp]) (by exact hu)]

/-! ### Drawing -/

/-- A view in a new rectangle. -/
def moved (v : View) (x0 y0 x1 y1 : Int) : View := { v with x0, y0, x1, y1 }

/-- The views of the managers in their new rectangles. -/
def placed (vs : Name → Option View) (x y : Int) (vv vh vm : View) : Name → Option View :=
  setAt (setAt (setAt vs .ver (some (moved vv 0 0 (x - 1) 2))) .help (some (moved vh 0 (y - 3) (x - 1) (y - 1)))) .menu
    (some (moved vm 0 3 (x - 1) (y - 4)))

theorem flush_run {s : St} {vv vh vm : View} (hv : s.views .ver = some vv) (hh : s.views .help = some vh)
    (hm : s.views .menu = some vm) {x y : Nat} (hx : 2 ≤ x) (hy : 8 ≤ y) :
    flush C K x y s = (.ok (),
      { s with
        maxX := x
        maxY := y
        views := fun n => (placed s.views x y vv vh vm n).map View.draw
        typed := s.typed ++ [none] }) := by
  rw [flush]
  simp only [modify_bind]
  have h1 : verLayout { s with maxX := x, maxY := y } = (.ok (),
      { s with maxX := x, maxY := y, views := setAt s.views .ver (some (moved vv 0 0 (x - 1) 2)) }) := by
    rw [verLayout]
    simp only [get_bind]
    rw [bind_ok (setView_old (v := vv) (by exact hv) (by omega) (by omega))]
    simp [moved]
  rw [bind_ok h1]
  have h2 : helpLayout { s with maxX := x, maxY := y, views := setAt s.views .ver (some (moved vv 0 0 (x - 1) 2)) } = (.ok (),
      { s with maxX := x, maxY := y, views := setAt (setAt s.views .ver (some (moved vv 0 0 (x - 1) 2))) .help (some (moved vh 0 (y - 3) (x - 1) (y - 1))) }) := by
    rw [helpLayout]
    simp only [get_bind]
    rw [bind_ok (setView_old (v := vh) (by simp [setAt, hh]) (by omega) (by omega))]
    simp [moved]
  rw [bind_ok h2]
  have h3 : ∀ t : St, t.maxX = x → t.maxY = y → t.views .menu = some vm → menuLayout C K t = (.ok (),
      { t with views := setAt t.views .menu (some (moved vm 0 3 (x - 1) (y - 4))) }) := by
    intro t e1 e2 e3
    rw [menuLayout]
    simp only [get_bind]
    rw [bind_ok (setView_old (v := vm) e3 (by omega) (by omega))]
    simp [moved, e1, e2]
  rw [bind_ok (h3 _ (by rfl) (by rfl) (by simp [setAt, hm]))]
  rfl

theorem verLayout_ok {s : St} (hx : 2 ≤ s.maxX) :
    ∃ s', verLayout s = (.ok (), s') ∧ s'.maxX = s.maxX ∧ s'.maxY = s.maxY := by
  cases hv : s.views .ver with
  | some v =>
    refine ⟨{ s with views := setAt s.views .ver (some (moved v 0 0 (s.maxX - 1) 2)) }, ?_, rfl, rfl⟩
    · rw [verLayout]
      simp only [get_bind]
      rw [bind_ok (setView_old hv (by omega) (by omega))]
      rfl
  | none =>
    refine ⟨{ s with pending := true, views := setAt s.views .ver (some ((View.new 0 0 (s.maxX - 1) 2 verAttr).write (b!"1Pass v" ++ Upd.version ++ b!" "))) }, ?_, rfl, rfl⟩
    · rw [verLayout]
      simp only [get_bind]
      rw [bind_ok (setView_new hv (by omega) (by omega))]
      simp only [if_true]
      rw [bind_ok (change_run (v := View.new 0 0 (s.maxX - 1) 2 verAttr) (by simp) _)]
      simp

theorem helpLayout_ok {s : St} (hx : 2 ≤ s.maxX) :
    ∃ s', helpLayout s = (.ok (), s') ∧ s'.maxX = s.maxX ∧ s'.maxY = s.maxY := by
  cases hv : s.views .help with
  | some v =>
    refine ⟨{ s with views := setAt s.views .help (some (moved v 0 (s.maxY - 3) (s.maxX - 1) (s.maxY - 1))) }, ?_, rfl, rfl⟩
    · rw [helpLayout]
      simp only [get_bind]
      rw [bind_ok (setView_old hv (by omega) (by omega))]
      rfl
  | none =>
    refine ⟨{ s with views := setAt s.views .help (some (helped (View.new 0 (s.maxY - 3) (s.maxX - 1) (s.maxY - 1) helpAttr) s.help)) }, ?_, rfl, rfl⟩
    · rw [helpLayout]
      simp only [get_bind]
      rw [bind_ok (setView_new hv (by omega) (by omega))]
      simp only [if_true]
      rw [bind_ok (attempt_ok (helpUpdate_run (v := View.new 0 (s.maxY - 3) (s.maxX - 1) (s.maxY - 1) helpAttr) (by simp)))]
      simp

theorem flush_small {s : St} {x y : Nat} (h : x ≤ 1 ∨ y ≤ 7) : (flush C K x y s).1 = .err .dimensions := by
  rw [flush]
  simp only [modify_bind]
  by_cases hx : x ≤ 1
  · rw [bind_err (e := .dimensions) (s' := { s with maxX := x, maxY := y })]
    rw [verLayout]
    simp only [get_bind]
    exact bind_err (setView_bad (by omega))
  · obtain ⟨s1, h1, e1, e2⟩ := verLayout_ok (s := { s with maxX := x, maxY := y }) (by simp only []; omega)
    rw [bind_ok h1]
    obtain ⟨s2, h2, e3, e4⟩ := helpLayout_ok (s := s1) (by rw [e1]; simp only []; omega)
    rw [bind_ok h2]
    have e5 : s2.maxY = y := by rw [e4, e2]
    rw [bind_err (e := .dimensions) (s' := s2)]
    rw [menuLayout]
    simp only [get_bind]
    exact bind_err (setView_bad (by omega))

/-- The very first drawing: the prompt is up, nothing else happened. -/
def firstSt (vault : Bytes) (w : World) (x y : Nat) : St :=
  { start vault w with
    maxX := x
    maxY := y
    pending := true
    cur := some (.live .prompt)
    help := onepassHelp
    typed := [none]
    views := fun n => Option.map View.draw (match n with
      | .ver => some ((View.new 0 0 (x - 1) 2 verAttr).write (b!"1Pass v" ++ Upd.version ++ b!" "))
      | .help => some (helped (View.new 0 (y - 3) (x - 1) (y - 1) helpAttr) onepassHelp)
      | .menu => some (View.new 0 3 (x - 1) (y - 4) menuAttr)
      | .prompt => some (box x y promptAttr)
      | _ => none) }

theorem first_run {vault : Bytes} {w : World} {x y : Nat} (hx : 2 ≤ x) (hy : 8 ≤ y)
    (hu : w.sess.isUnlocked = false) : flush C K x y (start vault w) = (.ok (), firstSt vault w x y) := by
  rw [flush]
  simp only [modify_bind]
  have h1 : verLayout { start vault w with maxX := x, maxY := y } = (.ok (),
      { start vault w with
        maxX := x
        maxY := y
        pending := true
        views := setAt (fun _ => none) .ver (some ((View.new 0 0 (x - 1) 2 verAttr).write (b!"1Pass v" ++ Upd.version ++ b!" "))) }) := by
    rw [verLayout]
    simp only [get_bind]
    rw [bind_ok (setView_new rfl (by omega) (by omega))]
    simp only [if_true]
    rw [bind_ok (change_run (v := View.new 0 0 (x - 1) 2 verAttr) (by simp) _)]
    simp [start]
  rw [bind_ok h1]
  have h2 : ∀ t : St, t.maxX = x → t.maxY = y → t.views .help = none → helpLayout t = (.ok (),
      { t with views := setAt t.views .help (some (helped (View.new 0 (y - 3) (x - 1) (y - 1) helpAttr) t.help)) }) := by
    intro t e1 e2 e3
    rw [helpLayout]
    simp only [get_bind, e1, e2]
    rw [bind_ok (setView_new e3 (by omega) (by omega))]
    simp only [if_true]
    rw [bind_ok (attempt_ok (helpUpdate_run (v := View.new 0 (y - 3) (x - 1) (y - 1) helpAttr) (by simp)))]
    simp [e1, e2]
  rw [bind_ok (h2 _ (by rfl) (by rfl) (by rfl))]
  have h3 : ∀ (t : St) (vh : View), t.maxX = x → t.maxY = y → t.views .menu = none → t.views .prompt = none →
      t.views .help = some vh → t.world.sess.isUnlocked = false → menuLayout C K t = (.ok (),
        { t with
          cur := some (.live .prompt)
          help := onepassHelp
          typed := []
          views := setAt (setAt (setAt t.views .menu (some (View.new 0 3 (x - 1) (y - 4) menuAttr))) .prompt (some (box x y promptAttr))) .help
            (some (helped vh onepassHelp)) }) := by
    intro t vh e1 e2 e3 e4 e5 e6
    rw [menuLayout]
    simp only [get_bind, e1, e2]
    rw [bind_ok (setView_new e3 (by omega) (by omega))]
    simp only [if_true]
    rw [bind_ok (setCurrentView_run (v := View.new 0 3 (x - 1) (y - 4) menuAttr) (by simp)),
      bind_ok (menuUpdate_locked C K (by simp [setAt, e4]) (by exact e6)), setHelp_run (v := vh) (by simp [setAt, e5])]
    simp [e1, e2]
  rw [bind_ok (h3 _ _ (by rfl) (by rfl) (by rfl) (by rfl) (by rfl) (by exact hu))]
  simp only [modify_run, firstSt, start, List.nil_append]
  congr 2
  funext n
  cases n <;> simp [setAt, helped, View.clear, View.new, View.write]

/-! ### Keys -/

theorem press_bound {s : St} {r : Ref} {k : Key} {act : Act Unit} (hk : k ≠ .ctrlQ) (hc : s.cur = some r)
    (hb : binding C K r.name k r = some act) : press C K k s = act s := by
  rw [press]
  simp only [get_bind, hk, if_false, hc, hb]

theorem press_free {s : St} {r : Ref} {k : Key} (hk : k ≠ .ctrlQ) (hc : s.cur = some r)
    (hb : binding C K r.name k r = none) (hn : r.name ≠ .prompt) : press C K k s = (.ok (), s) := by
  rw [press]
  simp only [get_bind, hk, if_false, hc, hb, hn, pure_run]

theorem press_typed {s : St} {v : View} {k : Key} (hk : k ≠ .ctrlQ) (he : k ≠ .enter) (hc : s.cur = some (.live .prompt))
    (hv : s.views .prompt = some v) :
    press C K k s = (.ok (),
      { s with
        typed := s.typed ++ [some k]
        views := setAt s.views .prompt (some { v with lines := K.edit (s.typed ++ [some k]) }) }) := by
  rw [press]
  simp only [get_bind, hk, if_false, hc,
    show binding C K (Ref.live .prompt).name k (.live .prompt) = none by simp [binding, Ref.name, he]]
  show typeKey K k (.live .prompt) s = _
  rw [typeKey]
  simp only [modify_bind, get_bind]
  rw [change_run (v := v) (by exact hv)]
  simp only [hc]

theorem press_quit (s : St) : press C K .ctrlQ s = (.err .quit, s) := by
  rw [press]
  simp

/-- What CTRL+Q is to the main loop: everything else that does not end it is a step. -/
theorem run_cons (e : Event) (es : List Event) (s : St) : run C K (e :: es) s = (step C K e >>= fun _ => run C K es) s := rfl

end Gui
end OnePass
