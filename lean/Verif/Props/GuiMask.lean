/-
The attributes of the GUI's views: titles, and the mask of the password prompt (C101).
-/
import Verif.Props.GuiScreens

set_option linter.unusedSimpArgs false

namespace OnePass
namespace Gui
open Act

/-- The attributes of the views. -/
def attrOf : Name → Attr
  | .ver => verAttr
  | .help => helpAttr
  | .menu => menuAttr
  | .prompt => promptAttr
  | .error => errorAttr
  | .items => itemsAttr
  | .details => detailsAttr

/-- Every view has the attributes of its widget. -/
def Dressed (s : St) : Prop := ∀ n v, s.views n = some v → v.attr = attrOf n

variable (C : Ctx) (K : Kit)

@[simp] theorem View.attr_write (v : View) (t : Bytes) : (v.write t).attr = v.attr := rfl
@[simp] theorem View.attr_clear (v : View) : v.clear.attr = v.attr := rfl
@[simp] theorem View.attr_draw (v : View) : v.draw.attr = v.attr := rfl
@[simp] theorem View.attr_new (a b c d : Int) (t : Attr) : (View.new a b c d t).attr = t := rfl
@[simp] theorem View.attr_down (v : View) : v.down.attr = v.attr := by unfold View.down; split <;> rfl
@[simp] theorem View.attr_up (v : View) : v.up.attr = v.attr := by unfold View.up; split <;> rfl
@[simp] theorem View.attr_home (v : View) : v.home.attr = v.attr := by unfold View.home; split <;> rfl
@[simp] theorem View.attr_top (v : View) : v.top.attr = v.attr := by unfold View.top; split <;> rfl
@[simp] theorem attr_helped (v : View) (h : List Bytes) : (helped v h).attr = v.attr := rfl
@[simp] theorem attr_moved (v : View) (a b c d : Int) : (moved v a b c d).attr = v.attr := rfl
@[simp] theorem attr_box (a b : Int) (t : Attr) : (box a b t).attr = t := rfl
@[simp] theorem attr_detailed (E : Env) (c : Bool) (i : Option Item) (v : View) : (detailed E c i v).attr = v.attr := by
  cases i <;> simp [detailed]
@[simp] theorem attr_rows (v : View) (l : List SimpleItem) : (rows v l).attr = v.attr := by unfold rows; split <;> rfl

/-- Views that wear the right attributes. -/
def Right (vs : Name → Option View) : Prop := ∀ n v, vs n = some v → v.attr = attrOf n

theorem View.chars_le : ∀ (f : Nat) (b : Bytes), View.chars f b ≤ f
  | 0, _ => Nat.le_refl _
  | _ + 1, [] => Nat.zero_le _
  | f + 1, _ :: _ => Nat.succ_le_succ (chars_le f _)

theorem Right.set {vs : Name → Option View} (h : Right vs) {n : Name} {v : View} (hv : v.attr = attrOf n) : Right (setAt vs n (some v)) := by
  intro m u hu
  by_cases hm : m = n
  · subst hm
    rw [setAt, if_pos rfl] at hu
    cases hu
    exact hv
  · rw [setAt, if_neg hm] at hu
    exact h m u hu

theorem Right.del {vs : Name → Option View} (h : Right vs) {n : Name} : Right (setAt vs n none) := by
  intro m u hu
  by_cases hm : m = n
  · subst hm
    rw [setAt, if_pos rfl] at hu
    cases hu
  · rw [setAt, if_neg hm] at hu
    exact h m u hu

theorem Trans.dressed {s s' : St} {e : Event} (h : Trans C K s e s') (hd : Dressed s) : Dressed s' := by
  have hr : Right s.views := hd
  show Right s'.views
  cases h with
  | ignored k => exact hr
  | typed k hk v h hv => exact hr.set (by simpa using hd _ _ hv)
  | refused v e sess h hv hu => exact hr.del.set (by simp [attrOf])
  | accepted v vm sess h hv hm hu => exact hr.del.set (by simpa using hd _ _ hm)
  | closeError v h hv => exact hr.del.set (by simp [attrOf])
  | menuDown k hk i v h hv => exact hr.set (by simpa using hd _ _ hv)
  | menuUp k hk i v h hv => exact hr.set (by simpa using hd _ _ hv)
  | openEntry k hk vh l h hh =>
    refine ((hr.set ?_).set ?_).set ?_
    · simp [newItems, attrOf]
    · split <;> simp [newDetails, attrOf]
    · simpa using hd _ _ hh
  | lockMenu v vh h hv hh => exact ((hr.set (by simpa using hd _ _ hv)).set (by simp [attrOf])).set (by simpa using hd _ _ hh)
  | itemsDown k hk i v vi h hv hvi => exact (hr.set (by simpa using hd _ _ hvi)).set (by simpa using hd _ _ hv)
  | itemsUp k hk i v vi h hv hvi => exact (hr.set (by simpa using hd _ _ hvi)).set (by simpa using hd _ _ hv)
  | back k hk o h => exact hr.del.del
  | reveal i v vh h hv hh => exact (hr.set (by simpa using hd _ _ hv)).set (by simpa using hd _ _ hh)
  | lockItems o vm vh h hm hh =>
    exact (((Right.del (Right.del hr)).set (by simpa using hd _ _ hm)).set (by simp [attrOf])).set (by simpa using hd _ _ hh)
  | scroll k hk v x y h hv => exact hr.set (by simpa using hd _ _ hv)
  | cover v vh h hv hh => exact (hr.set (by simpa using hd _ _ hv)).set (by simpa using hd _ _ hh)
  | flush x y vv vh vm hx hy hv hh hm =>
    have h1 : Right (placed s.views x y vv vh vm) :=
      ((hr.set (by simpa using hd _ _ hv)).set (by simpa using hd _ _ hh)).set (by simpa using hd _ _ hm)
    intro n u hu
    simp only [Option.map_eq_some_iff] at hu
    obtain ⟨v, h2, rfl⟩ := hu
    simpa using h1 n v h2
  | idle h => exact hr
  | checked v r w hp hv hr' => exact hr.set (by simpa using hd _ _ hv)
  | disk d => exact hr


theorem Live.dressed {vault : Bytes} {w : World} {x y : Nat} {es : List Event} {s : St} (h : Live C K vault w x y es s) :
    Dressed s := by
  have hs := (h.steps C K).2.2
  clear h
  induction hs with
  | nil =>
    intro n v hv
    cases n <;> simp only [firstSt, Option.map_some, Option.map_none, Option.some.injEq, reduceCtorEq] at hv
    all_goals (subst hv; simp [attrOf])
  | snoc _ _ ht ih => exact ht.dressed C K ih

/-! ### C101 -/

/-- The title of a pane. -/
def paneTitle : Name → Bytes
  | .ver => b!"Version"
  | .help => b!"Help"
  | .menu => b!"1Pass"
  | .prompt => b!"Password"
  | .error => b!"Error"
  | .items => b!"Items"
  | .details => b!"Details"

/-- C101. Whatever has been typed, the password prompt shows nothing but asterisks, at most as many as the text has bytes. All
other panes show what was written into them. The prompt is the only editable pane, and every pane has its title. -/
theorem C101_masked (vault : Bytes) (w : World) (x y : Nat) (es : List Event) (s : St) (h : Live C K vault w x y es s)
    (n : Name) (v : View) (hv : s.views n = some v) :
    (n = .prompt → v.picture.length = v.shown.length ∧
      ∀ (i : Nat) (l : Bytes), v.picture[i]? = some l → (∀ c ∈ l, c = 42) ∧ ∃ t, v.shown[i]? = some t ∧ l.length ≤ t.length) ∧
    (n ≠ .prompt → v.picture = v.shown) ∧
    (v.attr.editable = true ↔ n = .prompt) ∧ v.attr.title = paneTitle n := by
  have ha := h.dressed C K n v hv
  have hm : v.attr.mask = if n = .prompt then 42 else 0 := by rw [ha]; cases n <;> rfl
  refine ⟨fun hn => ?_, fun hn => ?_, ?_, ?_⟩
  · rw [if_pos hn] at hm
    rw [View.picture, hm, if_neg (by decide)]
    refine ⟨by simp, fun i l hl => ?_⟩
    rw [List.getElem?_map, Option.map_eq_some_iff] at hl
    obtain ⟨t, h1, rfl⟩ := hl
    refine ⟨fun c hc => (List.mem_replicate.1 hc).2, t, h1, ?_⟩
    rw [List.length_replicate]
    exact View.chars_le _ _
  · rw [if_neg hn] at hm
    rw [View.picture, if_pos hm]
  · rw [ha]; cases n <;> simp [attrOf, verAttr, helpAttr, menuAttr, promptAttr, errorAttr, itemsAttr, detailsAttr]
  · rw [ha]; cases n <;> rfl

/-- C101. Two passwords with as many characters look the same while they are typed. -/
theorem C101_same_look (u v : View) (hu : u.attr = promptAttr) (hv : v.attr = promptAttr)
    (h : u.shown.map (fun l => View.chars l.length l) = v.shown.map (fun l => View.chars l.length l)) : u.picture = v.picture := by
  have key : ∀ w : View, w.attr = promptAttr → w.picture = (w.shown.map (fun l => View.chars l.length l)).map (fun n => List.replicate n 42) := by
    intro w hw
    rw [View.picture, hw, if_neg (by decide), List.map_map]
    rfl
  rw [key u hu, key v hv, h]

/-- Typing does not show in any other pane either. -/
theorem C101_typing (vault : Bytes) (w : World) (x y : Nat) (es : List Event) (s t : St) (h : Live C K vault w x y es s)
    (hc : s.cur = some (.live .prompt)) (k : Key) (hk : k ≠ .enter) (ht : step C K (.key k) s = (.ok (), t)) (n : Name) (hn : n ≠ .prompt) :
    t.views n = s.views n := by
  have hq : k ≠ .ctrlQ := by
    rintro rfl
    rw [show step C K (.key .ctrlQ) s = _ from press_quit C K s] at ht
    cases ht
  obtain ⟨v, hv⟩ := (atPrompt_of (h.inv C K) hc).prompt
  rw [show step C K (.key k) s = _ from press_typed C K hq hk hc hv] at ht
  cases ht
  simp [setAt, hn]

namespace Demo
set_option maxRecDepth 20000

/-- Three characters typed: three asterisks; the text is there. -/
example : let r := go (disk b!"1234" b!"memo") (keys b!"abc" ++ [.flush 80 24])
    (r.2.views .prompt).map (·.picture) = some [b!"***"] ∧ (r.2.views .prompt).map (·.shown) = some [b!"abc"] ∧
    (r.2.views .prompt).map (·.attr.title) = some b!"Password" := by decide +kernel

end Demo

end Gui
end OnePass
