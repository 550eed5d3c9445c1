/-
Where the panes of the GUI are on the terminal (C128).
-/
import Verif.Props.GuiMask
import Verif.Props.GuiDemo

set_option linter.unusedSimpArgs false

namespace OnePass
namespace Spec

/-- A rectangle with its frame: the cells from (x0, y0) to (x1, y1). -/
structure Rect where
  x0 : Int
  y0 : Int
  x1 : Int
  y1 : Int
  deriving DecidableEq, Repr

namespace Rect

/-- One lies in the other. -/
def Within (a b : Rect) : Prop := b.x0 ≤ a.x0 ∧ a.x1 ≤ b.x1 ∧ b.y0 ≤ a.y0 ∧ a.y1 ≤ b.y1

/-- They have no cell in common. -/
def Apart (a b : Rect) : Prop := a.x1 < b.x0 ∨ b.x1 < a.x0 ∨ a.y1 < b.y0 ∨ b.y1 < a.y0

instance (a b : Rect) : Decidable (Within a b) := inferInstanceAs (Decidable (_ ∧ _))
instance (a b : Rect) : Decidable (Apart a b) := inferInstanceAs (Decidable (_ ∨ _))

end Rect

/-- All the cells of a terminal. -/
def terminal (w h : Nat) : Rect := ⟨0, 0, w - 1, h - 1⟩

end Spec

namespace Gui
open Act Spec

/-- The cells of a pane. -/
def View.rect (v : View) : Rect := ⟨v.x0, v.y0, v.x1, v.y1⟩

/-- Where a pane is put on a terminal of this size: the version in the three uppermost lines, the help in the three lowest, the
menu between them; the items in the left half of the menu, the details in the right half; dialogs of 61 columns and three lines
in the middle. -/
def pane (w h : Nat) : Name → Rect
  | .ver => ⟨0, 0, w - 1, 2⟩
  | .help => ⟨0, h - 3, w - 1, h - 1⟩
  | .menu => ⟨0, 3, w - 1, h - 4⟩
  | .items => ⟨1, 4, (w - 2) / 2, h - 5⟩
  | .details => ⟨w / 2, 4, w - 2, h - 5⟩
  | .prompt => ⟨w / 2 - 30, h / 2 - 1, w / 2 + 30, h / 2 + 1⟩
  | .error => ⟨w / 2 - 30, h / 2 - 1, w / 2 + 30, h / 2 + 1⟩

/-- The panes that are there all the time. -/
def always (n : Name) : Prop := n = .ver ∨ n = .help ∨ n = .menu

/-- The sizes the terminal had when the screen was drawn, after the first drawing. -/
def sizes (es : List Event) : List (Nat × Nat) :=
  es.filterMap (fun e => match e with | .flush w h => some (w, h) | _ => none)

variable (C : Ctx) (K : Kit)

@[simp] theorem View.rect_write (v : View) (t : Bytes) : (v.write t).rect = v.rect := rfl
@[simp] theorem View.rect_clear (v : View) : v.clear.rect = v.rect := rfl
@[simp] theorem View.rect_draw (v : View) : v.draw.rect = v.rect := rfl
@[simp] theorem View.rect_new (a b c d : Int) (t : Attr) : (View.new a b c d t).rect = ⟨a, b, c, d⟩ := rfl
@[simp] theorem View.rect_down (v : View) : v.down.rect = v.rect := by unfold View.down; split <;> rfl
@[simp] theorem View.rect_up (v : View) : v.up.rect = v.rect := by unfold View.up; split <;> rfl
@[simp] theorem View.rect_home (v : View) : v.home.rect = v.rect := by unfold View.home; split <;> rfl
@[simp] theorem View.rect_top (v : View) : v.top.rect = v.rect := by unfold View.top; split <;> rfl
@[simp] theorem rect_helped (v : View) (h : List Bytes) : (helped v h).rect = v.rect := rfl
@[simp] theorem rect_moved (v : View) (a b c d : Int) : (moved v a b c d).rect = ⟨a, b, c, d⟩ := rfl
@[simp] theorem rect_detailed (E : Env) (c : Bool) (i : Option Item) (v : View) : (detailed E c i v).rect = v.rect := by
  cases i <;> simp [detailed]
@[simp] theorem rect_rows (v : View) (l : List SimpleItem) : (rows v l).rect = v.rect := by unfold rows; split <;> rfl

theorem rect_box {a b : Int} {w h : Nat} (ha : a = w) (hb : b = h) (t : Attr) : (box a b t).rect = pane w h .prompt := by
  subst ha hb
  rw [box, View.rect_new, Int.tdiv_eq_ediv_of_nonneg (by omega), Int.tdiv_eq_ediv_of_nonneg (by omega)]
  rfl

/-- What was drawn so far ends with this size, and every pane is where it belongs on a terminal of a size drawn on before. -/
structure Laid (S : List (Nat × Nat)) (p : Nat × Nat) (s : St) : Prop where
  mem : p ∈ S
  maxX : s.maxX = p.1
  maxY : s.maxY = p.2
  views : ∀ n v, s.views n = some v → ∃ q ∈ S, v.rect = pane q.1 q.2 n ∧ (always n → q = p)

/-- Where a view may be. -/
def Fine (S : List (Nat × Nat)) (p : Nat × Nat) (n : Name) (v : View) : Prop :=
  ∃ q ∈ S, v.rect = pane q.1 q.2 n ∧ (always n → q = p)

def AllFine (S : List (Nat × Nat)) (p : Nat × Nat) (vs : Name → Option View) : Prop := ∀ n v, vs n = some v → Fine S p n v

theorem AllFine.set {S : List (Nat × Nat)} {p : Nat × Nat} {vs : Name → Option View} (h : AllFine S p vs) {n : Name} {v : View}
    (hv : Fine S p n v) : AllFine S p (setAt vs n (some v)) := by
  intro m u hu
  by_cases hm : m = n
  · subst hm
    rw [setAt, if_pos rfl] at hu
    cases hu
    exact hv
  · rw [setAt, if_neg hm] at hu
    exact h m u hu

theorem AllFine.del {S : List (Nat × Nat)} {p : Nat × Nat} {vs : Name → Option View} (h : AllFine S p vs) {n : Name} :
    AllFine S p (setAt vs n none) := by
  intro m u hu
  by_cases hm : m = n
  · subst hm
    rw [setAt, if_pos rfl] at hu
    cases hu
  · rw [setAt, if_neg hm] at hu
    exact h m u hu

theorem Fine.of {S : List (Nat × Nat)} {p : Nat × Nat} {n : Name} {v u : View} (h : Fine S p n v) (hr : u.rect = v.rect) : Fine S p n u := by
  unfold Fine at h ⊢
  rwa [hr]

theorem Fine.new {S : List (Nat × Nat)} {p : Nat × Nat} {n : Name} {u : View} (hp : p ∈ S) (hr : u.rect = pane p.1 p.2 n) : Fine S p n u :=
  ⟨p, hp, hr, fun _ => rfl⟩

/-- A step other than drawing. -/
theorem Trans.laid {s s' : St} {e : Event} {S : List (Nat × Nat)} {p : Nat × Nat} (h : Trans C K s e s') (hl : Laid S p s)
    (he : sizes [e] = []) : Laid S p s' := by
  have hr : AllFine S p s.views := hl.views
  have hp := hl.mem
  have hd : ∀ {n v}, s.views n = some v → Fine S p n v := fun {n v} h => hr n v h
  have hb : ∀ t, Fine S p .prompt (box s.maxX s.maxY t) := fun t => .new hp (rect_box hl.maxX hl.maxY t)
  have hb' : ∀ t, Fine S p .error (box s.maxX s.maxY t) := fun t => .new hp (rect_box hl.maxX hl.maxY t)
  have hX := hl.maxX
  have hY := hl.maxY
  suffices h : AllFine S p s'.views ∧ s'.maxX = s.maxX ∧ s'.maxY = s.maxY from
    ⟨hp, h.2.1.trans hX, h.2.2.trans hY, h.1⟩
  cases h with
  | ignored k => exact ⟨hr, rfl, rfl⟩
  | typed k hk v h hv => exact ⟨hr.set ((hd hv).of rfl), rfl, rfl⟩
  | refused v e sess h hv hu => exact ⟨hr.del.set ((hb' errorAttr).of (by simp)), rfl, rfl⟩
  | accepted v vm sess h hv hm hu => exact ⟨hr.del.set ((hd hm).of (by simp)), rfl, rfl⟩
  | closeError v h hv => exact ⟨hr.del.set (hb _), rfl, rfl⟩
  | menuDown k hk i v h hv => exact ⟨hr.set ((hd hv).of (by simp)), rfl, rfl⟩
  | menuUp k hk i v h hv => exact ⟨hr.set ((hd hv).of (by simp)), rfl, rfl⟩
  | openEntry k hk vh l h hh hx hy =>
    refine ⟨((hr.set (.new hp ?_)).set (.new hp ?_)).set ((hd hh).of (by simp)), rfl, rfl⟩
    · rw [rect_rows, newItems, View.rect_new, half, Int.tdiv_eq_ediv_of_nonneg (by omega), hX, hY]
      rfl
    · have h1 : (newDetails s).rect = pane p.1 p.2 .details := by
        rw [newDetails, View.rect_new, half, Int.tdiv_eq_ediv_of_nonneg (by omega), hX, hY]
        rfl
      split
      · exact h1
      · rw [rect_detailed, h1]
  | lockMenu v vh h hv hh => exact ⟨((hr.set ((hd hv).of (by simp))).set (hb _)).set ((hd hh).of (by simp)), rfl, rfl⟩
  | itemsDown k hk i v vi h hv hvi => exact ⟨(hr.set ((hd hvi).of (by simp))).set ((hd hv).of (by simp)), rfl, rfl⟩
  | itemsUp k hk i v vi h hv hvi => exact ⟨(hr.set ((hd hvi).of (by simp))).set ((hd hv).of (by simp)), rfl, rfl⟩
  | back k hk o h => exact ⟨AllFine.del (AllFine.del hr), rfl, rfl⟩
  | reveal i v vh h hv hh => exact ⟨(hr.set ((hd hv).of (by simp))).set ((hd hh).of (by simp)), rfl, rfl⟩
  | lockItems o vm vh h hm hh =>
    exact ⟨(((AllFine.del (AllFine.del hr)).set ((hd hm).of (by simp))).set (hb _)).set ((hd hh).of (by simp)), rfl, rfl⟩
  | scroll k hk v x y h hv => exact ⟨hr.set ((hd hv).of rfl), rfl, rfl⟩
  | cover v vh h hv hh => exact ⟨(hr.set ((hd hv).of (by simp))).set ((hd hh).of (by simp)), rfl, rfl⟩
  | flush x y vv vh vm hx hy hv hh hm => simp [sizes] at he
  | idle h => exact ⟨hr, rfl, rfl⟩
  | checked v r w hp' hv hr' => exact ⟨hr.set ((hd hv).of (by simp)), rfl, rfl⟩
  | disk d => exact ⟨hr, rfl, rfl⟩

/-- Drawing. -/
theorem Trans.laid_flush {s s' : St} {x y : Nat} {S : List (Nat × Nat)} {p : Nat × Nat} (h : Trans C K s (.flush x y) s')
    (hl : Laid S p s) : Laid (S ++ [(x, y)]) (x, y) s' := by
  cases h with
  | flush _ _ vv vh vm hx hy hv hh hm =>
    refine ⟨by simp, rfl, rfl, fun n u hu => ?_⟩
    have hq : (x, y) ∈ S ++ [(x, y)] := by simp
    simp only [Option.map_eq_some_iff] at hu
    obtain ⟨v, h2, rfl⟩ := hu
    rw [View.rect_draw]
    have other : ∀ n, ¬ always n → ∀ v, s.views n = some v → ∃ q ∈ S ++ [(x, y)], v.rect = pane q.1 q.2 n ∧ (always n → q = (x, y)) := by
      intro n hn v hv
      obtain ⟨q, h3, h4, _⟩ := hl.views n v hv
      exact ⟨q, by simp [h3], h4, fun h => absurd h hn⟩
    cases n with
    | ver =>
      simp [placed, setAt] at h2; subst h2
      exact ⟨_, hq, by simp [pane], fun _ => rfl⟩
    | help =>
      simp [placed, setAt] at h2; subst h2
      exact ⟨_, hq, by simp [pane], fun _ => rfl⟩
    | menu =>
      simp [placed, setAt] at h2; subst h2
      exact ⟨_, hq, by simp [pane], fun _ => rfl⟩
    | prompt => exact other _ (by simp [always]) v (by simpa [placed, setAt] using h2)
    | error => exact other _ (by simp [always]) v (by simpa [placed, setAt] using h2)
    | items => exact other _ (by simp [always]) v (by simpa [placed, setAt] using h2)
    | details => exact other _ (by simp [always]) v (by simpa [placed, setAt] using h2)

theorem Live.laid {vault : Bytes} {w : World} {x y : Nat} {es : List Event} {s : St} (h : Live C K vault w x y es s) :
    ∃ p, ((x, y) :: sizes es).getLast? = some p ∧ Laid ((x, y) :: sizes es) p s := by
  have hs := (h.steps C K).2.2
  clear h
  induction hs with
  | nil =>
    refine ⟨(x, y), rfl, by simp [sizes], rfl, rfl, fun n v hv => ⟨(x, y), by simp, ?_, fun _ => rfl⟩⟩
    cases n <;> simp only [firstSt, Option.map_some, Option.map_none, Option.some.injEq, reduceCtorEq] at hv
    all_goals subst hv
    · simp [pane]
    · simp [pane]
    · simp [pane]
    · rw [View.rect_draw, rect_box rfl rfl]
  | @snoc es t u e _ _ ht ih =>
    obtain ⟨p, h1, h2⟩ := ih
    by_cases he : sizes [e] = []
    · have h3 : sizes (es ++ [e]) = sizes es := by
        show List.filterMap _ (es ++ [e]) = _
        rw [List.filterMap_append]
        show _ ++ sizes [e] = _
        rw [he, List.append_nil]
        rfl
      rw [h3]
      exact ⟨p, h1, ht.laid C K h2 he⟩
    · cases e with
      | flush a b =>
        have h3 : (x, y) :: sizes (es ++ [.flush a b]) = ((x, y) :: sizes es) ++ [(a, b)] := by
          simp [sizes]
        rw [h3]
        exact ⟨(a, b), by rw [List.getLast?_append]; rfl, ht.laid_flush C K h2⟩
      | _ => exact absurd rfl he

/-! ### C128 -/

/-- C128, in general. Version, help and menu are always where they belong on the terminal as it was last drawn; every other pane is
where it belongs on a terminal of some size that was drawn before. -/
theorem C128_places (vault : Bytes) (w : World) (x y : Nat) (es : List Event) (s : St) (h : Live C K vault w x y es s) (n : Name)
    (v : View) (hv : s.views n = some v) :
    ∃ q ∈ (x, y) :: sizes es, v.rect = pane q.1 q.2 n ∧ (always n → ((x, y) :: sizes es).getLast? = some q) := by
  obtain ⟨p, h1, h2⟩ := h.laid C K
  obtain ⟨q, h3, h4, h5⟩ := h2.views n v hv
  exact ⟨q, h3, h4, fun ha => by rw [h5 ha]; exact h1⟩

/-- C128 (partial: the size of the terminal must not change, see `C128_refuted`). On a terminal of at least 61 columns and 9 lines
every pane is on the terminal. Panes do not overlap, except that the menu has the items and the details, or a dialog, on top of it. -/
theorem C128_fits_partial (vault : Bytes) (w : World) (x y : Nat) (es : List Event) (s : St) (h : Live C K vault w x y es s)
    (hx : 61 ≤ x) (hy : 9 ≤ y) (hs : ∀ q ∈ sizes es, q = (x, y)) :
    (∀ n v, s.views n = some v → v.rect.Within (terminal x y)) ∧
    ∀ n m v u, n ≠ m → s.views n = some v → s.views m = some u →
      v.rect.Apart u.rect ∨ (m = .menu ∧ v.rect.Within u.rect) ∨ (n = .menu ∧ u.rect.Within v.rect) := by
  have hr : ∀ n v, s.views n = some v → v.rect = pane x y n := by
    intro n v hv
    obtain ⟨q, h1, h2, _⟩ := C128_places C K vault w x y es s h n v hv
    rcases List.mem_cons.1 h1 with rfl | h1
    · exact h2
    · rw [hs q h1] at h2
      exact h2
  refine ⟨fun n v hv => ?_, fun n m v u hnm hv hu => ?_⟩
  · rw [hr n v hv]
    cases n <;> simp only [pane, terminal, Rect.Within] <;> omega
  · rw [hr n v hv, hr m u hu]
    have hexcl : ¬ ((n = .prompt ∨ n = .error) ∧ (m = .prompt ∨ m = .error ∨ m = .items ∨ m = .details)) ∧
        ¬ ((m = .prompt ∨ m = .error) ∧ (n = .prompt ∨ n = .error ∨ n = .items ∨ n = .details)) := by
      rcases (h.inv C K).screen with h1 | h1 | h1 | h1 | h1
      all_goals
        have e1 := h1.items
        have e2 := h1.details
        have e3 := h1.prompt
        have e4 := h1.error
        constructor <;> rintro ⟨rfl | rfl, rfl | rfl | rfl | rfl⟩ <;> simp_all
    cases n <;> cases m <;> simp only [pane, Rect.Within, Rect.Apart, ne_eq, not_true_eq_false, reduceCtorEq, not_false_eq_true, true_and,
      false_and, or_false, false_or, true_or, or_true, and_true, and_false] at hnm hexcl ⊢ <;> omega

/-- What C128 asks for: when the terminal is large enough all the time, every pane is on the screen. -/
def C128_wish : Prop :=
  ∀ (C : Ctx) (K : Kit) (vault : Bytes) (w : World) (x y : Nat) (es : List Event) (s : St), Live C K vault w x y es s →
    (∀ q ∈ (x, y) :: sizes es, 61 ≤ q.1 ∧ 9 ≤ q.2) →
    ∀ p, ((x, y) :: sizes es).getLast? = some p → ∀ n v, s.views n = some v → v.rect.Within (terminal p.1 p.2)

theorem ended_ok {r : Res Unit × St} (h : r.1 = .ok ()) : r = (.ok (), r.2) := by rw [← h]

/-- C128. Only version, help and menu are laid out again when the size of the terminal changes: the dialog that asks for the password
stays where it was, here on 200 columns, and is not on the terminal any more. -/
theorem C128_refuted : ¬ C128_wish := by
  intro h
  obtain ⟨hl, hr⟩ := Demo.world_locked (Demo.disk [] [])
  have hrun : ∃ s, Live Demo.ctx Demo.kit b!"/a" (Demo.world (Demo.disk [] [])) 200 50 [.flush 80 24] s := by
    have h1 : (Demo.goOn 200 50 (Demo.disk [] []) [.flush 80 24]).1 = .ok () := by decide +kernel
    exact ⟨_, hl, hr, ended_ok h1⟩
  obtain ⟨s, hs⟩ := hrun
  have hscr : ∃ v, s.views .prompt = some v ∧ v.rect = pane 200 50 .prompt := by
    have h1 : ((Demo.goOn 200 50 (Demo.disk [] []) [.flush 80 24]).2.views .prompt).map View.rect = some (pane 200 50 .prompt) := by
      decide +kernel
    have h2 : Demo.goOn 200 50 (Demo.disk [] []) [.flush 80 24] = (.ok (), s) := hs.goes
    rw [h2] at h1
    simpa [Option.map_eq_some_iff] using h1
  obtain ⟨v, hv, hvr⟩ := hscr
  have h3 := h _ _ _ _ _ _ _ _ hs (by decide) (80, 24) rfl .prompt v hv
  rw [hvr] at h3
  exact absurd h3 (by decide)

/-- C128. On a terminal of less than 61 columns the dialog that asks for the password is not on the terminal, to begin with. -/
theorem C128_narrow (vault : Bytes) (w : World) (x y : Nat) (s : St) (h : Live C K vault w x y [] s) (hx : x < 61) :
    ∃ v, s.views .prompt = some v ∧ ¬ v.rect.Within (terminal x y) := by
  obtain ⟨_, _, h1⟩ := h.steps C K
  generalize he : ([] : List Event) = es at h1
  cases h1 with
  | nil =>
    refine ⟨_, rfl, ?_⟩
    show ¬ (box x y promptAttr).rect.Within _
    rw [rect_box rfl rfl]
    simp only [pane, terminal, Rect.Within]
    omega
  | snoc _ _ _ => exact absurd he (by simp)

/-- Items and details side by side in the menu, on 80 columns and 24 lines. -/
example :
    ((Demo.go (Demo.disk [] []) (Demo.opening ++ [.key .enter, .flush 80 24])).2.views .items).map View.rect = some ⟨1, 4, 39, 19⟩ ∧
    ((Demo.go (Demo.disk [] []) (Demo.opening ++ [.key .enter, .flush 80 24])).2.views .details).map View.rect = some ⟨40, 4, 78, 19⟩ ∧
    ((Demo.go (Demo.disk [] []) (Demo.opening ++ [.key .enter, .flush 80 24])).2.views .menu).map View.rect = some ⟨0, 3, 79, 20⟩ := by
  decide +kernel

end Gui
end OnePass
