/-
The row under the cursor of the GUI (C69), and the item in the details pane (C85).
-/
import Verif.Props.GuiMenu

set_option linter.unusedSimpArgs false

namespace OnePass
namespace Gui
open Act Spec

variable (C : Ctx) (K : Kit)

/-- The cursor of the view is in the first column, inside the view, on line `n` of the text. -/
structure Aligned (v : View) (n : Nat) : Prop where
  col : v.cx = 0
  inside : v.cy = 0 ∨ ((v.cy : Int) < v.height ∧ 0 < v.width)
  row : v.oy + v.cy = n

theorem Aligned.down {v : View} {n : Nat} (h : Aligned v n) : Aligned v.down (n + 1) := by
  obtain ⟨h1, h2, h3⟩ := h
  unfold View.down
  split
  · rename_i hf
    simp only [View.fits, h1, decide_eq_true_eq] at hf
    refine ⟨h1, .inr ⟨?_, ?_⟩, ?_⟩
    · show ((v.cy + 1 : Nat) : Int) < v.height
      omega
    · show 0 < v.width
      omega
    · show v.oy + (v.cy + 1) = _
      omega
  · refine ⟨h1, h2, ?_⟩
    show v.oy + 1 + v.cy = _
    omega

theorem Aligned.up {v : View} {n : Nat} (h : Aligned v (n + 1)) : Aligned v.up n := by
  obtain ⟨h1, h2, h3⟩ := h
  unfold View.up
  split
  · rename_i hf
    simp only [View.fits, h1, decide_eq_true_eq] at hf
    refine ⟨h1, .inr ⟨?_, ?_⟩, ?_⟩
    · show ((v.cy - 1 : Nat) : Int) < v.height
      omega
    · show 0 < v.width
      omega
    · show v.oy + (v.cy - 1) = _
      omega
  · rename_i hf
    simp only [View.fits, h1, decide_eq_true_eq] at hf
    refine ⟨h1, h2, ?_⟩
    show v.oy - 1 + v.cy = _
    omega

/-- Locking a menu that is not scrolled. -/
theorem Aligned.home {v : View} {n : Nat} (h : Aligned v n) (ho : v.oy = 0) : Aligned v.home.clear 0 := by
  obtain ⟨h1, h2, h3⟩ := h
  unfold View.home
  split
  · exact ⟨h1, .inl rfl, by show v.oy + 0 = 0; omega⟩
  · rename_i hf
    simp only [View.fits, h1, decide_eq_true_eq] at hf
    have : v.cy = 0 := by omega
    exact ⟨h1, .inl this, by show 0 + v.cy = 0; omega⟩

/-! ### The item list -/

/-- What is kept while a list is on screen. -/
structure ListKept (s : St) : Prop where
  from_ : s.views .items ≠ none → ∃ c t, s.items = s.world.sess.getItems C.env.text C.sorter c [] t
  row : ∀ v, s.views .items = some v → s.items ≠ [] → Aligned v s.itemIdx.toNat
  lines : ∀ v, s.views .items = some v → s.items ≠ [] → (∀ i ∈ s.items, OneLine i.title) →
    v.lines = s.items.map (fun i => shownTitle i.title) ++ [[]]
  none_ : ∀ v, s.views .items = some v → s.items = [] → v.lines = []
  item : s.views .items ≠ none → s.items ≠ [] → s.item = s.itemAt s.itemIdx.toNat
  details : ∀ v, s.views .details = some v → s.items ≠ [] → ∀ i, s.item = some i →
    v.lines = textLines (detailsHead C.env i ++ detailsBody (decide (s.cur ≠ some (.live .details))) i)
  blank : ∀ v, s.views .details = some v → s.items = [] → v.lines = []
  focus : s.cur = some (.live .details) → s.items ≠ []

theorem listKept_none {s : St} (h1 : s.views .items = none) (h2 : s.views .details = none)
    (hc : s.cur ≠ some (.live .details)) : ListKept C s := by
  refine ⟨fun h => absurd h1 h, ?_, ?_, ?_, fun h => absurd h1 h, ?_, ?_, fun h => absurd h hc⟩
  · intro v h; rw [h1] at h; cases h
  · intro v h; rw [h1] at h; cases h
  · intro v h; rw [h1] at h; cases h
  · intro v h; rw [h2] at h; cases h
  · intro v h; rw [h2] at h; cases h

theorem listKept_same {s t : St} (h : ListKept C s) (h1 : t.views .items = s.views .items) (h2 : t.views .details = s.views .details)
    (h3 : t.items = s.items) (h4 : t.itemIdx = s.itemIdx) (h5 : t.item = s.item) (h6 : t.world.sess = s.world.sess)
    (h7 : t.cur = s.cur) : ListKept C t := by
  have ha : ∀ k, t.itemAt k = s.itemAt k := fun k => by unfold St.itemAt; rw [h3, h6]
  refine ⟨?_, ?_, ?_, ?_, ?_, ?_, ?_, ?_⟩
  · rw [h1, h3, h6]; exact h.from_
  · rw [h1, h3, h4]; exact h.row
  · rw [h1, h3]; exact h.lines
  · rw [h1, h3]; exact h.none_
  · rw [h1, h3, h4, h5, ha]; exact h.item
  · rw [h2, h3, h5, h7]; exact h.details
  · rw [h2, h3]; exact h.blank
  · rw [h3, h7]; exact h.focus

theorem entryItems_from {s : St} {l : List SimpleItem} (h : entryItems C s = some l) :
    ∃ c t, l = s.world.sess.getItems C.env.text C.sorter c [] t := by
  unfold entryItems at h
  simp only [] at h
  split at h
  · exact ⟨_, _, (Option.some.inj h).symm⟩
  · split at h
    · exact ⟨_, _, (Option.some.inj h).symm⟩
    · split at h
      · exact ⟨_, _, (Option.some.inj h).symm⟩
      · split at h
        · cases h
        · rw [Option.map_eq_some_iff] at h
          obtain ⟨c, -, h⟩ := h
          exact ⟨_, _, h.symm⟩

theorem rows_aligned {v : View} {l : List SimpleItem} (h : Aligned v 0) : Aligned (rows v l) 0 := by
  unfold rows
  split
  · exact ⟨h.col, h.inside, h.row⟩
  · exact ⟨h.col, h.inside, h.row⟩

theorem listed_views {s : St} (h : Listed s) : s.views .items ≠ none := by
  obtain ⟨v, hv⟩ := h.items
  rw [hv]
  simp

theorem detailed_of (E : Env) (c : Bool) (i : Item) (v : View) :
    (detailed E c (some i) v).lines = textLines (detailsHead E i ++ detailsBody c i) := by
  rcases detailed_lines E c (some i) v with ⟨_, h⟩ | ⟨j, h1, h2⟩
  · cases h
  · cases h1
    exact h2

theorem Trans.listKept {s t : St} {e : Event} (h : Trans C K s e t) (hI : Inv s) (hk : ListKept C s) : ListKept C t := by
  cases h with
  | ignored k hk' => exact hk
  | typed k hk' v h hv => exact listKept_same C hk (by simp [setAt]) (by simp [setAt]) rfl rfl rfl rfl rfl
  | refused v e sess h hv hu => exact listKept_none C (by simpa [setAt] using h.items) (by simpa [setAt] using h.details) (by simp)
  | accepted v vm sess h hv hm hu =>
    exact listKept_none C (by simpa [filled, triedSt, setAt] using h.items) (by simpa [filled, triedSt, setAt] using h.details) (by simp [filled, triedSt])
  | closeError v h hv => exact listKept_none C (by simpa [setAt] using h.items) (by simpa [setAt] using h.details) (by simp)
  | menuDown k hk' i v h hv hi hl => exact listKept_none C (by simpa [setAt] using h.items) (by simpa [setAt] using h.details) (by simp [h.cur])
  | menuUp k hk' i v h hv hi => exact listKept_none C (by simpa [setAt] using h.items) (by simpa [setAt] using h.details) (by simp [h.cur])
  | openEntry k hk' vh l h hh hx hy hm hl =>
    have hv : (openedSt C s vh l).views .items = some (rows (newItems s) l) := by simp [openedSt, setAt]
    have hd : (openedSt C s vh l).views .details =
      some (if l = [] then newDetails s else detailed C.env true ((openedSt C s vh l).itemAt 0) (newDetails s)) := by
      simp [openedSt, setAt, St.itemAt]
    have ha : Aligned (newItems s) 0 := ⟨rfl, .inl rfl, rfl⟩
    refine ⟨fun _ => entryItems_from C hl, ?_, ?_, ?_, ?_, ?_, ?_, fun h => by simp [openedSt] at h⟩
    · intro v h1 h0
      rw [hv] at h1
      cases h1
      have h0 : l ≠ [] := h0
      rw [show (openedSt C s vh l).itemIdx.toNat = 0 by simp [openedSt, h0]]
      exact rows_aligned ha
    · intro v h1 h0 hone
      rw [hv] at h1
      cases h1
      exact rows_lines _ _ h0 hone
    · intro v h1 h0
      rw [hv] at h1
      cases h1
      have h0 : l = [] := h0
      simp [rows, h0, View.clear]
    · intro _ h0
      have h0 : l ≠ [] := h0
      rw [show (openedSt C s vh l).itemIdx.toNat = 0 by simp [openedSt, h0]]
      simp [openedSt, h0, St.itemAt]
    · intro v h1 h0 i hi
      have h0 : l ≠ [] := h0
      rw [hd] at h1
      simp only [h0, if_false, Option.some.injEq] at h1
      subst h1
      have : (openedSt C s vh l).itemAt 0 = some i := by
        rw [← hi]
        simp [openedSt, h0, St.itemAt]
      rw [this, detailed_of]
      simp [openedSt]
    · intro v h1 h0
      have h0 : l = [] := h0
      rw [hd] at h1
      simp only [h0, if_true, Option.some.injEq] at h1
      subst h1
      rfl
  | lockMenu v vh h hv hh =>
    exact listKept_none C (by simpa [lockedSt, setAt] using h.items) (by simpa [lockedSt, setAt] using h.details) (by simp [lockedSt])
  | itemsDown k hk' i v vi h hv hvi hi hl =>
    have hne : s.items ≠ [] := by intro h0; rw [h0] at hl; simp at hl
    refine ⟨fun _ => hk.from_ (listed_views h.toListed), ?_, ?_, ?_, ?_, ?_, ?_, fun _ => hne⟩
    · intro u h1 _
      simp [setAt] at h1
      subst h1
      have := (hk.row vi hvi hne).down
      rw [hi] at this
      simpa using this
    · intro u h1 _ hone
      simp [setAt] at h1
      subst h1
      rw [down_lines]
      exact hk.lines vi hvi hne hone
    · intro u h1 h0
      exact absurd h0 hne
    · intro _ _
      simp [St.itemAt]
    · intro u h1 _ j hj
      simp [setAt] at h1
      subst h1
      have hj : s.itemAt (i + 1) = some j := hj
      rw [hj, detailed_of]
      simp [h.cur]
    · intro u h1 h0
      exact absurd h0 hne
  | itemsUp k hk' i v vi h hv hvi hi hl =>
    have hne : s.items ≠ [] := by intro h0; rw [h0] at hl; simp at hl
    refine ⟨fun _ => hk.from_ (listed_views h.toListed), ?_, ?_, ?_, ?_, ?_, ?_, fun _ => hne⟩
    · intro u h1 _
      simp [setAt] at h1
      subst h1
      have := hk.row vi hvi hne
      rw [hi] at this
      simpa using Aligned.up (n := i) (by simpa using this)
    · intro u h1 _ hone
      simp [setAt] at h1
      subst h1
      rw [up_lines]
      exact hk.lines vi hvi hne hone
    · intro u h1 h0
      exact absurd h0 hne
    · intro _ _
      simp [St.itemAt]
    · intro u h1 _ j hj
      simp [setAt] at h1
      subst h1
      have hj : s.itemAt i = some j := hj
      rw [hj, detailed_of]
      simp [h.cur]
    · intro u h1 h0
      exact absurd h0 hne
  | back k hk' o h => exact listKept_none C (by simp [closed, setAt]) (by simp [closed, setAt]) (by simp)
  | reveal i v vh h hv hh hi hl =>
    have hne : s.items ≠ [] := by intro h0; rw [h0] at hl; simp at hl
    refine ⟨fun _ => hk.from_ (listed_views h.toListed), ?_, ?_, ?_, ?_, ?_, ?_, fun _ => hne⟩
    · intro u h1 h0
      simp [setAt] at h1
      exact hk.row u h1 h0
    · intro u h1 h0
      simp [setAt] at h1
      exact hk.lines u h1 h0
    · intro u h1 h0
      exact absurd h0 hne
    · intro _ _
      simp [St.itemAt, hi]
    · intro u h1 _ j hj
      simp [setAt] at h1
      subst h1
      have hj : s.itemAt i = some j := hj
      rw [hj, detailed_of]
      simp
    · intro u h1 h0
      exact absurd h0 hne
  | lockItems o vm vh h hm hh => exact listKept_none C (by simp [lockedSt, closed, setAt]) (by simp [lockedSt, closed, setAt]) (by simp [lockedSt])
  | scroll k hk' v x y h hv =>
    refine ⟨fun _ => hk.from_ (listed_views h.toListed), ?_, ?_, ?_, ?_, ?_, ?_, hk.focus⟩
    · intro u h1 h0
      simp [setAt] at h1
      exact hk.row u h1 h0
    · intro u h1 h0
      simp [setAt] at h1
      exact hk.lines u h1 h0
    · intro u h1 h0
      simp [setAt] at h1
      exact hk.none_ u h1 h0
    · intro _ h0
      exact hk.item (listed_views h.toListed) h0
    · intro u h1 h0 j hj
      simp [setAt] at h1
      subst h1
      exact hk.details v hv h0 j hj
    · intro u h1 h0
      simp [setAt] at h1
      subst h1
      exact hk.blank v hv h0
  | cover v vh h hv hh =>
    refine ⟨fun _ => hk.from_ (listed_views h.toListed), ?_, ?_, ?_, ?_, ?_, ?_, fun h => by simp at h⟩
    · intro u h1 h0
      simp [setAt] at h1
      exact hk.row u h1 h0
    · intro u h1 h0
      simp [setAt] at h1
      exact hk.lines u h1 h0
    · intro u h1 h0
      simp [setAt] at h1
      exact hk.none_ u h1 h0
    · intro _ h0
      exact hk.item (listed_views h.toListed) h0
    · intro u h1 h0 j hj
      simp [setAt] at h1
      subst h1
      have hj : s.item = some j := hj
      rw [hj, detailed_of]
      simp
    · intro u h1 h0
      exact absurd h0 (hk.focus h.cur)
  | flush x y vv vh vm hx hy hv hh hm =>
    have hd : placed s.views x y vv vh vm .details = s.views .details := by simp [placed, setAt]
    have hi : placed s.views x y vv vh vm .items = s.views .items := by simp [placed, setAt]
    refine ⟨?_, ?_, ?_, ?_, ?_, ?_, ?_, hk.focus⟩
    · intro h1
      refine hk.from_ (fun h => h1 ?_)
      simp only [hi, h]
      rfl
    · intro v h1 h0
      simp only [hi, Option.map_eq_some_iff] at h1
      obtain ⟨u, h1, rfl⟩ := h1
      have := hk.row u h1 h0
      exact ⟨this.col, this.inside, this.row⟩
    · intro v h1 h0
      simp only [hi, Option.map_eq_some_iff] at h1
      obtain ⟨u, h1, rfl⟩ := h1
      exact hk.lines u h1 h0
    · intro v h1 h0
      simp only [hi, Option.map_eq_some_iff] at h1
      obtain ⟨u, h1, rfl⟩ := h1
      exact hk.none_ u h1 h0
    · intro h1 h0
      refine hk.item (fun h => h1 ?_) h0
      simp only [hi, h]
      rfl
    · intro v h1 h0
      simp only [hd, Option.map_eq_some_iff] at h1
      obtain ⟨u, h1, rfl⟩ := h1
      exact hk.details u h1 h0
    · intro v h1 h0
      simp only [hd, Option.map_eq_some_iff] at h1
      obtain ⟨u, h1, rfl⟩ := h1
      exact hk.blank u h1 h0
  | idle h => exact hk
  | checked v r w hp hv hr =>
    exact listKept_same C hk (by simp [checkedSt, setAt]) (by simp [checkedSt, setAt]) rfl rfl rfl (check_sess C hr).1 rfl
  | disk d => exact listKept_same C hk rfl rfl rfl rfl rfl rfl rfl

theorem Steps.listKept {s t : St} {es : List Event} (h : Steps C K s es t) (hk : ListKept C s) : ListKept C t := by
  induction h with
  | nil => exact hk
  | snoc _ hi ht ih => exact ht.listKept C K hi ih

theorem Live.listKept {vault : Bytes} {w : World} {x y : Nat} {es : List Event} {s : St} (h : Live C K vault w x y es s) :
    ListKept C s := (h.steps C K).2.2.listKept C K (listKept_none C rfl rfl (by simp [firstSt]))

theorem listed_of {s : St} (hI : Inv s) {v : View} (hv : s.views .items = some v) : Listed s := by
  cases hI.screen with
  | prompt h => rw [h.items] at hv; cases hv
  | error h => rw [h.items] at hv; cases hv
  | menu h => rw [h.items] at hv; cases hv
  | items h => exact h.toListed
  | details h => exact h.toListed

theorem listed_of_details {s : St} (hI : Inv s) {v : View} (hv : s.views .details = some v) : Listed s := by
  cases hI.screen with
  | prompt h => rw [h.details] at hv; cases hv
  | error h => rw [h.details] at hv; cases hv
  | menu h => rw [h.details] at hv; cases hv
  | items h => exact h.toListed
  | details h => exact h.toListed

theorem selected_row {s : St} (h : Listed s) (hne : s.items ≠ []) : ∃ r, s.items[s.itemIdx.toNat]? = some r := by
  rcases h.row with h | ⟨h1, h2⟩
  · exact absurd h.2 hne
  · exact ⟨_, List.getElem?_eq_getElem (by omega)⟩

/-- C69, item list: whatever the keys and the sizes of the terminal, the cursor is inside the list and on the row of the
selected item, if no title of the list contains a line break. -/
theorem C69_items_partial (vault : Bytes) (w : World) (x y : Nat) (es : List Event) (s : St) (h : Live C K vault w x y es s)
    (v : View) (hv : s.views .items = some v) (hne : s.items ≠ []) :
    ∃ r, s.items[s.itemIdx.toNat]? = some r ∧ v.oy + v.cy = s.itemIdx.toNat ∧ v.cx = 0 ∧
      (v.cy = 0 ∨ ((v.cy : Int) < v.height ∧ 0 < v.width)) ∧
      ((∀ i ∈ s.items, OneLine i.title) → v.lines[v.oy + v.cy]? = some (shownTitle r.title)) := by
  have hk := h.listKept C K
  have ha := hk.row v hv hne
  obtain ⟨r, hr⟩ := selected_row (listed_of (h.inv C K) hv) hne
  refine ⟨r, hr, ha.row, ha.col, ha.inside, fun hone => ?_⟩
  have hlt := (List.getElem?_eq_some_iff.1 hr).1
  rw [hk.lines v hv hne hone, ha.row, List.getElem?_append_left (by simpa using hlt), List.getElem?_map, hr]
  rfl

/-- C85: the details pane shows the selected item and nothing else; without a selected item it is blank. -/
theorem C85_details (vault : Bytes) (w : World) (x y : Nat) (es : List Event) (s : St) (h : Live C K vault w x y es s)
    (v : View) (hv : s.views .details = some v) :
    (s.items = [] ∧ v.lines = []) ∨
    ∃ r i, s.items[s.itemIdx.toNat]? = some r ∧ i ∈ held s.world.sess ∧ summary i = r ∧
      v.lines = textLines (detailsHead C.env i ++ detailsBody (decide (s.cur ≠ some (.live .details))) i) := by
  have hk := h.listKept C K
  by_cases hne : s.items = []
  · exact .inl ⟨hne, hk.blank v hv hne⟩
  · right
    have hl := listed_of_details (h.inv C K) hv
    obtain ⟨r, hr⟩ := selected_row hl hne
    obtain ⟨c, t, hfrom⟩ := hk.from_ (listed_views hl)
    have hmem : r ∈ s.world.sess.getItems C.env.text C.sorter c [] t := by
      rw [← hfrom]
      exact List.mem_of_getElem? hr
    obtain ⟨i, hi, hw, hs⟩ := (C32_listed_iff C.env.text C.sorter s.world.sess c [] t r).1 hmem
    have hget : s.world.sess.getItem r.uid r.trashed = some i := by
      rw [C34_lookup C.env _ (h.session C K)]
      subst hs
      exact ⟨hi, rfl, rfl⟩
    refine ⟨r, i, hr, hi, hs.symm, hk.details v hv hne i ?_⟩
    rw [hk.item (listed_views hl) hne, St.itemAt, hr]
    exact hget

/-! ### The menu -/

/-- The menu: its cursor, and its size, which is that of the terminal. -/
structure Placed (s : St) : Prop where
  size : ∀ v, s.views .menu = some v → v.height = s.maxY - 8 ∧ v.width = s.maxX - 2
  row : ∀ v, s.views .menu = some v → Aligned v s.menuIdx.toNat

theorem down_size (v : View) : v.down.height = v.height ∧ v.down.width = v.width := by
  unfold View.down; split <;> exact ⟨rfl, rfl⟩
theorem up_size (v : View) : v.up.height = v.height ∧ v.up.width = v.width := by
  unfold View.up; split <;> exact ⟨rfl, rfl⟩
theorem home_size (v : View) : v.home.height = v.height ∧ v.home.width = v.width := by
  unfold View.home; split <;> exact ⟨rfl, rfl⟩

theorem placed_same {s t : St} (h : Placed s) (hv : t.views .menu = s.views .menu) (hx : t.maxX = s.maxX) (hy : t.maxY = s.maxY)
    (hi : t.menuIdx = s.menuIdx) : Placed t :=
  ⟨by rw [hv, hx, hy]; exact h.size, by rw [hv, hi]; exact h.row⟩

theorem Trans.placed {s t : St} {e : Event} (h : Trans C K s e t) (hp : Placed s)
    (hlock : e = .key .ctrlL → ∀ v, s.views .menu = some v → v.oy = 0)
    (hsize : ∀ a b, e = .flush a b → ∀ v, s.views .menu = some v → v.cy = 0 ∨ (v.cy + 8 < b ∧ 2 < a)) : Placed t := by
  cases h with
  | ignored k hk' => exact hp
  | typed k hk' v h hv => exact placed_same hp (by simp [setAt]) rfl rfl rfl
  | refused v e sess h hv hu => exact placed_same hp (by simp [setAt]) rfl rfl rfl
  | accepted v vm sess h hv hm hu =>
    refine ⟨fun u hu' => ?_, fun u hu' => ?_⟩
    · simp [filled, setAt] at hu'
      subst hu'
      exact hp.size vm hm
    · simp [filled, setAt] at hu'
      subst hu'
      have ha := hp.row vm hm
      rw [h.idx] at ha
      have : (filled C K { triedSt s v sess with cur := some (.live .menu) } vm).menuIdx.toNat = (-1 : Int).toNat := by
        simp only [filled]
        split
        · rfl
        · show s.menuIdx.toNat = _
          rw [h.idx]
      rw [this]
      exact ⟨ha.col, ha.inside, ha.row⟩
  | closeError v h hv => exact placed_same hp (by simp [setAt]) rfl rfl rfl
  | menuDown k hk' i v h hv hi hl =>
    refine ⟨fun u hu => ?_, fun u hu => ?_⟩
    · simp [setAt] at hu
      subst hu
      rw [(down_size v).1, (down_size v).2]
      exact hp.size v hv
    · simp [setAt] at hu
      subst hu
      have ha := hp.row v hv
      rw [hi] at ha
      simpa using ha.down
  | menuUp k hk' i v h hv hi =>
    refine ⟨fun u hu => ?_, fun u hu => ?_⟩
    · simp [setAt] at hu
      subst hu
      rw [(up_size v).1, (up_size v).2]
      exact hp.size v hv
    · simp [setAt] at hu
      subst hu
      have ha := hp.row v hv
      rw [hi] at ha
      simpa using Aligned.up (n := i) (by simpa using ha)
  | openEntry k hk' vh l h hh hx hy hm hl => exact placed_same hp (by simp [openedSt, setAt]) rfl rfl rfl
  | lockMenu v vh h hv hh =>
    have ho := hlock rfl v hv
    refine ⟨fun u hu => ?_, fun u hu => ?_⟩
    · simp [lockedSt, setAt] at hu
      subst hu
      exact ⟨(home_size v).1.trans (hp.size v hv).1, (home_size v).2.trans (hp.size v hv).2⟩
    · simp [lockedSt, setAt] at hu
      subst hu
      exact (hp.row v hv).home ho
  | itemsDown k hk' i v vi h hv hvi hi hl => exact placed_same hp (by simp [setAt]) rfl rfl rfl
  | itemsUp k hk' i v vi h hv hvi hi hl => exact placed_same hp (by simp [setAt]) rfl rfl rfl
  | back k hk' o h => exact placed_same hp (by simp [closed, setAt]) rfl rfl rfl
  | reveal i v vh h hv hh hi hl => exact placed_same hp (by simp [setAt]) rfl rfl rfl
  | lockItems o vm vh h hm hh =>
    have ho := hlock rfl vm hm
    refine ⟨fun u hu => ?_, fun u hu => ?_⟩
    · simp [lockedSt, setAt] at hu
      subst hu
      exact ⟨(home_size vm).1.trans (hp.size vm hm).1, (home_size vm).2.trans (hp.size vm hm).2⟩
    · simp [lockedSt, setAt] at hu
      subst hu
      exact (hp.row vm hm).home ho
  | scroll k hk' v x y h hv => exact placed_same hp (by simp [setAt]) rfl rfl rfl
  | cover v vh h hv hh => exact placed_same hp (by simp [setAt]) rfl rfl rfl
  | flush a b vv vh vm hx hy hv hh hm =>
    have hs := hsize a b rfl vm hm
    have ha := hp.row vm hm
    refine ⟨fun u hu => ?_, fun u hu => ?_⟩
    · simp [Gui.placed, setAt] at hu
      subst hu
      simp only [View.draw, moved, View.height, View.width]
      omega
    · simp [Gui.placed, setAt] at hu
      subst hu
      refine ⟨ha.col, ?_, ha.row⟩
      simp only [View.draw, moved, View.height, View.width]
      omega
  | idle h => exact hp
  | checked v r w hp' hv hr => exact placed_same hp (by simp [checkedSt, setAt]) rfl rfl rfl
  | disk d => exact placed_same hp rfl rfl rfl rfl

theorem first_placed (vault : Bytes) (w : World) (x y : Nat) : Placed (firstSt vault w x y) := by
  refine ⟨fun v hv => ?_, fun v hv => ?_⟩
  · simp [firstSt] at hv
    subst hv
    simp only [View.draw, View.new, View.height, View.width, firstSt]
    omega
  · simp [firstSt] at hv
    subst hv
    exact ⟨rfl, .inl rfl, rfl⟩

theorem bind_split {α : Type} {m : Act α} {f : α → Act Unit} {s t : St} (h : (m >>= f) s = (.ok (), t)) :
    ∃ a u, m s = (.ok a, u) ∧ f a u = (.ok (), t) := by
  cases hm : m s with
  | mk r u =>
    cases r with
    | ok a => rw [bind_ok hm] at h; exact ⟨a, u, rfl, h⟩
    | err e => rw [bind_err hm] at h; cases h
    | panic => rw [bind_panic hm] at h; cases h
    | fatal => rw [bind_fatal hm] at h; cases h

theorem run_split (a b : List Event) {s t : St} (h : run C K (a ++ b) s = (.ok (), t)) :
    ∃ u, run C K a s = (.ok (), u) ∧ run C K b u = (.ok (), t) := by
  induction a generalizing s with
  | nil => exact ⟨s, rfl, h⟩
  | cons e a ih =>
    rw [List.cons_append, run_cons] at h
    obtain ⟨_, u, h1, h2⟩ := bind_split h
    obtain ⟨u', h3, h4⟩ := ih h2
    exact ⟨u', by rw [run_cons, bind_ok h1]; exact h3, h4⟩

theorem Live.snoc {vault : Bytes} {w : World} {x y : Nat} {es : List Event} {e : Event} {t : St}
    (h : Live C K vault w x y (es ++ [e]) t) : ∃ s, Live C K vault w x y es s ∧ step C K e s = (.ok (), t) := by
  obtain ⟨h1, h2, h3⟩ := h
  rw [← List.cons_append] at h3
  obtain ⟨u, h4, h5⟩ := run_split C K _ _ h3
  refine ⟨u, ⟨h1, h2, h4⟩, ?_⟩
  rw [run_cons] at h5
  obtain ⟨_, u', h6, h7⟩ := bind_split h5
  cases h7
  exact h6

/-- Nothing that confuses the menu: it is not locked while scrolled, and the terminal is not made smaller than where the
cursor is. -/
def Careful (vault : Bytes) (w : World) (x y : Nat) (es : List Event) : Prop :=
  ∀ (before after : List Event) (e : Event), es = before ++ e :: after → ∀ s v, Live C K vault w x y before s →
    s.views .menu = some v →
      (e = .key .ctrlL → v.oy = 0) ∧ (∀ a b, e = .flush a b → v.cy = 0 ∨ (v.cy + 8 < b ∧ 2 < a))

theorem Careful.prefix {vault : Bytes} {w : World} {x y : Nat} {es more : List Event}
    (h : Careful C K vault w x y (es ++ more)) : Careful C K vault w x y es := by
  intro before after e he
  exact h before (after ++ more) e (by rw [he]; simp)

theorem Live.placed {vault : Bytes} {w : World} {x y : Nat} {es : List Event} {s : St} (h : Live C K vault w x y es s)
    (hc : Careful C K vault w x y es) : Placed s := by
  induction es using List.reverseRecOn generalizing s with
  | nil =>
    obtain ⟨_, _, h3⟩ := h.steps C K
    generalize hn : ([] : List Event) = l at h3
    cases h3 with
    | nil => exact first_placed vault w x y
    | snoc => simp at hn
  | append_singleton es e ih =>
    obtain ⟨u, h1, h2⟩ := h.snoc C K
    obtain ⟨ht, -⟩ := inv_step C K (h1.inv C K) h2
    have hcc := hc es [] e rfl u
    exact ht.placed C K (ih h1 hc.prefix) (fun he v hv => (hcc v h1 hv).1 he) (fun a b he v hv => (hcc v h1 hv).2 a b he)

/-- C69, menu: the cursor is inside the menu and on the line of the selected entry, if the menu is never locked while it is
scrolled and the terminal never made too small for the line the cursor is on. -/
theorem C69_menu_partial (vault : Bytes) (w : World) (x y : Nat) (es : List Event) (s : St) (h : Live C K vault w x y es s)
    (hc : Careful C K vault w x y es) (m : List Entry) (e : Entry) (hu : s.world.sess.isUnlocked = true)
    (hm : IsMenu (held s.world.sess) m) (he : Selected s m e) :
    ∃ v line, s.views .menu = some v ∧ v.cx = 0 ∧ (v.cy = 0 ∨ ((v.cy : Int) < v.height ∧ 0 < v.width)) ∧
      v.oy + v.cy = s.menuIdx.toNat ∧ v.lines[v.oy + v.cy]? = some line ∧ Padded (e.text (held s.world.sess)) line := by
  have hp := h.placed C K hc
  have hr := h.session C K
  have hk := h.menuKept C K
  obtain ⟨v, X, h1, h2⟩ := hk.lines hu
  have ha := hp.row v h1
  rw [menu_lines K hr X, ← menuOf_of hr (hk.order hu) (.refl _) hm] at h2
  have hlt := (List.getElem?_eq_some_iff.1 he.2).1
  refine ⟨v, K.center (e.text (held s.world.sess)) (X - 1), h1, ha.col, ha.inside, ha.row, ?_, ?_⟩
  · rw [h2, ha.row, List.getElem?_append_left (by simpa [drawn] using hlt), drawn, List.getElem?_map, he.2]
    rfl
  · refine (center_ok K (menuOf_known hr e ?_) _ _).1
    rw [← menuOf_of hr (hk.order hu) (.refl _) hm]
    exact List.mem_of_getElem? he.2

/-- C69 for a terminal whose size does not change: the condition about locking is enough. -/
theorem C69_same_size (vault : Bytes) (w : World) (x y : Nat) (es : List Event)
    (hsame : ∀ a b, .flush a b ∈ es → a = x ∧ b = y)
    (hlock : ∀ before after, es = before ++ .key .ctrlL :: after → ∀ s v, Live C K vault w x y before s → s.views .menu = some v →
      v.oy = 0) :
    ∀ s, Live C K vault w x y es s → Careful C K vault w x y es := by
  have sizes : ∀ (es : List Event), (∀ a b, .flush a b ∈ es → a = x ∧ b = y) → ∀ s, Live C K vault w x y es s →
      s.maxX = x ∧ s.maxY = y := by
    intro es
    induction es using List.reverseRecOn with
    | nil =>
      intro _ s h
      obtain ⟨_, _, h3⟩ := h.steps C K
      generalize hn : ([] : List Event) = l at h3
      cases h3 with
      | nil => exact ⟨rfl, rfl⟩
      | snoc => simp at hn
    | append_singleton es e ih =>
      intro hs s h
      obtain ⟨u, h1, h2⟩ := h.snoc C K
      obtain ⟨ht, -⟩ := inv_step C K (h1.inv C K) h2
      have := ih (fun a b hab => hs a b (by simp [hab])) u h1
      cases ht with
      | flush a b => 
        obtain ⟨rfl, rfl⟩ := hs a b (by simp)
        exact ⟨rfl, rfl⟩
      | _ => exact this
  intro s h
  induction es using List.reverseRecOn generalizing s with
  | nil =>
    intro before after e he
    simp at he
  | append_singleton es e ih =>
    obtain ⟨u, h1, h2⟩ := h.snoc C K
    have hpre := ih (fun a b hab => hsame a b (by simp [hab]))
      (fun before after he => hlock before (after ++ [e]) (by rw [he]; simp)) u h1
    intro before after e' he s' v hl hv
    rcases List.eq_nil_or_concat after with rfl | ⟨after, e'', rfl⟩
    · obtain ⟨rfl, he'⟩ := List.append_inj' he rfl
      cases he'
      refine ⟨fun hk => ?_, fun a b hf => ?_⟩
      · subst hk
        exact hlock es [] rfl s' v hl hv
      · subst hf
        obtain ⟨rfl, rfl⟩ := hsame a b (by simp)
        have hp := hl.placed C K hpre
        have hz := sizes es (fun a b hab => hsame a b (by simp [hab])) s' hl
        have h3 := (hp.row v hv).inside
        have h4 := hp.size v hv
        rw [hz.1, hz.2] at h4
        omega
    · have he2 : es = before ++ e' :: after := by
        have : es ++ [e] = (before ++ e' :: after) ++ [e''] := by rw [he]; simp
        exact (List.append_inj' this rfl).1
      exact hpre before after e' he2 s' v hl hv

theorem menu_length {E : Env} {sess : Session} (hr : Session.Reachable E sess) : (menuCats sess).length ≤ 20 := by
  have h1 : (usedCats sess).length ≤ 18 := by
    refine (List.length_filter_le _ _).trans ?_
    rw [hr.inv.reg.length_eq]
    decide
  rw [menuCats_eq, List.length_map, menuOf]
  split <;> split <;> simp <;> omega

theorem menuIdx_small {s : St} (hI : Inv s) {E : Env} (hr : Session.Reachable E s.world.sess) : s.menuIdx.toNat < 20 := by
  have open_ : Opened s → s.menuIdx.toNat < 20 := by
    intro h
    have := menu_length hr
    rw [← h.cats] at this
    rcases h.idx with ⟨h1, _⟩ | ⟨h1, h2⟩
    · rw [h1]; decide
    · omega
  cases hI.screen with
  | prompt h => rw [h.idx]; decide
  | error h => rw [h.idx]; decide
  | menu h => exact open_ h.toOpened
  | items h => exact open_ h.toOpened
  | details h => exact open_ h.toOpened

theorem Trans.unscrolled {s t : St} {e : Event} (h : Trans C K s e t) (hp : Placed s) (hx : 3 ≤ s.maxX) (hy : 28 ≤ s.maxY)
    (hlen : s.cats.length ≤ 20) (ho : ∀ v, s.views .menu = some v → v.oy = 0) : ∀ v, t.views .menu = some v → v.oy = 0 := by
  intro u hu
  cases h with
  | menuDown k hk' i v h hv hi hl =>
    simp [setAt] at hu
    subst hu
    have h1 := hp.size v hv
    have h2 := hp.row v hv
    have h3 := ho v hv
    have h4 : v.fits v.cx (v.cy + 1) = true := by
      have := h2.row
      rw [hi] at this
      simp only [View.fits, decide_eq_true_eq, h2.col]
      simp only [Int.toNat_natCast] at this
      omega
    rw [View.down, if_pos h4]
    exact h3
  | menuUp k hk' i v h hv hi =>
    simp [setAt] at hu
    subst hu
    have h3 := ho v hv
    unfold View.up
    split
    · exact h3
    · show v.oy - 1 = 0
      omega
  | accepted v vm sess h hv hm hu' =>
    simp [filled, setAt] at hu
    subst hu
    exact ho vm hm
  | lockMenu v vh h hv hh =>
    simp [lockedSt, setAt] at hu
    subst hu
    have h3 := ho v hv
    unfold View.home
    split
    · exact h3
    · rfl
  | lockItems o vm vh h hm hh =>
    simp [lockedSt, setAt] at hu
    subst hu
    have h3 := ho vm hm
    unfold View.home
    split
    · exact h3
    · rfl
  | flush a b vv vh vm hx hy hv hh hm =>
    simp [Gui.placed, setAt] at hu
    subst hu
    exact ho vm hm
  | ignored k hk' => exact ho u hu
  | typed k hk' v h hv => exact ho u (by simpa [setAt] using hu)
  | refused v e sess h hv hu' => exact ho u (by simpa [setAt] using hu)
  | closeError v h hv => exact ho u (by simpa [setAt] using hu)
  | openEntry k hk' vh l h hh hx hy hm hl => exact ho u (by simpa [openedSt, setAt] using hu)
  | itemsDown k hk' i v vi h hv hvi hi hl => exact ho u (by simpa [setAt] using hu)
  | itemsUp k hk' i v vi h hv hvi hi hl => exact ho u (by simpa [setAt] using hu)
  | back k hk' o h => exact ho u (by simpa [closed, setAt] using hu)
  | reveal i v vh h hv hh hi hl => exact ho u (by simpa [setAt] using hu)
  | scroll k hk' v x y h hv => exact ho u (by simpa [setAt] using hu)
  | cover v vh h hv hh => exact ho u (by simpa [setAt] using hu)
  | idle h => exact ho u hu
  | checked v r w hp' hv hr => exact ho u (by simpa [checkedSt, setAt] using hu)
  | disk d => exact ho u hu

/-- C69 for a terminal that is always tall enough for the longest possible menu: no other condition is needed. -/
theorem C69_tall (vault : Bytes) (w : World) (x y : Nat) (es : List Event) (hx : 3 ≤ x) (hy : 28 ≤ y)
    (htall : ∀ a b, .flush a b ∈ es → 3 ≤ a ∧ 28 ≤ b) (s : St) (h : Live C K vault w x y es s) :
    Careful C K vault w x y es := by
  suffices hs : Careful C K vault w x y es ∧ (∀ v, s.views .menu = some v → v.oy = 0) ∧ 3 ≤ s.maxX ∧ 28 ≤ s.maxY from hs.1
  induction es using List.reverseRecOn generalizing s with
  | nil =>
    refine ⟨fun before after e he => by simp at he, ?_⟩
    obtain ⟨_, _, h3⟩ := h.steps C K
    generalize hn : ([] : List Event) = l at h3
    cases h3 with
    | nil =>
      refine ⟨fun v hv => ?_, ?_, ?_⟩
      · simp [firstSt] at hv
        subst hv
        rfl
      · show (3 : Int) ≤ x
        omega
      · show (28 : Int) ≤ y
        omega
    | snoc => simp at hn
  | append_singleton es e ih =>
    obtain ⟨u, h1, h2⟩ := h.snoc C K
    obtain ⟨ht, -⟩ := inv_step C K (h1.inv C K) h2
    obtain ⟨i1, i2, i3, i4⟩ := ih (fun a b hab => htall a b (by simp [hab])) u h1
    have hp := h1.placed C K i1
    have hlen : u.cats.length ≤ 20 := by
      have hr := h1.session C K
      have hc : ∀ {s : St}, Closed s → s.cats.length ≤ 20 := fun h => by rw [h.cats]; simp
      cases (h1.inv C K).screen with
      | prompt h => exact hc h.toClosed
      | error h => exact hc h.toClosed
      | menu h => rw [h.cats]; exact menu_length hr
      | items h => rw [h.toOpened.cats]; exact menu_length hr
      | details h => rw [h.toOpened.cats]; exact menu_length hr
    refine ⟨?_, ht.unscrolled C K hp i3 i4 hlen i2, ?_⟩
    · intro before after e' he s' v hl hv
      rcases List.eq_nil_or_concat after with rfl | ⟨after, e'', rfl⟩
      · obtain ⟨rfl, he'⟩ := List.append_inj' he rfl
        cases he'
        have hss : s' = u := by
          have := hl.goes.symm.trans h1.goes
          cases this
          rfl
        subst hss
        refine ⟨fun _ => i2 v hv, fun a b hf => ?_⟩
        subst hf
        obtain ⟨ha, hb⟩ := htall a b (by simp)
        have h3 := (hp.row v hv).row
        have h4 := menuIdx_small (hl.inv C K) (hl.session C K)
        omega
      · have he2 : es = before ++ e' :: after := by
          have : es ++ [e] = (before ++ e' :: after) ++ [e''] := by rw [he]; simp
          exact (List.append_inj' this rfl).1
        exact i1 before after e' he2 s' v hl hv
    · cases ht with
      | flush a b =>
        obtain ⟨ha, hb⟩ := htall a b (by simp)
        refine ⟨?_, ?_⟩
        · show (3 : Int) ≤ a
          omega
        · show (28 : Int) ≤ b
          omega
      | _ => exact ⟨i3, i4⟩

namespace Demo

/-- Typing the password on a terminal with ten lines. -/
def low : List Event := keys OnePass.Demo.pa ++ [.flush 80 10, .key .enter, .flush 80 10]

/-- Down to the last entry, lock, unlock. -/
def relocked : List Event := low ++ [.key .down, .key .down, .key .down, .key .ctrlL, .flush 80 10] ++ low

/-- Down to the last entry, smaller window, up. -/
def shrunk : List Event := opening ++ [.key .down, .key .down, .key .down, .flush 80 10, .key .up]

/-- An item whose title has two lines, and one below it. -/
def twoLines : Disk :=
  diskOf [(b!"N", Cli.Demo.stored b!"001" [65, 10, 66] b!"1234" [] false), (b!"M", Cli.Demo.stored b!"001" b!"Mail" b!"1234" [] false)]

def pick (n : Name) (r : Res Unit × St) : Option (Nat × Nat × Option Bytes) :=
  (r.2.views n).map (fun v => (v.oy, v.cy, v.lines[v.oy + v.cy]?))

set_option maxRecDepth 20000 in
/-- C69: in the menu with and without scrolling, in the list. -/
example : pick .menu (go (disk b!"1234" b!"memo") (opening ++ [.key .down, .key .down])) = some (0, 2, some b!"Credit Card (1)") ∧
    pick .menu (goOn 80 10 (disk b!"1234" b!"memo") (low ++ [.key .down, .key .down])) = some (1, 1, some b!"Credit Card (1)") ∧
    pick .items (go (disk b!"1234" b!"memo") (opening ++ [.key .enter, .key .down])) = some (0, 1, some b!"Card") := by
  decide +kernel

set_option maxRecDepth 20000 in
/-- After locking the scrolled menu and opening it again, All is selected and the cursor is on Credit Card; after making
the window smaller and going up, Credit Card is selected and the cursor is on Trashed; with a title of two lines, Mail is
selected and the cursor is on the second line of the title above it. -/
example : pick .menu (goOn 80 10 (disk b!"1234" b!"memo") relocked) = some (2, 0, some b!"Credit Card (1)") ∧
    pick .menu (go (disk b!"1234" b!"memo") shrunk) = some (0, 3, some b!"Trashed (1)") ∧
    pick .items (go twoLines (opening ++ [.key .enter, .key .down])) = some (0, 1, some b!"B") := by decide +kernel

set_option maxRecDepth 20000 in
/-- C85: the second item of the list, covered. -/
example : text .details (go (disk b!"1234" b!"memo") (opening ++ [.key .enter, .key .down, .flush 80 24])) =
    some [b!"Credit Card", b!"------------------------------", b!"Card", [], b!"Updated: 1970-01-01 00:00:06",
      b!"Created: 1970-01-01 00:00:05", b!"Trashed: false", [], b!"------------------------------", b!"Pin: **********", [], []] := by
  decide +kernel

end Demo

/-- Locking leaves a scrolled menu scrolled. -/
theorem C69_lock_scrolled (vault : Bytes) (w : World) (x y : Nat) (es : List Event) (s t : St) (h : Live C K vault w x y es s)
    (hu : s.world.sess.isUnlocked = true) (hs : step C K (.key .ctrlL) s = (.ok (), t)) (v : View) (hv : s.views .menu = some v)
    (hf : v.fits v.cx 0 = true) : ∃ v', t.views .menu = some v' ∧ v'.oy = v.oy ∧ v'.cy = 0 ∧ t.menuIdx = -1 := by
  obtain ⟨ht, -⟩ := inv_step C K (h.inv C K) hs
  generalize he : Event.key .ctrlL = e at ht
  have home : v.home.clear.oy = v.oy ∧ v.home.clear.cy = 0 := by
    rw [View.home, if_pos hf]
    exact ⟨rfl, rfl⟩
  cases ht with
  | lockMenu v2 vh ha hv2 hh =>
    rw [hv] at hv2
    cases hv2
    exact ⟨v.home.clear, by simp [lockedSt, setAt], home.1, home.2, rfl⟩
  | lockItems o vm vh ha hm hh =>
    rw [hv] at hm
    cases hm
    exact ⟨v.home.clear, by simp [lockedSt, setAt], home.1, home.2, rfl⟩
  | ignored k hid =>
    cases he
    obtain ⟨_, ⟨hc, _⟩ | ⟨_, h', _⟩ | ⟨_, h', _⟩ | ⟨_, h', _⟩⟩ := hid
    · have := (atError_of (h.inv C K) hc).locked
      rw [this] at hu
      cases hu
    · exact absurd rfl h'
    · exact absurd rfl h'
    · exact absurd rfl h'
  | typed k hk v h hv => rw [h.locked] at hu; cases hu
  | scroll k hk v x y ha hv => cases he; exact absurd rfl hk.2
  | menuDown k hk => cases he; simp [isChar_iff] at hk
  | menuUp k hk => cases he; simp [isChar_iff] at hk
  | openEntry k hk => cases he; simp [isChar_iff] at hk
  | itemsDown k hk => cases he; simp [isChar_iff] at hk
  | itemsUp k hk => cases he; simp [isChar_iff] at hk
  | back k hk => cases he; simp [isChar_iff] at hk
  | _ => cases he

set_option maxRecDepth 20000 in
/-- C69 is false for the menu. -/
theorem C69_refuted : ¬ ∀ (C : Ctx) (K : Kit) (vault : Bytes) (w : World) (x y : Nat) (es : List Event) (s : St) (v : View),
    Live C K vault w x y es s → s.cur = some (.live .menu) → s.views .menu = some v → v.oy + v.cy = s.menuIdx.toNat := by
  intro h
  have hl := Demo.live (x := 80) (y := 10) (d := Demo.disk b!"1234" b!"memo") (es := Demo.relocked) (by decide +kernel)
  generalize hs : (Demo.goOn 80 10 (Demo.disk b!"1234" b!"memo") Demo.relocked).2 = s at hl
  have h1 : s.cur = some (.live .menu) ∧ s.menuIdx = 0 ∧ (s.views .menu).map (fun v => v.oy + v.cy) = some 2 := by
    rw [← hs]; decide +kernel
  obtain ⟨h1, h2, h3⟩ := h1
  rw [Option.map_eq_some_iff] at h3
  obtain ⟨v, h4, h5⟩ := h3
  have := h _ _ _ _ _ _ _ s v hl h1 h4
  rw [h5, h2] at this
  cases this

set_option maxRecDepth 20000 in
/-- C69 is false for the menu even if it is never locked. -/
theorem C69_resize_refuted : ¬ ∀ (C : Ctx) (K : Kit) (vault : Bytes) (w : World) (x y : Nat) (es : List Event) (s : St) (v : View),
    Live C K vault w x y es s → .key .ctrlL ∉ es → s.cur = some (.live .menu) → s.views .menu = some v →
      v.oy + v.cy = s.menuIdx.toNat := by
  intro h
  have hl := Demo.live (x := 80) (y := 24) (d := Demo.disk b!"1234" b!"memo") (es := Demo.shrunk) (by decide +kernel)
  generalize hs : (Demo.goOn 80 24 (Demo.disk b!"1234" b!"memo") Demo.shrunk).2 = s at hl
  have h1 : s.cur = some (.live .menu) ∧ s.menuIdx = 2 ∧ (s.views .menu).map (fun v => v.oy + v.cy) = some 3 := by
    rw [← hs]; decide +kernel
  obtain ⟨h1, h2, h3⟩ := h1
  rw [Option.map_eq_some_iff] at h3
  obtain ⟨v, h4, h5⟩ := h3
  have := h _ _ _ _ _ _ _ s v hl (by intro hm; simp [Demo.shrunk, Demo.opening, Demo.keys] at hm) h1 h4
  rw [h5, h2] at this
  simp at this

set_option maxRecDepth 20000 in
/-- C69 is false for the item list when a title has two lines. -/
theorem C69_title_refuted : ¬ ∀ (C : Ctx) (K : Kit) (vault : Bytes) (w : World) (x y : Nat) (es : List Event) (s : St) (v : View)
    (r : SimpleItem), Live C K vault w x y es s → s.views .items = some v → s.items[s.itemIdx.toNat]? = some r →
      v.lines[v.oy + v.cy]? = some (shownTitle r.title) := by
  intro h
  have hl := Demo.live (x := 80) (y := 24) (d := Demo.twoLines) (es := Demo.opening ++ [.key .enter, .key .down])
    (by decide +kernel)
  generalize hs : (Demo.goOn 80 24 Demo.twoLines (Demo.opening ++ [.key .enter, .key .down])).2 = s at hl
  have h1 : (s.items[s.itemIdx.toNat]?).map (fun r => shownTitle r.title) = some b!"Mail" ∧
      (s.views .items).map (fun v => v.lines[v.oy + v.cy]?) = some (some b!"B") := by
    rw [← hs]; decide +kernel
  obtain ⟨h1, h2⟩ := h1
  rw [Option.map_eq_some_iff] at h1 h2
  obtain ⟨r, h3, h4⟩ := h1
  obtain ⟨v, h5, h6⟩ := h2
  have := h _ _ _ _ _ _ _ s v r hl h5 h3
  rw [h6, h4] at this
  revert this
  decide +kernel

end Gui
end OnePass
