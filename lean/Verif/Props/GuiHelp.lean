/-
The GUI's help line (C100), and what stays in memory after locking (C99).
-/
import Verif.Props.GuiCursor

set_option linter.unusedSimpArgs false

namespace OnePass
namespace Gui
open Act

variable (C : Ctx) (K : Kit)

/-! ### C99 -/

/-- C99. What the session held is gone after CTRL+L, nothing of it is on the screen, and what the details pane shows later is
held by the session then. (The widgets keep their items, see `C99_refuted`.) -/
theorem C99_out_of_sight_partial (vault : Bytes) (w : World) (x y : Nat) (es : List Event) (s : St)
    (h : Live C K vault w x y es s)
    (hc : s.cur = some (.live .menu) ∨ s.cur = some (.live .items) ∨ s.cur = some (.live .details)) :
    ∃ t, step C K (.key .ctrlL) s = (.ok (), t) ∧ t.world.sess.items = none ∧ t.world.sess.isUnlocked = false ∧
      t.views .items = none ∧ t.views .details = none ∧
      (∀ v, t.views .menu = some v → v.lines = [] ∧ v.shown = []) ∧
      ∀ es' u v, Live C K vault w x y (es ++ .key .ctrlL :: es') u → u.views .details = some v → v.lines ≠ [] →
        ∃ i ∈ held u.world.sess,
          v.lines = textLines (detailsHead C.env i ++ detailsBody (decide (u.cur ≠ some (.live .details))) i) := by
  obtain ⟨t, h1, -, h3, h4, -⟩ := C71_lock C K vault w x y es s h hc
  have ht : Live C K vault w x y (es ++ [.key .ctrlL]) t := by
    refine ⟨h.locked, h.reach, ?_⟩
    rw [← List.cons_append, run_append C K _ _ _ h.goes]
    rw [run, bind_ok h1]
    rfl
  obtain ⟨-, h5, h6, h7, -⟩ := C72_nothing_shown C K vault w x y _ t ht h3
  refine ⟨t, h1, h4, h3, h5, h6, h7, fun es' u v hu hv hne => ?_⟩
  rcases C85_details C K vault w x y _ u hu v hv with h8 | ⟨r, i, -, h8, -, h9⟩
  · exact absurd h8.2 hne
  · exact ⟨i, h8, h9⟩

/-- Unlocking, opening the first entry, revealing its first item, locking. -/
def Demo.locked : List Event :=
  Demo.opening ++ [.key .enter, .key .tab, .flush 80 24, .key .ctrlL, .flush 80 24]

set_option maxRecDepth 20000 in
/-- C99 is false: locked, the session holds nothing, but the details widget still holds the revealed item with its secrets, and
the item widget its list. -/
theorem C99_refuted : ∃ (C : Ctx) (K : Kit) (vault : Bytes) (w : World) (x y : Nat) (es : List Event) (s : St) (i : Item),
    Live C K vault w x y es s ∧ s.world.sess.isUnlocked = false ∧ s.world.sess.items = none ∧
      s.item = some i ∧ i.sections = some [⟨[], some [⟨b!"Pin", b!"1234"⟩]⟩] ∧ i.notes = b!"memo" ∧ s.items.map (·.title) = [b!"Mail", b!"Card"] := by
  have hl := Demo.live (x := 80) (y := 24) (d := Demo.disk b!"1234" b!"memo") (es := Demo.locked) (by decide +kernel)
  generalize hs : (Demo.goOn 80 24 (Demo.disk b!"1234" b!"memo") Demo.locked).2 = s at hl
  have h1 : s.world.sess.isUnlocked = false ∧ s.world.sess.items = none ∧
      s.item.map (fun i => (i.sections, i.notes)) = some (some [⟨[], some [⟨b!"Pin", b!"1234"⟩]⟩], b!"memo") ∧
      s.items.map (·.title) = [b!"Mail", b!"Card"] := by
    rw [← hs]; decide +kernel
  obtain ⟨h1, h2, h3, h4⟩ := h1
  rw [Option.map_eq_some_iff] at h3
  obtain ⟨i, h5, h6⟩ := h3
  simp only [Prod.mk.injEq] at h6
  exact ⟨_, _, _, _, _, _, _, s, i, hl, h1, h2, h5, h6.1, h6.2, h4⟩

/-! ### C100 -/

/-- The lines of the help pane. -/
def menuLine : Bytes :=
  b!"Exit: CTRL+Q\t\t\t\tLock: CTRL+L\t\t\t\tNavigate up/down: k/j\t\t\t\tOpen: ENTER"
def itemsLine : Bytes :=
  b!"Exit: CTRL+Q\t\t\t\tLock: CTRL+L\t\t\t\tNavigate up/down: k/j\t\t\t\tGo back: Q\t\t\t\tReveal item: TAB"
def detailsLine : Bytes :=
  b!"Exit: CTRL+Q\t\t\t\tLock: CTRL+L\t\t\t\tScroll up/down: k/j\t\t\t\tScroll left/right: h/l\t\t\t\tCover item: TAB"

/-- The help pane reads so. -/
def Helps (s : St) (line : Bytes) : Prop := ∃ v, s.views .help = some v ∧ v.lines = [line]

/-- The keys a line names. -/
def Named (line : Bytes) (k : Key) : Prop :=
  k = .ctrlQ ∨ k = .ctrlL ∨
  (line = menuLine ∧ (k.isChar 'k' ∨ k.isChar 'j' ∨ k = .enter)) ∨
  (line = itemsLine ∧ (k.isChar 'k' ∨ k.isChar 'j' ∨ k.isChar 'q' ∨ k = .tab)) ∨
  (line = detailsLine ∧ (k.isChar 'k' ∨ k.isChar 'j' ∨ k.isChar 'h' ∨ k.isChar 'l' ∨ k = .tab))

/-- The line, by the help that was last set. -/
theorem helped_line (v : View) :
    (helped v onepassHelp).lines = [menuLine] ∧ (helped v itemsHelp).lines = [itemsLine] ∧
    (helped v detailsHelp).lines = [detailsLine] := by
  refine ⟨?_, ?_, ?_⟩ <;> (show List.foldl _ [] _ = _; decide +kernel)

theorem draw_lines (v : View) : v.draw.lines = v.lines := rfl

/-- Which line there is in which pane. -/
structure HelpKept (s : St) : Prop where
  prompt : s.cur = some (.live .prompt) ∨ s.cur = some (.live .error) → Helps s menuLine
  menu : s.cur = some (.live .menu) → Helps s menuLine ∨ Helps s itemsLine
  items : s.cur = some (.live .items) → Helps s itemsLine
  details : s.cur = some (.live .details) → Helps s detailsLine

theorem Helps.of {s t : St} (h : t.views .help = s.views .help) {l : Bytes} (hs : Helps s l) : Helps t l := by
  obtain ⟨v, h1, h2⟩ := hs
  exact ⟨v, h.trans h1, h2⟩

theorem HelpKept.of {s t : St} (h : HelpKept s) (h1 : t.views .help = s.views .help) (h2 : t.cur = s.cur) : HelpKept t :=
  ⟨fun hc => (h.prompt (by rwa [← h2])).of h1, fun hc => (h.menu (by rwa [← h2])).imp (·.of h1) (·.of h1),
    fun hc => (h.items (by rwa [← h2])).of h1, fun hc => (h.details (by rwa [← h2])).of h1⟩

theorem Trans.helpKept {s t : St} {e : Event} (h : Trans C K s e t) (hk : HelpKept s) : HelpKept t := by
  cases h with
  | ignored k hi => exact hk
  | typed k hi v h hv => exact hk.of (by simp [setAt]) rfl
  | refused v e sess h hv hu =>
    exact ⟨fun _ => (hk.prompt (.inl h.cur)).of (by simp [setAt, triedSt]), by simp, by simp, by simp⟩
  | accepted v vm sess h hv hm hu =>
    exact ⟨by simp [filled], fun _ => .inl ((hk.prompt (.inl h.cur)).of (by simp [setAt, filled, triedSt])), by simp [filled], by simp [filled]⟩
  | closeError v h hv =>
    exact ⟨fun _ => (hk.prompt (.inr h.cur)).of (by simp [setAt]), by simp, by simp, by simp⟩
  | menuDown k hi i v h hv => exact hk.of (by simp [setAt]) rfl
  | menuUp k hi i v h hv => exact hk.of (by simp [setAt]) rfl
  | openEntry k hi vh l h hh =>
    exact ⟨by simp [openedSt], by simp [openedSt], fun _ => ⟨_, by simp [openedSt], (helped_line vh).2.1⟩, by simp [openedSt]⟩
  | lockMenu v vh h hv hh =>
    exact ⟨fun _ => ⟨_, by simp [lockedSt], (helped_line vh).1⟩, by simp [lockedSt], by simp [lockedSt], by simp [lockedSt]⟩
  | itemsDown k hi i v vi h hv hvi => exact hk.of (by simp [setAt]) rfl
  | itemsUp k hi i v vi h hv hvi => exact hk.of (by simp [setAt]) rfl
  | back k hi o h =>
    exact ⟨by simp, fun _ => .inr ((hk.items h.cur).of (by simp [closed, setAt])), by simp, by simp⟩
  | reveal i v vh h hv hh =>
    exact ⟨by simp, by simp, by simp, fun _ => ⟨_, by simp, (helped_line vh).2.2⟩⟩
  | lockItems o vm vh h hm hh =>
    exact ⟨fun _ => ⟨_, by simp [lockedSt], (helped_line vh).1⟩, by simp [lockedSt], by simp [lockedSt], by simp [lockedSt]⟩
  | scroll k hi v x y h hv => exact hk.of (by simp [setAt]) rfl
  | cover v vh h hv hh =>
    exact ⟨by simp, by simp, fun _ => ⟨_, by simp, (helped_line vh).2.1⟩, by simp⟩
  | flush x y vv vh vm hx hy hv hh hm =>
    have hd : ∀ l, Helps s l → Helps { s with
        maxX := x, maxY := y, views := fun n => (Gui.placed s.views x y vv vh vm n).map View.draw, typed := s.typed ++ [none] } l := by
      intro l ⟨u, h1, h2⟩
      rw [hh] at h1
      cases h1
      exact ⟨(moved vh 0 (y - 3) (x - 1) (y - 1)).draw, by simp [Gui.placed, setAt], h2⟩
    exact ⟨fun hc => hd _ (hk.prompt hc), fun hc => (hk.menu hc).imp (hd _) (hd _), fun hc => hd _ (hk.items hc),
      fun hc => hd _ (hk.details hc)⟩
  | idle h => exact hk
  | checked v r w hp hv hr => exact hk.of (by simp [checkedSt, setAt]) rfl
  | disk d => exact hk.of rfl rfl

theorem Live.helpKept {vault : Bytes} {w : World} {x y : Nat} {es : List Event} {s : St} (h : Live C K vault w x y es s) :
    HelpKept s := by
  have hs := (h.steps C K).2.2
  clear h
  induction hs with
  | nil => exact ⟨fun _ => ⟨(helped (View.new 0 (y - 3) (x - 1) (y - 1) helpAttr) onepassHelp).draw, rfl,
      (draw_lines _).trans (helped_line _).1⟩, by simp [firstSt], by simp [firstSt], by simp [firstSt]⟩
  | snoc _ _ ht ih => exact ht.helpKept C K ih

/-- C100. The help pane always reads as one of three lines, by the pane that has the focus: in the item list and in the details
pane the line is theirs and all keys it names are bound there; in the menu it is the menu's, and all keys it names are bound, or
the item list's. At the prompt and the error it is the menu's. -/
theorem C100_help_partial (vault : Bytes) (w : World) (x y : Nat) (es : List Event) (s : St) (h : Live C K vault w x y es s) :
    (s.cur = some (.live .details) → Helps s detailsLine) ∧
    (s.cur = some (.live .items) → Helps s itemsLine) ∧
    (s.cur = some (.live .menu) → Helps s menuLine ∨ Helps s itemsLine) ∧
    (s.cur = some (.live .prompt) ∨ s.cur = some (.live .error) → Helps s menuLine) ∧
    ∀ n line k, s.cur = some (.live n) → Helps s line → Named line k → k ≠ .ctrlQ →
      n = .details ∨ n = .items ∨ (n = .menu ∧ line = menuLine) → ∃ act, binding C K n k (.live n) = some act := by
  have hk := h.helpKept C K
  refine ⟨hk.details, hk.items, hk.menu, hk.prompt, ?_⟩
  have uniq : ∀ {a b : Bytes}, Helps s a → Helps s b → a = b := by
    intro a b ⟨v, h1, h2⟩ ⟨u, h3, h4⟩
    rw [h1] at h3
    cases h3
    rw [h2] at h4
    simpa using h4
  have ne1 : menuLine ≠ itemsLine := by decide
  have ne2 : menuLine ≠ detailsLine := by decide
  have ne3 : itemsLine ≠ detailsLine := by decide
  intro n line k hc hl hn hq hw
  rcases hw with rfl | rfl | ⟨rfl, rfl⟩
  · obtain rfl := uniq hl (hk.details hc)
    rcases hn with hn | hn | ⟨hn, -⟩ | ⟨hn, -⟩ | ⟨-, hn⟩
    · exact absurd hn hq
    · exact ⟨_, by rw [binding, if_pos hn]⟩
    · exact absurd hn.symm ne2
    · exact absurd hn.symm ne3
    · unfold binding
      simp only
      repeat' split
      all_goals first | exact ⟨_, rfl⟩ | (simp_all)
  · obtain rfl := uniq hl (hk.items hc)
    rcases hn with hn | hn | ⟨hn, -⟩ | ⟨-, hn⟩ | ⟨hn, -⟩
    · exact absurd hn hq
    · exact ⟨_, by rw [binding, if_pos hn]⟩
    · exact absurd hn.symm ne1
    · unfold binding
      simp only
      repeat' split
      all_goals first | exact ⟨_, rfl⟩ | (simp_all)
    · exact absurd hn ne3
  · rcases hn with hn | hn | ⟨-, hn⟩ | ⟨hn, -⟩ | ⟨hn, -⟩
    · exact absurd hn hq
    · exact ⟨_, by rw [binding, if_pos hn]⟩
    · unfold binding
      simp only
      repeat' split
      all_goals first | exact ⟨_, rfl⟩ | (simp_all)
    · exact absurd hn ne1
    · exact absurd hn ne2

/-- Opening the first entry and going back. -/
def Demo.returned : List Event := Demo.opening ++ [.key .enter, .flush 80 24, .key (.ch 113), .flush 80 24]

set_option maxRecDepth 20000 in
/-- C100 is false: in the menu, after going back from an item list, TAB is said to reveal an item; nothing is bound to it. -/
theorem C100_refuted : ∃ (C : Ctx) (K : Kit) (vault : Bytes) (w : World) (x y : Nat) (es : List Event) (s : St),
    Live C K vault w x y es s ∧ s.cur = some (.live .menu) ∧ Helps s itemsLine ∧ Named itemsLine .tab ∧
      (binding C K .menu .tab (.live .menu)).isNone ∧ step C K (.key .tab) s = (.ok (), s) := by
  have hl := Demo.live (x := 80) (y := 24) (d := Demo.disk b!"1234" b!"memo") (es := Demo.returned) (by decide +kernel)
  generalize hs : (Demo.goOn 80 24 (Demo.disk b!"1234" b!"memo") Demo.returned).2 = s at hl
  have h1 : s.cur = some (.live .menu) ∧ (s.views .help).map (·.lines) = some [itemsLine] := by
    rw [← hs]; decide +kernel
  obtain ⟨h1, h2⟩ := h1
  rw [Option.map_eq_some_iff] at h2
  obtain ⟨v, h3, h4⟩ := h2
  refine ⟨_, _, _, _, _, _, _, s, hl, h1, ⟨v, h3, h4⟩, ?_, rfl, ?_⟩
  · exact .inr (.inr (.inr (.inl ⟨rfl, .inr (.inr (.inr rfl))⟩)))
  · show press _ _ .tab s = _
    rw [press]
    simp only [get_bind]
    rw [h1]
    rfl

/-- C100 is false at the password prompt, always: the keys CTRL+L, k and j that the line names are typed into the password. -/
theorem C100_prompt_refuted (vault : Bytes) (w : World) (x y : Nat) (es : List Event) (s : St) (h : Live C K vault w x y es s)
    (hc : s.cur = some (.live .prompt)) (k : Key) (hk : k = .ctrlL ∨ k.isChar 'k' ∨ k.isChar 'j') :
    Helps s menuLine ∧ Named menuLine k ∧
      ∃ t, step C K (.key k) s = (.ok (), t) ∧ t.typed = s.typed ++ [some k] ∧ t.cur = s.cur ∧ t.world = s.world := by
  refine ⟨(h.helpKept C K).prompt (.inl hc), ?_, ?_⟩
  · rcases hk with hk | hk | hk
    · exact .inr (.inl hk)
    · exact .inr (.inr (.inl ⟨rfl, .inl hk⟩))
    · exact .inr (.inr (.inl ⟨rfl, .inr (.inl hk)⟩))
  · have hne : k ≠ .enter ∧ k ≠ .ctrlQ := by
      rcases hk with rfl | hk | hk
      · exact ⟨by simp, by simp⟩
      · simp [isChar_iff] at hk; subst hk; exact ⟨by simp, by simp⟩
      · simp [isChar_iff] at hk; subst hk; exact ⟨by simp, by simp⟩
    obtain ⟨v, hv⟩ : ∃ v, s.views .prompt = some v := by
      cases (h.inv C K).screen with
      | prompt ha => exact ha.prompt
      | error ha => rw [ha.cur] at hc; cases hc
      | menu ha => rw [ha.cur] at hc; cases hc
      | items ha => rw [ha.cur] at hc; cases hc
      | details ha => rw [ha.cur] at hc; cases hc
    exact ⟨_, press_typed C K hne.2 hne.1 hc hv, rfl, rfl, rfl⟩

/-- The lines of the three panes. -/
example : Demo.text .help (Demo.go (Demo.disk b!"1234" b!"memo") []) = some [menuLine] ∧
    Demo.text .help (Demo.go (Demo.disk b!"1234" b!"memo") (Demo.opening ++ [.key .enter, .flush 80 24])) = some [itemsLine] ∧
    Demo.text .help (Demo.go (Demo.disk b!"1234" b!"memo") (Demo.opening ++ [.key .enter, .key .tab, .flush 80 24])) =
      some [detailsLine] := by decide +kernel

end Gui
end OnePass
