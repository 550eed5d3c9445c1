/-
How the GUI ends (C68).
-/
import Verif.Props.GuiCursor

set_option linter.unusedSimpArgs false

namespace OnePass
namespace Gui
open Act Spec

variable (C : Ctx) (K : Kit)

theorem run_stop {s : St} (hI : Inv s) {es : List Event} (h : (run C K es s).1 ≠ .ok ()) :
    ∃ before e after t, es = before ++ e :: after ∧ run C K before s = (.ok (), t) ∧ Inv t ∧
      (run C K es s).1 = (step C K e t).1 ∧ Ends C K t e (run C K es s).1 := by
  induction es generalizing s with
  | nil => exact absurd rfl h
  | cons e es ih =>
    rcases step_trans C K hI e with ⟨s', h1, h2⟩ | ⟨h1, h2⟩
    · have hr : run C K (e :: es) s = run C K es s' := by
        rw [run]
        exact bind_ok h1
      rw [hr] at h
      obtain ⟨before, e', after, t, h3, h4, h5, h6, h7⟩ := ih (h2.inv C K hI) h
      refine ⟨e :: before, e', after, t, by rw [h3]; rfl, ?_, h5, ?_, ?_⟩
      · rw [run, bind_ok h1]; exact h4
      · rw [hr]; exact h6
      · rw [hr]; exact h7
    · have hr : (run C K (e :: es) s).1 = (step C K e s).1 := by
        rw [run]
        cases hs : step C K e s with
        | mk r t =>
          rw [hs] at h1
          cases r with
          | ok u => exact absurd rfl h1
          | err x => rw [bind_err hs]
          | panic => rw [bind_panic hs]
          | fatal => rw [bind_fatal hs]
      exact ⟨[], e, es, s, rfl, rfl, hI, hr, by rw [hr]; exact h2⟩

/-- Why the GUI ends at an event: CTRL+Q, a vault or a server whose data crash the program, TAB in an empty item list, a
terminal too small for the item list or for anything. -/
inductive Reason (s : St) : Event → Res Unit → Prop where
  | quit : Reason s (.key .ctrlQ) (.err .quit)
  | vault (v : View) (r : Res Unit) (hc : s.cur = some (.live .prompt)) (hv : s.views .prompt = some v)
      (hu : ∀ a, s.world.sess.unlock C.env (K.order s.opened) s.world.disk s.vault (entered v) ≠ .ret a) :
      Reason s (.key .enter) r
  | emptyList (hc : s.cur = some (.live .items)) (hi : s.items = []) : Reason s (.key .tab) .panic
  | smallList (k : Key) (hk : Opens k) (hc : s.cur = some (.live .menu)) (hs : s.maxX < 6 ∨ s.maxY < 10) :
      Reason s (.key k) (.err .dimensions)
  | smallScreen (x y : Nat) (hs : x < 2 ∨ y < 8) : Reason s (.flush x y) (.err .dimensions)
  | server (r : Res Unit) (hp : ∀ a, (Upd.facadeCheck C.sys C.ext C.dir true s.world).1 ≠ .ret a) : Reason s .checked r

/-- C68, in general: a run that ends before the last event ends because of CTRL+Q, or for one of five other reasons. -/
theorem C68_reasons (vault : Bytes) (w : World) (x y : Nat) (es : List Event) (hl : w.sess.isUnlocked = false)
    (hr : Session.Reachable C.env w.sess) (h : (run C K (.flush x y :: es) (start vault w)).1 ≠ .ok ()) :
    ((x < 2 ∨ y < 8) ∧ (run C K (.flush x y :: es) (start vault w)).1 = .err .dimensions) ∨
    ∃ before e after s, es = before ++ e :: after ∧ Live C K vault w x y before s ∧
      Reason C K s e (run C K (.flush x y :: es) (start vault w)).1 := by
  by_cases hs : x < 2 ∨ y < 8
  · left
    refine ⟨hs, ?_⟩
    have h1 := start_small C K (vault := vault) (w := w) hs
    cases hf : flush C K x y (start vault w) with
    | mk r t =>
      rw [hf] at h1
      simp only at h1
      subst h1
      rw [run, show step C K (.flush x y) = flush C K x y from rfl, bind_err hf]
  · right
    have h0 : ∀ es, run C K (.flush x y :: es) (start vault w) = run C K es (firstSt vault w x y) := by
      intro es
      rw [run, bind_ok (show step C K (.flush x y) (start vault w) = _ from first_run C K (by omega) (by omega) hl)]
    rw [h0] at h ⊢
    obtain ⟨before, e, after, t, h1, h2, h3, h4, h5⟩ := run_stop C K (first_inv vault w x y hl) h
    refine ⟨before, e, after, t, h1, ⟨hl, hr, by rw [h0]; exact h2⟩, ?_⟩
    generalize (run C K es (firstSt vault w x y)).1 = r at h5
    cases h5 with
    | quit => exact .quit
    | vaultPanics v h hv hu => exact .vault v _ h.cur hv hu
    | vaultFatal v h hv hu => exact .vault v _ h.cur hv hu
    | emptyList h hi => exact .emptyList h.cur hi
    | smallList k hk h hs => exact .smallList k hk h.cur hs
    | smallScreen x y hs => exact .smallScreen x y hs
    | checkPanics w hr => exact .server _ (fun a ha => by rw [hr] at ha; cases ha)
    | checkFatal w hr => exact .server _ (fun a ha => by rw [hr] at ha; cases ha)

/-- No list without items is opened: the last entry is only opened if something is in the trash. -/
def NoEmptyList (vault : Bytes) (w : World) (x y : Nat) (es : List Event) : Prop :=
  ∀ (before after : List Event) (k : Key), es = before ++ .key k :: after → Opens k → ∀ s, Live C K vault w x y before s →
    s.cur = some (.live .menu) → s.menuIdx + 1 < s.cats.length ∨ ∃ i ∈ held s.world.sess, i.trashed = true

theorem cats_length {vault : Bytes} {w : World} {x y : Nat} {es : List Event} {s : St} (h : Live C K vault w x y es s)
    (hu : s.world.sess.isUnlocked = true) :
    IsMenu (held s.world.sess) (menuOf s.world.sess) ∧ s.cats.length = (menuOf s.world.sess).length := by
  refine ⟨menu_isMenu (h.session C K) ((h.menuKept C K).order hu), ?_⟩
  rw [(opened_of (h.inv C K) hu).cats, menuCats_eq, List.length_map]

theorem Live.nonempty {vault : Bytes} {w : World} {x y : Nat} {es : List Event} {s : St} (h : Live C K vault w x y es s)
    (hn : NoEmptyList C K vault w x y es) : s.views .items ≠ none → s.items ≠ [] := by
  induction es using List.reverseRecOn generalizing s with
  | nil =>
    obtain ⟨_, _, h3⟩ := h.steps C K
    generalize hn : ([] : List Event) = l at h3
    cases h3 with
    | nil => intro h; exact absurd rfl h
    | snoc => simp at hn
  | append_singleton es e ih =>
    obtain ⟨u, h1, h2⟩ := h.snoc C K
    have hpre : NoEmptyList C K vault w x y es := by
      intro before after k he
      exact hn before (after ++ [e]) k (by rw [he]; simp)
    have hu := ih h1 hpre
    obtain ⟨ht, -⟩ := inv_step C K (h1.inv C K) h2
    have ht' := ht
    intro hv
    cases ht with
    | openEntry k hk vh l ha hh hx hy hm hl =>
      obtain ⟨hmenu, hlen⟩ := cats_length C K h1 ha.unlocked
      rcases ha.idx with hi | ⟨hi1, hi2⟩
      · exact absurd hi.1 hm
      · obtain ⟨e, he⟩ : ∃ e, (menuOf u.world.sess)[u.menuIdx.toNat]? = some e :=
          ⟨_, List.getElem?_eq_getElem (by omega)⟩
        have hlast := hn es [] k rfl hk u h1 ha.cur
        rw [hlen] at hlast
        exact (C70_lists_partial C K vault w x y es u _ k h1 ha.cur hk h2 _ e hmenu ⟨hi1, he⟩ hlast).2.2.2.1
    | ignored k hk' => exact hu hv
    | typed k hk' v h hv' => exact hu (by simpa [setAt] using hv)
    | refused v e sess h hv' hu' => exact hu (by simpa [setAt] using hv)
    | accepted v vm sess h hv' hm hu' => exact hu (by simpa [filled, triedSt, setAt] using hv)
    | closeError v h hv' => exact hu (by simpa [setAt] using hv)
    | menuDown k hk' i v h hv' hi hl => exact hu (by simpa [setAt] using hv)
    | menuUp k hk' i v h hv' hi => exact hu (by simpa [setAt] using hv)
    | lockMenu v vh h hv' hh => exact hu (by simpa [lockedSt, setAt] using hv)
    | itemsDown k hk' i v vi h hv' hvi hi hl => exact hu (by simp [hvi])
    | itemsUp k hk' i v vi h hv' hvi hi hl => exact hu (by simp [hvi])
    | back k hk' o h => simp [closed, setAt] at hv
    | reveal i v vh h hv' hh hi hl => exact hu (by simpa [setAt] using hv)
    | lockItems o vm vh h hm hh => simp [lockedSt, closed, setAt] at hv
    | scroll k hk' v x y h hv' => exact hu (by simpa [setAt] using hv)
    | cover v vh h hv' hh => exact hu (by simpa [setAt] using hv)
    | flush a b vv vh vm hx hy hv' hh hm => exact hu (by simpa [Gui.placed, setAt] using hv)
    | idle h => exact hu hv
    | checked v r w hp hv' hr => exact hu (by simpa [checkedSt, setAt] using hv)
    | disk d => exact hu hv

theorem big_enough {vault : Bytes} {w : World} {x y : Nat} {es : List Event} {s : St} (h : Live C K vault w x y es s)
    (hx : 6 ≤ x) (hy : 10 ≤ y) (hsize : ∀ a b, .flush a b ∈ es → 6 ≤ a ∧ 10 ≤ b) : 6 ≤ s.maxX ∧ 10 ≤ s.maxY := by
  induction es using List.reverseRecOn generalizing s with
  | nil =>
    obtain ⟨_, _, h3⟩ := h.steps C K
    generalize hn : ([] : List Event) = l at h3
    cases h3 with
    | nil =>
      refine ⟨?_, ?_⟩
      · show (6 : Int) ≤ x
        omega
      · show (10 : Int) ≤ y
        omega
    | snoc => simp at hn
  | append_singleton es e ih =>
    obtain ⟨u, h1, h2⟩ := h.snoc C K
    obtain ⟨ht, -⟩ := inv_step C K (h1.inv C K) h2
    have := ih h1 (fun a b hab => hsize a b (by simp [hab]))
    cases ht with
    | flush a b =>
      obtain ⟨ha, hb⟩ := hsize a b (by simp)
      refine ⟨?_, ?_⟩
      · show (6 : Int) ≤ a
        omega
      · show (10 : Int) ≤ b
        omega
    | _ => exact this

/-- C68, under conditions: on a terminal of at least 6 columns and 10 lines, with a vault and a server whose data do not
crash the program, and if no empty list is opened, the GUI goes on after every event or is ended by CTRL+Q. -/
theorem C68_goes_on_partial (vault : Bytes) (w : World) (x y : Nat) (es : List Event) (hl : w.sess.isUnlocked = false)
    (hr : Session.Reachable C.env w.sess) (hx : 6 ≤ x) (hy : 10 ≤ y) (hsize : ∀ a b, .flush a b ∈ es → 6 ≤ a ∧ 10 ≤ b)
    (hn : NoEmptyList C K vault w x y es)
    (hvault : ∀ before after, es = before ++ after → ∀ s v, Live C K vault w x y before s → s.views .prompt = some v →
      ∃ a, s.world.sess.unlock C.env (K.order s.opened) s.world.disk s.vault (entered v) = .ret a)
    (hserver : ∀ before after, es = before ++ after → ∀ s, Live C K vault w x y before s →
      ∃ a, (Upd.facadeCheck C.sys C.ext C.dir true s.world).1 = .ret a) :
    (run C K (.flush x y :: es) (start vault w)).1 = .ok () ∨
    (.key .ctrlQ ∈ es ∧ (run C K (.flush x y :: es) (start vault w)).1 = .err .quit) := by
  by_cases h : (run C K (.flush x y :: es) (start vault w)).1 = .ok ()
  · exact .inl h
  · right
    rcases C68_reasons C K vault w x y es hl hr h with ⟨h1, _⟩ | ⟨before, e, after, s, he, hs, hreason⟩
    · omega
    · have hbig := big_enough C K hs hx hy (fun a b hab => hsize a b (by rw [he]; simp [hab]))
      generalize hres : (run C K (.flush x y :: es) (start vault w)).1 = r at hreason
      cases hreason with
      | quit => exact ⟨by rw [he]; simp, rfl⟩
      | vault v r hc hv hu =>
        obtain ⟨a, ha⟩ := hvault before _ he s v hs hv
        exact absurd ha (hu a)
      | emptyList hc hi =>
        refine absurd hi (hs.nonempty C K ?_ ?_)
        · intro b a k hb
          exact hn b (a ++ .key .tab :: after) k (by rw [he, hb]; simp)
        · obtain ⟨v, hv⟩ := (atItems_of (hs.inv C K) hc).items
          rw [hv]
          simp
      | smallList k hk hc hs => omega
      | smallScreen a b hs =>
        have := hsize a b (by rw [he]; simp)
        omega
      | server r hp =>
        obtain ⟨a, ha⟩ := hserver before _ he s hs
        exact absurd ha (hp a)

/-- What the keys do in the menu and in an empty list. -/
theorem step_down {s : St} (hI : Inv s) (hc : s.cur = some (.live .menu)) {i : Nat} (hi : s.menuIdx = i)
    (hl : i + 1 < s.cats.length) :
    ∃ v t, step C K (.key .down) s = (.ok (), t) ∧ s.views .menu = some v ∧
      t = { s with menuIdx := (i + 1 : Nat), views := setAt s.views .menu (some v.down) } := by
  rcases step_trans C K hI (.key .down) with ⟨t, h1, h2⟩ | ⟨h1, h2⟩
  · generalize he : Event.key .down = e at h2
    cases h2 with
    | menuDown k hk j v h hv hj hl' =>
      have hij : i = j := by
        rw [hi] at hj
        omega
      subst hij
      cases he
      exact ⟨v, _, h1, hv, rfl⟩
    | ignored k hid =>
      cases he
      obtain ⟨_, ⟨h, _⟩ | ⟨h, _, h', _⟩ | ⟨h, _⟩ | ⟨h, _⟩⟩ := hid
      · rw [h] at hc; cases hc
      · exact absurd ⟨by omega, by omega⟩ (h' (.inr rfl))
      · rw [h] at hc; cases hc
      · rw [h] at hc; cases hc
    | typed k hk v h => rw [h.cur] at hc; simp at hc
    | refused v e sess h => cases he
    | accepted v vm sess h => cases he
    | closeError v h => cases he
    | menuUp k hk => cases he; simp [isChar_iff] at hk
    | openEntry k hk => cases he; simp [isChar_iff] at hk
    | itemsDown k hk i v vi h => rw [h.cur] at hc; simp at hc
    | itemsUp k hk i v vi h => rw [h.cur] at hc; simp at hc
    | back k hk o h => rw [h.cur] at hc; simp at hc
    | scroll k hk v x y h => rw [h.cur] at hc; simp at hc
    | _ => cases he
  · generalize (step C K (.key .down) s).1 = r at h2
    generalize he : Event.key .down = e at h2
    cases h2 with
    | smallList k hk => cases he; simp [isChar_iff] at hk
    | _ => cases he

theorem step_open {s : St} (hI : Inv s) (hc : s.cur = some (.live .menu)) (hx : 6 ≤ s.maxX) (hy : 10 ≤ s.maxY) :
    ∃ t, step C K (.key .enter) s = (.ok (), t) := by
  rcases step_trans C K hI (.key .enter) with ⟨t, h1, h2⟩ | ⟨h1, h2⟩
  · exact ⟨t, h1⟩
  · generalize (step C K (.key .enter) s).1 = r at h2
    generalize he : Event.key .enter = e at h2
    cases h2 with
    | smallList k hk h hs => omega
    | vaultPanics v h => rw [h.cur] at hc; simp at hc
    | vaultFatal v h => rw [h.cur] at hc; simp at hc
    | _ => cases he

theorem step_tab {s : St} (hI : Inv s) (hc : s.cur = some (.live .items)) (hi : s.items = []) :
    (step C K (.key .tab) s).1 = .panic := by
  rcases step_trans C K hI (.key .tab) with ⟨t, h1, h2⟩ | ⟨h1, h2⟩
  · generalize he : Event.key .tab = e at h2
    cases h2 with
    | ignored k hid =>
      cases he
      obtain ⟨_, ⟨h, _⟩ | ⟨h, _⟩ | ⟨_, _, _, _, _, h⟩ | ⟨_, _, _, _, _, _, h⟩⟩ := hid
      · rw [h] at hc; cases hc
      · rw [h] at hc; cases hc
      · exact absurd rfl h
      · exact absurd rfl h
    | typed k hk v h => rw [h.cur] at hc; simp at hc
    | reveal i v vh h hv hh hi' hl => rw [hi] at hl; simp at hl
    | cover v vh h hv hh => rw [h.cur] at hc; simp at hc
    | menuDown k hk => cases he; simp [isChar_iff] at hk
    | menuUp k hk => cases he; simp [isChar_iff] at hk
    | openEntry k hk => cases he; simp [isChar_iff] at hk
    | itemsDown k hk => cases he; simp [isChar_iff] at hk
    | itemsUp k hk => cases he; simp [isChar_iff] at hk
    | back k hk => cases he; simp [isChar_iff] at hk
    | scroll k hk v x y h => rw [h.cur] at hc; simp at hc
    | _ => cases he
  · generalize (step C K (.key .tab) s).1 = r at h2
    generalize he : Event.key .tab = e at h2
    cases h2 with
    | emptyList => rfl
    | smallList k hk => cases he; simp [isChar_iff] at hk
    | _ => cases he

theorem Live.then {vault : Bytes} {w : World} {x y : Nat} {es : List Event} {e : Event} {s t : St} (h : Live C K vault w x y es s)
    (hs : step C K e s = (.ok (), t)) : Live C K vault w x y (es ++ [e]) t := by
  refine ⟨h.locked, h.reach, ?_⟩
  rw [← List.cons_append, run_append C K _ _ _ h.goes]
  exact run_one C K hs

/-- C68 is false: whenever the menu of a vault with items and an empty trash is on the screen, going down to its last
entry, ENTER and TAB crash the program. -/
theorem C68_crash (vault : Bytes) (w : World) (x y : Nat) (es : List Event) (s : St) (h : Live C K vault w x y es s)
    (hc : s.cur = some (.live .menu)) (hx : 6 ≤ s.maxX) (hy : 10 ≤ s.maxY) (hsome : held s.world.sess ≠ [])
    (hnone : ∀ i ∈ held s.world.sess, i.trashed = false) :
    (run C K (List.replicate (s.cats.length - 1 - s.menuIdx.toNat) (.key .down) ++ [.key .enter, .key .tab]) s).1 = .panic := by
  generalize hn : s.cats.length - 1 - s.menuIdx.toNat = n
  induction n generalizing s es with
  | zero =>
    have ha := atMenu_of (h.inv C K) hc
    obtain ⟨hm, hlen⟩ := cats_length C K h ha.unlocked
    have hpos : 0 < s.cats.length := by
      rw [hlen]
      obtain ⟨cs, _, _, hcs⟩ := hm
      obtain ⟨i, hi⟩ := List.exists_mem_of_ne_nil _ hsome
      rw [hcs, if_pos ⟨i, hi, hnone i hi⟩]
      simp
    have hidx : 0 ≤ s.menuIdx ∧ s.menuIdx < s.cats.length := by
      rcases ha.idx with hi | hi
      · rw [hi.2] at hpos
        simp at hpos
      · exact hi
    obtain ⟨e, he⟩ : ∃ e, (menuOf s.world.sess)[s.menuIdx.toNat]? = some e :=
      ⟨_, List.getElem?_eq_getElem (by omega)⟩
    obtain ⟨t, ht⟩ := step_open C K (h.inv C K) hc hx hy
    obtain ⟨_, _, h3, h4, _⟩ := C70_last_entry C K vault w x y es s t .enter h hc (.inr (.inr rfl)) ht _ e hm ⟨hidx.1, he⟩
      (by omega) hnone
    have h5 := step_tab C K ((h.then C K ht).inv C K) h4 h3
    rw [List.replicate_zero, List.nil_append, run_cons, bind_ok ht, run_cons]
    cases hs : step C K (.key .tab) t with
    | mk r u =>
      rw [hs] at h5
      simp only at h5
      subst h5
      rw [bind_panic hs]
  | succ n ih =>
    have ha := atMenu_of (h.inv C K) hc
    have hi : s.menuIdx = (s.menuIdx.toNat : Nat) := by
      rcases ha.idx with hi | hi
      · rw [hi.2] at hn
        simp at hn
      · omega
    obtain ⟨v, t, h1, h2, rfl⟩ := step_down C K (h.inv C K) hc hi (by omega)
    rw [List.replicate_succ, List.cons_append, run_cons, bind_ok h1]
    refine ih (es ++ [.key .down]) _ (h.then C K h1) (by exact hc) (by exact hx) (by exact hy) (by exact hsome) (by exact hnone) ?_
    show s.cats.length - 1 - ((s.menuIdx.toNat + 1 : Nat) : Int).toNat = n
    omega

/-- Opening an entry in a smaller terminal ends the program. -/
theorem C68_small (vault : Bytes) (w : World) (x y : Nat) (es : List Event) (s : St) (h : Live C K vault w x y es s)
    (hc : s.cur = some (.live .menu)) (hi : s.menuIdx ≠ -1) (hs : s.maxX < 6 ∨ s.maxY < 10) :
    (step C K (.key .enter) s).1 = .err .dimensions := by
  rcases step_trans C K (h.inv C K) (.key .enter) with ⟨t, h1, -⟩ | ⟨h1, h2⟩
  · obtain ⟨_, _, _, _, _, _, rfl⟩ := opening_step C K (h.inv C K) h1 hc (.inr (.inr rfl)) hi
    omega
  · generalize (step C K (.key .enter) s).1 = r at h2
    generalize he : Event.key .enter = e at h2
    cases h2 with
    | smallList k hk h hs => rfl
    | vaultPanics v h => rw [h.cur] at hc; simp at hc
    | vaultFatal v h => rw [h.cur] at hc; simp at hc
    | _ => cases he

namespace Demo

/-- A server that has no releases. -/
def bare : Ctx := { ctx with sys := Toy.sys b!"[]" 0 }

end Demo

set_option maxRecDepth 20000 in
/-- C68: nothing happens in the empty list but TAB crashes; a terminal of nine lines is too small for a list; and a vault
with something in the trash can be looked through. -/
example : (Demo.go Demo.tidy (Demo.atLast ++ [.key .enter, .key .down, .key .up, .flush 80 24])).1 = .ok () ∧
    (Demo.go Demo.tidy (Demo.atLast ++ [.key .enter, .key .tab])).1 = .panic ∧
    (Demo.go Demo.tidy (Demo.opening ++ [.flush 80 9, .key .enter])).1 = .err .dimensions ∧
    (Demo.go Demo.tidy (Demo.opening ++ [.flush 80 9, .key .down, .key .ctrlQ])).1 = .err .quit ∧
    (Demo.go (Demo.disk b!"1234" b!"memo") (Demo.opening ++ [.key .down, .key .down, .key .down, .key .enter, .key .tab,
      .key .tab, .key .left, .key .up, .key .enter, .key .tab, .key .ctrlL, .flush 80 24])).1 = .ok () := by decide +kernel

set_option maxRecDepth 20000 in
/-- C68 is false. -/
theorem C68_refuted : ¬ ∀ (C : Ctx) (K : Kit) (vault : Bytes) (w : World) (x y : Nat) (es : List Event),
    w.sess.isUnlocked = false → Session.Reachable C.env w.sess → 80 ≤ x → 24 ≤ y → (∀ a b, .flush a b ∈ es → 80 ≤ a ∧ 24 ≤ b) →
      (run C K (.flush x y :: es) (start vault w)).1 ≠ .panic := by
  intro h
  refine h Demo.ctx Demo.kit b!"/a" (Demo.world Demo.tidy) 80 24 (Demo.atLast ++ [.key .enter, .key .tab])
    (Demo.world_locked _).1 (Demo.world_locked _).2 (by omega) (by omega) ?_ ?_
  · intro a b hm
    simp [Demo.atLast, Demo.opening, Demo.keys] at hm
    omega
  · have : (Demo.go Demo.tidy (Demo.atLast ++ [.key .enter, .key .tab])).1 = .panic := by decide +kernel
    unfold Demo.go Demo.goOn at this
    exact this

set_option maxRecDepth 20000 in
/-- C68 is false without any key: an empty list of releases crashes the program in the background check. -/
theorem C68_server_refuted : ¬ ∀ (C : Ctx) (K : Kit) (vault : Bytes) (w : World),
    w.sess.isUnlocked = false → Session.Reachable C.env w.sess → (∃ c, w.conf = some c ∧ ∃ r, Conf.getConfig w.conf = .ret r) →
      (run C K [.flush 80 24, .checked] (start vault w)).1 ≠ .panic := by
  intro h
  refine h Demo.bare Demo.kit b!"/a" { Demo.world Demo.tidy with conf := some (Conf.updated [] Conf.myConf) }
    (Demo.world_locked _).1 (Demo.world_locked _).2 ⟨_, rfl, ?_⟩ ?_
  · exact ⟨Conf.myConf, by decide +kernel⟩
  · decide +kernel

end Gui
end OnePass
