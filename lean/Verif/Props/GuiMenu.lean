/-
The menu of the GUI: its entries (C74), what they open (C70).
-/
import Verif.Props.GuiScreens
import Verif.Props.Queries
import Verif.Spec.Menu

set_option linter.unusedSimpArgs false

namespace OnePass
namespace Gui
open Act Spec

variable (C : Ctx) (K : Kit)

/-! ### Lines of text -/

/-- A text that stays on one line. -/
def OneLine (t : Bytes) : Prop := ∀ b ∈ t, b ≠ 10 ∧ b ≠ 13

instance (t : Bytes) : Decidable (OneLine t) := by unfold OneLine; infer_instance

theorem put_line (t : Bytes) (h : OneLine t) (acc : List Bytes) (l : Bytes) :
    t.foldl View.putByte (acc ++ [l]) = acc ++ [l ++ t] := by
  induction t generalizing l with
  | nil => simp
  | cons b t ih =>
    have hb := h b (by simp)
    rw [List.foldl_cons, View.putByte, if_neg hb.1, if_neg hb.2, List.dropLast_concat, List.getLast?_concat]
    simp only [Option.getD_some]
    rw [ih (fun c hc => h c (by simp [hc]))]
    simp

theorem put_first (t : Bytes) (h : OneLine t) (h0 : t ≠ []) : t.foldl View.putByte [] = [t] := by
  cases t with
  | nil => exact absurd rfl h0
  | cons b t =>
    have hb := h b (by simp)
    rw [List.foldl_cons, View.putByte, if_neg hb.1, if_neg hb.2]
    have := put_line t (fun c hc => h c (by simp [hc])) [] [b]
    simpa using this

theorem put_rows (ls : List Bytes) (h : ∀ l ∈ ls, OneLine l) (acc : List Bytes) :
    (ls.flatMap (fun l => l ++ [10])).foldl View.putByte (acc ++ [[]]) = acc ++ ls ++ [[]] := by
  induction ls generalizing acc with
  | nil => simp
  | cons l ls ih =>
    rw [List.flatMap_cons, List.append_assoc, List.foldl_append, put_line l (h l (by simp)), List.cons_append, List.foldl_cons,
      List.nil_append, show View.putByte (acc ++ [l]) 10 = (acc ++ [l]) ++ [[]] by simp [View.putByte], List.nil_append,
      ih (fun l hl => h l (by simp [hl]))]
    simp

/-- Rows, each ended by a newline. -/
theorem lines_rows (ls : List Bytes) (h : ∀ l ∈ ls, OneLine l ∧ l ≠ []) (h0 : ls ≠ []) :
    textLines (ls.flatMap (fun l => l ++ [10])) = ls ++ [[]] := by
  cases ls with
  | nil => exact absurd rfl h0
  | cons l ls =>
    have hl := h l (by simp)
    rw [textLines, List.flatMap_cons, List.append_assoc, List.foldl_append, put_first l hl.1 hl.2, List.cons_append,
      List.foldl_cons, List.nil_append, show View.putByte [l] 10 = [l] ++ [[]] by simp [View.putByte],
      put_rows ls (fun l h' => (h l (by simp [h'])).1)]
    simp

/-- Rows and a last line that is not ended. -/
theorem lines_last (ls : List Bytes) (t : Bytes) (h : ∀ l ∈ ls, OneLine l ∧ l ≠ []) (ht : OneLine t) (h0 : t ≠ []) :
    textLines (ls.flatMap (fun l => l ++ [10]) ++ t) = ls ++ [t] := by
  cases ls with
  | nil => exact put_first t ht h0
  | cons l ls =>
    have := lines_rows (l :: ls) h (by simp)
    rw [textLines] at this ⊢
    rw [List.foldl_append, this, put_line t ht]
    simp

/-! ### The session behind the GUI -/

theorem Trans.reach {s t : St} {e : Event} (h : Trans C K s e t) (hr : Session.Reachable C.env s.world.sess) :
    Session.Reachable C.env t.world.sess := by
  cases h with
  | refused v e sess h hv hu =>
    obtain ⟨rfl, rfl⟩ := locked_of_error hu
    exact hr
  | accepted v vm sess h hv hm hu =>
    have h1 : Session.Reachable C.env sess := by
      refine hr.step (d := s.world.disk) (d' := s.world.disk) (o := .unlock (K.order s.opened) s.vault (entered v))
        (a := Session.answerErr (.ok ())) ?_
      unfold attemptUnlock at hu
      simp only [Session.step, hu, Out.ret_bind, Out.pure_eq]
    show Session.Reachable C.env (sortCats C sess)
    unfold sortCats
    split
    · exact h1.step (d := s.world.disk) (d' := s.world.disk) (o := .sortReg C.sorter Cli.lessCode) (a := .none) rfl
    · exact h1
  | lockMenu v vh h hv hh => exact hr.step (d := s.world.disk) (d' := s.world.disk) (o := .lock) (a := .none) rfl
  | lockItems o vm vh h hm hh => exact hr.step (d := s.world.disk) (d' := s.world.disk) (o := .lock) (a := .none) rfl
  | checked v r w hp hv hr' =>
    have hs : (checkedSt s v r w).world.sess = s.world.sess := (check_sess C hr').1
    rw [hs]
    exact hr
  | _ => exact hr

theorem Steps.reach {s t : St} {es : List Event} (h : Steps C K s es t) (hr : Session.Reachable C.env s.world.sess) :
    Session.Reachable C.env t.world.sess := by
  induction h with
  | nil => exact hr
  | snoc _ _ ht ih => exact ht.reach C K ih

theorem Live.session {vault : Bytes} {w : World} {x y : Nat} {es : List Event} {s : St} (h : Live C K vault w x y es s) :
    Session.Reachable C.env s.world.sess := (h.steps C K).2.2.reach C K h.reach

/-! ### C74 -/

/-- The entry a place in `categories` stands for. -/
def menuOf (sess : Session) : List Entry :=
  (if sess.countItems none false ≠ 0 then Entry.all :: (usedCats sess).map .cat else []) ++
  (if sess.countItems none true ≠ 0 then [.trash] else [])

theorem count_of (sess : Session) :
    sess.countItems none false = (Entry.all.of (held sess)).length ∧
    (∀ c, sess.countItems (some c) false = ((Entry.cat c).of (held sess)).length) ∧
    sess.countItems none true = (Entry.trash.of (held sess)).length := by
  unfold Session.countItems Entry.of held
  simp only [count_eq]
  refine ⟨?_, fun c => ?_, ?_⟩ <;> congr 1 <;> refine List.filter_congr (fun i _ => decide_eq_decide.2 ?_) <;>
    simp [Entry.Holds]

theorem of_ne_zero (e : Entry) (l : List Item) : (e.of l).length ≠ 0 ↔ ∃ i ∈ l, e.Holds i := by
  rw [Ne, List.length_eq_zero_iff, Entry.of, List.filter_eq_nil_iff]
  simp

theorem sorted_strict {l : List Cat} (hp : l.Perm Cat.values) (hs : l.Pairwise (fun a b => Cli.lessCode b a = false)) :
    l.Pairwise (fun a b => a.code < b.code) := by
  have hn : (l.map (·.code)).Nodup := (hp.map _).nodup_iff.2 (by decide +kernel)
  rw [List.Nodup, List.pairwise_map] at hn
  refine (hs.and hn).imp ?_
  rintro a b ⟨h1, h2⟩
  simp only [Cli.lessCode, Str.lt, decide_eq_false_iff_not, List.not_lt] at h1
  rcases List.le_iff_lt_or_eq.1 h1 with h | h
  · exact h
  · exact absurd h h2

/-- The shared list of categories is in order, if there are items that are not in the trash. -/
def InOrder (sess : Session) : Prop :=
  sess.countItems none false ≠ 0 → sess.reg.Pairwise (fun a b => Cli.lessCode b a = false)

theorem sortCats_held (sess : Session) : held (sortCats C sess) = held sess ∧
    ∀ c t, (sortCats C sess).countItems c t = sess.countItems c t := by
  unfold sortCats
  split <;> exact ⟨rfl, fun _ _ => rfl⟩

theorem sortCats_inOrder (sess : Session) : InOrder (sortCats C sess) := by
  intro h
  rw [(sortCats_held C sess).2] at h
  unfold sortCats
  rw [if_pos h]
  exact C.sorter.sorted _ _ Cli.lessCode_weak

theorem menu_isMenu {E : Env} {sess : Session} (hr : Session.Reachable E sess) (ho : InOrder sess) :
    IsMenu (held sess) (menuOf sess) := by
  obtain ⟨c1, c2, c3⟩ := count_of sess
  have a1 : sess.countItems none false ≠ 0 ↔ ∃ i ∈ held sess, i.trashed = false := by
    rw [c1, of_ne_zero]; rfl
  have a2 : sess.countItems none true ≠ 0 ↔ ∃ i ∈ held sess, i.trashed = true := by
    rw [c3, of_ne_zero]; rfl
  by_cases hact : ∃ i ∈ held sess, i.trashed = false
  · refine ⟨usedCats sess, ?_, ?_, ?_⟩
    · exact (sorted_strict hr.inv.reg (ho (a1.2 hact))).sublist List.filter_sublist
    · intro c
      unfold usedCats
      rw [List.mem_filter, decide_eq_true_iff, c2, of_ne_zero]
      refine ⟨fun h => h.2, fun h => ⟨?_, h⟩⟩
      obtain ⟨i, hi, -, rfl⟩ := h
      unfold held at hi
      cases hs : sess.items with
      | none => simp [hs] at hi
      | some l =>
        rw [hs] at hi
        exact hr.inv.reg.mem_iff.2 (hr.inv.cats l hs i hi)
    · unfold menuOf
      simp only [a1, a2]
  · refine ⟨[], .nil, ?_, ?_⟩
    · intro c
      simp only [List.not_mem_nil, false_iff]
      rintro ⟨i, hi, h1, -⟩
      exact hact ⟨i, hi, h1⟩
    · unfold menuOf
      simp only [a1, a2, hact, if_false]

/-- The items determine the menu. -/
theorem isMenu_unique {l l' : List Item} (hp : l.Perm l') {m m' : List Entry} (h : IsMenu l m) (h' : IsMenu l' m') : m = m' := by
  obtain ⟨cs, h1, h2, rfl⟩ := h
  obtain ⟨cs', h1', h2', rfl⟩ := h'
  have hc : cs = cs' := by
    have n1 : cs.Nodup := h1.imp (fun h he => by rw [he] at h; exact List.lt_irrefl _ h)
    have n2 : cs'.Nodup := h1'.imp (fun h he => by rw [he] at h; exact List.lt_irrefl _ h)
    have hpc : cs.Perm cs' := by
      rw [List.perm_ext_iff_of_nodup n1 n2]
      intro c
      rw [h2, h2']
      simp only [hp.mem_iff]
    exact hpc.eq_of_pairwise (le := fun a b => a.code < b.code)
      (fun a b _ _ hab hba => absurd (List.lt_trans hab hba) (List.lt_irrefl _)) h1 h1'
  subst hc
  simp only [hp.mem_iff]

theorem natDec_oneLine (n : Nat) : OneLine (Num.natDec n) := by
  intro b hb
  have := Num.natDec_digits n b hb
  revert this
  revert b
  have : ∀ b : UInt8, Str.isDigitA b = true → b ≠ 10 ∧ b ≠ 13 := by decide +kernel
  intro b _ h
  exact this b h

theorem oneLine_append {a b : Bytes} : OneLine (a ++ b) ↔ OneLine a ∧ OneLine b := by
  unfold OneLine
  simp only [List.mem_append]
  exact ⟨fun h => ⟨fun c hc => h c (.inl hc), fun c hc => h c (.inr hc)⟩, fun h c hc => hc.elim (h.1 c) (h.2 c)⟩

/-- Entries of a menu: their names are the fixed ones or those of known categories. -/
def Known (e : Entry) : Prop := ∀ c, e = .cat c → c ∈ Cat.values

theorem name_ok {e : Entry} (h : Known e) : OneLine e.name ∧ e.name.head? ≠ some 32 ∧ e.name ≠ [] := by
  cases e with
  | all => decide +kernel
  | trash => decide +kernel
  | cat c =>
    have hc := h c rfl
    simp only [Entry.name]
    revert hc
    revert c
    have : ∀ c ∈ Cat.values, OneLine c.name ∧ c.name.head? ≠ some 32 ∧ c.name ≠ [] := by decide +kernel
    intro c _ hc
    exact this c hc

theorem text_ok {e : Entry} (h : Known e) (l : List Item) :
    OneLine (e.text l) ∧ (e.text l).head? ≠ some 32 ∧ (e.text l).getLast? ≠ some 32 ∧ e.text l ≠ [] := by
  obtain ⟨h1, h2, h3⟩ := name_ok h
  refine ⟨?_, ?_, ?_, ?_⟩
  · unfold Entry.text
    simp only [oneLine_append]
    exact ⟨⟨⟨h1, by decide +kernel⟩, natDec_oneLine _⟩, by decide +kernel⟩
  · unfold Entry.text
    cases hn : e.name with
    | nil => exact absurd hn h3
    | cons b t =>
      rw [hn] at h2
      simpa using h2
  · unfold Entry.text
    rw [List.getLast?_append]
    simp
  · unfold Entry.text
    simp [h3]

theorem center_ok {e : Entry} (h : Known e) (l : List Item) (n : Int) :
    Padded (e.text l) (K.center (e.text l) n) ∧ OneLine (K.center (e.text l) n) ∧ K.center (e.text l) n ≠ [] := by
  obtain ⟨h1, h2, h3, h4⟩ := text_ok h l
  obtain ⟨a, b, hab⟩ := K.center_pad (e.text l) n h2 h3
  refine ⟨⟨a, b, hab⟩, ?_, ?_⟩
  · rw [hab, oneLine_append, oneLine_append]
    have hr : ∀ n, OneLine (List.replicate n 32) := by
      intro n b hb
      rw [List.eq_of_mem_replicate hb]
      decide
    exact ⟨⟨hr a, h1⟩, hr b⟩
  · rw [hab]
    simp [h4]

theorem menuOf_known {E : Env} {sess : Session} (hr : Session.Reachable E sess) : ∀ e ∈ menuOf sess, Known e := by
  intro e he c hc
  subst hc
  unfold menuOf usedCats at he
  rw [List.mem_append] at he
  rcases he with he | he
  · split at he
    · simp only [List.mem_cons, List.mem_map, List.mem_filter, reduceCtorEq, false_or, Entry.cat.injEq] at he
      obtain ⟨c', ⟨h1, _⟩, rfl⟩ := he
      exact hr.inv.reg.mem_iff.1 h1
    · simp at he
  · split at he <;> simp at he

/-- How the menu is drawn on a terminal of this width. -/
def drawn (width : Int) (items : List Item) (m : List Entry) : List Bytes :=
  m.map (fun e => K.center (e.text items) (width - 1))

/-- What is on the screen after the last entry: the menu ends with a newline unless it ends with Trashed. -/
def tail (m : List Entry) : List Bytes := if m = [] ∨ .trash ∈ m then [] else [[]]

theorem menu_lines {E : Env} {sess : Session} (hr : Session.Reachable E sess) (X : Int) :
    textLines (menuText K X sess) = drawn K X (held sess) (menuOf sess) ++ tail (menuOf sess) := by
  obtain ⟨c1, c2, c3⟩ := count_of sess
  have hk := menuOf_known hr
  have row : ∀ e ∈ menuOf sess, OneLine (K.center (e.text (held sess)) (X - 1)) ∧ K.center (e.text (held sess)) (X - 1) ≠ [] :=
    fun e he => (center_ok K (hk e he) (held sess) (X - 1)).2
  have lab : ∀ e : Entry, ∀ n, n = (e.of (held sess)).length → label e.name n = e.text (held sess) := by
    rintro e n rfl
    rfl
  by_cases ha : sess.countItems none false ≠ 0
  · have hrows : menuText K X sess = (((Entry.all :: (usedCats sess).map .cat).map
        (fun e => K.center (e.text (held sess)) (X - 1))).flatMap (fun l => l ++ [10])) ++
        (if sess.countItems none true ≠ 0 then K.center (Entry.trash.text (held sess)) (X - 1) else []) := by
      unfold menuText
      simp only [ha, not_false_eq_true, if_true, ne_eq]
      have e1 : label b!"All" (sess.countItems none false) = Entry.all.text (held sess) := lab .all _ c1
      have e2 : ∀ c, label c.name (sess.countItems (some c) false) = (Entry.cat c).text (held sess) := fun c => lab (.cat c) _ (c2 c)
      have e3 : label b!"Trashed" (sess.countItems none true) = Entry.trash.text (held sess) := lab .trash _ c3
      simp only [e1, e2, e3, List.map_cons, List.map_map, List.flatMap_cons, List.flatMap_map, Function.comp_def]
    rw [hrows]
    have hmem : ∀ l ∈ (Entry.all :: (usedCats sess).map Entry.cat).map (fun e => K.center (e.text (held sess)) (X - 1)),
        OneLine l ∧ l ≠ [] := by
      intro l hl
      rw [List.mem_map] at hl
      obtain ⟨e, he, rfl⟩ := hl
      exact row e (by unfold menuOf; simp only [ha, not_false_eq_true, if_true, ne_eq]; exact List.mem_append_left _ he)
    by_cases ht : sess.countItems none true ≠ 0
    · have htr := row .trash (by unfold menuOf; simp [ht])
      simp only [ht, not_false_eq_true, if_true, ne_eq]
      rw [lines_last _ _ hmem htr.1 htr.2]
      simp [menuOf, ha, ht, drawn, tail]
    · simp only [ht, if_false, List.append_nil]
      rw [lines_rows _ hmem (by simp)]
      simp [menuOf, ha, ht, drawn, tail]
  · by_cases ht : sess.countItems none true ≠ 0
    · have htr := row .trash (by unfold menuOf; simp [ht])
      have e3 : label b!"Trashed" (sess.countItems none true) = Entry.trash.text (held sess) := lab .trash _ c3
      unfold menuText
      simp only [ha, if_false, ht, not_false_eq_true, if_true, ne_eq, List.nil_append, e3]
      rw [textLines, put_first _ htr.1 htr.2]
      simp [menuOf, ha, ht, drawn, tail]
    · simp [menuText, ha, ht, menuOf, drawn, tail, textLines]

/-- What is kept while the vault is open. -/
structure MenuKept (s : St) : Prop where
  order : s.world.sess.isUnlocked = true → InOrder s.world.sess
  lines : s.world.sess.isUnlocked = true → ∃ v X, s.views .menu = some v ∧ v.lines = textLines (menuText K X s.world.sess)

theorem menuKept_same {s t : St} (h : MenuKept K s) (hs : t.world.sess = s.world.sess)
    (hl : ∀ v, s.views .menu = some v → ∃ v', t.views .menu = some v' ∧ v'.lines = v.lines) : MenuKept K t := by
  refine ⟨by rw [hs]; exact h.order, fun hu => ?_⟩
  rw [hs] at hu ⊢
  obtain ⟨v, X, h1, h2⟩ := h.lines hu
  obtain ⟨v', h3, h4⟩ := hl v h1
  exact ⟨v', X, h3, h4.trans h2⟩

theorem menuKept_locked {s : St} (h : s.world.sess.isUnlocked = false) : MenuKept K s :=
  ⟨fun hu => (by rw [h] at hu; cases hu), fun hu => (by rw [h] at hu; cases hu)⟩

theorem down_lines (v : View) : v.down.lines = v.lines := by unfold View.down; split <;> rfl
theorem up_lines (v : View) : v.up.lines = v.lines := by unfold View.up; split <;> rfl

theorem Trans.menuKept {s t : St} {e : Event} (h : Trans C K s e t) (hk : MenuKept K s) : MenuKept K t := by
  cases h with
  | ignored k hk' => exact hk
  | typed k hk' v h hv => exact menuKept_same K hk rfl (fun u hu => ⟨u, by simpa [setAt] using hu, rfl⟩)
  | refused v e sess h hv hu =>
    obtain ⟨rfl, rfl⟩ := locked_of_error hu
    exact menuKept_same K hk rfl (fun u hu => ⟨u, by simpa [setAt] using hu, rfl⟩)
  | accepted v vm sess h hv hm hu =>
    refine ⟨fun _ => sortCats_inOrder C sess, fun _ => ⟨_, s.maxX, rfl, ?_⟩⟩
    show (menuText K s.maxX (sortCats C sess)).foldl View.putByte vm.lines = _
    rw [(h.empty vm hm).1]
    rfl
  | closeError v h hv => exact menuKept_same K hk rfl (fun u hu => ⟨u, by simpa [setAt] using hu, rfl⟩)
  | menuDown k hk' i v h hv hi hl =>
    refine menuKept_same K hk rfl (fun u hu => ⟨v.down, by simp, ?_⟩)
    rw [hv] at hu
    cases hu
    exact down_lines v
  | menuUp k hk' i v h hv hi =>
    refine menuKept_same K hk rfl (fun u hu => ⟨v.up, by simp, ?_⟩)
    rw [hv] at hu
    cases hu
    exact up_lines v
  | openEntry k hk' vh l h hh hx hy hm hl =>
    exact menuKept_same K hk rfl (fun u hu => ⟨u, by simpa [openedSt, setAt] using hu, rfl⟩)
  | lockMenu v vh h hv hh => exact menuKept_locked K rfl
  | itemsDown k hk' i v vi h hv hvi hi hl => exact menuKept_same K hk rfl (fun u hu => ⟨u, by simpa [setAt] using hu, rfl⟩)
  | itemsUp k hk' i v vi h hv hvi hi hl => exact menuKept_same K hk rfl (fun u hu => ⟨u, by simpa [setAt] using hu, rfl⟩)
  | back k hk' o h => exact menuKept_same K hk rfl (fun u hu => ⟨u, by simpa [closed, setAt] using hu, rfl⟩)
  | reveal i v vh h hv hh hi hl => exact menuKept_same K hk rfl (fun u hu => ⟨u, by simpa [setAt] using hu, rfl⟩)
  | lockItems o vm vh h hm hh => exact menuKept_locked K rfl
  | scroll k hk' v x y h hv => exact menuKept_same K hk rfl (fun u hu => ⟨u, by simpa [setAt] using hu, rfl⟩)
  | cover v vh h hv hh => exact menuKept_same K hk rfl (fun u hu => ⟨u, by simpa [setAt] using hu, rfl⟩)
  | flush x y vv vh vm hx hy hv hh hm =>
    refine menuKept_same K hk rfl (fun u hu => ⟨(moved vm 0 3 (x - 1) (y - 4)).draw, by simp [placed, setAt], ?_⟩)
    rw [hm] at hu
    cases hu
    rfl
  | idle h => exact hk
  | checked v r w hp hv hr =>
    exact menuKept_same K hk (check_sess C hr).1 (fun u hu => ⟨u, by simpa [checkedSt, setAt] using hu, rfl⟩)
  | disk d => exact menuKept_same K hk rfl (fun u hu => ⟨u, hu, rfl⟩)

theorem Steps.menuKept {s t : St} {es : List Event} (h : Steps C K s es t) (hk : MenuKept K s) : MenuKept K t := by
  induction h with
  | nil => exact hk
  | snoc _ _ ht ih => exact ht.menuKept C K ih

theorem Live.menuKept {vault : Bytes} {w : World} {x y : Nat} {es : List Event} {s : St} (h : Live C K vault w x y es s) :
    MenuKept K s := (h.steps C K).2.2.menuKept C K (menuKept_locked K h.locked)

theorem opened_of {s : St} (hI : Inv s) (hu : s.world.sess.isUnlocked = true) : Opened s := by
  cases hI.screen with
  | prompt ha => rw [ha.locked] at hu; cases hu
  | error ha => rw [ha.locked] at hu; cases hu
  | menu ha => exact ha.toOpened
  | items ha => exact ha.toOpened
  | details ha => exact ha.toOpened

/-- The category of an entry, as the menu remembers it. -/
def Entry.toCat : Entry → Option Cat
  | .cat c => some c
  | _ => none

theorem menuCats_eq (sess : Session) : menuCats sess = (menuOf sess).map Entry.toCat := by
  unfold menuCats menuOf
  by_cases h1 : sess.countItems none false ≠ 0 <;> by_cases h2 : sess.countItems none true ≠ 0 <;>
    simp [h1, h2, Entry.toCat, Function.comp_def]

theorem menuOf_of {items : List Item} {m : List Entry} {E : Env} {sess : Session} (hr : Session.Reachable E sess)
    (ho : InOrder sess) (hp : items.Perm (held sess)) (hm : IsMenu items m) : m = menuOf sess :=
  isMenu_unique hp hm (menu_isMenu hr ho)

/-- C74: while the vault is open, the menu has one line per entry, in the order the specification says, each with its name and
the number of its items; nothing follows but possibly one empty line. The cursor moves over exactly these entries. -/
theorem C74_menu (vault : Bytes) (w : World) (x y : Nat) (es : List Event) (s : St) (h : Live C K vault w x y es s)
    (hu : s.world.sess.isUnlocked = true) :
    ∃ m v ls rest, IsMenu (held s.world.sess) m ∧ s.views .menu = some v ∧ v.lines = ls ++ rest ∧ (rest = [] ∨ rest = [[]]) ∧
      List.Forall₂ (fun (e : Entry) l => Padded (e.text (held s.world.sess)) l) m ls ∧
      s.cats.length = m.length ∧ ((s.menuIdx = -1 ∧ m = []) ∨ (0 ≤ s.menuIdx ∧ s.menuIdx < m.length)) := by
  have hr := h.session C K
  have hk := h.menuKept C K
  have ho := opened_of (h.inv C K) hu
  obtain ⟨v, X, h1, h2⟩ := hk.lines hu
  have hlen : s.cats.length = (menuOf s.world.sess).length := by rw [ho.cats, menuCats_eq, List.length_map]
  refine ⟨menuOf s.world.sess, v, _, _, menu_isMenu hr (hk.order hu), h1, h2.trans (menu_lines K hr X), ?_, ?_, hlen, ?_⟩
  · unfold tail
    split
    · exact .inl rfl
    · exact .inr rfl
  · unfold drawn
    have hkn := menuOf_known hr
    generalize menuOf s.world.sess = m at hkn
    induction m with
    | nil => exact .nil
    | cons e m ih =>
      exact .cons (center_ok K (hkn e (by simp)) _ _).1 (ih (fun e he => hkn e (by simp [he])))
  · rw [← hlen]
    rcases ho.idx with ⟨h3, h4⟩ | h3
    · left
      rw [h4] at hlen
      exact ⟨h3, List.length_eq_zero_iff.1 hlen.symm⟩
    · exact .inr h3

/-- C74: whenever the vault is opened, the menu is drawn from the items now held, for the current width of the terminal: the
same items on terminals of the same width give the same menu, in any run and after any history. -/
theorem C74_rebuilt (vault vault' : Bytes) (w w' : World) (x y x' y' : Nat) (es es' : List Event) (s t s' t' : St) (e e' : Event)
    (h : Live C K vault w x y es s) (h' : Live C K vault' w' x' y' es' s')
    (hs : step C K e s = (.ok (), t)) (hs' : step C K e' s' = (.ok (), t'))
    (hl : s.world.sess.isUnlocked = false) (hl' : s'.world.sess.isUnlocked = false)
    (hu : t.world.sess.isUnlocked = true) (hu' : t'.world.sess.isUnlocked = true)
    (hw : s.maxX = s'.maxX) (hp : (held t.world.sess).Perm (held t'.world.sess)) :
    ∃ v v', t.views .menu = some v ∧ t'.views .menu = some v' ∧ v.lines = v'.lines ∧ t.cats = t'.cats ∧ t.menuIdx = t'.menuIdx := by
  have one : ∀ {vault : Bytes} {w : World} {x y : Nat} {es : List Event} {s t : St} {e : Event}, Live C K vault w x y es s →
      step C K e s = (.ok (), t) → s.world.sess.isUnlocked = false → t.world.sess.isUnlocked = true →
      IsMenu (held t.world.sess) (menuOf t.world.sess) ∧ t.cats = (menuOf t.world.sess).map Entry.toCat ∧
      t.menuIdx = (if menuOf t.world.sess = [] then -1 else 0) ∧
      ∃ v, t.views .menu = some v ∧
        v.lines = drawn K s.maxX (held t.world.sess) (menuOf t.world.sess) ++ tail (menuOf t.world.sess) := by
    intro vault w x y es s t e h hs hl hu
    obtain ⟨ht, hI⟩ := inv_step C K (h.inv C K) hs
    have hr := ht.reach C K (h.session C K)
    have hk := ht.menuKept C K (h.menuKept C K)
    have ho := opened_of hI hu
    refine ⟨menu_isMenu hr (hk.order hu), by rw [ho.cats, menuCats_eq], ?_⟩
    cases ht with
    | accepted v vm sess ha hv hm hat =>
      have hcl : (s.cats ++ menuCats (sortCats C sess)).length > 0 ↔ menuOf (sortCats C sess) ≠ [] := by
        rw [ha.cats, List.nil_append, menuCats_eq, List.length_map]
        exact List.length_pos_iff
      refine ⟨?_, _, rfl, ?_⟩
      · show (if (s.cats ++ menuCats (sortCats C sess)).length > 0 then 0 else s.menuIdx) =
          (if menuOf (sortCats C sess) = [] then (-1 : Int) else 0)
        rw [ha.idx]
        by_cases h0 : menuOf (sortCats C sess) = []
        · have : ¬ (s.cats ++ menuCats (sortCats C sess)).length > 0 := by rw [hcl]; simp [h0]
          simp only [this, h0, if_true, if_false]
        · have : (s.cats ++ menuCats (sortCats C sess)).length > 0 := by rw [hcl]; exact h0
          simp only [this, h0, if_true, if_false]
      · show (menuText K s.maxX (sortCats C sess)).foldl View.putByte vm.lines = _
        rw [(ha.empty vm hm).1]
        exact menu_lines K hr s.maxX
    | refused v e sess ha hv hat =>
      obtain ⟨rfl, rfl⟩ := locked_of_error hat
      have hu2 : s.world.sess.isUnlocked = true := hu
      rw [hl] at hu2
      cases hu2
    | lockMenu => cases hu
    | lockItems => cases hu
    | checked v r w hp hv hr' =>
      have hss : (checkedSt s v r w).world.sess = s.world.sess := (check_sess C hr').1
      rw [hss, hl] at hu
      cases hu
    | _ =>
      have hu2 : s.world.sess.isUnlocked = true := hu
      rw [hl] at hu2
      cases hu2
  obtain ⟨a1, a2, a3, v, a4, a5⟩ := one h hs hl hu
  obtain ⟨b1, b2, b3, v', b4, b5⟩ := one h' hs' hl' hu'
  have hm : menuOf t.world.sess = menuOf t'.world.sess := isMenu_unique hp a1 b1
  refine ⟨v, v', a4, b4, ?_, by rw [a2, b2, hm], by rw [a3, b3, hm]⟩
  rw [a5, b5, hm, hw]
  congr 1
  unfold drawn Entry.text
  refine List.map_congr_left (fun e _ => ?_)
  have : (e.of (held t.world.sess)).length = (e.of (held t'.world.sess)).length := (hp.filter _).length_eq
  rw [this]

/-- C74: what is written is on the screen after the next drawing. -/
theorem C74_on_screen (vault : Bytes) (w : World) (x y : Nat) (es : List Event) (s t : St) (a b : Nat)
    (h : Live C K vault w x y es s) (hs : step C K (.flush a b) s = (.ok (), t)) (v : View) (hv : s.views .menu = some v) :
    ∃ v', t.views .menu = some v' ∧ v'.lines = v.lines ∧ v'.shown = v.lines ∧ v'.cx = v.cx ∧ v'.cy = v.cy ∧ v'.ox = v.ox ∧
      v'.oy = v.oy := by
  obtain ⟨ht, -⟩ := inv_step C K (h.inv C K) hs
  cases ht with
  | flush a b vv vh vm hx hy hvv hh hm =>
    rw [hv] at hm
    cases hm
    exact ⟨(moved v 0 3 (a - 1) (b - 4)).draw, by simp [placed, setAt], rfl, rfl, rfl, rfl, rfl, rfl⟩

/-! ### C70 -/

/-- The keys that open an entry. -/
def Opens (k : Key) : Prop := k.isChar 'l' ∨ k = .right ∨ k = .enter

/-- Where the entries of a menu are. -/
theorem menu_place {l : List Item} {m : List Entry} (h : IsMenu l m) {k : Nat} {e : Entry} (hk : m[k]? = some e) :
    (e = .all ∧ k = 0 ∧ 2 ≤ m.length) ∨ (∃ c, e = .cat c ∧ 0 < k) ∨ (e = .trash ∧ k + 1 = m.length) := by
  obtain ⟨cs, h1, h2, rfl⟩ := h
  by_cases ha : ∃ i ∈ l, i.trashed = false
  · obtain ⟨i, hi, hit⟩ := ha
    have hcs : cs ≠ [] := List.ne_nil_of_mem ((h2 i.category).2 ⟨i, hi, hit, rfl⟩)
    have hlen : 0 < cs.length := List.length_pos_of_ne_nil hcs
    simp only [show (∃ i ∈ l, i.trashed = false) from ⟨i, hi, hit⟩, if_true] at hk ⊢
    rw [List.cons_append] at hk
    cases k with
    | zero =>
      left
      simp only [List.getElem?_cons_zero, Option.some.injEq] at hk
      refine ⟨hk.symm, rfl, ?_⟩
      simp
      omega
    | succ k =>
      right
      rw [List.getElem?_cons_succ] at hk
      by_cases hc : k < cs.length
      · rw [List.getElem?_append_left (by simpa using hc), List.getElem?_map] at hk
        left
        rw [List.getElem?_eq_getElem hc, Option.map_some, Option.some.injEq] at hk
        exact ⟨_, hk.symm, by omega⟩
      · right
        rw [List.getElem?_append_right (by simpa using hc)] at hk
        split at hk
        · rename_i ht
          have hz : k - (cs.map Entry.cat).length = 0 := by
            by_contra hne
            rw [List.getElem?_eq_none (by simp at hne ⊢; omega)] at hk
            cases hk
          rw [hz] at hk
          simp only [List.getElem?_cons_zero, Option.some.injEq] at hk
          refine ⟨hk.symm, ?_⟩
          simp [ht] at hz ⊢
          omega
        · simp at hk
  · simp only [ha, if_false, List.nil_append] at hk ⊢
    split at hk
    · rename_i ht
      cases k with
      | zero =>
        simp only [List.getElem?_cons_zero, Option.some.injEq] at hk
        exact .inr (.inr ⟨hk.symm, by simp [ht]⟩)
      | succ k => simp at hk
    · simp at hk

theorem menu_last {l : List Item} {m : List Entry} (h : IsMenu l m) (ht : ∃ i ∈ l, i.trashed = true) {k : Nat} {e : Entry}
    (hk : m[k]? = some e) (hl : k + 1 = m.length) : e = .trash := by
  obtain ⟨cs, h1, h2, rfl⟩ := h
  simp only [ht, if_true] at hk hl
  rw [List.length_append, List.length_singleton] at hl
  rw [List.getElem?_append_right (by omega), show k - _ = 0 by omega] at hk
  simpa using hk.symm

/-- What `GetItems` gives for an entry. -/
theorem get_of (T : Text) (S : Sorter) (sess : Session) (e : Entry) :
    (sess.getItems T S (Entry.toCat e) [] (decide (e = .trash))).Perm ((e.of (held sess)).map summary) := by
  refine (C32_list_is_filter T S sess _ [] _).trans ?_
  refine List.Perm.of_eq ?_
  congr 1
  unfold Entry.of
  refine List.filter_congr (fun i _ => decide_eq_decide.2 ?_)
  unfold Wanted Entry.Holds
  cases e <;> simp [Entry.toCat, Str.toLower, Str.isAscii]

/-- The entry the menu stands at. -/
def Selected (s : St) (m : List Entry) (e : Entry) : Prop := 0 ≤ s.menuIdx ∧ m[s.menuIdx.toNat]? = some e

theorem entryItems_of {s : St} (hr : Session.Reachable C.env s.world.sess) (ho : Opened s) (hi : InOrder s.world.sess)
    {m : List Entry} {e : Entry} (hm : IsMenu (held s.world.sess) m) (he : Selected s m e) :
    entryItems C s = some (s.world.sess.getItems C.env.text C.sorter
      (if s.menuIdx.toNat + 1 = m.length then none else (Entry.toCat e)) [] (decide (s.menuIdx.toNat + 1 = m.length))) := by
  obtain ⟨h0, hk⟩ := he
  have hcats : s.cats = m.map Entry.toCat := by
    rw [ho.cats, menuCats_eq, menuOf_of hr hi (.refl _) hm]
  have hlen : s.cats.length = m.length := by rw [hcats, List.length_map]
  have hlt : s.menuIdx.toNat < m.length := (List.getElem?_eq_some_iff.1 hk).1
  have hcat : s.cats[s.menuIdx.toNat]? = some (Entry.toCat e) := by rw [hcats, List.getElem?_map, hk]; rfl
  unfold entryItems
  simp only []
  by_cases hl : s.menuIdx.toNat + 1 = m.length
  · by_cases h1 : s.cats.length = 1
    · simp [h1, hl]
    · simp only [h1, hl, if_false, show s.menuIdx = (s.cats.length : Int) - 1 by omega, if_true, decide_true]
      rw [show ((s.cats.length : Int) - 1).toNat + 1 = m.length by omega]
      simp
  · have h1 : ¬ s.cats.length = 1 := by omega
    have h2 : ¬ s.menuIdx = (s.cats.length : Int) - 1 := by omega
    simp only [h1, h2, hl, if_false]
    by_cases h3 : s.menuIdx = 0
    · simp only [h3, if_true]
      rw [h3] at hk
      rcases menu_place hm hk with ⟨rfl, _⟩ | ⟨c, rfl, h⟩ | ⟨rfl, h⟩
      · rfl
      · simp at h
      · rw [h3] at hl; exact absurd h hl
    · simp only [h3, if_false, show ¬ s.menuIdx < 0 by omega, hcat, Option.map_some]
      simp

/-- The title shown for an item. -/
def shownTitle (t : Bytes) : Bytes := if t = [] then b!"<NO TITLE>" else t

theorem itemRow_eq (i : SimpleItem) : itemRow i = shownTitle i.title ++ [10] := rfl

theorem shownTitle_ne (t : Bytes) : shownTitle t ≠ [] := by
  unfold shownTitle
  split
  · decide
  · assumption

theorem shownTitle_oneLine {t : Bytes} (h : OneLine t) : OneLine (shownTitle t) := by
  unfold shownTitle
  split
  · decide +kernel
  · exact h

theorem rows_lines (v : View) (l : List SimpleItem) (hl : l ≠ []) (h : ∀ i ∈ l, OneLine i.title) :
    (rows v l).lines = l.map (fun i => shownTitle i.title) ++ [[]] := by
  unfold rows
  simp only [hl, if_false]
  show textLines (l.flatMap itemRow) = _
  rw [show l.flatMap itemRow = (l.map (fun i => shownTitle i.title)).flatMap (fun t => t ++ [10]) by
    rw [List.flatMap_map]; rfl]
  refine lines_rows _ ?_ (by simpa using hl)
  intro t ht
  rw [List.mem_map] at ht
  obtain ⟨i, hi, rfl⟩ := ht
  exact ⟨shownTitle_oneLine (h i hi), shownTitle_ne _⟩

theorem opening_step {s t : St} {k : Key} (hI : Inv s) (hs : step C K (.key k) s = (.ok (), t)) (hc : s.cur = some (.live .menu))
    (hk : Opens k) (hm : s.menuIdx ≠ -1) :
    ∃ vh l, AtMenu s ∧ 6 ≤ s.maxX ∧ 10 ≤ s.maxY ∧ entryItems C s = some l ∧ t = openedSt C s vh l := by
  obtain ⟨ht, -⟩ := inv_step C K hI hs
  generalize he : Event.key k = e at ht
  have nk : ∀ {k : Key} {c : Char}, k.isChar c = true ↔ k = .ch c.toNat := isChar_iff
  unfold Opens at hk
  cases ht with
  | openEntry k' hk' vh l h hh hx hy hm' hl => exact ⟨vh, l, h, hx, hy, hl, rfl⟩
  | ignored k' hid =>
    cases he
    obtain ⟨_, ⟨h, _⟩ | ⟨h, _, _, _, h'⟩ | ⟨h, _⟩ | ⟨h, _⟩⟩ := hid
    · rw [h] at hc; cases hc
    · exact absurd (h' hk) hm
    · rw [h] at hc; cases hc
    · rw [h] at hc; cases hc
  | menuDown k' hk' =>
    cases he
    simp only [nk] at hk hk'
    rcases hk' with rfl | rfl <;> simp at hk
  | menuUp k' hk' =>
    cases he
    simp only [nk] at hk hk'
    rcases hk' with rfl | rfl <;> simp at hk
  | lockMenu =>
    cases he
    simp [nk] at hk
  | lockItems =>
    cases he
    simp [nk] at hk
  | typed k hk v h => rw [h.cur] at hc; simp at hc
  | refused v e sess h => rw [h.cur] at hc; simp at hc
  | accepted v vm sess h => rw [h.cur] at hc; simp at hc
  | closeError v h => rw [h.cur] at hc; simp at hc
  | itemsDown k hk i v vi h => rw [h.cur] at hc; simp at hc
  | itemsUp k hk i v vi h => rw [h.cur] at hc; simp at hc
  | back k hk o h => rw [h.cur] at hc; simp at hc
  | reveal i v vh h => rw [h.cur] at hc; simp at hc
  | scroll k hk v x y h => rw [h.cur] at hc; simp at hc
  | cover v vh h => rw [h.cur] at hc; simp at hc
  | flush => cases he
  | idle => cases he
  | checked => cases he
  | disk => cases he

/-- C70, for every entry but the last one of a menu without Trashed: opening it lists exactly the items it stands for, as many as
its text says, sorted, one row each, and selects the first. -/
theorem C70_lists_partial (vault : Bytes) (w : World) (x y : Nat) (es : List Event) (s t : St) (k : Key)
    (h : Live C K vault w x y es s) (hc : s.cur = some (.live .menu)) (hk : Opens k) (hs : step C K (.key k) s = (.ok (), t))
    (m : List Entry) (e : Entry) (hm : IsMenu (held s.world.sess) m) (he : Selected s m e)
    (hlast : s.menuIdx + 1 < m.length ∨ ∃ i ∈ held s.world.sess, i.trashed = true) :
    t.cur = some (.live .items) ∧ t.items.Perm ((e.of (held s.world.sess)).map summary) ∧
      t.items.length = (e.of (held s.world.sess)).length ∧ t.items ≠ [] ∧ t.itemIdx = 0 ∧
      t.items.Pairwise (fun a b =>
        a.category.code < b.category.code ∨ (a.category.code = b.category.code ∧ a.title ≤ b.title)) ∧
      ((∀ i ∈ e.of (held s.world.sess), OneLine i.title) →
        ∃ v, t.views .items = some v ∧ v.lines = t.items.map (fun i => shownTitle i.title) ++ [[]]) := by
  have hI := h.inv C K
  have hr := h.session C K
  obtain ⟨h0, hk'⟩ := he
  have hm1 : s.menuIdx ≠ -1 := by omega
  obtain ⟨vh, l, ha, hx, hy, hl, rfl⟩ := opening_step C K hI hs hc hk hm1
  have hlt : s.menuIdx.toNat < m.length := (List.getElem?_eq_some_iff.1 hk').1
  have ho := (h.menuKept C K).order ha.unlocked
  rw [entryItems_of C hr ha.toOpened ho hm ⟨h0, hk'⟩, Option.some.injEq] at hl
  have htr : s.menuIdx.toNat + 1 = m.length ↔ e = .trash := by
    constructor
    · intro hlen
      rcases hlast with hlast | hlast
      · omega
      · exact menu_last hm hlast hk' hlen
    · rintro rfl
      rcases menu_place hm hk' with ⟨h, _⟩ | ⟨c, h, _⟩ | ⟨_, h⟩
      · cases h
      · cases h
      · exact h
  have hl' : s.world.sess.getItems C.env.text C.sorter (Entry.toCat e) [] (decide (e = .trash)) = l := by
    rw [← hl]
    by_cases h : e = .trash
    · simp only [htr.2 h, h, if_true]
      rfl
    · simp only [show ¬ s.menuIdx.toNat + 1 = m.length from fun hh => h (htr.1 hh), h, if_false]
  have hp : l.Perm ((e.of (held s.world.sess)).map summary) := by
    rw [← hl']
    exact get_of _ _ _ _
  have hlen : l.length = (e.of (held s.world.sess)).length := by rw [hp.length_eq, List.length_map]
  have hne : (e.of (held s.world.sess)).length ≠ 0 := by
    have hmem : e ∈ m := List.mem_of_getElem? hk'
    obtain ⟨cs, h1, h2, rfl⟩ := hm
    rw [of_ne_zero]
    rw [List.mem_append] at hmem
    rcases hmem with hmem | hmem
    · split at hmem
      · rename_i hact
        rw [List.mem_cons] at hmem
        rcases hmem with rfl | hmem
        · exact hact
        · rw [List.mem_map] at hmem
          obtain ⟨c, hc, rfl⟩ := hmem
          exact (h2 c).1 hc
      · simp at hmem
    · split at hmem
      · rename_i ht
        simp only [List.mem_singleton] at hmem
        subst hmem
        exact ht
      · simp at hmem
  have hne' : l ≠ [] := by
    intro h
    rw [h] at hlen
    exact hne hlen.symm
  refine ⟨rfl, hp, hlen, hne', ?_, ?_, ?_⟩
  · simp [openedSt, hne']
  · show l.Pairwise _
    rw [← hl']
    exact C33_sorted _ _ _ _ _ _
  · intro hone
    refine ⟨rows (newItems s) l, by simp [openedSt, setAt], rows_lines _ _ hne' ?_⟩
    intro i hi
    rw [hp.mem_iff, List.mem_map] at hi
    obtain ⟨j, hj, rfl⟩ := hi
    exact hone j hj

/-- C70 is false: in a vault with items but an empty trash, the last entry of the menu, a category, opens an empty list. -/
theorem C70_last_entry (vault : Bytes) (w : World) (x y : Nat) (es : List Event) (s t : St) (k : Key)
    (h : Live C K vault w x y es s) (hc : s.cur = some (.live .menu)) (hk : Opens k) (hs : step C K (.key k) s = (.ok (), t))
    (m : List Entry) (e : Entry) (hm : IsMenu (held s.world.sess) m) (he : Selected s m e) (hlast : s.menuIdx + 1 = m.length)
    (hnone : ∀ i ∈ held s.world.sess, i.trashed = false) :
    (∃ c, e = .cat c) ∧ (e.of (held s.world.sess)).length ≠ 0 ∧ t.items = [] ∧ t.cur = some (.live .items) ∧ t.itemIdx = -1 := by
  have hI := h.inv C K
  have hr := h.session C K
  have hm1 : s.menuIdx ≠ -1 := by have := he.1; omega
  obtain ⟨vh, l, ha, hx, hy, hl, rfl⟩ := opening_step C K hI hs hc hk hm1
  have ho := (h.menuKept C K).order ha.unlocked
  rw [entryItems_of C hr ha.toOpened ho hm he, Option.some.injEq] at hl
  have hlen : s.menuIdx.toNat + 1 = m.length := by have := he.1; omega
  simp only [hlen, if_true, decide_true] at hl
  have hempty : l = [] := by
    have hp := get_of C.env.text C.sorter s.world.sess .trash
    have : Entry.trash.of (held s.world.sess) = [] := by
      unfold Entry.of
      rw [List.filter_eq_nil_iff]
      intro i hi
      simp [Entry.Holds, hnone i hi]
    rw [this] at hp
    rw [← hl]
    exact List.perm_nil.1 hp
  have hcat : ∃ c, e = .cat c := by
    rcases menu_place hm he.2 with ⟨_, h1, h2⟩ | ⟨c, h1, _⟩ | ⟨h1, _⟩
    · omega
    · exact ⟨c, h1⟩
    · subst h1
      obtain ⟨cs, -, -, rfl⟩ := hm
      have hmem := List.mem_of_getElem? he.2
      have hnt : ¬ ∃ i ∈ held s.world.sess, i.trashed = true := by
        rintro ⟨i, hi, ht⟩
        rw [hnone i hi] at ht
        cases ht
      simp only [hnt, if_false, List.append_nil] at hmem
      split at hmem <;> simp at hmem
  obtain ⟨c, rfl⟩ := hcat
  refine ⟨⟨c, rfl⟩, ?_, hempty, rfl, by simp [openedSt, hempty]⟩
  rw [of_ne_zero]
  have hmem := List.mem_of_getElem? he.2
  obtain ⟨cs, -, h2, rfl⟩ := hm
  rw [List.mem_append] at hmem
  rcases hmem with hmem | hmem
  · split at hmem
    · simp only [List.mem_cons, reduceCtorEq, List.mem_map, Entry.cat.injEq, false_or] at hmem
      obtain ⟨c', hc', rfl⟩ := hmem
      exact (h2 c').1 hc'
    · simp at hmem
  · split at hmem <;> simp at hmem

namespace Demo
open OnePass.Gui.Act

/-- A card and a mail account, nothing in the trash. -/
def tidy : Disk :=
  diskOf [(b!"N", Cli.Demo.stored b!"002" b!"Card" b!"1234" [] false), (b!"M", Cli.Demo.stored b!"001" b!"Mail" b!"1234" [] false)]

/-- Going down to the last entry of the menu. -/
def atLast : List Event := opening ++ [.key .down, .key .down, .flush 80 24]

set_option maxRecDepth 20000 in
example : text .menu (go (disk b!"1234" b!"memo") opening) =
    some [b!"All (2)", b!"Login (1)", b!"Credit Card (1)", b!"Trashed (1)"] := by decide +kernel

set_option maxRecDepth 20000 in
example : text .menu (go tidy opening) = some [b!"All (2)", b!"Login (1)", b!"Credit Card (1)", []] := by decide +kernel

set_option maxRecDepth 20000 in
/-- All, then the Credit Card entry, then Trashed. -/
example : text .items (go (disk b!"1234" b!"memo") (opening ++ [.key .enter, .flush 80 24])) = some [b!"Mail", b!"Card", []] ∧
    text .items (go (disk b!"1234" b!"memo") (opening ++ [.key .down, .key .down, .key .right, .flush 80 24])) =
      some [b!"Card", []] ∧
    text .items (go (disk b!"1234" b!"memo") (opening ++ [.key .down, .key .down, .key .down, .key .right, .flush 80 24])) =
      some [b!"Old", []] := by decide +kernel

set_option maxRecDepth 20000 in
/-- The Credit Card entry, when it is the last one. -/
example : text .items (go tidy (atLast ++ [.key .right, .flush 80 24])) = some [] ∧
    text .items (go tidy (opening ++ [.key .down, .key .right, .flush 80 24])) = some [b!"Mail", []] := by decide +kernel

end Demo

set_option maxRecDepth 20000 in
/-- C70 is false: a menu entry that says it has an item opens an empty list. -/
theorem C70_refuted : ¬ ∀ (C : Ctx) (K : Kit) (vault : Bytes) (w : World) (x y : Nat) (es : List Event) (s t : St) (k : Key),
    Live C K vault w x y es s → s.cur = some (.live .menu) → Opens k → step C K (.key k) s = (.ok (), t) →
    ∀ (m : List Entry) (e : Entry), IsMenu (held s.world.sess) m → Selected s m e →
      t.items.Perm ((e.of (held s.world.sess)).map summary) := by
  intro h
  have hl := Demo.live (x := 80) (y := 24) (d := Demo.tidy) (es := Demo.atLast) (by decide +kernel)
  generalize hs : (Demo.goOn 80 24 Demo.tidy Demo.atLast).2 = s at hl
  have h1 : (step Demo.ctx Demo.kit (.key .right) s).1 = .ok () := by rw [← hs]; decide +kernel
  have h2 : s.cur = some (.live .menu) ∧ s.world.sess.isUnlocked = true ∧ s.menuIdx = 2 ∧
      (menuOf s.world.sess)[2]? = some (.cat .creditCard) ∧ (menuOf s.world.sess).length = 3 ∧
      (held s.world.sess).all (fun i => i.trashed == false) = true := by
    rw [← hs]; decide +kernel
  obtain ⟨h2, hu, h3, h4, h5, h6⟩ := h2
  have hst : step Demo.ctx Demo.kit (.key .right) s = (.ok (), (step Demo.ctx Demo.kit (.key .right) s).2) := by rw [← h1]
  have hm := menu_isMenu (hl.session _ _) ((hl.menuKept _ _).order hu)
  have hsel : Selected s (menuOf s.world.sess) (.cat .creditCard) := ⟨by omega, by rw [h3]; exact h4⟩
  have hk : Opens .right := .inr (.inl rfl)
  have hp := h _ _ _ _ _ _ _ s _ .right hl h2 hk hst _ _ hm hsel
  obtain ⟨_, h7, h8, _⟩ := C70_last_entry _ _ _ _ _ _ _ s _ .right hl h2 hk hst _ _ hm hsel (by rw [h3, h5]; rfl)
    (by simpa using h6)
  rw [h8] at hp
  have := hp.length_eq
  simp at this
  exact h7 this.symm

end Gui
end OnePass
