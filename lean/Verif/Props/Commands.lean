/-
C61–C66: the commands that open a vault.
-/
import Verif.Props.Throttle
import Verif.Props.Queries
import Verif.Props.Items

set_option linter.unusedSimpArgs false

namespace OnePass
namespace Cli
open Prog Fmt Spec

/-! ### What the item commands begin with -/

/-- The first-run dialog and the check for updates, from `w` to `w1`. -/
def Begun (C : Ctx) (w w1 : World) : Prop := ∃ w0, firstRun C w = (.ret (), w0) ∧ checkForUpdate C w0 = (.ret (), w1)

/-- With notifications off there is neither. -/
theorem begun_silent (C : Ctx) {w : World} (h : Silent w) {c : Config} (hc : Conf.getConfig w.conf = .ret c) : Begun C w w := by
  refine ⟨w, ?_, ?_⟩
  · unfold firstRun
    rw [bind_run]
    show (if Conf.isAvailable w.conf then Prog.pure () else _) w = _
    rw [if_pos (silent_available h)]
    rfl
  · have : c.notify = false := (Conf.C46_defaults w.conf c hc).2.2.2.2.2.1 false h
    unfold checkForUpdate
    rw [bind_run, read_run, hc]
    simp only [this, Bool.false_eq_true, if_false]
    rfl

/-- The vault meant: the path of the flag if one was given, the one configured otherwise. -/
def Meaning (conf : Option YMap) (flag vault : Bytes) : Prop :=
  (flag ≠ [] ∧ vault = flag) ∨ (flag = [] ∧ ∃ c, Conf.getConfig conf = .ret c ∧ vault = c.vault)

/-- Opening the vault, after the beginning. -/
def opening (C : Ctx) (vault : Bytes) : Prog Unit := do
  match ← onSession (fun d s => s.validate d vault) with
  | .error e => die e
  | .ok _ =>
    println b!"Password:"
    let read ← Os.readPassword C.sys
    match ← onSession (fun d s => s.unlock C.env C.order d vault read.1) with
    | .error e => die e
    | .ok _ => Prog.pure ()

/-- C64. Whatever the configuration, the vault that is checked and unlocked is that of the flag, if a path is given
with it, and the configured one otherwise. -/
theorem C64_vault (C : Ctx) (flag vault : Bytes) (w w1 : World) (hb : Begun C w w1) (hv : Meaning w1.conf flag vault) :
    openVault C flag w = opening C vault w1 := by
  obtain ⟨w0, h0, h1⟩ := hb
  unfold openVault
  rw [bind_run, h0]
  show (checkForUpdate C >>= _) w0 = _
  rw [bind_run, h1]
  show (chooseVault flag >>= _) w1 = _
  have hch : chooseVault flag w1 = (.ret vault, w1) := by
    unfold chooseVault
    rcases hv with ⟨h, rfl⟩ | ⟨h, c, hc, rfl⟩
    · rw [if_pos h]; rfl
    · rw [if_neg (by simp [h]), bind_run, read_run, hc]; rfl
  rw [bind_run, hch]
  rfl

/-- A path given with the flag makes the configured one irrelevant. -/
theorem C64_flag_wins (C : Ctx) (flag : Bytes) (hf : flag ≠ []) (w w1 w' w1' : World) (h : Begun C w w1) (h' : Begun C w' w1')
    (hsame : w1' = { w1 with conf := w1'.conf }) :
    (openVault C flag w').1 = (openVault C flag w).1 ∧ (openVault C flag w').2.log = (openVault C flag w).2.log ∧
      (openVault C flag w').2.sess = (openVault C flag w).2.sess := by
  rw [C64_vault C flag flag w w1 h (.inl ⟨hf, rfl⟩), C64_vault C flag flag w' w1' h' (.inl ⟨hf, rfl⟩), hsame]
  generalize w1'.conf = m
  unfold opening
  simp only [bind_run, onSession, println, emit, Os.readPassword_run]
  cases w1.sess.validate w1.disk flag with
  | panic => exact ⟨rfl, rfl, rfl⟩
  | fatal => exact ⟨rfl, rfl, rfl⟩
  | ret p =>
    obtain ⟨r, s⟩ := p
    cases r with
    | error e => exact ⟨rfl, rfl, rfl⟩
    | ok u =>
      simp only [bind_run, onSession, println, emit, Os.readPassword_run]
      cases s.unlock C.env C.order w1.disk flag (C.sys.password w1.tick) with
      | panic => exact ⟨rfl, rfl, rfl⟩
      | fatal => exact ⟨rfl, rfl, rfl⟩
      | ret q =>
        obtain ⟨r, s⟩ := q
        cases r with
        | error e => exact ⟨rfl, rfl, rfl⟩
        | ok u => exact ⟨rfl, rfl, rfl⟩

/-- `w` after asking for the password: with session `s`, and then `es` on the screen. -/
def after (w : World) (s : Session) (es : List Ev) : World :=
  { w with sess := s, tick := w.tick + 1, log := w.log ++ .out b!"Password:\n" :: .password :: es }

/-- The item commands: those that open a vault and print something about items. -/
inductive ItemCmd : Cmd → Bytes → Prop
  | list (v c n : Bytes) (t : Bool) : ItemCmd (.list v c n t) v
  | overview (v u : Bytes) (t : Bool) : ItemCmd (.overview v u t) v
  | details (v u : Bytes) (t : Bool) : ItemCmd (.details v u t) v

theorem itemCmd_ends {C : Ctx} {cmd : Cmd} {flag : Bytes} (hi : ItemCmd cmd flag) {w w' : World}
    (h : openVault C flag w = (.fatal, w')) : command C cmd w = (.fatal, w') := by
  cases hi with
  | list v c n t =>
    show getItems C flag c n t w = _
    unfold getItems
    rw [bind_run, h]
  | overview v u t =>
    show getItemOverview C flag u t w = _
    unfold getItemOverview
    rw [bind_run, h]
  | details v u t =>
    show getItemDetails C flag u t w = _
    unfold getItemDetails
    rw [bind_run, h]

/-! ### C63 -/

/-- C63. If the vault is not valid, the command prints the error, nothing else, and exits with status 1; the password
is not asked for. -/
theorem C63_invalid_vault (C : Ctx) (cmd : Cmd) (flag vault : Bytes) (hi : ItemCmd cmd flag) (w w1 : World)
    (hb : Begun C w w1) (hv : Meaning w1.conf flag vault) (e : Err) (s' : Session)
    (h : w1.sess.validate w1.disk vault = .ret (.error e, s')) :
    command C cmd w = (.fatal, { w1 with sess := s', log := w1.log ++ [.out (e.text ++ [10])] }) := by
  refine itemCmd_ends hi ?_
  rw [C64_vault C flag vault w w1 hb hv]
  unfold opening
  simp only [bind_run, onSession, h]
  rfl

/-- C63. If the password is wrong, the command prints the prompt, reads the password, prints the error, nothing else,
and exits with status 1. The session holds no item afterwards. -/
theorem C63_wrong_password (C : Ctx) (cmd : Cmd) (flag vault : Bytes) (hi : ItemCmd cmd flag) (w w1 : World)
    (hb : Begun C w w1) (hv : Meaning w1.conf flag vault) (s s' : Session) (e : Err)
    (h : w1.sess.validate w1.disk vault = .ret (.ok (), s))
    (hu : s.unlock C.env C.order w1.disk vault (C.sys.password w1.tick) = .ret (.error e, s')) :
    command C cmd w = (.fatal, after w1 s [.out b!"invalid password\n"]) := by
  refine itemCmd_ends hi ?_
  rw [C64_vault C flag vault w w1 hb hv]
  have he : e = .invalidPass ∧ s' = s := by
    rcases Session.unlock_cases hu with ⟨h1, h2⟩ | ⟨h1, -⟩
    · cases h1; exact ⟨rfl, h2⟩
    · cases h1
  obtain ⟨rfl, rfl⟩ := he
  unfold opening
  simp only [bind_run, onSession, h, println, emit, Os.readPassword_run, hu, die, List.append_assoc]
  rfl

/-- With a valid vault and the right password, the commands go on with the unlocked session. -/
theorem open_ok (C : Ctx) (flag vault : Bytes) (w w1 : World)
    (hb : Begun C w w1) (hv : Meaning w1.conf flag vault) (s s' : Session)
    (h : w1.sess.validate w1.disk vault = .ret (.ok (), s))
    (hu : s.unlock C.env C.order w1.disk vault (C.sys.password w1.tick) = .ret (.ok (), s')) :
    openVault C flag w = (.ret (), after w1 s' []) := by
  rw [C64_vault C flag vault w w1 hb hv]
  unfold opening
  simp only [bind_run, onSession, h, println, emit, Os.readPassword_run, hu, Prog.pure, List.append_assoc]
  rfl

/-! ### What the session knows -/

/-- Nothing changed in the session. -/
def SameSession (w w' : World) : Prop := w'.sess = w.sess

theorem same_chain : Chain SameSession := ⟨fun _ => rfl, fun _ _ _ h1 h2 => h2.trans h1⟩

theorem same_of_calm {α : Type} {m : Prog α} (h : Rel Calm m) : Rel SameSession m := fun w => (h w).2.2

/-- The beginning leaves the session as it is. -/
theorem begun_session {C : Ctx} {w w1 : World} (h : Begun C w w1) : w1.sess = w.sess := by
  obtain ⟨w0, h1, h2⟩ := h
  have hc := same_of_calm (calm_cliCheck C)
  have hout : ∀ b, Rel SameSession (emit (.out b)) := fun _ _ => rfl
  have hload : Rel SameSession (Conf.load C.sys C.ext C.dir) := by
    intro w
    obtain ⟨o, k, h, -⟩ := Conf.load_any C.sys C.ext C.dir w
    rw [h]; rfl
  have hf : Rel SameSession (firstRun C) := rel_firstRun same_chain C hout
    (rel_configure same_chain C hc hout (fun _ => rfl) (fun c =>
      rel_save same_chain C.sys C.ext C.dir c (fun _ _ => rfl) (same_of_calm (calm_ensureDir _ _))
        (fun b => same_of_calm (calm_createWrite _ _ _ true)) hload))
  have e1 := hf w
  have e2 := hc w0
  rw [h1] at e1
  rw [h2] at e2
  exact e2.trans e1

/-- The registry of categories stays what it is, up to order, when a vault is opened. -/
theorem opened_reg {C : Ctx} {w w1 : World} (hb : Begun C w w1) {vault p : Bytes} {s s' : Session}
    (h : w1.sess.validate w1.disk vault = .ret (.ok (), s)) (hu : s.unlock C.env C.order w1.disk vault p = .ret (.ok (), s'))
    (hreg : w.sess.reg.Perm Cat.values) : s'.reg.Perm Cat.values := by
  have h0 : s.reg = w1.sess.reg := by
    simp only [Session.validate, Out.bind_eq_ret, Out.pure_eq, Out.ret.injEq, Prod.mk.injEq, Prod.exists] at h
    obtain ⟨r', p, _, _, rfl⟩ := h
    rfl
  have h1 : s'.reg = s.reg := by
    rcases Session.unlock_cases hu with ⟨h1, -⟩ | ⟨-, _, _, _, _, _, rfl, _⟩
    · cases h1
    · rfl
  rw [h1, h0, begun_session hb]
  exact hreg

/-! ### C65, C66 -/

/-- C66. A category that is not one of the categories: error, exit status 1, no list. -/
theorem C66_refused (C : Ctx) (flag vault category title : Bytes) (trashed : Bool) (w w1 : World)
    (hb : Begun C w w1) (hv : Meaning w1.conf flag vault) (s s' : Session)
    (h : w1.sess.validate w1.disk vault = .ret (.ok (), s))
    (hu : s.unlock C.env C.order w1.disk vault (C.sys.password w1.tick) = .ret (.ok (), s'))
    (hreg : w.sess.reg.Perm Cat.values) (hne : category ≠ [])
    (hno : ∀ c ∈ Cat.values, ¬ SameLetters C.env.text c.name (Str.trimSpace category)) :
    command C (.list flag category title trashed) w = (.fatal, after w1 s' [.out b!"unknown item category\n"]) := by
  show getItems C flag category title trashed w = _
  unfold getItems
  rw [bind_run, open_ok C flag vault w w1 hb hv s s' h hu]
  simp only [bind_run, Prog.get]
  have hf : categoryFilter C (after w1 s' []).sess.reg category = .error .unknownItemCat := by
    show categoryFilter C s'.reg category = _
    unfold categoryFilter
    rw [if_neg hne, ((C38_lookup C.env.text s'.reg (opened_reg hb h hu hreg)).2.2.2 _).1 hno]
  rw [hf]
  simp only [die, bind_run, println, emit, after, List.append_assoc]
  rfl

/-- The category filter meant: none without the flag, otherwise the category of that name. -/
def Filter (T : Text) (category : Bytes) (cat : Option Cat) : Prop :=
  (category = [] ∧ cat = none) ∨ (category ≠ [] ∧ ∃ c ∈ Cat.values, SameLetters T c.name (Str.trimSpace category) ∧ cat = some c)

/-- The rows are the items, in this order, numbered from 1. -/
def Rows (items : List SimpleItem) (rows : List (List Bytes)) : Prop :=
  rows.length = items.length ∧ ∀ (k : Nat) (i : SimpleItem), items[k]? = some i →
    rows[k]? = some [Num.natDec (k + 1), i.uid, i.category.name, i.title]

theorem numbered_rows (items : List SimpleItem) (n : Nat) :
    (numbered n (items.map (fun i => [i.uid, i.category.name, i.title]))).length = items.length ∧
    ∀ (k : Nat) (i : SimpleItem), items[k]? = some i →
      (numbered n (items.map (fun i => [i.uid, i.category.name, i.title])))[k]? =
        some [Num.natDec (n + k), i.uid, i.category.name, i.title] := by
  induction items generalizing n with
  | nil => simp [numbered]
  | cons x xs ih =>
    obtain ⟨h1, h2⟩ := ih (n + 1)
    refine ⟨by simp [numbered, h1], fun k i hk => ?_⟩
    cases k with
    | zero =>
      simp only [List.getElem?_cons_zero, Option.some.injEq] at hk
      subst hk
      simp [numbered]
    | succ k =>
      simp only [List.getElem?_cons_succ] at hk
      have := h2 k i hk
      simp only [List.map_cons, numbered, List.getElem?_cons_succ, this]
      rw [show n + 1 + k = n + (k + 1) by omega]

/-- C65. `list` prints a table of exactly the items that match, sorted by category and title; or a message if there is
none. The items are those the unlocked session holds. -/
theorem C65_list (C : Ctx) (flag vault category title : Bytes) (trashed : Bool) (w w1 : World)
    (hb : Begun C w w1) (hv : Meaning w1.conf flag vault) (s s' : Session)
    (h : w1.sess.validate w1.disk vault = .ret (.ok (), s))
    (hu : s.unlock C.env C.order w1.disk vault (C.sys.password w1.tick) = .ret (.ok (), s'))
    (hreg : w.sess.reg.Perm Cat.values) (cat : Option Cat) (hcat : Filter C.env.text category cat) :
    ∃ items : List SimpleItem,
      items.Perm (((held s').filter (fun i => decide (Wanted C.env.text cat (Str.trimSpace title) trashed i))).map summary) ∧
      items.Pairwise (fun a b => a.category.code < b.category.code ∨ (a.category.code = b.category.code ∧ a.title ≤ b.title)) ∧
      (items ≠ [] → ∃ rows, Rows items rows ∧
        command C (.list flag category title trashed) w = (.ret (), after w1 s' [.table [b!"lp.", b!"uid", b!"category", b!"title"] rows])) ∧
      (items = [] → command C (.list flag category title trashed) w = (.ret (), after w1 s'
          [.out (b!"No results for search (category: " ++ Str.trimSpace category ++ b!", name: " ++
              Str.trimSpace title ++ b!", trashed: " ++ (if trashed then b!"true" else b!"false") ++ b!")\n")])) := by
  have hf : categoryFilter C (after w1 s' []).sess.reg category = .ok cat := by
    show categoryFilter C s'.reg category = _
    unfold categoryFilter
    rcases hcat with ⟨rfl, rfl⟩ | ⟨hne, c, hc, hl, rfl⟩
    · rw [if_pos rfl]
    · rw [if_neg hne, ((C38_lookup C.env.text s'.reg (opened_reg hb h hu hreg)).2.2.1 _ c).2 ⟨hc, hl⟩]
  refine ⟨s'.getItems C.env.text C.sorter cat (Str.trimSpace title) trashed,
    C32_list_is_filter _ _ _ _ _ _, C33_sorted _ _ _ _ _ _, fun hne => ?_, fun hnil => ?_⟩
  · refine ⟨numbered 1 ((s'.getItems C.env.text C.sorter cat (Str.trimSpace title) trashed).map
      (fun i => [i.uid, i.category.name, i.title])), ⟨(numbered_rows _ 1).1, fun k i hk => ?_⟩, ?_⟩
    · rw [(numbered_rows _ 1).2 k i hk, Nat.add_comm]
    · show getItems C flag category title trashed w = _
      unfold getItems
      rw [bind_run, open_ok C flag vault w w1 hb hv s s' h hu]
      simp only [bind_run, Prog.get, hf]
      have hl : (Session.getItems C.env.text C.sorter (after w1 s' []).sess cat (Str.trimSpace title) trashed).length > 0 :=
        List.length_pos_iff.2 hne
      rw [if_pos hl]
      simp only [emit, after, List.append_assoc]
      rfl
  · show getItems C flag category title trashed w = _
    unfold getItems
    rw [bind_run, open_ok C flag vault w w1 hb hv s s' h hu]
    simp only [bind_run, Prog.get, hf]
    have hl : ¬ (Session.getItems C.env.text C.sorter (after w1 s' []).sess cat (Str.trimSpace title) trashed).length > 0 := by
      show ¬ (Session.getItems C.env.text C.sorter s' cat (Str.trimSpace title) trashed).length > 0
      rw [hnil]; exact Nat.lt_irrefl 0
    rw [if_neg hl]
    simp only [println, emit, after, List.append_assoc, boolText]
    rfl

/-! ### C61, C62 -/

/-- Fields that show the same when their values are hidden. -/
def SameField (f g : Field) : Prop := f.name = g.name

/-- The same up to values. -/
def SameSection (s t : Section) : Prop :=
  s.title = t.title ∧
    ((s.fields = none ∧ t.fields = none) ∨ ∃ fs gs, s.fields = some fs ∧ t.fields = some gs ∧ List.Forall₂ SameField fs gs)

/-- Two items that differ only in what is secret: field values, and notes if both have some. -/
structure SameButSecrets (i j : Item) : Prop where
  category : i.category = j.category
  title : i.title = j.title
  trashed : i.trashed = j.trashed
  url : i.url = j.url
  updated : i.updated = j.updated
  created : i.created = j.created
  notes : i.notes = [] ↔ j.notes = []
  sections : (i.sections = none ∧ j.sections = none) ∨
    ∃ ss ts, i.sections = some ss ∧ j.sections = some ts ∧ List.Forall₂ SameSection ss ts

theorem masked_fields {fs gs : List Field} (h : List.Forall₂ SameField fs gs) :
    fs.map (fun f => f.name ++ b!": " ++ (if true = true then mask else f.value)) =
      gs.map (fun f => f.name ++ b!": " ++ (if true = true then mask else f.value)) := by
  induction h with
  | nil => rfl
  | cons h7 _ ih => rw [List.map_cons, List.map_cons, ih, show _ = _ from h7, if_pos rfl, if_pos rfl]

theorem masked_sections {ss ts : List Section} (h : List.Forall₂ SameSection ss ts) :
    ss.flatMap (fun s => [[]] ++ (if s.title ≠ [] then [s.title] else []) ++ [rule] ++
      (match s.fields with
        | none => []
        | some fs => fs.map (fun f => f.name ++ b!": " ++ (if true = true then mask else f.value)))) =
    ts.flatMap (fun s => [[]] ++ (if s.title ≠ [] then [s.title] else []) ++ [rule] ++
      (match s.fields with
        | none => []
        | some fs => fs.map (fun f => f.name ++ b!": " ++ (if true = true then mask else f.value)))) := by
  induction h with
  | nil => rfl
  | cons h1 _ ih =>
    rw [List.flatMap_cons, List.flatMap_cons, ih]
    congr 1
    obtain ⟨h2, h3⟩ := h1
    rw [h2]
    congr 1
    rcases h3 with ⟨h4, h5⟩ | ⟨fs, gs, h4, h5, h6⟩
    · rw [h4, h5]
    · rw [h4, h5]
      exact masked_fields h6

theorem overview_lines (E : Env) {i j : Item} (h : SameButSecrets i j) : itemLines E true i = itemLines E true j := by
  have hsec : (i.sections = none) = (j.sections = none) := by
    rcases h.sections with ⟨h1, h2⟩ | ⟨ss, ts, h1, h2, -⟩
    · rw [h1, h2]
    · rw [h1, h2]; simp
  unfold itemLines
  rw [h.category, h.title, h.trashed, h.url, h.updated, h.created]
  congr 1
  · congr 1
    rcases h.sections with ⟨h1, h2⟩ | ⟨ss, ts, h1, h2, h3⟩
    · rw [h1, h2]
    · rw [h1, h2]
      exact congrArg (· ++ [[]]) (masked_sections h3)
  · by_cases hn : i.notes = []
    · rw [if_neg (not_not.2 hn), if_neg (not_not.2 (h.notes.1 hn))]
    · have hm : j.notes ≠ [] := fun h0 => hn (h.notes.2 h0)
      rw [if_pos hn, if_pos hm]
      simp only [hsec, if_true]

theorem printLines_run (ls : List Bytes) (w : World) :
    printLines ls w = (.ret (), { w with log := w.log ++ ls.map (fun l => .out (l ++ [10])) }) := by
  induction ls generalizing w with
  | nil => simp [printLines, Prog.pure]
  | cons l ls ih =>
    unfold printLines
    rw [bind_run]
    show printLines ls { w with log := w.log ++ [.out (l ++ [10])] } = _
    rw [ih]
    simp

theorem printItem_run (C : Ctx) (hide : Bool) (uid : Bytes) (trashed : Bool) (w : World) (i : Item)
    (h : w.sess.getItem uid trashed = some i) :
    printItem C hide uid trashed w = (.ret (), { w with log := w.log ++ (itemLines C.env hide i).map (fun l => .out (l ++ [10])) }) := by
  unfold printItem
  rw [bind_run]
  simp only [Prog.get, h]
  exact printLines_run _ _

theorem printItem_none (C : Ctx) (hide : Bool) (uid : Bytes) (trashed : Bool) (w : World)
    (h : w.sess.getItem uid trashed = none) :
    printItem C hide uid trashed w = (.ret (), { w with log := w.log ++ [.out (b!"Item with UID " ++ uid ++ b!" do not exist\n")] }) := by
  unfold printItem
  rw [bind_run]
  simp only [Prog.get, h, println, emit, List.append_assoc]
  rfl

/-- C61. Two processes in which the item asked for differs only in its secrets: the overview prints the same. (Or there is
no such item in either.) -/
theorem C61_no_secrets (C : Ctx) (uid : Bytes) (trashed : Bool) (w w' : World)
    (h : (w.sess.getItem uid trashed = none ∧ w'.sess.getItem uid trashed = none) ∨
      ∃ i j, w.sess.getItem uid trashed = some i ∧ w'.sess.getItem uid trashed = some j ∧ SameButSecrets i j) :
    ∃ es, (printItem C true uid trashed w).2.log = w.log ++ es ∧ (printItem C true uid trashed w').2.log = w'.log ++ es := by
  rcases h with ⟨h1, h2⟩ | ⟨i, j, h1, h2, h3⟩
  · rw [printItem_none C true uid trashed w h1, printItem_none C true uid trashed w' h2]
    exact ⟨_, rfl, rfl⟩
  · rw [printItem_run C true uid trashed w i h1, printItem_run C true uid trashed w' j h2, overview_lines C.env h3]
    exact ⟨_, rfl, rfl⟩

/-- C61, for whole runs: two vaults (on two disks) whose items differ only in the secrets of the one asked for give the
same output. -/
theorem C61_whole_command (C : Ctx) (flag vault uid : Bytes) (trashed : Bool) (w w1 w' w1' : World)
    (hb : Begun C w w1) (hv : Meaning w1.conf flag vault) (hb' : Begun C w' w1') (hv' : Meaning w1'.conf flag vault)
    (s t s' t' : Session)
    (h : w1.sess.validate w1.disk vault = .ret (.ok (), s))
    (hu : s.unlock C.env C.order w1.disk vault (C.sys.password w1.tick) = .ret (.ok (), t))
    (h' : w1'.sess.validate w1'.disk vault = .ret (.ok (), s'))
    (hu' : s'.unlock C.env C.order w1'.disk vault (C.sys.password w1'.tick) = .ret (.ok (), t'))
    (hs : (t.getItem uid trashed = none ∧ t'.getItem uid trashed = none) ∨
      ∃ i j, t.getItem uid trashed = some i ∧ t'.getItem uid trashed = some j ∧ SameButSecrets i j) :
    ∃ es, (command C (.overview flag uid trashed) w).2.log = w1.log ++ es ∧
      (command C (.overview flag uid trashed) w').2.log = w1'.log ++ es := by
  show ∃ es, (getItemOverview C flag uid trashed w).2.log = _ ∧ (getItemOverview C flag uid trashed w').2.log = _
  unfold getItemOverview
  rw [bind_run, bind_run, open_ok C flag vault w w1 hb hv s t h hu, open_ok C flag vault w' w1' hb' hv' s' t' h' hu']
  obtain ⟨es, h1, h2⟩ := C61_no_secrets C uid trashed (after w1 t []) (after w1' t' []) hs
  refine ⟨[.out b!"Password:\n", .password] ++ es, ?_, ?_⟩
  · exact h1.trans (List.append_assoc _ _ _)
  · exact h2.trans (List.append_assoc _ _ _)

/-- What there is to see of an item, in order: category, title, times, URL, sections with their fields, notes. Each entry
is a line of output. -/
def facts (E : Env) (i : Item) : List Bytes :=
  [i.category.name, i.title,
   b!"Updated: " ++ Time.formatStamp i.updated (E.zone i.updated) ++ b!"\nCreated: " ++
     Time.formatStamp i.created (E.zone i.created) ++ b!"\nTrashed: " ++ (if i.trashed then b!"true" else b!"false")] ++
  (if i.url = [] then [] else [b!"URL: " ++ i.url]) ++
  (i.sections.getD []).flatMap (fun s =>
    (if s.title = [] then [] else [s.title]) ++ (s.fields.getD []).map (fun f => f.name ++ b!": " ++ f.value)) ++
  (if i.notes = [] then [] else [i.notes])

/-- Lines that belong to no item: empty, the rule, the heading of the notes. -/
def ornament : List Bytes := [[], b!"------------------------------", b!"Notes"]

theorem sub_orn {a b : List Bytes} {x : Bytes} (h : List.Sublist a b) : List.Sublist a (x :: b) := h.cons x

/-- C62. What `details` prints contains, in order, all there is to see of the item, and nothing else but ornaments. -/
theorem C62_everything (C : Ctx) (uid : Bytes) (trashed : Bool) (w : World) (i : Item)
    (h : w.sess.getItem uid trashed = some i) :
    ∃ lines, printItem C false uid trashed w = (.ret (), { w with log := w.log ++ lines.map (fun l => .out (l ++ [10])) }) ∧
      List.Sublist (facts C.env i) lines ∧ ∀ l ∈ lines, l ∈ facts C.env i ∨ l ∈ ornament := by
  refine ⟨itemLines C.env false i, printItem_run C false uid trashed w i h, ?_, ?_⟩
  · unfold facts itemLines
    refine List.Sublist.append (List.Sublist.append (List.Sublist.append ?_ ?_) ?_) ?_
    · exact .cons _ (.cons_cons _ (.cons _ (.cons_cons _ (.cons _ (.cons_cons _ .slnil)))))
    · by_cases hu : i.url = [] <;> simp [hu]
    · cases hsec : i.sections with
      | none => exact .slnil
      | some ss =>
        show List.Sublist (ss.flatMap _) (ss.flatMap _ ++ [[]])
        refine List.Sublist.trans ?_ (List.sublist_append_left _ _)
        clear hsec
        induction ss with
        | nil => exact .slnil
        | cons s ss ih =>
          rw [List.flatMap_cons, List.flatMap_cons]
          refine List.Sublist.append ?_ ih
          refine List.Sublist.append (List.Sublist.trans ?_ (List.sublist_append_left _ _)) ?_
          · refine .cons _ ?_
            by_cases ht : s.title = [] <;> simp [ht]
          · cases s.fields <;> simp
    · by_cases hn : i.notes = []
      · simp [hn]
      · rw [if_neg hn, if_pos hn]
        refine List.Sublist.trans ?_ (List.sublist_append_right _ _)
        exact .cons _ (.cons _ (.cons_cons _ (.cons _ .slnil)))
  · intro l hl
    unfold itemLines at hl
    unfold facts ornament
    simp only [List.mem_append] at hl ⊢
    rcases hl with ((hl | hl) | hl) | hl
    · simp only [List.mem_cons, List.not_mem_nil, or_false] at hl
      rcases hl with rfl | rfl | rfl | rfl | rfl | rfl
      · exact .inr (by simp)
      · exact .inl (.inl (.inl (.inl (by simp))))
      · exact .inr (by simp [rule])
      · exact .inl (.inl (.inl (.inl (by simp))))
      · exact .inr (by simp)
      · exact .inl (.inl (.inl (.inl (by simp [boolText]))))
    · by_cases hu : i.url = []
      · simp [hu] at hl
      · rw [if_pos hu] at hl
        exact .inl (.inl (.inl (.inr (by rw [if_neg hu]; exact hl))))
    · cases hsec : i.sections with
      | none => rw [hsec] at hl; cases hl
      | some ss =>
        rw [hsec] at hl
        simp only [List.mem_append, List.mem_flatMap] at hl
        rcases hl with ⟨s, hs, hl⟩ | hl
        · rcases hl with ((hl | hl) | hl) | hl
          · exact .inr (by rw [List.mem_singleton] at hl; simp [hl])
          · refine .inl (.inl (.inr (List.mem_flatMap.2 ⟨s, hs, List.mem_append.2 (.inl ?_)⟩)))
            by_cases ht : s.title = []
            · simp [ht] at hl
            · rw [if_pos ht] at hl; rw [if_neg ht]; exact hl
          · exact .inr (by rw [List.mem_singleton] at hl; simp [hl, rule])
          · refine .inl (.inl (.inr (List.mem_flatMap.2 ⟨s, hs, List.mem_append.2 (.inr ?_)⟩)))
            cases hf : s.fields with
            | none => rw [hf] at hl; cases hl
            | some fs => rw [hf] at hl; simpa using hl
        · exact .inr (by rw [List.mem_singleton] at hl; simp [hl])
    · by_cases hn : i.notes = []
      · simp [hn] at hl
      · rw [if_pos hn] at hl
        simp only [List.mem_append, List.mem_cons, List.not_mem_nil, or_false] at hl
        rcases hl with hl | rfl | rfl | rfl | rfl
        · refine .inr ?_
          split at hl
          · rw [List.mem_singleton] at hl; simp [hl]
          · cases hl
        · exact .inr (by simp)
        · exact .inr (by simp [rule])
        · exact .inl (.inr (by simp [hn]))
        · exact .inr (by simp)

/-- C62, for a whole run of `details`. -/
theorem C62_whole_command (C : Ctx) (flag vault uid : Bytes) (trashed : Bool) (w w1 : World)
    (hb : Begun C w w1) (hv : Meaning w1.conf flag vault) (s s' : Session)
    (h : w1.sess.validate w1.disk vault = .ret (.ok (), s))
    (hu : s.unlock C.env C.order w1.disk vault (C.sys.password w1.tick) = .ret (.ok (), s')) (i : Item)
    (hi : s'.getItem uid trashed = some i) :
    ∃ lines, command C (.details flag uid trashed) w = (.ret (), after w1 s' (lines.map (fun l => .out (l ++ [10])))) ∧
      List.Sublist (facts C.env i) lines ∧ ∀ l ∈ lines, l ∈ facts C.env i ∨ l ∈ ornament := by
  obtain ⟨lines, h1, h2, h3⟩ := C62_everything C uid trashed
    (after w1 s' []) i hi
  refine ⟨lines, ?_, h2, h3⟩
  show getItemDetails C flag uid trashed w = _
  unfold getItemDetails
  rw [bind_run, open_ok C flag vault w w1 hb hv s s' h hu]
  refine h1.trans ?_
  simp [after, List.append_assoc]

/-- `overview` of an item that exists prints the same lines with the values and the notes replaced by asterisks. -/
theorem C61_masked (C : Ctx) (uid : Bytes) (trashed : Bool) (w : World) (i : Item)
    (h : w.sess.getItem uid trashed = some i) :
    (printItem C true uid trashed w).2.log =
      (printItem C false uid trashed { w with sess := { w.sess with items := some [{ i with
        notes := if i.notes = [] then [] else b!"**********"
        sections := i.sections.map (fun ss => ss.map (fun s => { s with
          fields := s.fields.map (fun fs => fs.map (fun f => { f with value := b!"**********" })) })) }] } }).2.log := by
  rw [printItem_run C true uid trashed w i h]
  have hut : i.uid = uid ∧ i.trashed = trashed := by
    have := List.find?_some (p := fun x : Item => x.uid == uid && x.trashed == trashed) h
    simpa using this
  rw [printItem_run C false uid trashed _ _ (by
    show List.find? (fun x : Item => x.uid == uid && x.trashed == trashed) [_] = _
    rw [List.find?_cons_of_pos]
    simp [hut])]
  simp only
  congr 1
  congr 1
  unfold itemLines
  simp only
  congr 1
  · congr 1
    cases i.sections with
    | none => rfl
    | some ss =>
      simp only [Option.map_some, List.flatMap_map]
      congr 1
      apply List.flatMap_congr
      intro s _
      congr 1
      cases s.fields with
      | none => rfl
      | some fs => simp [mask]
  · by_cases hn : i.notes = []
    · simp [hn]
    · simp [hn, mask]

/-! ### Examples: one whole run of each command -/

namespace Demo

/-- The keys of the vault: from the blobs of the profile. -/
def masterKey : Bytes := (Env.toy.crypto.sha512 (List.replicate 16 1)).take 32
def overviewKey : Bytes := (Env.toy.crypto.sha512 (List.replicate 16 2)).take 32
def overviewMac : Bytes := (Env.toy.crypto.sha512 (List.replicate 16 2)).drop 32

def blob (key mac p : Bytes) : Json :=
  .str (B64.encode (pack Env.toy key mac b!"opdata01" (List.replicate 16 9) (ItemDemo.padOf p.length) p))

/-- An item as a vault stores it. -/
def stored (category title secret notes : Bytes) (trashed : Bool) : Json :=
  .obj [(b!"category", .str category), (b!"created", .num b!"5"), (b!"updated", .num b!"6"), (b!"hmac", .str []),
    (b!"trashed", .bool trashed),
    (b!"o", blob overviewKey overviewMac (Json.render (.obj [(b!"title", .str title)]))),
    (b!"k", .str (B64.encode (keyBlob Env.toy masterKey (List.replicate 16 8) (List.replicate 32 10) (List.replicate 32 11)
      (List.replicate 32 0)))),
    (b!"d", blob (List.replicate 32 10) (List.replicate 32 11) (Json.render (.obj [(b!"notesPlain", .str notes),
      (b!"fields", .arr [.obj [(b!"name", .str b!"pin"), (b!"value", .str secret)]])])))]

/-- A vault with two items and one in the trash, at /a, and a configuration with this vault. -/
def disk (secret notes : Bytes) : Disk :=
  { cwd := []
    fs := [([b!"h"], .dir), ([b!"h", b!"1pass.yml"], .file (Toy.encode (Conf.updated [] { Conf.myConf with vault := b!"/a" })) false),
           ([b!"a"], .dir), ([b!"a", b!"default"], .dir),
           ([b!"a", b!"default", b!"profile.js"], .file (OnePass.Demo.profileText OnePass.Demo.pa) false),
           ([b!"a", b!"default", b!"band_0.js"], .file (b!"ld({" ++ Json.renderM
             [(b!"N", stored b!"002" b!"Card" secret [] false), (b!"M", stored b!"001" b!"Mail" secret notes false),
              (b!"T", stored b!"001" b!"Old" secret [] true)] ++ b!"});") false)] }

def ctx (password : Bytes) : Ctx := { demo [] 0 with sys := { Toy.sys [] 0 with typed := fun _ => some password } }

/-- What a run prints, and how it ends. -/
def run (password secret notes : Bytes) (cmd : Cmd) : Bool × List Ev :=
  let r := main (ctx password) cmd (Toy.world (disk secret notes) [])
  (match r.1 with | .ret _ => true | _ => false, r.2.log)

end Demo

set_option maxRecDepth 10000

/-- C62: all of the item. -/
example : Demo.run OnePass.Demo.pa b!"1234" b!"memo" (.details [] b!"M" false) = (true,
    .out b!"Password:\n" :: .password :: [[], b!"Login", b!"------------------------------", b!"Mail", [],
      b!"Updated: 1970-01-01 00:00:06\nCreated: 1970-01-01 00:00:05\nTrashed: false", [],
      b!"------------------------------", b!"Pin: 1234", [], b!"Notes", b!"------------------------------", b!"memo", []].map
      (fun l => .out (l ++ [10]))) := by decide +kernel

/-- C61: the same with the secrets masked; other secrets give the same. -/
example : Demo.run OnePass.Demo.pa b!"1234" b!"memo" (.overview [] b!"M" false) = (true,
    .out b!"Password:\n" :: .password :: [[], b!"Login", b!"------------------------------", b!"Mail", [],
      b!"Updated: 1970-01-01 00:00:06\nCreated: 1970-01-01 00:00:05\nTrashed: false", [],
      b!"------------------------------", b!"Pin: **********", [], b!"Notes", b!"------------------------------",
      b!"**********", []].map (fun l => .out (l ++ [10]))) := by decide +kernel
example : Demo.run OnePass.Demo.pa b!"1234" b!"memo" (.overview [] b!"M" false) =
    Demo.run OnePass.Demo.pa b!"98765" b!"something else" (.overview [] b!"M" false) ∧
    Demo.run OnePass.Demo.pa b!"1234" b!"memo" (.details [] b!"M" false) ≠
    Demo.run OnePass.Demo.pa b!"98765" b!"something else" (.details [] b!"M" false) := by decide +kernel
example (i : Item) (v : Bytes) (hs : i.sections = some [⟨[], some [⟨b!"Pin", b!"1"⟩]⟩]) :
    SameButSecrets i { i with sections := some [⟨[], some [⟨b!"Pin", v⟩]⟩] } :=
  ⟨rfl, rfl, rfl, rfl, rfl, rfl, Iff.rfl,
    .inr ⟨_, _, hs, rfl, .cons ⟨rfl, .inr ⟨_, _, rfl, rfl, .cons rfl .nil⟩⟩ .nil⟩⟩

/-- C63: a wrong password, a vault that is none. -/
example : Demo.run b!"pw" b!"1234" b!"memo" (.details [] b!"M" false) =
      (false, [.out b!"Password:\n", .password, .out b!"invalid password\n"]) ∧
    Demo.run b!"pw" b!"1234" b!"memo" (.overview b!"/x" b!"M" false) =
      (false, [.out b!"invalid vault (/x is not a valid path)\n"]) := by decide +kernel

/-- C64: the configured vault is /a; with the flag another one. -/
example : Demo.run OnePass.Demo.pa b!"1" [] (.list [] [] [] true) = Demo.run OnePass.Demo.pa b!"1" [] (.list b!"/a" [] [] true) ∧
    Demo.run OnePass.Demo.pa b!"1" [] (.list b!"/b" [] [] true) =
      (false, [.out b!"invalid vault (/b is not a valid path)\n"]) := by decide +kernel

/-- C65: the items, one category of them, none, the trash. -/
example :
    Demo.run OnePass.Demo.pa b!"1" [] (.list [] [] [] false) = (true, [.out b!"Password:\n", .password,
      .table [b!"lp.", b!"uid", b!"category", b!"title"]
        [[b!"1", b!"M", b!"Login", b!"Mail"], [b!"2", b!"N", b!"Credit Card", b!"Card"]]]) ∧
    Demo.run OnePass.Demo.pa b!"1" [] (.list [] b!" LOGIN " b!"AI" false) = (true, [.out b!"Password:\n", .password,
      .table [b!"lp.", b!"uid", b!"category", b!"title"] [[b!"1", b!"M", b!"Login", b!"Mail"]]]) ∧
    Demo.run OnePass.Demo.pa b!"1" [] (.list [] b!"login" b!" x" false) = (true, [.out b!"Password:\n", .password,
      .out b!"No results for search (category: login, name: x, trashed: false)\n"]) ∧
    Demo.run OnePass.Demo.pa b!"1" [] (.list [] [] [] true) = (true, [.out b!"Password:\n", .password,
      .table [b!"lp.", b!"uid", b!"category", b!"title"] [[b!"1", b!"T", b!"Login", b!"Old"]]]) := by decide +kernel

/-- C66: a category there is not. -/
example : Demo.run OnePass.Demo.pa b!"1" [] (.list [] b!"logins" [] false) =
    (false, [.out b!"Password:\n", .password, .out b!"unknown item category\n"]) := by decide +kernel

/-- With notifications off the commands begin with nothing. -/
example : Silent (user b!"n") := by decide +kernel

end Cli
end OnePass
