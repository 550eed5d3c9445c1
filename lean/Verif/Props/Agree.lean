/-
The GUI and the command line show the same: C113.
-/
import Verif.Props.GuiReach
import Verif.Props.Own

set_option linter.unusedSimpArgs false

namespace OnePass

/-- Codes are found whatever the order of the shared list. -/
theorem fromCode_perm {reg reg' : List Cat} (h : reg.Perm Cat.values) (h' : reg'.Perm Cat.values) (code : Bytes) :
    Cat.fromCode reg' code = Cat.fromCode reg code := by
  obtain ⟨a1, a2, -⟩ := C38_lookup Text.toy reg h
  obtain ⟨b1, b2, -⟩ := C38_lookup Text.toy reg' h'
  by_cases hc : ∀ c ∈ Cat.values, c.code ≠ code
  · rw [(a2 code).1 hc, (b2 code).1 hc]
  · push Not at hc
    obtain ⟨c, h1, h2⟩ := hc
    rw [(a1 code c).2 ⟨h1, h2⟩, (b1 code c).2 ⟨h1, h2⟩]

theorem decodeItems_reg (E : Env) (O : MapOrder) {reg reg' : List Cat} (h : reg.Perm Cat.values) (h' : reg'.Perm Cat.values)
    (keys : Keys) (raw : List RawItem) : ItemSvc.decodeItems E O reg' keys raw = ItemSvc.decodeItems E O reg keys raw := by
  unfold ItemSvc.decodeItems
  have : ItemSvc.decodeItem E O reg' keys = ItemSvc.decodeItem E O reg keys := by
    funext r
    unfold ItemSvc.decodeItem
    rw [fromCode_perm h h']
  rw [this]

/-- Two processes that have read the same profile and hold no items open a vault with the same password to the same items. -/
theorem unlock_same (E : Env) (O O' : MapOrder) {d d' : Disk} {v p : Bytes} {s s' s1 : Session} (hr : s.reg.Perm Cat.values)
    (hr' : s'.reg.Perm Cat.values) (hi : s.items = none) (hi' : s'.items = none) (hp : s'.profile = s.profile)
    (hd : ∀ O, Repo.loadItems E O d' v = Repo.loadItems E O d v) (h : s.unlock E O d v p = .ret (.ok (), s1)) :
    ∃ s2, s'.unlock E O' d' v p = .ret (.ok (), s2) ∧ (held s2).Perm (held s1) ∧ s2.reg = s'.reg ∧ s2.isUnlocked = true := by
  rcases Session.unlock_cases h with h | h
  · cases h.1
  obtain ⟨-, keys, raw, items, h1, h2, rfl, h3, h4, h5⟩ := h
  obtain ⟨raw', h1', hq⟩ := loadItems_perm E O O' d v h1
  obtain ⟨items', h2', hq'⟩ := decodeItems_perm E O O' _ _ hq h2
  refine ⟨{ s' with keys := some keys, items := some items' }, ?_, ?_, rfl, rfl⟩
  · unfold Session.unlock Session.decodeItems
    rw [hp, h3]
    simp only [Out.ret_bind, h4, h5, hd, h1', Out.pure_eq]
    rw [decodeItems_reg E O' hr hr', h2']
    simp only [Out.ret_bind, hi', Repo.storeItems]
  · unfold held
    simp only [hi, Repo.storeItems]
    exact hq'.symm

/-- The same vault on two disks. -/
def SameVault (vault : Bytes) (d d' : Disk) : Prop :=
  d'.cwd = d.cwd ∧ ∀ l, Path.resolve d.cwd vault <+: l → d'.at? l = d.at? l

namespace Gui
open Act Spec

variable (C : Ctx) (K : Kit)

/-- The vault that is open was opened with the password `p`, when the disk was `d`, and has not been locked since. -/
def OpenedWith (vault : Bytes) (w : World) (x y : Nat) (es : List Event) (p : Bytes) (d : Disk) : Prop :=
  ∃ before after u v, es = before ++ .key .enter :: after ∧ Live C K vault w x y before u ∧ u.cur = some (.live .prompt) ∧
    u.views .prompt = some v ∧ entered v = p ∧ u.world.disk = d ∧
    ∀ mid, mid <+: after → ∀ t, Live C K vault w x y (before ++ .key .enter :: mid) t → t.world.sess.isUnlocked = true

/-- What the session holds then: what `Unlock` of that password gave, up to the order of the registry. -/
def Origin (vault : Bytes) (w : World) (p : Bytes) (d : Disk) (s : Session) : Prop :=
  ∃ O s0 s1, Session.Reachable C.env s0 ∧ s0.items = none ∧ s0.profile = w.sess.profile ∧
    s0.unlock C.env O d vault p = .ret (.ok (), s1) ∧ s.items = s1.items

theorem Trans.origin {s t : St} {e : Event} (h : Trans C K s e t) :
    (t.world.sess.items = s.world.sess.items ∧ t.world.sess.isUnlocked = s.world.sess.isUnlocked) ∨
    t.world.sess.isUnlocked = false ∨
    (e = .key .enter ∧ s.cur = some (.live .prompt) ∧ ∃ v sess, s.views .prompt = some v ∧
      attemptUnlock C K s (entered v) = .ret (.ok (), sess) ∧ t.world.sess.items = sess.items ∧ t.world.sess.isUnlocked = true) := by
  cases h with
  | refused v e sess h hv hu =>
    obtain ⟨rfl, rfl⟩ := locked_of_error hu
    exact .inl ⟨rfl, rfl⟩
  | accepted v vm sess h hv hm hu =>
    refine .inr (.inr ⟨rfl, h.cur, v, sess, hv, hu, ?_, ?_⟩)
    · show (sortCats C sess).items = _
      unfold sortCats
      split <;> rfl
    · show (sortCats C sess).isUnlocked = true
      have := unlocked_of_ok hu
      unfold sortCats
      split <;> exact this
  | lockMenu v vh h hv hh => exact .inr (.inl rfl)
  | lockItems o vm vh h hm hh => exact .inr (.inl rfl)
  | checked v r w hp hv hr =>
    have hs : (checkedSt s v r w).world.sess = s.world.sess := (check_sess C hr).1
    exact .inl ⟨by rw [hs], by rw [hs]⟩
  | _ => exact .inl ⟨rfl, rfl⟩

theorem Live.unique {vault : Bytes} {w : World} {x y : Nat} {es : List Event} {s t : St} (h : Live C K vault w x y es s)
    (h' : Live C K vault w x y es t) : s = t := by
  have := h.goes.symm.trans h'.goes
  exact (Prod.mk.inj this).2

/-- Every open vault was opened with a password. -/
theorem Live.origin {vault : Bytes} {w : World} {x y : Nat} {es : List Event} {s : St} (h : Live C K vault w x y es s)
    (hu : s.world.sess.isUnlocked = true) :
    ∃ p d, OpenedWith C K vault w x y es p d ∧ Origin C vault w p d s.world.sess := by
  induction es using List.reverseRecOn generalizing s with
  | nil =>
    have := (h.steps C K).2.2
    generalize hes : ([] : List Event) = es at this
    cases this with
    | nil =>
      have hl := h.locked
      change w.sess.isUnlocked = true at hu
      rw [hu] at hl; cases hl
    | snoc => simp at hes
  | append_singleton es e ih =>
    obtain ⟨u, hlu, hst⟩ := h.snoc C K
    have hI := hlu.inv C K
    have ht : Trans C K u e s := (inv_step C K hI hst).1
    rcases ht.origin C K with ⟨h1, h2⟩ | h1 | ⟨rfl, hc, v, sess, hv, hun, hit, -⟩
    · rw [hu] at h2
      obtain ⟨p, d, ⟨before, after, u', v, rfl, k1, k2, k3, k4, k5, k6⟩, O, s0, s1, o1, o2, o3, o4, o5⟩ := ih hlu h2.symm
      refine ⟨p, d, ⟨before, after ++ [e], u', v, by simp, k1, k2, k3, k4, k5, fun mid hm t hlt => ?_⟩,
        O, s0, s1, o1, o2, o3, o4, h1.trans o5⟩
      rcases List.prefix_concat_iff.1 hm with rfl | hm
      · have hlt' : Live C K vault w x y ((before ++ .key .enter :: after) ++ [e]) t := by simpa using hlt
        rw [← h.unique C K hlt']
        exact hu
      · exact k6 mid hm t hlt
    · rw [hu] at h1; cases h1
    · have hk := hlu.kept C K
      have hl : u.world.sess.isUnlocked = false := (atPrompt_of hI hc).locked
      refine ⟨entered v, u.world.disk, ⟨es, [], u, v, rfl, hlu, hc, hv, rfl, rfl, fun mid hm t hlt => ?_⟩,
        K.order u.opened, u.world.sess, sess, hlu.session C K, hk.locked hl, hk.profile, ?_, hit⟩
      · have : mid = [] := List.prefix_nil.1 hm
        subst this
        rw [← h.unique C K hlt]
        exact hu
      · rw [← hk.vault]; exact hun

/-- A section on the command line. -/
def secLines (hide : Bool) (s : Section) : List Bytes :=
  [[]] ++ (if s.title ≠ [] then [s.title] else []) ++ [Cli.rule] ++
  (match s.fields with
   | none => []
   | some fs => fs.map (fun f => f.name ++ b!": " ++ (if hide then Cli.mask else f.value)))

/-- A section in the GUI. -/
def secText (hide : Bool) (s : Section) : Bytes :=
  b!"\n" ++ (if s.title ≠ [] then s.title ++ b!"\n" else []) ++ Cli.rule ++ b!"\n" ++
  (match s.fields with
   | none => []
   | some fs => fs.flatMap (fun f => f.name ++ b!": " ++ (if hide then Cli.mask else f.value) ++ b!"\n"))

theorem sec_same (hide : Bool) (s : Section) : (secLines hide s).flatMap (fun l => l ++ [10]) = secText hide s := by
  obtain ⟨title, fields⟩ := s
  have n1 : b!"\n" = [10] := by decide
  unfold secLines secText
  cases fields with
  | none => by_cases ht : title = [] <;> simp [ht, n1]
  | some fs =>
    have : (fs.map (fun f : Field => f.name ++ b!": " ++ (if hide then Cli.mask else f.value))).flatMap (fun l => l ++ [10]) =
        fs.flatMap (fun f => f.name ++ b!": " ++ (if hide then Cli.mask else f.value) ++ [10]) := by
      rw [List.flatMap_map]
    simp only [List.flatMap_append, this, n1]
    by_cases ht : title = [] <;> simp [ht]

/-- The details on the command line are the text of the pane between a blank line and, after notes, another one. -/
theorem lines_text (E : Env) (hide : Bool) (i : Item) :
    (Cli.itemLines E hide i).flatMap (fun l => l ++ [10]) =
      [10] ++ (detailsHead E i ++ detailsBody hide i) ++ (if i.notes ≠ [] then [10] else []) := by
  obtain ⟨category, created, notes, title, trashed, sections, uid, url, updated⟩ := i
  have h1 : Cli.itemLines E hide ⟨category, created, notes, title, trashed, sections, uid, url, updated⟩ =
      [[], category.name, Cli.rule, title, [],
        b!"Updated: " ++ Time.formatStamp updated (E.zone updated) ++ b!"\nCreated: " ++
          Time.formatStamp created (E.zone created) ++ b!"\nTrashed: " ++ boolText trashed] ++
      (if url ≠ [] then [b!"URL: " ++ url] else []) ++
      (match (generalizing := false) sections with | none => [] | some ss => ss.flatMap (secLines hide) ++ [[]]) ++
      (if notes ≠ [] then (if sections = none then [[]] else []) ++ [b!"Notes", Cli.rule, if hide then Cli.mask else notes, []] else []) := rfl
  have h2 : detailsBody hide ⟨category, created, notes, title, trashed, sections, uid, url, updated⟩ =
      (match (generalizing := false) sections with | none => [] | some ss => ss.flatMap (secText hide) ++ b!"\n") ++
      (if notes ≠ [] then (if sections = none then b!"\n" else []) ++ b!"Notes\n" ++ Cli.rule ++ b!"\n" ++
        (if hide then Cli.mask else notes) ++ b!"\n" else []) := rfl
  rw [h1, h2]
  unfold detailsHead
  have h3 : ∀ ss : List Section, (ss.flatMap (secLines hide)).flatMap (fun l => l ++ [10]) = ss.flatMap (secText hide) := fun ss => by
    rw [List.flatMap_assoc]
    exact congrArg (fun f => ss.flatMap f) (funext (sec_same hide))
  cases sections with
  | none => by_cases hn : notes = [] <;> by_cases hu : url = [] <;> simp [hn, hu]
  | some ss => by_cases hn : notes = [] <;> by_cases hu : url = [] <;> simp [hn, hu, h3]

/-- A path that stands for itself, on a disk without slashes in names. -/
structure Plain (vault : Bytes) (d : Disk) : Prop where
  literal : ∀ b ∈ vault, b ≠ 42 ∧ b ≠ 63 ∧ b ≠ 91 ∧ b ≠ 92
  names : ∀ e ∈ d.fs, ∀ c ∈ e.1, (47 : UInt8) ∉ c

/-- Nothing was changed; or something, but nothing in the vault. -/
def Unchanged (vault : Bytes) (d d' : Disk) : Prop := d' = d ∨ (Plain vault d ∧ SameVault vault d d')

/-- The same program on the same machine, as a command on the vault, with the password `p`; the vault is as it was when the GUI
was started (`d0`) and when the password was entered (`d`). -/
structure Asked (C D : Ctx) (flag vault p : Bytes) (d0 d : Disk) (w w1 : World) : Prop where
  env : D.env = C.env
  begun : Cli.Begun D w w1
  meant : Cli.Meaning w1.conf flag vault
  fresh : w.sess = Session.init
  password : D.sys.password w1.tick = p
  same0 : Unchanged vault d0 w1.disk
  same : Unchanged vault d w1.disk

theorem loadItems_same (E : Env) {vault : Bytes} {d d' : Disk} (hne : vault ≠ []) (h : Unchanged vault d d') (O : MapOrder) :
    Repo.loadItems E O d' vault = Repo.loadItems E O d vault := by
  rcases h with rfl | ⟨hp, h⟩
  · rfl
  · exact loadItems_congr E O hne hp.literal hp.names h.1 fun l hl => h.2 l ((List.prefix_append _ _).trans hl)

theorem validate_same {vault : Bytes} {d d' : Disk} (hne : vault ≠ []) (h : Unchanged vault d d') (s : Session) :
    s.validate d' vault = s.validate d vault := by
  rcases h with rfl | ⟨-, h⟩
  · rfl
  · exact validate_congr hne h.1 h.2 s

theorem validate_nonempty {vault : Bytes} {d : Disk} {s s' : Session} (h : s.validate d vault = .ret (.ok (), s')) : vault ≠ [] := by
  rintro rfl
  unfold Session.validate Repo.validateVault at h
  simp [Disk.stat] at h

/-- The command opens the vault to what the GUI holds. -/
theorem asked_opens {D : Ctx} {flag vault p : Bytes} {d0 d : Disk} {w w' w1 : World} {sess : Session}
    (ho : Origin C vault w p d sess) (hval : Session.init.validate d0 vault = .ret (.ok (), w.sess))
    (ha : Asked C D flag vault p d0 d w' w1) :
    ∃ s1 s2, w1.sess.validate w1.disk vault = .ret (.ok (), s1) ∧
      s1.unlock D.env D.order w1.disk vault (D.sys.password w1.tick) = .ret (.ok (), s2) ∧ (held s2).Perm (held sess) ∧
      Session.Reachable C.env s2 := by
  obtain ⟨O, s0, t, o1, o2, o3, o4, o5⟩ := ho
  have hs1 : w1.sess = Session.init := (Cli.begun_session ha.begun).trans ha.fresh
  have hv : Session.init.validate w1.disk vault = .ret (.ok (), w.sess) := by
    rw [validate_same (validate_nonempty hval) ha.same0]; exact hval
  have hw : w.sess.reg = Session.init.reg ∧ w.sess.items = none := by
    unfold Session.validate at hv
    rw [Out.bind_eq_ret] at hv
    obtain ⟨⟨r, P⟩, -, hv⟩ := hv
    simp only [Out.pure_eq, Out.ret.injEq, Prod.mk.injEq] at hv
    rw [← hv.2]
    exact ⟨rfl, rfl⟩
  obtain ⟨s2, h1, h2, h3, h4⟩ := unlock_same C.env O D.order (s' := w.sess) (d' := w1.disk) o1.inv.reg
    (by rw [hw.1]; exact List.Perm.refl _) o2 hw.2 o3.symm (loadItems_same C.env (validate_nonempty hval) ha.same) o4
  refine ⟨w.sess, s2, by rw [hs1]; exact hv, by rw [ha.env, ha.password]; exact h1, ?_, ?_⟩
  · unfold held at h2 ⊢
    rw [o5]; exact h2
  · have : Session.Reachable C.env w.sess := 
      ⟨w1.disk, [.validate vault], [Session.answerErr (.ok ())], w1.disk,
        by simp only [Session.run, Session.step, hv, Out.ret_bind, Out.pure_eq]⟩
    exact reachable_unlock this h1

/-- C113. What the details pane shows is what the command line prints: `details` if the pane has the focus, `overview`
otherwise, of the selected item, with the password the vault was opened with, if the vault has not been changed. The command
prints the text of the pane after a blank line, and another one after notes. -/
theorem C113_details (vault : Bytes) (w : World) (x y : Nat) (es : List Event) (s : St) (h : Live C K vault w x y es s)
    (d0 : Disk) (hval : Session.init.validate d0 vault = .ret (.ok (), w.sess)) (v : View) (hv : s.views .details = some v)
    (hne : s.items ≠ []) :
    ∃ (p : Bytes) (d : Disk) (r : SimpleItem) (text : Bytes), OpenedWith C K vault w x y es p d ∧
      s.items[s.itemIdx.toNat]? = some r ∧ v.lines = textLines text ∧
      ∀ (D : Ctx) (flag : Bytes) (w' w1 : World), Asked C D flag vault p d0 d w' w1 →
        ∃ (sess : Session) (lines : List Bytes), Cli.command D
            (if s.cur = some (.live .details) then .details flag r.uid r.trashed else .overview flag r.uid r.trashed) w' =
              (.ret (), Cli.after w1 sess (lines.map (fun l => .out (l ++ [10])))) ∧
          (lines.flatMap (fun l => l ++ [10]) = [10] ++ text ∨ lines.flatMap (fun l => l ++ [10]) = [10] ++ text ++ [10]) := by
  rcases C85_details C K vault w x y es s h v hv with h1 | ⟨r, i, h1, h2, h3, h4⟩
  · exact absurd h1.1 hne
  have hu : s.world.sess.isUnlocked = true := by
    cases hb : s.world.sess.isUnlocked with
    | true => rfl
    | false =>
      have := (h.kept C K).locked hb
      unfold held at h2
      rw [this] at h2
      cases h2
  obtain ⟨p, d, k1, k2⟩ := h.origin C K hu
  refine ⟨p, d, r, _, k1, h1, h4, fun D flag w' w1 ha => ?_⟩
  obtain ⟨s1, s2, g1, g2, g3, g4⟩ := asked_opens C k2 hval ha
  have hget : s2.getItem r.uid r.trashed = some i := by
    rw [C34_lookup C.env s2 g4, g3.mem_iff]
    subst h3
    exact ⟨h2, rfl, rfl⟩
  have hopen := Cli.open_ok D flag vault w' w1 ha.begun ha.meant s1 s2 g1 g2
  have hrun : ∀ hide, (do Cli.openVault D flag; Cli.printItem D hide r.uid r.trashed : Prog Unit) w' =
      (.ret (), Cli.after w1 s2 ((Cli.itemLines D.env hide i).map (fun l => .out (l ++ [10])))) := by
    intro hide
    rw [Prog.bind_run, hopen]
    refine (Cli.printItem_run D hide r.uid r.trashed (Cli.after w1 s2 []) i hget).trans ?_
    simp [Cli.after, List.append_assoc]
  have htext := lines_text C.env (decide (s.cur ≠ some (.live .details))) i
  refine ⟨s2, Cli.itemLines C.env (decide (s.cur ≠ some (.live .details))) i, ?_, ?_⟩
  · rw [← ha.env]
    by_cases hc : s.cur = some (.live .details)
    · rw [if_pos hc, show decide (s.cur ≠ some (.live .details)) = false by simp [hc]]
      exact hrun false
    · rw [if_neg hc, show decide (s.cur ≠ some (.live .details)) = true by simp [hc]]
      exact hrun true
  · rw [htext]
    split
    · exact .inr rfl
    · exact .inl (by simp)

theorem sorted_same {a b : List SimpleItem} (hp : a.Perm b)
    (ha : a.Pairwise (fun a b => a.category.code < b.category.code ∨ (a.category.code = b.category.code ∧ a.title ≤ b.title)))
    (hb : b.Pairwise (fun a b => a.category.code < b.category.code ∨ (a.category.code = b.category.code ∧ a.title ≤ b.title))) :
    a.map (fun i => (i.category.code, i.title)) = b.map (fun i => (i.category.code, i.title)) := by
  refine List.Perm.eq_of_pairwise (le := fun a b => a.1 < b.1 ∨ (a.1 = b.1 ∧ a.2 ≤ b.2)) ?_ (List.pairwise_map.2 ha)
    (List.pairwise_map.2 hb) (hp.map _)
  rintro ⟨a1, a2⟩ ⟨b1, b2⟩ - - h1 h2
  simp only at h1 h2
  rcases h1 with h1 | ⟨rfl, h1⟩
  · rcases h2 with h2 | ⟨rfl, -⟩
    · exact absurd h2 (List.lt_asymm h1)
    · exact absurd h1 (List.lt_irrefl _)
  · rcases h2 with h2 | ⟨-, h2⟩
    · exact absurd h2 (List.lt_irrefl _)
    · rw [List.le_antisymm h1 h2]

/-- The name of a code. -/
theorem named {a b : List SimpleItem} (h : a.map (fun i => (i.category.code, i.title)) = b.map (fun i => (i.category.code, i.title)))
    (ha : ∀ i ∈ a, i.category ∈ Cat.values) (hb : ∀ i ∈ b, i.category ∈ Cat.values) :
    a.map (fun i => (i.category.name, i.title)) = b.map (fun i => (i.category.name, i.title)) := by
  let g : Bytes × Bytes → Bytes × Bytes := fun e => match Cat.fromCode Cat.values e.1 with
    | .ok c => (c.name, e.2)
    | .error _ => e
  have hg : ∀ l : List SimpleItem, (∀ i ∈ l, i.category ∈ Cat.values) →
      l.map (fun i => (i.category.name, i.title)) = (l.map (fun i => (i.category.code, i.title))).map g := by
    intro l hl
    rw [List.map_map]
    refine List.map_congr_left (fun i hi => ?_)
    have := ((C38_lookup Text.toy Cat.values (List.Perm.refl _)).1 i.category.code i.category).2 ⟨hl i hi, rfl⟩
    simp only [Function.comp, g, this]
  rw [hg a ha, hg b hb, h]

/-- C113. What the GUI lists is what `list` prints for some category (or none) and one of the two settings of the flag for the
trash: the same items, with the same categories and titles in the same order. -/
theorem C113_list (vault : Bytes) (w : World) (x y : Nat) (es : List Event) (s : St) (h : Live C K vault w x y es s)
    (d0 : Disk) (hval : Session.init.validate d0 vault = .ret (.ok (), w.sess)) (v : View) (hv : s.views .items = some v)
    (hne : s.items ≠ []) :
    ∃ (p : Bytes) (d : Disk) (category : Bytes) (trashed : Bool), OpenedWith C K vault w x y es p d ∧
      (category = [] ∨ ∃ c ∈ Cat.values, category = c.name) ∧
      ∀ (D : Ctx) (flag : Bytes) (w' w1 : World), Asked C D flag vault p d0 d w' w1 →
        ∃ (sess : Session) (items : List SimpleItem) (rows : List (List Bytes)), Cli.command D (.list flag category [] trashed) w' =
            (.ret (), Cli.after w1 sess [.table [b!"lp.", b!"uid", b!"category", b!"title"] rows]) ∧ Cli.Rows items rows ∧
          items.Perm s.items ∧ items.map (fun i => (i.category.name, i.title)) = s.items.map (fun i => (i.category.name, i.title)) := by
  obtain ⟨c, tr, hfrom⟩ := (h.listKept C K).from_ (by rw [hv]; simp)
  have hr := h.session C K
  have hmem : ∀ r ∈ s.items, ∃ i ∈ held s.world.sess, Wanted C.env.text c [] tr i ∧ r = summary i := fun r hr => by
    rw [hfrom] at hr
    obtain ⟨i, h1, h2, h3⟩ := (C32_listed_iff C.env.text C.sorter s.world.sess c [] tr r).1 hr
    exact ⟨i, h1, h2, h3⟩
  have hcats : ∀ i ∈ held s.world.sess, i.category ∈ Cat.values := by
    intro i hi
    unfold held at hi
    cases hit : s.world.sess.items with
    | none => rw [hit] at hi; cases hi
    | some l => rw [hit] at hi; exact hr.inv.cats l hit i hi
  obtain ⟨r, hrm⟩ := List.exists_mem_of_ne_nil _ hne
  obtain ⟨i0, hi0, hw0, -⟩ := hmem r hrm
  have hu : s.world.sess.isUnlocked = true := by
    cases hb : s.world.sess.isUnlocked with
    | true => rfl
    | false =>
      have := (h.kept C K).locked hb
      unfold held at hi0
      rw [this] at hi0
      cases hi0
  obtain ⟨p, d, k1, k2⟩ := h.origin C K hu
  have hc : ∀ c', c = some c' → c' ∈ Cat.values := fun c' hc' => by
    rw [← hw0.2.1 c' hc']; exact hcats i0 hi0
  have htrim : ∀ c' ∈ Cat.values, c'.name ≠ [] ∧ Str.trimSpace c'.name = c'.name := by decide +kernel
  refine ⟨p, d, (match c with | none => [] | some c' => c'.name), tr, k1, ?_, fun D flag w' w1 ha => ?_⟩
  · cases c with
    | none => exact .inl rfl
    | some c' => exact .inr ⟨c', hc c' rfl, rfl⟩
  obtain ⟨s1, s2, g1, g2, g3, g4⟩ := asked_opens C k2 hval ha
  have hfil : Cli.Filter D.env.text (match c with | none => [] | some c' => c'.name) c := by
    cases c with
    | none => exact .inl ⟨rfl, rfl⟩
    | some c' =>
      have := htrim c' (hc c' rfl)
      exact .inr ⟨this.1, c', hc c' rfl, by simp only; rw [this.2]; unfold SameLetters; rfl, rfl⟩
  obtain ⟨items, q1, q2, q3, -⟩ := Cli.C65_list D flag vault _ [] tr w' w1 ha.begun ha.meant s1 s2 g1 g2
    (by rw [ha.fresh]; exact List.Perm.refl _) c hfil
  have hperm : items.Perm s.items := by
    rw [hfrom]
    refine q1.trans (.trans ?_ (C32_list_is_filter C.env.text C.sorter s.world.sess c [] tr).symm)
    rw [ha.env, show Str.trimSpace [] = [] by decide +kernel]
    exact (g3.filter _).map _
  have hne' : items ≠ [] := fun hn => hne (by rw [hn] at hperm; exact hperm.nil_eq.symm)
  obtain ⟨rows, q4, q5⟩ := q3 hne'
  refine ⟨s2, items, rows, q5, q4, hperm, named ?_ ?_ ?_⟩
  · refine sorted_same hperm q2 ?_
    rw [hfrom]
    exact C33_sorted C.env.text C.sorter s.world.sess c [] tr
  · intro i hi
    obtain ⟨j, hj, -, rfl⟩ := hmem i (hperm.mem_iff.1 hi)
    exact hcats j hj
  · intro i hi
    obtain ⟨j, hj, -, rfl⟩ := hmem i hi
    exact hcats j hj

/-! ### Examples -/

namespace Demo

/-- The first item of the list, revealed. -/
def revealed : List Event := opening ++ [.key .enter, .key .tab, .flush 80 24]

/-- What a command printed, as one text. -/
def printed (log : List Ev) : Bytes := log.flatMap (fun e => match e with | .out t => t | _ => [])

/-- What `details` of an item of the vault prints. -/
def told (uid : Bytes) : Bytes :=
  printed (Cli.main (Cli.Demo.ctx OnePass.Demo.pa) (.details [] uid false) (Toy.world (Cli.Demo.disk b!"1234" b!"memo") [])).2.log

end Demo

set_option maxRecDepth 20000 in
/-- C113: the revealed item in the pane, and what `details` prints: after the question for the password and a blank line, the
same text, and one more blank line after the notes. -/
example : (Demo.go (Cli.Demo.disk b!"1234" b!"memo") Demo.revealed).1 = .ok () ∧
    (Demo.go (Cli.Demo.disk b!"1234" b!"memo") Demo.revealed).2.items.map (·.uid) = [b!"M", b!"N"] ∧
    ((Demo.go (Cli.Demo.disk b!"1234" b!"memo") Demo.revealed).2.views .details).map (fun v => (v.lines[9]?, v.lines.length)) =
      some (some b!"Pin: 1234", 15) ∧
    ((Demo.go (Cli.Demo.disk b!"1234" b!"memo") Demo.revealed).2.views .details).map (·.lines) =
      some (textLines ((Demo.told b!"M").dropLast.drop 11)) ∧
    (Demo.told b!"M").take 11 = b!"Password:\n\n" ∧ (Demo.told b!"M").getLast? = some 10 := by decide +kernel

set_option maxRecDepth 20000 in
/-- The list in the pane and the one `list` prints. -/
example : ((Demo.go (Cli.Demo.disk b!"1234" b!"memo") Demo.revealed).2.views .items).map (·.lines.map Str.trimSpace) =
      some [b!"Mail", b!"Card", []] ∧
    (Cli.main (Cli.Demo.ctx OnePass.Demo.pa) (.list [] [] [] false) (Toy.world (Cli.Demo.disk b!"1234" b!"memo") [])).2.log.getLast? =
      some (.table [b!"lp.", b!"uid", b!"category", b!"title"] [[b!"1", b!"M", b!"Login", b!"Mail"], [b!"2", b!"N", b!"Credit Card", b!"Card"]]) := by
  decide +kernel

end Gui
end OnePass
