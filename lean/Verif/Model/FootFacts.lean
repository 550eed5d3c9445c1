/-
What a program can touch: footprints on the disk and kinds of events.
-/
import Verif.Model.WorldFacts
import Verif.Model.ConfigFacts
import Verif.Model.Cli

set_option linter.unusedSimpArgs false

namespace OnePass
namespace Prog

/-- The world after a run is related to the world before it. -/
def Rel {α : Type} (R : World → World → Prop) (m : Prog α) : Prop := ∀ w, R w (m w).2

/-- A relation that can be followed through a program. -/
structure Chain (R : World → World → Prop) : Prop where
  refl : ∀ w, R w w
  trans : ∀ a b c, R a b → R b c → R a c

theorem Rel.pure {α : Type} {R : World → World → Prop} (h : Chain R) (a : α) : Rel R (Prog.pure a) := fun w => h.refl w

theorem Rel.lift {α : Type} {R : World → World → Prop} (h : Chain R) (o : Out α) : Rel R (Prog.lift o) := fun w => h.refl w

theorem Rel.bind {α β : Type} {R : World → World → Prop} (h : Chain R) {m : Prog α} {f : α → Prog β}
    (hm : Rel R m) (hf : ∀ a, Rel R (f a)) : Rel R (m >>= f) := by
  intro w
  have h1 := hm w
  rw [bind_run]
  cases hr : m w with
  | mk o w' =>
    rw [hr] at h1
    cases o with
    | ret a => exact h.trans _ _ _ h1 (hf a w')
    | panic => exact h1
    | fatal => exact h1

theorem Rel.andThen {α β : Type} {R : World → World → Prop} (h : Chain R) {m : Prog (Except Err α)}
    {f : α → Prog (Except Err β)} (hm : Rel R m) (hf : ∀ a, Rel R (f a)) : Rel R (andThen m f) := by
  refine Rel.bind h hm (fun a => ?_)
  cases a with
  | error e => exact Rel.pure h _
  | ok a => exact hf a

/-- What an event may be: a disk state that agrees with `d` outside `P`, or something allowed by `A`. -/
def Allowed (P : List Bytes → Prop) (A : Ev → Prop) (d : Disk) : Ev → Prop
  | .disk d' => d'.cwd = d.cwd ∧ ∀ l, ¬ P l → d'.at? l = d.at? l
  | e => A e

/-- Started in the directory `cwd`, only the locations in `P` are touched at any time and only events in `A`
happen. -/
def Foot (cwd : List Bytes) (P : List Bytes → Prop) (A : Ev → Prop) (w w' : World) : Prop :=
  w.disk.cwd = cwd → w'.disk.cwd = cwd ∧ (∀ l, ¬ P l → w'.disk.at? l = w.disk.at? l) ∧
    ∃ es, w'.log = w.log ++ es ∧ ∀ e ∈ es, Allowed P A w.disk e

theorem foot_chain (cwd : List Bytes) (P : List Bytes → Prop) (A : Ev → Prop) : Chain (Foot cwd P A) := by
  refine ⟨fun w hw => ⟨hw, fun _ _ => rfl, [], by simp, by simp⟩, fun a b c h1 h2 ha => ?_⟩
  obtain ⟨hb, k1, es1, l1, e1⟩ := h1 ha
  obtain ⟨hc, k2, es2, l2, e2⟩ := h2 hb
  refine ⟨hc, fun l hl => (k2 l hl).trans (k1 l hl), es1 ++ es2, by rw [l2, l1, List.append_assoc], ?_⟩
  intro e he
  rcases List.mem_append.1 he with he | he
  · exact e1 e he
  · have := e2 e he
    cases e with
    | disk d => exact ⟨this.1.trans (by rw [hb, ha]), fun l hl => (this.2 l hl).trans (k1 l hl)⟩
    | _ => exact this

/-- Configuration, input and session are left alone. -/
def Calm (w w' : World) : Prop := w'.conf = w.conf ∧ w'.stdin = w.stdin ∧ w'.sess = w.sess

theorem calm_chain : Chain Calm :=
  ⟨fun _ => ⟨rfl, rfl, rfl⟩, fun _ _ _ h1 h2 => ⟨h2.1.trans h1.1, h2.2.1.trans h1.2.1, h2.2.2.trans h1.2.2⟩⟩

section prim
variable (cwd : List Bytes) (P : List Bytes → Prop) (A : Ev → Prop) (S : Sys)

theorem foot_after {w : World} {ds : List Disk} (k : Nat)
    (h : ∀ d ∈ ds, d.cwd = w.disk.cwd ∧ ∀ l, ¬ P l → d.at? l = w.disk.at? l) :
    Foot cwd P A w { w with tick := w.tick + k, disk := w.disk.last ds, log := w.log ++ ds.map Ev.disk } := by
  intro hw
  have hl : (w.disk.last ds).cwd = w.disk.cwd ∧ ∀ l, ¬ P l → (w.disk.last ds).at? l = w.disk.at? l := by
    rcases Disk.last_mem w.disk ds with h0 | h0
    · rw [h0]; exact ⟨rfl, fun _ _ => rfl⟩
    · exact h _ h0
  refine ⟨hl.1.trans hw, hl.2, ds.map Ev.disk, rfl, ?_⟩
  intro e he
  obtain ⟨d, hd, rfl⟩ := List.mem_map.1 he
  exact h d hd

theorem foot_tick (w : World) (k : Nat) : Foot cwd P A w { w with tick := w.tick + k } :=
  fun hw => ⟨hw, fun _ _ => rfl, [], by simp, by simp⟩

theorem foot_emit {e : Ev} (h : ∀ d, e ≠ .disk d) (ha : A e) : Rel (Foot cwd P A) (emit e) := by
  intro w hw
  refine ⟨hw, fun _ _ => rfl, [e], rfl, ?_⟩
  intro e' he
  rw [List.mem_singleton] at he
  subst he
  cases e' with
  | disk d => exact absurd rfl (h d)
  | _ => exact ha

theorem calm_emit (e : Ev) : Rel Calm (emit e) := fun _ => ⟨rfl, rfl, rfl⟩

theorem foot_stat (p : Bytes) : Rel (Foot cwd P A) (Os.stat S p) := fun w => by
  rw [Os.stat_run]; exact foot_tick cwd P A w 1
theorem calm_stat (p : Bytes) : Rel Calm (Os.stat S p) := fun w => by rw [Os.stat_run]; exact ⟨rfl, rfl, rfl⟩

theorem foot_readFile (p : Bytes) : Rel (Foot cwd P A) (Os.readFile S p) := fun w => by
  rw [Os.readFile_run]; exact foot_tick cwd P A w 1
theorem calm_readFile (p : Bytes) : Rel Calm (Os.readFile S p) := fun w => by rw [Os.readFile_run]; exact ⟨rfl, rfl, rfl⟩

theorem foot_now : Rel (Foot cwd P A) (Os.now S) := fun w => by rw [Os.now_run]; exact foot_tick cwd P A w 1
theorem calm_now : Rel Calm (Os.now S) := fun w => by rw [Os.now_run]; exact ⟨rfl, rfl, rfl⟩

theorem foot_httpGet (url : Bytes) (t : Int) (h : A (.request url t)) : Rel (Foot cwd P A) (Os.httpGet S url t) := fun w => by
  rw [Os.httpGet_run]
  intro hw
  exact ⟨hw, fun _ _ => rfl, [.request url t], rfl, by simpa [Allowed] using h⟩
theorem calm_httpGet (url : Bytes) (t : Int) : Rel Calm (Os.httpGet S url t) := fun w => by
  rw [Os.httpGet_run]; exact ⟨rfl, rfl, rfl⟩

theorem foot_mkdirAll (p : Bytes) (h : ∀ l, l <+: Path.resolve cwd p → l ≠ [] → P l) :
    Rel (Foot cwd P A) (Os.mkdirAll S p) := by
  intro w hw
  obtain ⟨r, ds, h1, ls, k, h2, h3, -⟩ := Os.mkdirAll_run S p w
  rw [h1]
  refine foot_after cwd P A 1 ?_ hw
  intro d hd
  rw [h2] at hd
  have key : ∀ l, l ∉ ls → d.at? l = w.disk.at? l ∧ d.cwd = w.disk.cwd := fun l hl => Disk.puts_keep (by
    intro e he
    obtain ⟨l', hl', rfl⟩ := List.mem_map.1 he
    intro h0
    exact hl (h0 ▸ List.mem_of_mem_take hl')) d hd
  refine ⟨(key [] (fun h0 => (h3 _ h0).2.2 rfl)).2, fun l hl => (key l (fun h0 => ?_)).1⟩
  have := h3 l h0
  rw [hw] at this
  exact hl (h l this.1 this.2.2)
theorem calm_mkdirAll (p : Bytes) : Rel Calm (Os.mkdirAll S p) := by
  intro w
  obtain ⟨r, ds, h1, -⟩ := Os.mkdirAll_run S p w
  rw [h1]; exact ⟨rfl, rfl, rfl⟩

theorem foot_ensureDir (p : Bytes) (h : ∀ l, l <+: Path.resolve cwd p → l ≠ [] → P l) :
    Rel (Foot cwd P A) (Os.ensureDir S p) := by
  refine Rel.bind (foot_chain cwd P A) (foot_stat cwd P A S p) (fun a => ?_)
  cases a with
  | some _ => exact Rel.pure (foot_chain cwd P A) _
  | none => exact Rel.bind (foot_chain cwd P A) (foot_mkdirAll cwd P A S p h) (fun _ => Rel.pure (foot_chain cwd P A) _)
theorem calm_ensureDir (p : Bytes) : Rel Calm (Os.ensureDir S p) := by
  refine Rel.bind calm_chain (calm_stat S p) (fun a => ?_)
  cases a with
  | some _ => exact Rel.pure calm_chain _
  | none => exact Rel.bind calm_chain (calm_mkdirAll S p) (fun _ => Rel.pure calm_chain _)

theorem foot_create (p : Bytes) (h : P (Path.resolve cwd p)) : Rel (Foot cwd P A) (Os.create S p) := by
  intro w hw
  rcases Os.create_run S p w with ⟨h1, -⟩ | ⟨x, h1, -⟩
  · rw [h1]; exact foot_after cwd P A 1 (by simp) hw
  · rw [h1]
    refine foot_after cwd P A 1 ?_ hw
    intro d hd
    rw [List.mem_singleton] at hd
    subst hd
    refine ⟨rfl, fun l hl => ?_⟩
    rw [Disk.at?_put, if_neg]
    rintro rfl
    rw [hw] at hl
    exact hl h
theorem calm_create (p : Bytes) : Rel Calm (Os.create S p) := by
  intro w
  rcases Os.create_run S p w with ⟨h1, -⟩ | ⟨x, h1, -⟩ <;> (rw [h1]; exact ⟨rfl, rfl, rfl⟩)

theorem foot_write (f : List Bytes × Bool) (data : Bytes) (c : Bool) (h : P f.1) :
    Rel (Foot cwd P A) (Os.write S f data c) := by
  intro w hw
  have key : ∀ k, ∀ d ∈ Os.writeStates w.disk f data k, d.cwd = w.disk.cwd ∧ ∀ l, ¬ P l → d.at? l = w.disk.at? l := by
    intro k d hd
    refine ⟨(Os.writeStates_keep w.disk f data k (f.1 ++ [[]]) (by simp) d hd).2, fun l hl => ?_⟩
    exact (Os.writeStates_keep w.disk f data k l (by rintro rfl; exact hl h) d hd).1
  rcases Os.write_run S f data c w with ⟨k, h1, -⟩ | ⟨h1, -⟩
  · rw [h1]; exact foot_after cwd P A 1 (key k) hw
  · rw [h1]; exact foot_after cwd P A 1 (key _) hw
theorem calm_write (f : List Bytes × Bool) (data : Bytes) (c : Bool) : Rel Calm (Os.write S f data c) := by
  intro w
  rcases Os.write_run S f data c w with ⟨k, h1, -⟩ | ⟨h1, -⟩ <;> (rw [h1]; exact ⟨rfl, rfl, rfl⟩)

/-- Creating a file and writing into it. -/
theorem foot_createWrite (p data : Bytes) (c : Bool) (h : P (Path.resolve cwd p)) :
    Rel (Foot cwd P A) (andThen (Os.create S p) fun f => Os.write S f data c) := by
  intro w hw
  rw [andThen_run]
  have h1 := foot_create cwd P A S p h w
  rcases Os.create_run S p w with ⟨h2, -⟩ | ⟨x, h2, -⟩
  · rw [h2] at h1 ⊢; exact h1 hw
  · rw [h2] at h1 ⊢
    exact (foot_chain cwd P A).trans _ _ _ h1 (foot_write cwd P A S _ data c (by rw [hw]; exact h) _) hw
theorem calm_createWrite (p data : Bytes) (c : Bool) :
    Rel Calm (andThen (Os.create S p) fun f => Os.write S f data c) :=
  Rel.andThen calm_chain (calm_create S p) (fun f => calm_write S f data c)

theorem foot_rename (src dst : Bytes) (h1 : P (Path.resolve cwd src)) (h2 : P (Path.resolve cwd dst)) :
    Rel (Foot cwd P A) (Os.rename S src dst) := by
  intro w hw
  rcases Os.rename_run S src dst w with h | ⟨data, x, -, h, -⟩
  · rw [h]; exact foot_after cwd P A 1 (by simp) hw
  · rw [h]
    refine foot_after cwd P A 1 ?_ hw
    intro d hd
    rw [List.mem_singleton] at hd
    subst hd
    refine ⟨rfl, fun l hl => ?_⟩
    rw [hw]
    rw [Disk.at?_put, if_neg (by rintro rfl; exact hl h2), Disk.at?_del, if_neg (by rintro rfl; exact hl h1)]
theorem calm_rename (src dst : Bytes) : Rel Calm (Os.rename S src dst) := by
  intro w
  rcases Os.rename_run S src dst w with h | ⟨data, x, -, h, -⟩ <;> (rw [h]; exact ⟨rfl, rfl, rfl⟩)

theorem foot_removeAll (p : Bytes) (h : ∀ l, Path.resolve cwd p <+: l → P l) :
    Rel (Foot cwd P A) (Os.removeAll S p) := by
  intro w hw
  obtain ⟨r, ls, h1, h2, -⟩ := Os.removeAll_run S p w
  rw [h1]
  refine foot_after cwd P A 1 ?_ hw
  intro d hd
  have key : ∀ l, l ∉ ls → d.at? l = w.disk.at? l ∧ d.cwd = w.disk.cwd := fun l hl =>
    Disk.dels_keep (loc := l) (fun l' hl' h0 => hl (h0 ▸ hl')) d hd
  have hc : d.cwd = w.disk.cwd := by
    clear key
    generalize w.disk = d0 at hd
    clear h1 h2
    induction ls generalizing d0 with
    | nil => simp [Disk.dels] at hd
    | cons l ls ih =>
      simp only [Disk.dels, List.mem_cons] at hd
      rcases hd with rfl | hd
      · rfl
      · exact (ih (d0.del l) hd)
  refine ⟨hc, fun l hl => (key l (fun h0 => hl (h l ?_))).1⟩
  have := h2 l h0
  rwa [hw] at this
theorem calm_removeAll (p : Bytes) : Rel Calm (Os.removeAll S p) := by
  intro w
  obtain ⟨r, ls, h1, -⟩ := Os.removeAll_run S p w
  rw [h1]; exact ⟨rfl, rfl, rfl⟩

end prim

/-! ### The update check -/

section upd
variable (cwd : List Bytes) (P : List Bytes → Prop) (A : Ev → Prop) (S : Sys)

theorem foot_fetchInfo (t : Int) (h : A (.request Upd.githubReleases t)) : Rel (Foot cwd P A) (Upd.fetchInfo S t) := by
  refine Rel.bind (foot_chain cwd P A) (foot_httpGet cwd P A S _ t h) (fun a => ?_)
  cases a with
  | failed => exact Rel.pure (foot_chain cwd P A) _
  | body d c =>
    cases c
    · exact Rel.pure (foot_chain cwd P A) _
    · exact Rel.lift (foot_chain cwd P A) _
theorem calm_fetchInfo (t : Int) : Rel Calm (Upd.fetchInfo S t) := by
  refine Rel.bind calm_chain (calm_httpGet S _ t) (fun a => ?_)
  cases a with
  | failed => exact Rel.pure calm_chain _
  | body d c =>
    cases c
    · exact Rel.pure calm_chain _
    · exact Rel.lift calm_chain _

theorem foot_checkTimestamp (dir : Bytes) (h1 : ∀ l, l <+: Path.resolve cwd dir → l ≠ [] → P l)
    (h2 : P (Path.resolve cwd (Path.join [dir, Upd.lastCheckFile]))) : Rel (Foot cwd P A) (Upd.checkTimestamp S dir) := by
  refine Rel.bind (foot_chain cwd P A) (foot_now cwd P A S) (fun _ => ?_)
  refine Rel.bind (foot_chain cwd P A) (foot_ensureDir cwd P A S dir h1) (fun _ => ?_)
  exact Rel.bind (foot_chain cwd P A) (foot_createWrite cwd P A S _ _ true h2) (fun _ => Rel.pure (foot_chain cwd P A) _)
theorem calm_checkTimestamp (dir : Bytes) : Rel Calm (Upd.checkTimestamp S dir) := by
  refine Rel.bind calm_chain (calm_now S) (fun _ => ?_)
  refine Rel.bind calm_chain (calm_ensureDir S dir) (fun _ => ?_)
  exact Rel.bind calm_chain (calm_createWrite S _ _ true) (fun _ => Rel.pure calm_chain _)

theorem foot_shouldCheck (X : Ext) (period : Int) (dir : Bytes) :
    Rel (Foot cwd P A) (Upd.shouldCheck S X period dir) := by
  refine Rel.bind (foot_chain cwd P A) (foot_stat cwd P A S _) (fun _ => ?_)
  refine Rel.bind (foot_chain cwd P A) (foot_readFile cwd P A S _) (fun _ => ?_)
  refine Rel.bind (foot_chain cwd P A) (foot_now cwd P A S) (fun _ => ?_)
  exact Rel.pure (foot_chain cwd P A) _
theorem calm_shouldCheck (X : Ext) (period : Int) (dir : Bytes) :
    Rel Calm (Upd.shouldCheck S X period dir) := by
  refine Rel.bind calm_chain (calm_stat S _) (fun _ => ?_)
  refine Rel.bind calm_chain (calm_readFile S _) (fun _ => ?_)
  refine Rel.bind calm_chain (calm_now S) (fun _ => ?_)
  exact Rel.pure calm_chain _

/-- Anything the update check is made of. -/
theorem rel_checkForUpdate {R : World → World → Prop} (hR : Chain R) (X : Ext) (period t : Int) (force : Bool)
    (dir : Bytes) (h1 : Rel R (Upd.fetchInfo S t)) (h2 : Rel R (Upd.checkTimestamp S dir))
    (h3 : Rel R (Upd.shouldCheck S X period dir)) : Rel R (Upd.checkForUpdate S X period t force dir) := by
  have go : Rel R (andThen (Upd.fetchInfo S t) fun info => (do
      match info with
      | none =>
        Upd.checkTimestamp S dir
        Prog.pure (.error .noUpdate)
      | some i =>
        Upd.checkTimestamp S dir
        if i.newer then Prog.pure (.ok i) else Prog.pure (.error .noUpdate) : Prog (Except Err UpdateInfo))) := by
    refine Rel.andThen hR h1 (fun info => ?_)
    cases info with
    | none => exact Rel.bind hR h2 (fun _ => Rel.pure hR _)
    | some i =>
      refine Rel.bind hR h2 (fun _ => ?_)
      show Rel R (if i.newer then _ else _)
      split
      · exact Rel.pure hR _
      · exact Rel.pure hR _
  unfold Upd.checkForUpdate
  cases force with
  | true => exact go
  | false =>
    refine Rel.bind hR h3 (fun b => ?_)
    cases b
    · exact Rel.pure hR _
    · exact go

theorem read_run (w : World) : Conf.read w = (Conf.getConfig w.conf, w) := rfl

theorem rel_read {R : World → World → Prop} (hR : Chain R) : Rel R Conf.read := fun w => hR.refl w

/-- Anything the check before a command is made of. -/
theorem rel_cliCheck {R : World → World → Prop} (hR : Chain R) (C : Ctx)
    (h : ∀ t period, Rel R (Upd.checkForUpdate C.sys C.ext period t false C.dir))
    (hp : ∀ b, Rel R (emit (.out b))) : Rel R (Cli.checkForUpdate C) := by
  unfold Cli.checkForUpdate
  refine Rel.bind hR (rel_read hR) (fun c => ?_)
  show Rel R (if c.notify then _ else _)
  split
  · refine Rel.bind hR (Rel.bind hR (rel_read hR) (fun c => h c.timeout c.period)) (fun r => ?_)
    cases r with
    | error e => exact Rel.pure hR _
    | ok i => exact hp _
  · exact Rel.pure hR _

theorem calm_checkForUpdate (X : Ext) (period t : Int) (force : Bool) (dir : Bytes) :
    Rel Calm (Upd.checkForUpdate S X period t force dir) :=
  rel_checkForUpdate S calm_chain X period t force dir (calm_fetchInfo S t) (calm_checkTimestamp S dir)
    (calm_shouldCheck S X period dir)

theorem calm_cliCheck (C : Ctx) : Rel Calm (Cli.checkForUpdate C) :=
  rel_cliCheck calm_chain C (fun t p => calm_checkForUpdate C.sys C.ext p t false C.dir)
    (fun b => calm_emit (.out b))

end upd

end Prog

/-! ### The disk is always the last one in the log -/

/-- The disk states in a log. -/
def disks (l : List Ev) : List Disk := l.filterMap (fun | .disk d => some d | _ => none)

theorem disks_append (a b : List Ev) : disks (a ++ b) = disks a ++ disks b := by simp [disks, List.filterMap_append]

theorem disks_map (ds : List Disk) : disks (ds.map Ev.disk) = ds := by
  induction ds with
  | nil => rfl
  | cons d ds ih => simp only [disks, List.map_cons, List.filterMap_cons] at ih ⊢; rw [ih]

theorem mem_disks {l : List Ev} {d : Disk} : d ∈ disks l ↔ Ev.disk d ∈ l := by
  unfold disks
  rw [List.mem_filterMap]
  constructor
  · rintro ⟨e, h1, h2⟩
    cases e with
    | disk d' => cases h2; exact h1
    | _ => cases h2
  · intro h; exact ⟨_, h, rfl⟩

theorem disks_of_no {e : Ev} (h : ∀ d, e ≠ .disk d) : disks [e] = [] := by
  cases e with
  | disk d => exact absurd rfl (h d)
  | _ => rfl

theorem Disk.last_append (d : Disk) (a b : List Disk) : d.last (a ++ b) = (d.last a).last b := by
  induction a generalizing d with
  | nil => rfl
  | cons x a ih => rw [List.cons_append, Disk.last_cons, Disk.last_cons, ih]

namespace Prog

/-- The log only grows, and the disk is the last one in what was added. -/
def Coh (w w' : World) : Prop := ∃ es, w'.log = w.log ++ es ∧ w'.disk = w.disk.last (disks es)

theorem coh_chain : Chain Coh := by
  refine ⟨fun w => ⟨[], by simp, rfl⟩, ?_⟩
  rintro a b c ⟨es, h1, h2⟩ ⟨fs, h3, h4⟩
  exact ⟨es ++ fs, by rw [h3, h1, List.append_assoc], by rw [h4, h2, disks_append, Disk.last_append]⟩

theorem coh_after (w : World) (ds : List Disk) : Coh w (Os.after w ds) :=
  ⟨ds.map Ev.disk, rfl, by rw [disks_map]; rfl⟩

theorem coh_emit {e : Ev} (h : ∀ d, e ≠ .disk d) : Rel Coh (emit e) := fun w =>
  ⟨[e], rfl, by rw [disks_of_no h]; rfl⟩

variable (S : Sys)

theorem coh_readFile (p : Bytes) : Rel Coh (Os.readFile S p) := fun w => by
  rw [Os.readFile_run]; exact ⟨[], by simp, rfl⟩
theorem coh_mkdirAll (p : Bytes) : Rel Coh (Os.mkdirAll S p) := fun w => by
  obtain ⟨r, ds, h1, -⟩ := Os.mkdirAll_run S p w
  rw [h1]; exact coh_after w ds
theorem coh_removeAll (p : Bytes) : Rel Coh (Os.removeAll S p) := fun w => by
  obtain ⟨r, ds, h1, -⟩ := Os.removeAll_run S p w
  rw [h1]; exact coh_after w _
theorem coh_rename (src dst : Bytes) : Rel Coh (Os.rename S src dst) := fun w => by
  rcases Os.rename_run S src dst w with h | ⟨data, x, -, h, -⟩ <;> (rw [h]; exact coh_after w _)
theorem coh_createWrite (p data : Bytes) (c : Bool) : Rel Coh (andThen (Os.create S p) fun f => Os.write S f data c) := by
  refine Rel.andThen coh_chain (fun w => ?_) (fun f w => ?_)
  · rcases Os.create_run S p w with ⟨h1, -⟩ | ⟨x, h1, -⟩ <;> (rw [h1]; exact coh_after w _)
  · rcases Os.write_run S f data c w with ⟨k, h1, -⟩ | ⟨h1, -⟩ <;> (rw [h1]; exact coh_after w _)
theorem coh_httpGet (url : Bytes) (t : Int) : Rel Coh (Os.httpGet S url t) := fun w => by
  rw [Os.httpGet_run]; exact ⟨[.request url t], rfl, rfl⟩

end Prog

end OnePass
