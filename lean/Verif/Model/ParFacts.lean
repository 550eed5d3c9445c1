/-
Two runs side by side: what a program does to the disk and asks the network for, when the two worlds differ in places it
does not look at.
-/
import Verif.Model.WorldFacts
import Verif.Model.FootFacts

set_option linter.unusedSimpArgs false

namespace OnePass

/-- What leaves the process for others to see: a write to the disk or a request. -/
def Ev.leaves : Ev → Bool
  | .disk _ => true
  | .request _ _ => true
  | _ => false

/-- The same, as far as it is outside `V`. -/
def Disk.Off (V : List Bytes → Prop) (d d' : Disk) : Prop := d.cwd = d'.cwd ∧ ∀ l, ¬ V l → d.at? l = d'.at? l

/-- The same write, as far as it is outside `V`; the same request. -/
def Ev.Twin (V : List Bytes → Prop) : Ev → Ev → Prop
  | .disk d, .disk d' => d.Off V d'
  | .request u t, .request u' t' => u = u' ∧ t = t'
  | _, _ => False

namespace Prog

/-- The events that leave the process are the same outside `V`. -/
def SameTrace (V : List Bytes → Prop) (l l' : List Ev) : Prop :=
  List.Forall₂ (Ev.Twin V) (l.filter Ev.leaves) (l'.filter Ev.leaves)

/-- Two worlds that differ in the session, in what has been printed and in `V` only. -/
structure Sync (cwd : List Bytes) (V : List Bytes → Prop) (a b : World) : Prop where
  cwd : a.disk.cwd = cwd
  off : a.disk.Off V b.disk
  trace : SameTrace V a.log b.log
  tick : a.tick = b.tick
  stdin : a.stdin = b.stdin
  conf : a.conf = b.conf

/-- Two programs that do the same in such worlds. -/
def Par {α : Type} (cwd : List Bytes) (V : List Bytes → Prop) (m m' : Prog α) : Prop :=
  ∀ a b, Sync cwd V a b → (m a).1 = (m' b).1 ∧ Sync cwd V (m a).2 (m' b).2

section
variable {cwd : List Bytes} {V : List Bytes → Prop}

theorem Par.pure {α : Type} (x : α) : Par cwd V (Prog.pure x) (Prog.pure x) := fun _ _ h => ⟨rfl, h⟩
theorem Par.lift {α : Type} (o : Out α) : Par cwd V (Prog.lift o) (Prog.lift o) := fun _ _ h => ⟨rfl, h⟩

theorem Par.bind {α β : Type} {m m' : Prog α} {f f' : α → Prog β} (hm : Par cwd V m m') (hf : ∀ x, Par cwd V (f x) (f' x)) :
    Par cwd V (m >>= f) (m' >>= f') := by
  intro a b h
  obtain ⟨h1, h2⟩ := hm a b h
  rw [bind_run, bind_run]
  rcases ha : m a with ⟨o, a'⟩
  rcases hb : m' b with ⟨o', b'⟩
  rw [ha, hb] at h1 h2
  simp only at h1
  subst h1
  cases o with
  | ret x => exact hf x a' b' h2
  | panic => exact ⟨rfl, h2⟩
  | fatal => exact ⟨rfl, h2⟩

theorem Par.andThen {α β : Type} {m m' : Prog (Except Err α)} {f f' : α → Prog (Except Err β)} (hm : Par cwd V m m')
    (hf : ∀ x, Par cwd V (f x) (f' x)) : Par cwd V (andThen m f) (andThen m' f') :=
  Par.bind hm fun x => by
    cases x with
    | error e => exact Par.pure _
    | ok x => exact hf x

theorem SameTrace.snoc {l l' : List Ev} (h : SameTrace V l l') {e e' : Ev} (he : Ev.Twin V e e') :
    SameTrace V (l ++ [e]) (l' ++ [e']) := by
  unfold SameTrace
  rw [List.filter_append, List.filter_append]
  refine List.rel_append h ?_
  cases e <;> cases e' <;> first | exact he.elim | exact .cons he .nil

theorem SameTrace.quiet {l l' : List Ev} (h : SameTrace V l l') {e : Ev} (he : e.leaves = false) :
    SameTrace V (l ++ [e]) l' := by
  unfold SameTrace
  rw [List.filter_append]
  simpa [he, SameTrace] using h

theorem SameTrace.quiet' {l l' : List Ev} (h : SameTrace V l l') {e : Ev} (he : e.leaves = false) :
    SameTrace V l (l' ++ [e]) := by
  unfold SameTrace
  rw [List.filter_append]
  simpa [he, SameTrace] using h

theorem SameTrace.disks {l l' : List Ev} (h : SameTrace V l l') {ds ds' : List Disk} (hd : List.Forall₂ (Disk.Off V) ds ds') :
    SameTrace V (l ++ ds.map Ev.disk) (l' ++ ds'.map Ev.disk) := by
  induction hd generalizing l l' with
  | nil => simpa using h
  | cons h1 _ ih =>
    have := ih (h.snoc (e := .disk _) (e' := .disk _) h1)
    simpa using this

/-- Printing, also of different texts. -/
theorem Par.emit {e e' : Ev} (h : e.leaves = false) (h' : e'.leaves = false) : Par cwd V (emit e) (emit e') :=
  fun _ _ hs => ⟨rfl, ⟨hs.cwd, hs.off, (hs.trace.quiet h).quiet' h', hs.tick, hs.stdin, hs.conf⟩⟩

theorem Par.scanln : Par cwd V Fmt.scanln Fmt.scanln := fun a b hs => by
  refine ⟨?_, ⟨hs.cwd, hs.off, (hs.trace.quiet rfl).quiet' rfl, hs.tick, ?_, hs.conf⟩⟩
  · simp only [Fmt.scanln]; rw [hs.stdin]
  · simp only [Fmt.scanln]; rw [hs.stdin]

theorem Par.read : Par cwd V Conf.read Conf.read := fun a b hs => by
  refine ⟨?_, hs⟩
  simp only [Conf.read]; rw [hs.conf]

theorem Par.setConf (c : Option YMap) : Par cwd V (Conf.setConf c) (Conf.setConf c) := fun _ _ hs =>
  ⟨rfl, ⟨hs.cwd, hs.off, hs.trace, hs.tick, hs.stdin, rfl⟩⟩

theorem Par.fresh (c : Option YMap) : Par cwd V (Conf.fresh c) (Conf.fresh c) := fun _ _ hs =>
  ⟨rfl, ⟨hs.cwd, hs.off, hs.trace, hs.tick, hs.stdin, rfl⟩⟩

/-! ### System calls -/

/-- Two surroundings that differ in the password and in places the item commands do not come to. -/
structure Alike (S S' : Sys) : Prop where
  fault : S.fault = S'.fault
  answer : S.answer = S'.answer
  now : S.now = S'.now

variable {S S' : Sys}

theorem Sync.tickOne {a b : World} (h : Sync cwd V a b) :
    Sync cwd V { a with tick := a.tick + 1 } { b with tick := b.tick + 1 } :=
  ⟨h.cwd, h.off, h.trace, by simp [h.tick], h.stdin, h.conf⟩

theorem Sync.stat {a b : World} (h : Sync cwd V a b) {p : Bytes} (hp : ¬ V (Path.resolve cwd p)) :
    a.disk.stat p = b.disk.stat p := by
  unfold Disk.stat
  rw [← h.off.1, h.cwd, h.off.2 _ hp]

theorem Par.stat (hS : Alike S S') {p : Bytes} (hp : ¬ V (Path.resolve cwd p)) : Par cwd V (Os.stat S p) (Os.stat S' p) := by
  intro a b h
  rw [Os.stat_run, Os.stat_run, h.stat hp, hS.fault, h.tick]
  have := h.tickOne
  rw [h.tick] at this
  exact ⟨rfl, this⟩

theorem Par.readFile (hS : Alike S S') {p : Bytes} (hp : ¬ V (Path.resolve cwd p)) :
    Par cwd V (Os.readFile S p) (Os.readFile S' p) := by
  intro a b h
  have e : a.disk.readFile p = b.disk.readFile p := by
    unfold Disk.readFile
    rw [h.stat hp]
  rw [Os.readFile_run, Os.readFile_run, e, hS.fault, h.tick]
  have := h.tickOne
  rw [h.tick] at this
  exact ⟨rfl, this⟩

theorem Par.now (hS : Alike S S') : Par cwd V (Os.now S) (Os.now S') := by
  intro a b h
  rw [Os.now_run, Os.now_run, hS.now, h.tick]
  have := h.tickOne
  rw [h.tick] at this
  exact ⟨rfl, this⟩

theorem Par.httpGet (hS : Alike S S') (url : Bytes) (t : Int) : Par cwd V (Os.httpGet S url t) (Os.httpGet S' url t) := by
  intro a b h
  rw [Os.httpGet_run, Os.httpGet_run, hS.answer, h.tick]
  exact ⟨rfl, ⟨h.cwd, h.off, h.trace.snoc (e := .request _ _) (e' := .request _ _) ⟨rfl, rfl⟩, rfl, h.stdin, h.conf⟩⟩

theorem puts_off {d d' : Disk} (h : d.Off V d') (es : List (List Bytes × Node)) :
    List.Forall₂ (Disk.Off V) (d.puts es) (d'.puts es) := by
  induction es generalizing d d' with
  | nil => exact .nil
  | cons e es ih =>
    have : (d.put e.1 e.2).Off V (d'.put e.1 e.2) :=
      ⟨h.1, fun l hl => by rw [Disk.at?_put, Disk.at?_put, h.2 l hl]⟩
    exact .cons this (ih this)

theorem last_off {d d' : Disk} (h : d.Off V d') {ds ds' : List Disk} (hd : List.Forall₂ (Disk.Off V) ds ds') :
    (ds.getLast?.getD d).Off V (ds'.getLast?.getD d') := by
  induction hd generalizing d d' with
  | nil => exact h
  | @cons x y xs ys h1 hr ih =>
    have := ih h1
    cases hr with
    | nil => exact h1
    | cons h2 h3 =>
      simp only [List.getLast?_cons_cons]
      rw [List.getLast?_cons, List.getLast?_cons]
      rw [List.getLast?_cons, List.getLast?_cons] at this
      exact this

theorem Sync.through {a b : World} (h : Sync cwd V a b) {ds ds' : List Disk} (hd : List.Forall₂ (Disk.Off V) ds ds')
    (hc : (ds.getLast?.getD a.disk).cwd = cwd) : Sync cwd V (through ds a).2 (through ds' b).2 :=
  ⟨hc, last_off h.off hd, h.trace.disks hd, h.tick, h.stdin, h.conf⟩

theorem puts_cwd (d : Disk) (es : List (List Bytes × Node)) : ((d.puts es).getLast?.getD d).cwd = d.cwd := by
  induction es generalizing d with
  | nil => rfl
  | cons e es ih =>
    have := ih (d.put e.1 e.2)
    rw [Disk.puts, List.getLast?_cons]
    exact this

theorem Sync.throughPuts {a b : World} (h : Sync cwd V a b) (es : List (List Bytes × Node)) :
    Sync cwd V (Prog.through (a.disk.puts es) a).2 (Prog.through (b.disk.puts es) b).2 :=
  h.through (puts_off h.off es) ((puts_cwd _ _).trans h.cwd)

theorem missing_off {d d' : Disk} (h : d.Off V d') {loc : List Bytes} (hl : ∀ l, l <+: loc → ¬ V l) :
    d.missing loc = d'.missing loc := by
  have e1 : ∀ l ∈ loc.inits.filter (fun l => l ≠ []), d.at? l = d'.at? l := fun l hm => by
    rw [List.mem_filter, List.mem_inits] at hm
    exact h.2 l (hl l hm.1)
  have e2 : ∀ f : Option Node → Bool, (loc.inits.filter (fun l => l ≠ [])).any (fun l => f (d.at? l)) =
      (loc.inits.filter (fun l => l ≠ [])).any (fun l => f (d'.at? l)) := by
    intro f
    rw [Bool.eq_iff_iff, List.any_eq_true, List.any_eq_true]
    constructor
    · rintro ⟨l, h1, h2⟩
      exact ⟨l, h1, by rwa [← e1 l h1]⟩
    · rintro ⟨l, h1, h2⟩
      exact ⟨l, h1, by rwa [e1 l h1]⟩
  have e3 : (loc.inits.filter (fun l => l ≠ [])).filter (fun l => d.at? l = none) =
      (loc.inits.filter (fun l => l ≠ [])).filter (fun l => d'.at? l = none) :=
    List.filter_congr fun l hm => by rw [e1 l hm]
  have e4 := e2 (fun x => match x with | some (.file _ _) => true | _ => false)
  show (if (loc.inits.filter (fun l => l ≠ [])).any (fun l => match d.at? l with | some (.file _ _) => true | _ => false) then _ else some _) =
    (if (loc.inits.filter (fun l => l ≠ [])).any (fun l => match d'.at? l with | some (.file _ _) => true | _ => false) then _ else some _)
  rw [e3]
  rw [e4]

theorem Par.mkdirAll (hS : Alike S S') {p : Bytes} (hp : ∀ l, l <+: Path.resolve cwd p → ¬ V l) :
    Par cwd V (Os.mkdirAll S p) (Os.mkdirAll S' p) := by
  intro a b h
  have hc : b.disk.cwd = cwd := h.off.1.symm.trans h.cwd
  have ht := h.tickOne
  simp only [Os.mkdirAll, bind_run, Prog.tick, Prog.get]
  rw [h.cwd, hc, missing_off h.off hp, hS.fault, h.tick]
  rw [h.tick] at ht
  cases b.disk.missing (Path.resolve cwd p) with
  | none => exact ⟨rfl, ht⟩
  | some ls =>
    cases S'.fault b.tick with
    | some k => exact ⟨rfl, ht.throughPuts _⟩
    | none => exact ⟨rfl, ht.throughPuts _⟩

theorem Par.ensureDir (hS : Alike S S') {p : Bytes} (hp : ∀ l, l <+: Path.resolve cwd p → ¬ V l) :
    Par cwd V (Os.ensureDir S p) (Os.ensureDir S' p) :=
  Par.bind (Par.stat hS (hp _ (List.prefix_refl _))) fun x => by
    cases x with
    | some _ => exact Par.pure _
    | none => exact Par.bind (Par.mkdirAll hS hp) fun _ => Par.pure _

theorem isDir_off {d d' : Disk} (h : d.Off V d') {l : List Bytes} (hl : ¬ V l) : d.isDir l = d'.isDir l := by
  unfold Disk.isDir
  rw [h.2 l hl]

theorem Par.create (hS : Alike S S') {p : Bytes} (hp : ∀ l, l <+: Path.resolve cwd p → ¬ V l) :
    Par cwd V (Os.create S p) (Os.create S' p) := by
  intro a b h
  have hc : b.disk.cwd = cwd := h.off.1.symm.trans h.cwd
  have ht := h.tickOne
  simp only [Os.create, bind_run, Prog.tick, Prog.get]
  rw [h.cwd, hc, isDir_off h.off (hp _ (List.dropLast_prefix _)), h.off.2 _ (hp _ (List.prefix_refl _)), hS.fault, h.tick]
  rw [h.tick] at ht
  cases S'.fault b.tick with
  | some k => exact ⟨rfl, ht⟩
  | none =>
    simp only
    split
    · exact ⟨rfl, ht⟩
    · rcases b.disk.at? (Path.resolve cwd p) with _ | ⟨_ | ⟨c, x⟩⟩
      · exact ⟨rfl, ht.throughPuts [(_, _)]⟩
      · exact ⟨rfl, ht⟩
      · exact ⟨rfl, ht.throughPuts [(_, _)]⟩

theorem Par.write (hS : Alike S S') (f : List Bytes × Bool) (data : Bytes) (c : Bool) :
    Par cwd V (Os.write S f data c) (Os.write S' f data c) := by
  intro a b h
  have ht := h.tickOne
  simp only [Os.write, bind_run, Prog.tick, Prog.get]
  rw [hS.fault, h.tick]
  rw [h.tick] at ht
  cases S'.fault b.tick with
  | some k => exact ⟨rfl, ht.throughPuts _⟩
  | none => exact ⟨rfl, ht.throughPuts _⟩

theorem Par.writeFile (hS : Alike S S') {p : Bytes} (hp : ∀ l, l <+: Path.resolve cwd p → ¬ V l) (data : Bytes) :
    Par cwd V (Os.writeFile S p data) (Os.writeFile S' p data) :=
  Par.andThen (Par.create hS hp) fun f => Par.write hS f data true

end
end Prog
end OnePass
