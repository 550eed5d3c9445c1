/-
What leaves the process does not depend on the vault's contents or the password: C87.
-/
import Verif.Model.ParFacts
import Verif.Props.GuiFoot

set_option linter.unusedSimpArgs false

namespace OnePass
namespace Cli
open Prog Fmt

/-- Two programs that may differ in the primitives for the vault, the password typed, the order of maps and ties, and what
only an installation looks at. -/
structure Alike (C C' : Ctx) : Prop where
  sys : Prog.Alike C.sys C'.sys
  ext : C.ext = C'.ext
  text : C.env.text = C'.env.text
  dir : C.dir = C'.dir

section
variable {cwd : List Bytes} {V : List Bytes → Prop} {S S' : Sys}

theorem Apart.file {dir f : Bytes} (hd : dir ≠ []) (hf : f ≠ [] ∧ f ≠ [46] ∧ f ≠ [46, 46] ∧ (47 : UInt8) ∉ f)
    (h1 : ∀ l, l <+: Path.resolve cwd dir → ¬ V l) (h2 : ¬ V (Path.resolve cwd (Path.join [dir, f]))) :
    ∀ l, l <+: Path.resolve cwd (Path.join [dir, f]) → ¬ V l := by
  intro l hl
  have e : Path.resolve cwd (Path.join [dir, f]) = Path.resolve cwd dir ++ [f] :=
    Path.resolve_join cwd hd (by simp) (by intro c hc; rw [List.mem_singleton] at hc; subst hc; exact hf)
  rw [e] at hl h2
  rcases List.prefix_concat_iff.1 hl with h | h
  · rw [h]; exact h2
  · exact h1 l h

theorem par_fetchInfo (hS : Prog.Alike S S') (t : Int) : Par cwd V (Upd.fetchInfo S t) (Upd.fetchInfo S' t) :=
  Par.bind (Par.httpGet hS _ t) fun a => by
    cases a with
    | failed => exact Par.pure _
    | body d c => cases c <;> exact Par.lift _

theorem par_checkTimestamp (hS : Prog.Alike S S') {dir : Bytes} (h1 : ∀ l, l <+: Path.resolve cwd dir → ¬ V l)
    (h2 : ∀ l, l <+: Path.resolve cwd (Path.join [dir, Upd.lastCheckFile]) → ¬ V l) :
    Par cwd V (Upd.checkTimestamp S dir) (Upd.checkTimestamp S' dir) :=
  Par.bind (Par.now hS) fun _ => Par.bind (Par.ensureDir hS h1) fun _ => Par.bind (Par.writeFile hS h2 _) fun _ => Par.pure _

theorem par_shouldCheck (hS : Prog.Alike S S') (X : Ext) (period : Int) {dir : Bytes}
    (h2 : ∀ l, l <+: Path.resolve cwd (Path.join [dir, Upd.lastCheckFile]) → ¬ V l) :
    Par cwd V (Upd.shouldCheck S X period dir) (Upd.shouldCheck S' X period dir) :=
  Par.bind (Par.stat hS (h2 _ (List.prefix_refl _))) fun _ => Par.bind (Par.readFile hS (h2 _ (List.prefix_refl _))) fun _ =>
    Par.bind (Par.now hS) fun _ => Par.pure _

theorem par_updCheck (hS : Prog.Alike S S') (X : Ext) (period t : Int) (force : Bool) {dir : Bytes}
    (h1 : ∀ l, l <+: Path.resolve cwd dir → ¬ V l)
    (h2 : ∀ l, l <+: Path.resolve cwd (Path.join [dir, Upd.lastCheckFile]) → ¬ V l) :
    Par cwd V (Upd.checkForUpdate S X period t force dir) (Upd.checkForUpdate S' X period t force dir) := by
  have go : Par cwd V (andThen (Upd.fetchInfo S t) fun info => (do
      match info with
      | none =>
        Upd.checkTimestamp S dir
        Prog.pure (.error .noUpdate)
      | some i =>
        Upd.checkTimestamp S dir
        if i.newer then Prog.pure (.ok i) else Prog.pure (.error .noUpdate) : Prog (Except Err UpdateInfo)))
      (andThen (Upd.fetchInfo S' t) fun info => (do
      match info with
      | none =>
        Upd.checkTimestamp S' dir
        Prog.pure (.error .noUpdate)
      | some i =>
        Upd.checkTimestamp S' dir
        if i.newer then Prog.pure (.ok i) else Prog.pure (.error .noUpdate) : Prog (Except Err UpdateInfo))) := by
    refine Par.andThen (par_fetchInfo hS t) fun info => ?_
    cases info with
    | none => exact Par.bind (par_checkTimestamp hS h1 h2) fun _ => Par.pure _
    | some i =>
      refine Par.bind (par_checkTimestamp hS h1 h2) fun _ => ?_
      show Par cwd V (if i.newer then _ else _) (if i.newer then _ else _)
      split <;> exact Par.pure _
  unfold Upd.checkForUpdate
  cases force with
  | true => exact go
  | false =>
    refine Par.bind (par_shouldCheck hS X period h2) fun b => ?_
    cases b
    · exact Par.pure _
    · exact go

theorem par_load (hS : Prog.Alike S S') (X : Ext) {dir : Bytes} (h : ¬ V (Path.resolve cwd (Conf.path dir))) :
    Par cwd V (Conf.load S X dir) (Conf.load S' X dir) :=
  Par.bind (Par.stat hS h) fun a => by
    cases a with
    | none => exact Par.pure _
    | some n =>
      refine Par.bind (Par.readFile hS h) fun r => ?_
      cases r with
      | error e => exact Par.lift _
      | ok file =>
        show Par cwd V (match X.yamlDecode file with | none => exit | some m => Prog.pure m)
          (match X.yamlDecode file with | none => exit | some m => Prog.pure m)
        cases X.yamlDecode file with
        | none => exact Par.lift _
        | some m => exact Par.pure _

theorem par_boot (hS : Prog.Alike S S') (X : Ext) {dir : Bytes} (h : ¬ V (Path.resolve cwd (Conf.path dir))) :
    Par cwd V (Conf.boot S X dir) (Conf.boot S' X dir) :=
  Par.bind (par_load hS X h) fun m => Par.fresh m

theorem par_get {α : Type} {f f' : World → Prog α} (h : ∀ a b : World, a.conf = b.conf → Par cwd V (f a) (f' b)) :
    Par cwd V (Prog.get >>= f) (Prog.get >>= f') := fun a b hs => h a b hs.conf a b hs

theorem par_save (hS : Prog.Alike S S') (X : Ext) {dir : Bytes} (c : Config) (h1 : ∀ l, l <+: Path.resolve cwd dir → ¬ V l)
    (h2 : ∀ l, l <+: Path.resolve cwd (Conf.path dir) → ¬ V l) :
    Par cwd V (Conf.save S X dir c) (Conf.save S' X dir c) := by
  unfold Conf.save
  refine par_get fun a b hab => ?_
  rw [hab]
  cases b.conf with
  | none => exact Par.lift _
  | some m =>
    refine Par.bind (Par.setConf _) fun _ => Par.bind (Par.ensureDir hS h1) fun _ => Par.bind (Par.writeFile hS h2 _) fun r => ?_
    cases r with
    | error e => exact Par.lift _
    | ok _ => exact Par.bind (par_load hS X (h2 _ (List.prefix_refl _))) fun m => Par.setConf m

theorem par_out (a b : Bytes) : Par cwd V (emit (.out a)) (emit (.out b)) := Par.emit rfl rfl

/-- The places of configuration and time stamp are not in `V`. -/
structure Clear (cwd : List Bytes) (V : List Bytes → Prop) (dir : Bytes) : Prop where
  own : ∀ l, l <+: Path.resolve cwd dir → ¬ V l
  stamp : ∀ l, l <+: Path.resolve cwd (Path.join [dir, Upd.lastCheckFile]) → ¬ V l
  conf : ∀ l, l <+: Path.resolve cwd (Conf.path dir) → ¬ V l

theorem clear_of {dir : Bytes} (hd : dir ≠ []) (h : ∀ m, V m → ¬ OwnLoc cwd dir m) : Clear cwd V dir := by
  have h1 : ∀ l, l <+: Path.resolve cwd dir → ¬ V l := fun l hl hv => h l hv (.inl (.inl hl))
  exact ⟨h1, Apart.file hd (by decide) h1 fun hv => h _ hv (.inl (.inr rfl)),
    Apart.file hd (by decide) h1 fun hv => h _ hv (.inr rfl)⟩

variable {C C' : Ctx}

theorem par_facadeCheck (hC : Alike C C') (hV : Clear cwd V C.dir) (force : Bool) :
    Par cwd V (Upd.facadeCheck C.sys C.ext C.dir force) (Upd.facadeCheck C'.sys C'.ext C'.dir force) := by
  rw [← hC.ext, ← hC.dir]
  exact Par.bind Par.read fun c => par_updCheck hC.sys _ _ _ _ hV.own hV.stamp

theorem par_cliCheck (hC : Alike C C') (hV : Clear cwd V C.dir) : Par cwd V (checkForUpdate C) (checkForUpdate C') := by
  unfold checkForUpdate
  refine Par.bind Par.read fun c => ?_
  show Par cwd V (if c.notify then _ else _) (if c.notify then _ else _)
  split
  · refine Par.bind (par_facadeCheck hC hV false) fun r => ?_
    cases r with
    | error e => exact Par.pure _
    | ok i => exact par_out _ _
  · exact Par.pure _

theorem par_askVault (hC : Alike C C') (c : Config) : Par cwd V (askVault C c) (askVault C' c) := by
  unfold askVault
  rw [← hC.text]
  refine Par.bind (par_out _ _) fun _ => Par.bind Par.scanln fun a => ?_
  cases LogicVal.fromName C.env.text a with
  | error e => exact Par.pure _
  | ok v =>
    show Par cwd V (if v = LogicVal.yes then _ else _) (if v = LogicVal.yes then _ else _)
    split
    · exact Par.bind (par_out _ _) fun _ => Par.bind Par.scanln fun _ => Par.pure _
    · exact Par.pure _

theorem par_askNotify (hC : Alike C C') (c : Config) : Par cwd V (askNotify C c) (askNotify C' c) := by
  unfold askNotify
  rw [← hC.text]
  cases LogicVal.fromValue c.notify with
  | none => exact Par.lift _
  | some lv =>
    refine Par.bind (par_out _ _) fun _ => Par.bind Par.scanln fun a => ?_
    cases LogicVal.fromName C.env.text a with
    | error e => exact Par.pure _
    | ok v => exact Par.pure _

theorem par_configure (hC : Alike C C') (hV : Clear cwd V C.dir) : Par cwd V (configure C) (configure C') := by
  unfold configure
  refine Par.bind (par_cliCheck hC hV) fun _ => Par.bind Par.read fun c => Par.bind (par_out _ _) fun _ =>
    Par.bind (par_out _ _) fun _ => Par.bind (par_askVault hC c) fun c => Par.bind (par_askNotify hC c) fun c =>
    Par.bind (Par.bind (par_out _ _) fun _ => Par.bind Par.scanln fun _ => Par.pure _) fun c =>
    Par.bind (Par.bind (par_out _ _) fun _ => Par.bind Par.scanln fun _ => Par.pure _) fun c =>
    Par.bind ?_ fun _ => par_out _ _
  rw [← hC.ext, ← hC.dir]
  exact par_save hC.sys _ c hV.own hV.conf

theorem par_firstRun (hC : Alike C C') (hV : Clear cwd V C.dir) : Par cwd V (firstRun C) (firstRun C') := by
  unfold firstRun
  refine par_get fun a b hab => ?_
  rw [hab]
  show Par cwd V (if _ then _ else _) (if _ then _ else _)
  split
  · exact Par.pure _
  · exact Par.bind (par_out _ _) fun _ => Par.bind (par_out _ _) fun _ => Par.bind (par_configure hC hV) fun _ => par_out _ _

/-! ### After the check nothing leaves any more -/

/-- Nothing is written and nothing is asked. -/
def Mute (w w' : World) : Prop := w'.disk = w.disk ∧ w'.log.filter Ev.leaves = w.log.filter Ev.leaves

theorem mute_chain : Chain Mute :=
  ⟨fun _ => ⟨rfl, rfl⟩, fun _ _ _ h1 h2 => ⟨h2.1.trans h1.1, h2.2.trans h1.2⟩⟩

theorem mute_emit {e : Ev} (h : e.leaves = false) : Rel Mute (emit e) := fun w => ⟨rfl, by simp [emit, h]⟩

theorem mute_onSession {α : Type} (f : Disk → Session → Out (α × Session)) : Rel Mute (onSession f) := by
  intro w
  unfold onSession
  cases f w.disk w.sess <;> exact ⟨rfl, rfl⟩

theorem mute_readPassword (S : Sys) : Rel Mute (Os.readPassword S) := by
  intro w
  rw [Os.readPassword_run]
  exact ⟨rfl, by simp [Ev.leaves]⟩

/-- What `openVault` does after the check. -/
def afterCheck (C : Ctx) (path : Bytes) : Prog Unit := do
  let vault ← chooseVault path
  match ← onSession (fun d s => s.validate d vault) with
  | .error e => die e
  | .ok _ =>
    println b!"Password:"
    let read ← Os.readPassword C.sys
    match ← onSession (fun d s => s.unlock C.env C.order d vault read.1) with
    | .error e => die e
    | .ok _ => Prog.pure ()

theorem mute_afterCheck (C : Ctx) (path : Bytes) : Rel Mute (afterCheck C path) := by
  have hdie : ∀ e, Rel Mute (die e) := fun e => Rel.bind mute_chain (mute_emit rfl) fun _ => Rel.lift mute_chain _
  refine Rel.bind mute_chain ?_ fun v => Rel.bind mute_chain (mute_onSession _) fun r => ?_
  · unfold chooseVault
    split
    · exact Rel.pure mute_chain _
    · exact Rel.bind mute_chain (rel_read mute_chain) fun _ => Rel.pure mute_chain _
  · cases r with
    | error e => exact hdie e
    | ok _ =>
      refine Rel.bind mute_chain (mute_emit rfl) fun _ => Rel.bind mute_chain (mute_readPassword _) fun _ =>
        Rel.bind mute_chain (mute_onSession _) fun r => ?_
      cases r with
      | error e => exact hdie e
      | ok _ => exact Rel.pure mute_chain _

/-- What an item command does once the vault is open. -/
def afterOpen (C : Ctx) : Cmd → Prog Unit
  | .list _ category title trashed => do
    let w ← Prog.get
    match categoryFilter C w.sess.reg category with
    | .error e => die e
    | .ok cat =>
      let category := Str.trimSpace category
      let title := Str.trimSpace title
      let items := w.sess.getItems C.env.text C.sorter cat title trashed
      if items.length > 0 then
        emit (.table [b!"lp.", b!"uid", b!"category", b!"title"]
          (numbered 1 (items.map (fun i => [i.uid, i.category.name, i.title]))))
      else
        println (b!"No results for search (category: " ++ category ++ b!", name: " ++ title ++ b!", trashed: " ++
          boolText trashed ++ b!")")
  | .overview _ u t => printItem C true u t
  | .details _ u t => printItem C false u t
  | _ => Prog.pure ()

/-- The vault named by an item command. -/
def Cmd.path : Cmd → Bytes
  | .list v _ _ _ => v
  | .overview v _ _ => v
  | .details v _ _ => v
  | _ => []

/-- The commands that open a vault. -/
def Cmd.opens : Cmd → Bool
  | .list .. | .overview .. | .details .. => true
  | _ => false

theorem main_opens (C : Ctx) (cmd : Cmd) (h : cmd.opens = true) :
    main C cmd = (do Conf.boot C.sys C.ext C.dir; firstRun C; checkForUpdate C; (do afterCheck C cmd.path; afterOpen C cmd)) := by
  cases cmd with
  | list v c n t =>
    show _ >>= _ = _
    congr 1; funext _
    show getItems C v c n t = _
    unfold getItems openVault afterCheck
    simp only [bind_assoc']
    rfl
  | overview v u t =>
    show _ >>= _ = _
    congr 1; funext _
    show getItemOverview C v u t = _
    unfold getItemOverview openVault afterCheck
    simp only [bind_assoc']
    rfl
  | details v u t =>
    show _ >>= _ = _
    congr 1; funext _
    show getItemDetails C v u t = _
    unfold getItemDetails openVault afterCheck
    simp only [bind_assoc']
    rfl
  | _ => cases h

theorem mute_afterOpen (C : Ctx) (cmd : Cmd) : Rel Mute (afterOpen C cmd) := by
  have hp : ∀ hide u t, Rel Mute (printItem C hide u t) := fun hide u t =>
    rel_printItem mute_chain C hide u t fun b => mute_emit rfl
  cases cmd with
  | list v c n t =>
    refine rel_get fun w => ?_
    show Rel Mute (match categoryFilter C w.sess.reg c with | .error e => die e | .ok cat => _)
    cases categoryFilter C w.sess.reg c with
    | error e => exact Rel.bind mute_chain (mute_emit rfl) fun _ => Rel.lift mute_chain _
    | ok cat =>
      show Rel Mute (if _ then _ else _)
      split
      · exact mute_emit rfl
      · exact mute_emit rfl
  | overview v u t => exact hp _ _ _
  | details v u t => exact hp _ _ _
  | _ => exact Rel.pure mute_chain _

theorem par_mute {α β : Type} {m m' : Prog α} {f f' : α → Prog β} (hm : Par cwd V m m') (hf : ∀ x, Rel Mute (f x))
    (hf' : ∀ x, Rel Mute (f' x)) {a b : World} (h : Sync cwd V a b) :
    ((m >>= f) a).2.disk.Off V ((m' >>= f') b).2.disk ∧ SameTrace V ((m >>= f) a).2.log ((m' >>= f') b).2.log := by
  obtain ⟨h1, h2⟩ := hm a b h
  rw [bind_run, bind_run]
  rcases ha : m a with ⟨o, a'⟩
  rcases hb : m' b with ⟨o', b'⟩
  rw [ha, hb] at h1 h2
  simp only at h1
  subst h1
  cases o with
  | ret x =>
    obtain ⟨p1, p2⟩ := hf x a'
    obtain ⟨q1, q2⟩ := hf' x b'
    refine ⟨?_, ?_⟩
    · show (f x a').2.disk.Off V (f' x b').2.disk
      rw [p1, q1]; exact h2.off
    · show SameTrace V (f x a').2.log (f' x b').2.log
      unfold SameTrace
      rw [p2, q2]; exact h2.trace
  | panic => exact ⟨h2.off, h2.trace⟩
  | fatal => exact ⟨h2.off, h2.trace⟩

end

/-- C87. Two runs of commands that open a vault, any commands with any arguments, on machines that differ in the files of
`V` (the vault), in the password typed, in the cryptographic primitives and in what is left of earlier sessions: whatever fails
and whatever the server answers, everything written to the disk outside `V`, at every moment, and everything asked of
the network is the same. So nothing about the contents of the vault and nothing about the password gets out this way. -/
theorem C87_nothing_gets_out (C C' : Ctx) (cmd cmd' : Cmd) (a b : World) (V : List Bytes → Prop)
    (hcmd : cmd.opens = true) (hcmd' : cmd'.opens = true) (hC : Alike C C') (hdir : C.dir ≠ [])
    (hapart : ∀ l, V l → ¬ OwnLoc a.disk.cwd C.dir l) (hcwd : a.disk.cwd = b.disk.cwd)
    (hdisk : ∀ l, ¬ V l → a.disk.at? l = b.disk.at? l) (hlog : a.log = [] ∧ b.log = []) (htick : a.tick = b.tick)
    (hstdin : a.stdin = b.stdin) (hconf : a.conf = b.conf) :
    (∀ l, ¬ V l → (main C cmd a).2.disk.at? l = (main C' cmd' b).2.disk.at? l) ∧
    List.Forall₂ (Ev.Twin V) ((main C cmd a).2.log.filter Ev.leaves) ((main C' cmd' b).2.log.filter Ev.leaves) := by
  have hV := clear_of hdir hapart
  rw [main_opens C cmd hcmd, main_opens C' cmd' hcmd']
  have hs : Sync a.disk.cwd V a b :=
    ⟨rfl, ⟨hcwd, hdisk⟩, by unfold SameTrace; rw [hlog.1, hlog.2]; exact .nil, htick, hstdin, hconf⟩
  have hp : Par a.disk.cwd V (Conf.boot C.sys C.ext C.dir >>= fun _ => firstRun C >>= fun _ => checkForUpdate C)
      (Conf.boot C'.sys C'.ext C'.dir >>= fun _ => firstRun C' >>= fun _ => checkForUpdate C') := by
    refine Par.bind ?_ fun _ => Par.bind (par_firstRun hC hV) fun _ => par_cliCheck hC hV
    rw [← hC.ext, ← hC.dir]
    exact par_boot hC.sys _ (hV.conf _ (List.prefix_refl _))
  have := par_mute hp (f := fun _ => afterCheck C cmd.path >>= fun _ => afterOpen C cmd)
    (f' := fun _ => afterCheck C' cmd'.path >>= fun _ => afterOpen C' cmd')
    (fun _ => Rel.bind mute_chain (mute_afterCheck C _) fun _ => mute_afterOpen C _)
    (fun _ => Rel.bind mute_chain (mute_afterCheck C' _) fun _ => mute_afterOpen C' _) hs
  simp only [bind_assoc'] at this
  exact ⟨this.1.2, this.2⟩

/-! ### Example: a first run, with two vaults, two passwords and two commands -/

namespace Demo

/-- A machine with a vault at /a and no configuration; the questions are answered, with notifications on. -/
def fresh (secret : Bytes) : World :=
  Toy.world { disk secret b!"memo" with fs := (disk secret b!"memo").fs.drop 2 } b!"n\nY\n2\n3\n"

/-- What leaves the process. -/
def trace (password secret : Bytes) (cmd : Cmd) : List Ev :=
  (main (ctx password) cmd (fresh secret)).2.log.filter Ev.leaves

theorem fresh_at (s s' : Bytes) (l : List Bytes) (h : ¬ [b!"a"] <+: l) : (fresh s).disk.at? l = (fresh s').disk.at? l := by
  cases l with
  | nil => simp [fresh, Toy.world, disk, Disk.at?, List.lookup]
  | cons x l =>
    have hx : x ≠ b!"a" := fun hx => h (by rw [hx]; exact ⟨l, rfl⟩)
    have hx' : (x == b!"a") = false := by simpa using hx
    simp [fresh, Toy.world, disk, Disk.at?, List.find?_cons, hx, hx', Ne.symm hx]

set_option maxRecDepth 10000 in
/-- The hypotheses of C87 hold of them. -/
example : (∀ l, [b!"a"] <+: l → ¬ OwnLoc (fresh b!"1234").disk.cwd b!"/h" l) ∧
    List.Forall₂ (Ev.Twin ([b!"a"] <+: ·)) (trace OnePass.Demo.pa b!"1234" (.details b!"/a" b!"M" false))
      (trace b!"wrong" b!"98765" (.list b!"/a" [] [] false)) := by
  have hl : ∀ l, [b!"a"] <+: l → ¬ OwnLoc (fresh b!"1234").disk.cwd b!"/h" l := by
    rintro l ⟨m, rfl⟩ h
    have e1 : Path.resolve (fresh b!"1234").disk.cwd b!"/h" = [b!"h"] := by decide +kernel
    have e2 : Path.resolve (fresh b!"1234").disk.cwd (Path.join [b!"/h", Upd.lastCheckFile]) = [b!"h", b!"lastcheck"] := by decide +kernel
    have e3 : Path.resolve (fresh b!"1234").disk.cwd (Conf.path b!"/h") = [b!"h", b!"1pass.yml"] := by decide +kernel
    unfold OwnLoc StampLoc at h
    rw [e1, e2, e3] at h
    rcases h with (h | h) | h
    · obtain ⟨x, hx⟩ := h
      simp at hx
    · simp at h
    · simp at h
  exact ⟨hl, (C87_nothing_gets_out (ctx OnePass.Demo.pa) (ctx b!"wrong") _ _ _ (fresh b!"98765") ([b!"a"] <+: ·) rfl rfl
    ⟨⟨rfl, rfl, rfl⟩, rfl, rfl, rfl⟩ (by decide) hl rfl (fun l h => fresh_at _ _ l h) ⟨rfl, rfl⟩ rfl rfl rfl).2⟩

/-- There is something to be seen from outside, and the runs themselves are different. -/
example : (trace OnePass.Demo.pa b!"1234" (.details b!"/a" b!"M" false)).length = 113 ∧
    (main (ctx OnePass.Demo.pa) (.details b!"/a" b!"M" false) (fresh b!"1234")).1 = .ret () ∧
    (main (ctx b!"wrong") (.list b!"/a" [] [] false) (fresh b!"98765")).1 = .fatal := by decide +kernel

end Demo

end Cli
end OnePass
