/-
What an update reports in between changes nothing else.
-/
import Verif.Model.UpdateFacts

set_option linter.unusedSimpArgs false

namespace OnePass

namespace Upd
open Prog

/-- An update from stage 2 on. -/
def finish (S : Sys) (X : Ext) (t : Int) (cb : Nat → Ev) (info : UpdateInfo) : Prog (Except Err Unit) :=
  andThen (downloadFile S (Path.join [cacheDir, archiveName]) info.archiveUrl t) fun _ => do
    emit (cb 3)
    andThen (downloadFile S (Path.join [cacheDir, checksumName]) info.checksumUrl t) fun _ => do
      emit (cb 4)
      andThen (extractArchive S X (Path.join [cacheDir, archiveName]) cacheDir) fun _ => do
        emit (cb 5)
        andThen (validateChecksum S X (Path.join [cacheDir, appName]) (Path.join [cacheDir, checksumName])) fun _ => do
          emit (cb 6)
          andThen (replaceBinary S (Path.join [cacheDir, appName])) fun _ => do
            emit (cb 7)
            Os.removeAll S cacheDir

theorem install_eq (S : Sys) (X : Ext) (t : Int) (cb : Nat → Ev) (info : UpdateInfo) :
    install S X t cb info = (do
      emit (cb 1)
      andThen (Os.removeAll S cacheDir) fun _ =>
        andThen (Os.mkdirAll S cacheDir) fun _ => do
          emit (cb 2)
          finish S X t cb info) := rfl

theorem coh_finish (S : Sys) (X : Ext) (t : Int) (cb : Nat → Ev) (hcb : ∀ n d, cb n ≠ .disk d) (info : UpdateInfo) :
    Rel Coh (finish S X t cb info) := by
  have c := coh_chain
  refine Rel.andThen c (rel_downloadFile c S _ _ t (coh_httpGet S _ t) (fun d k => coh_createWrite S _ d k)) (fun _ => ?_)
  refine Rel.bind c (coh_emit (hcb 3)) (fun _ => ?_)
  refine Rel.andThen c (rel_downloadFile c S _ _ t (coh_httpGet S _ t) (fun d k => coh_createWrite S _ d k)) (fun _ => ?_)
  refine Rel.bind c (coh_emit (hcb 4)) (fun _ => ?_)
  refine Rel.andThen c (rel_extract c S X _ _ (coh_readFile S _) (fun n d k => coh_createWrite S _ d k)) (fun _ => ?_)
  refine Rel.bind c (coh_emit (hcb 5)) (fun _ => ?_)
  refine Rel.andThen c (rel_validate c S X _ _ (coh_readFile S)) (fun _ => ?_)
  refine Rel.bind c (coh_emit (hcb 6)) (fun _ => ?_)
  refine Rel.andThen c ?_ (fun _ => ?_)
  · unfold replaceBinary
    split
    · exact Rel.pure c _
    · exact coh_rename S _ _
  · exact Rel.bind c (coh_emit (hcb 7)) (fun _ => coh_removeAll S _)

theorem coh_install (S : Sys) (X : Ext) (t : Int) (cb : Nat → Ev) (hcb : ∀ n d, cb n ≠ .disk d) (info : UpdateInfo) :
    Rel Coh (install S X t cb info) := by
  have c := coh_chain
  rw [install_eq]
  refine Rel.bind c (coh_emit (hcb 1)) (fun _ => ?_)
  refine Rel.andThen c (coh_removeAll S _) (fun _ => ?_)
  refine Rel.andThen c (coh_mkdirAll S _) (fun _ => ?_)
  exact Rel.bind c (coh_emit (hcb 2)) (fun _ => coh_finish S X t cb hcb info)

end Upd

/-! ### What is reported changes nothing else -/

namespace Prog

/-- The same but for what was reported. -/
structure Same (w v : World) : Prop where
  disk : w.disk = v.disk
  tick : w.tick = v.tick
  stdin : w.stdin = v.stdin
  conf : w.conf = v.conf
  sess : w.sess = v.sess
  disks : disks w.log = OnePass.disks v.log

/-- Two programs do the same but for what they report. -/
def Sim {α : Type} (m m' : Prog α) : Prop := ∀ w v, Same w v → (m w).1 = (m' v).1 ∧ Same (m w).2 (m' v).2

theorem Sim.pure {α : Type} (a : α) : Sim (Prog.pure a) (Prog.pure a) := fun _ _ h => ⟨rfl, h⟩
theorem Sim.lift {α : Type} (o : Out α) : Sim (Prog.lift o) (Prog.lift o) := fun _ _ h => ⟨rfl, h⟩

theorem Sim.bind {α β : Type} {m m' : Prog α} {f f' : α → Prog β} (h : Sim m m') (hf : ∀ a, Sim (f a) (f' a)) :
    Sim (m >>= f) (m' >>= f') := by
  intro w v hs
  obtain ⟨h1, h2⟩ := h w v hs
  rw [bind_run, bind_run]
  cases hm : m w with
  | mk o w1 =>
    cases hm' : m' v with
    | mk o' v1 =>
      rw [hm, hm'] at h1 h2
      simp only at h1 h2
      subst h1
      cases o with
      | ret a => exact hf a _ _ h2
      | panic => exact ⟨rfl, h2⟩
      | fatal => exact ⟨rfl, h2⟩

theorem Sim.andThen {α β : Type} {m m' : Prog (Except Err α)} {f f' : α → Prog (Except Err β)} (h : Sim m m')
    (hf : ∀ a, Sim (f a) (f' a)) : Sim (Prog.andThen m f) (Prog.andThen m' f') := by
  refine Sim.bind h (fun a => ?_)
  cases a with
  | error e => exact Sim.pure _
  | ok a => exact hf a

theorem Sim.tick : Sim Prog.tick Prog.tick := fun w v h =>
  ⟨congrArg Out.ret h.tick, ⟨h.disk, congrArg (· + 1) h.tick, h.stdin, h.conf, h.sess, h.disks⟩⟩

theorem Sim.get {α : Type} {f f' : World → Prog α} (h : ∀ w v, Same w v → Sim (f w) (f' v)) :
    Sim (Prog.get >>= f) (Prog.get >>= f') := fun w v hs => h w v hs w v hs

theorem Sim.through (ds : List Disk) : Sim (Prog.through ds) (Prog.through ds) := fun w v h =>
  ⟨rfl, ⟨by simp only [Prog.through, h.disk], h.tick, h.stdin, h.conf, h.sess,
    by simp only [Prog.through, disks_append, h.disks]⟩⟩

theorem Sim.emit {e e' : Ev} (h : disks [e] = disks [e']) : Sim (Prog.emit e) (Prog.emit e') := fun w v hs =>
  ⟨rfl, ⟨hs.disk, hs.tick, hs.stdin, hs.conf, hs.sess, by simp only [Prog.emit, disks_append, hs.disks, h]⟩⟩

variable (S : Sys)

theorem sim_readFile (p : Bytes) : Sim (Os.readFile S p) (Os.readFile S p) := by
  refine Sim.bind Sim.tick (fun n => Sim.get (fun w v h => ?_))
  rw [h.disk]
  split <;> exact Sim.pure _

theorem sim_mkdirAll (p : Bytes) : Sim (Os.mkdirAll S p) (Os.mkdirAll S p) := by
  refine Sim.bind Sim.tick (fun n => Sim.get (fun w v h => ?_))
  rw [h.disk]
  split
  · exact Sim.pure _
  · split <;> exact Sim.bind (Sim.through _) (fun _ => Sim.pure _)

theorem sim_removeAll (p : Bytes) : Sim (Os.removeAll S p) (Os.removeAll S p) := by
  refine Sim.bind Sim.tick (fun n => Sim.get (fun w v h => ?_))
  rw [h.disk]
  simp only
  split <;> exact Sim.bind (Sim.through _) (fun _ => Sim.pure _)

theorem sim_rename (src dst : Bytes) : Sim (Os.rename S src dst) (Os.rename S src dst) := by
  refine Sim.bind Sim.tick (fun n => Sim.get (fun w v h => ?_))
  rw [h.disk]
  simp only
  split
  · split
    · exact Sim.pure _
    · exact Sim.bind (Sim.through _) (fun _ => Sim.pure _)
  · exact Sim.pure _

theorem sim_create (p : Bytes) : Sim (Os.create S p) (Os.create S p) := by
  refine Sim.bind Sim.tick (fun n => Sim.get (fun w v h => ?_))
  rw [h.disk]
  simp only
  split
  · exact Sim.pure _
  · split
    · exact Sim.pure _
    · split
      · exact Sim.pure _
      · exact Sim.bind (Sim.through _) (fun _ => Sim.pure _)
      · exact Sim.bind (Sim.through _) (fun _ => Sim.pure _)

theorem sim_write (f : List Bytes × Bool) (data : Bytes) (c : Bool) : Sim (Os.write S f data c) (Os.write S f data c) := by
  refine Sim.bind Sim.tick (fun n => Sim.get (fun w v h => ?_))
  rw [h.disk]
  simp only
  split <;> exact Sim.bind (Sim.through _) (fun _ => Sim.pure _)

theorem sim_httpGet (url : Bytes) (t : Int) : Sim (Os.httpGet S url t) (Os.httpGet S url t) :=
  Sim.bind Sim.tick (fun _ => Sim.bind (Sim.emit rfl) (fun _ => Sim.pure _))

end Prog

namespace Upd
open Prog
variable (S : Sys)

theorem sim_fetchInfo (t : Int) : Sim (fetchInfo S t) (fetchInfo S t) := by
  refine Sim.bind (sim_httpGet S _ t) (fun a => ?_)
  cases a with
  | failed => exact Sim.pure _
  | body d c =>
    cases c
    · exact Sim.pure _
    · exact Sim.lift _

theorem sim_downloadFile (dst url : Bytes) (t : Int) : Sim (downloadFile S dst url t) (downloadFile S dst url t) := by
  refine Sim.bind (sim_httpGet S _ t) (fun a => ?_)
  cases a with
  | failed => exact Sim.pure _
  | body d c => exact Sim.andThen (sim_create S _) (fun f => sim_write S f d c)

theorem sim_extract (X : Ext) (src dst : Bytes) : Sim (extractArchive S X src dst) (extractArchive S X src dst) := by
  refine Sim.andThen (sim_readFile S _) (fun data => ?_)
  generalize (X.untar data).1 = es
  induction es with
  | nil => exact Sim.pure _
  | cons e r ih =>
    unfold extractEntries
    split
    · exact Sim.andThen (Sim.andThen (sim_create S _) (fun f => sim_write S f _ _)) (fun _ => ih)
    · exact ih

theorem sim_validate (X : Ext) (binary file : Bytes) :
    Sim (validateChecksum S X binary file) (validateChecksum S X binary file) := by
  refine Sim.andThen (sim_readFile S _) (fun c => ?_)
  refine Sim.andThen (sim_readFile S _) (fun d => ?_)
  cases Str.fields (Str.trimSpace c) with
  | nil => exact Sim.lift _
  | cons => exact Sim.pure _

theorem sim_install (X : Ext) (t : Int) (cb cb' : Nat → Ev) (info : UpdateInfo)
    (h : ∀ n, disks [cb n] = disks [cb' n]) : Sim (install S X t cb info) (install S X t cb' info) := by
  refine Sim.bind (Sim.emit (h 1)) (fun _ => ?_)
  refine Sim.andThen (sim_removeAll S _) (fun _ => ?_)
  refine Sim.andThen (sim_mkdirAll S _) (fun _ => ?_)
  refine Sim.bind (Sim.emit (h 2)) (fun _ => ?_)
  refine Sim.andThen (sim_downloadFile S _ _ t) (fun _ => ?_)
  refine Sim.bind (Sim.emit (h 3)) (fun _ => ?_)
  refine Sim.andThen (sim_downloadFile S _ _ t) (fun _ => ?_)
  refine Sim.bind (Sim.emit (h 4)) (fun _ => ?_)
  refine Sim.andThen (sim_extract S X _ _) (fun _ => ?_)
  refine Sim.bind (Sim.emit (h 5)) (fun _ => ?_)
  refine Sim.andThen (sim_validate S X _ _) (fun _ => ?_)
  refine Sim.bind (Sim.emit (h 6)) (fun _ => ?_)
  refine Sim.andThen ?_ (fun _ => Sim.bind (Sim.emit (h 7)) (fun _ => sim_removeAll S _))
  unfold replaceBinary
  split
  · exact Sim.pure _
  · exact sim_rename S _ _

theorem sim_update (X : Ext) (t : Int) (cb cb' : Nat → Ev) (h : ∀ n, disks [cb n] = disks [cb' n]) :
    Sim (update S X t cb) (update S X t cb') := by
  refine Sim.andThen (sim_fetchInfo S t) (fun info => ?_)
  cases info with
  | none => exact Sim.pure _
  | some i =>
    show Sim (if i.newer then _ else _) (if i.newer then _ else _)
    split
    · exact sim_install S X t cb cb' i h
    · exact Sim.pure _

/-- Whatever is reported, outcome and disk states are those of reporting the stages. -/
theorem update_any (X : Ext) (t : Int) (cb : Nat → Ev) (hcb : ∀ n d, cb n ≠ .disk d) (w : World) :
    (update S X t cb w).1 = (update S X t .stage w).1 ∧ (update S X t cb w).2.disk = (update S X t .stage w).2.disk ∧
      disks (update S X t cb w).2.log = disks (update S X t .stage w).2.log := by
  have h := sim_update S X t cb .stage (fun n => by rw [disks_of_no (hcb n)]; rfl) w w ⟨rfl, rfl, rfl, rfl, rfl, rfl⟩
  exact ⟨h.1, h.2.disk, h.2.disks⟩

theorem coh_update (X : Ext) (t : Int) (cb : Nat → Ev) (hcb : ∀ n d, cb n ≠ .disk d) :
    Rel Coh (update S X t cb) := by
  refine Rel.andThen coh_chain (rel_fetchInfo coh_chain S t (coh_httpGet S _ t)) (fun info => ?_)
  cases info with
  | none => exact Rel.pure coh_chain _
  | some i =>
    show Rel Coh (if i.newer then _ else _)
    split
    · exact coh_install S X t cb hcb i
    · exact Rel.pure coh_chain _

end Upd
end OnePass
