/-
Programs do not read the log: renaming what is observed commutes with running them.
-/
import Verif.Model.Update

set_option linter.unusedSimpArgs false

namespace OnePass

/-- The same world with other names for what was observed, after something else was. -/
def World.relabel (L : List Ev) (f : Ev → Ev) (w : World) : World := { w with log := L ++ w.log.map f }

namespace Prog

/-- The second program does what the first does, and calls it by the new names. -/
def Renamed {α : Type} (L : List Ev) (f : Ev → Ev) (m m' : Prog α) : Prop :=
  ∀ w, m' (w.relabel L f) = ((m w).1, (m w).2.relabel L f)

variable {L : List Ev} {f : Ev → Ev}

theorem renamed_pure {α : Type} (a : α) : Renamed L f (Prog.pure a) (Prog.pure a) := fun _ => rfl

theorem renamed_lift {α : Type} (o : Out α) : Renamed L f (lift o) (lift o) := fun _ => rfl

theorem Renamed.bind {α β : Type} {m m' : Prog α} {k k' : α → Prog β} (h : Renamed L f m m') (hk : ∀ a, Renamed L f (k a) (k' a)) :
    Renamed L f (m >>= k) (m' >>= k') := by
  intro w
  show Prog.bind m' k' _ = ((Prog.bind m k w).1, (Prog.bind m k w).2.relabel L f)
  unfold Prog.bind
  rw [h w]
  cases m w with
  | mk o w' =>
    cases o with
    | ret a => exact hk a w'
    | panic => rfl
    | fatal => rfl

theorem Renamed.andThen {α β : Type} {m m' : Prog (Except Err α)} {k k' : α → Prog (Except Err β)} (h : Renamed L f m m')
    (hk : ∀ a, Renamed L f (k a) (k' a)) : Renamed L f (andThen m k) (andThen m' k') := by
  refine Renamed.bind h (fun r => ?_)
  cases r with
  | error e => exact renamed_pure _
  | ok a => exact hk a

theorem renamed_emit {e e' : Ev} (h : f e = e') : Renamed L f (emit e) (emit e') := by
  intro w
  simp only [emit, World.relabel, List.map_append, List.append_assoc, List.map_cons, List.map_nil, h]

theorem renamed_tick : Renamed L f tick tick := fun _ => rfl

theorem renamed_through (hd : ∀ d, f (.disk d) = .disk d) (ds : List Disk) : Renamed L f (through ds) (through ds) := by
  intro w
  simp only [through, World.relabel, List.map_append, List.append_assoc, List.map_map]
  congr 4
  exact List.map_congr_left (fun d _ => (hd d).symm)

/-- A program without announcements of its own. -/
def Steady {α : Type} (L : List Ev) (f : Ev → Ev) (m : Prog α) : Prop := Renamed L f m m

/-- What is read of the world is not the log. -/
theorem renamed_get {α : Type} {k : World → Prog α} (h : ∀ w, Steady L f (k w)) (hk : ∀ w, k (w.relabel L f) = k w) :
    Renamed L f (Prog.get >>= k) (Prog.get >>= k) := by
  intro w
  show k (w.relabel L f) (w.relabel L f) = _
  rw [hk]
  exact h w w

end Prog

namespace Os
open Prog

variable (S : Sys) {L : List Ev} {f : Ev → Ev} (hd : ∀ d, f (.disk d) = .disk d)
include hd

theorem renamed_readFile (p : Bytes) : Renamed L f (readFile S p) (readFile S p) := by
  unfold readFile
  refine renamed_tick.bind (fun n => renamed_get (fun w => ?_) (fun _ => rfl))
  split <;> exact renamed_pure _

theorem renamed_mkdirAll (p : Bytes) : Renamed L f (mkdirAll S p) (mkdirAll S p) := by
  unfold mkdirAll
  refine renamed_tick.bind (fun n => renamed_get (fun w => ?_) (fun _ => rfl))
  split
  · exact renamed_pure _
  · split <;> exact (renamed_through hd _).bind (fun _ => renamed_pure _)

theorem renamed_create (p : Bytes) : Renamed L f (create S p) (create S p) := by
  unfold create
  refine renamed_tick.bind (fun n => renamed_get (fun w => ?_) (fun _ => rfl))
  dsimp only
  split
  · exact renamed_pure _
  · split
    · exact renamed_pure _
    · split
      · exact renamed_pure _
      · exact (renamed_through hd _).bind (fun _ => renamed_pure _)
      · exact (renamed_through hd _).bind (fun _ => renamed_pure _)

theorem renamed_write (g : List Bytes × Bool) (data : Bytes) (c : Bool) : Renamed L f (write S g data c) (write S g data c) := by
  unfold write
  refine renamed_tick.bind (fun n => renamed_get (fun w => ?_) (fun _ => rfl))
  split <;> exact (renamed_through hd _).bind (fun _ => renamed_pure _)

theorem renamed_rename (src dst : Bytes) : Renamed L f (rename S src dst) (rename S src dst) := by
  unfold rename
  refine renamed_tick.bind (fun n => renamed_get (fun w => ?_) (fun _ => rfl))
  dsimp only
  split
  · split
    · exact renamed_pure _
    · exact (renamed_through hd _).bind (fun _ => renamed_pure _)
  · exact renamed_pure _

theorem renamed_removeAll (p : Bytes) : Renamed L f (removeAll S p) (removeAll S p) := by
  unfold removeAll
  refine renamed_tick.bind (fun n => renamed_get (fun w => ?_) (fun _ => rfl))
  split <;> exact (renamed_through hd _).bind (fun _ => renamed_pure _)

omit hd in
theorem renamed_httpGet (url : Bytes) (t : Int) (hr : f (.request url t) = .request url t) :
    Renamed L f (httpGet S url t) (httpGet S url t) :=
  renamed_tick.bind (fun _ => (renamed_emit hr).bind (fun _ => renamed_pure _))

end Os

namespace Upd
open Prog

variable (S : Sys) (X : Ext) {L : List Ev} {f : Ev → Ev} (hd : ∀ d, f (.disk d) = .disk d) (hr : ∀ u t, f (.request u t) = .request u t)
include hr

theorem renamed_fetchInfo (t : Int) : Renamed L f (fetchInfo S t) (fetchInfo S t) := by
  refine (Os.renamed_httpGet S _ _ (hr _ _)).bind (fun a => ?_)
  split
  · exact renamed_pure _
  · exact renamed_pure _
  · exact renamed_lift _

include hd

theorem renamed_downloadFile (dst url : Bytes) (t : Int) : Renamed L f (downloadFile S dst url t) (downloadFile S dst url t) := by
  refine (Os.renamed_httpGet S _ _ (hr _ _)).bind (fun a => ?_)
  split
  · exact renamed_pure _
  · exact (Os.renamed_create S hd _).andThen (fun g => Os.renamed_write S hd _ _ _)

omit hr in
theorem renamed_extractEntries (dst : Bytes) (clean : Bool) (es : List TarEntry) :
    Renamed L f (extractEntries S dst clean es) (extractEntries S dst clean es) := by
  induction es with
  | nil => exact renamed_pure _
  | cons e r ih =>
    unfold extractEntries
    split
    · exact ((Os.renamed_create S hd _).andThen (fun g => Os.renamed_write S hd _ _ _)).andThen (fun _ => ih)
    · exact ih

/-- An update with other announcements is the same update. -/
theorem renamed_update (t : Int) (cb cb' : Nat → Ev) (hcb : ∀ n, f (cb n) = cb' n) :
    Renamed L f (update S X t cb) (update S X t cb') := by
  refine (renamed_fetchInfo S hr t).andThen (fun i => ?_)
  split
  · exact renamed_pure _
  · split
    · unfold install
      refine (renamed_emit (hcb 1)).bind (fun _ => (Os.renamed_removeAll S hd _).andThen (fun _ =>
        (Os.renamed_mkdirAll S hd _).andThen (fun _ => (renamed_emit (hcb 2)).bind (fun _ =>
        (renamed_downloadFile S hd hr _ _ _).andThen (fun _ => (renamed_emit (hcb 3)).bind (fun _ =>
        (renamed_downloadFile S hd hr _ _ _).andThen (fun _ => (renamed_emit (hcb 4)).bind (fun _ => ?_))))))))
      refine ((Os.renamed_readFile S hd _).andThen (fun data => renamed_extractEntries S hd _ _ _)).andThen (fun _ =>
        (renamed_emit (hcb 5)).bind (fun _ => ?_))
      refine ((Os.renamed_readFile S hd _).andThen (fun content => (Os.renamed_readFile S hd _).andThen (fun data => ?_))).andThen
        (fun _ => (renamed_emit (hcb 6)).bind (fun _ => ?_))
      · split
        · exact renamed_lift _
        · exact renamed_pure _
      · refine Renamed.andThen ?_ (fun _ => (renamed_emit (hcb 7)).bind (fun _ => Os.renamed_removeAll S hd _))
        unfold replaceBinary
        split
        · exact renamed_pure _
        · exact Os.renamed_rename S hd _ _
    · exact renamed_pure _

end Upd
end OnePass
