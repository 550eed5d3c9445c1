/-
An update that failed or was interrupted can be repeated, C130.
-/
import Verif.Props.Publish

namespace OnePass

namespace Spec

/-- A file, or a directory. -/
def kind : Node → Bool
  | .dir => true
  | .file _ _ => false

/-- What one disk has at a place the other has there as well: a directory, or a file with whatever content. -/
def SameKind (l : List Bytes) (d d' : Disk) : Prop :=
  d'.cwd = d.cwd ∧ ∀ n, d.at? l = some n → ∃ n', d'.at? l = some n' ∧ kind n' = kind n

/-- The disk after any number of attempts to update, each with whatever server, each gone wrong at whatever moment or not at all. -/
inductive Tried : Disk → Disk → Prop
  | never (d : Disk) : Tried d d
  | again {d : Disk} (C : Ctx) (w : World) (d' : Disk) : Tried d w.disk → w.log = [] →
      Ev.disk d' ∈ (Cli.command C .update w).2.log → Tried d d'

end Spec

namespace Spec

theorem SameKind.refl (l : List Bytes) (d : Disk) : SameKind l d d := ⟨rfl, fun n h => ⟨n, h, rfl⟩⟩

theorem SameKind.trans {l : List Bytes} {a b c : Disk} (h1 : SameKind l a b) (h2 : SameKind l b c) : SameKind l a c := by
  refine ⟨h2.1.trans h1.1, fun n hn => ?_⟩
  obtain ⟨m, k1, k2⟩ := h1.2 n hn
  obtain ⟨m', k3, k4⟩ := h2.2 m k1
  exact ⟨m', k3, k4.trans k2⟩

theorem SameKind.of_eq {l : List Bytes} {a b : Disk} (h1 : b.cwd = a.cwd) (h : b.at? l = a.at? l) : SameKind l a b :=
  ⟨h1, fun n hn => ⟨n, h.trans hn, rfl⟩⟩

end Spec

namespace Prog
open Spec

/-- At a place what is there stays what it is, at every moment. -/
def Stays (l : List Bytes) (w w' : World) : Prop :=
  SameKind l w.disk w'.disk ∧ ∃ es, w'.log = w.log ++ es ∧ ∀ d ∈ disks es, SameKind l w.disk d

theorem stays_chain (l : List Bytes) : Chain (Stays l) where
  refl w := ⟨SameKind.refl l _, [], by simp, by simp [disks]⟩
  trans a b c := by
    rintro ⟨h1, es, h2, h3⟩ ⟨k1, fs, k2, k3⟩
    refine ⟨h1.trans k1, es ++ fs, by rw [k2, h2, List.append_assoc], fun d hd => ?_⟩
    rw [disks_append, List.mem_append] at hd
    exact hd.elim (h3 d) (fun hd => h1.trans (k3 d hd))

theorem stays_after {l : List Bytes} {w : World} {ds : List Disk} (h : ∀ d ∈ ds, SameKind l w.disk d) :
    Stays l w (Os.after w ds) := by
  refine ⟨?_, ds.map Ev.disk, rfl, by rw [disks_map]; exact h⟩
  show SameKind l w.disk (w.disk.last ds)
  rcases Disk.last_mem w.disk ds with h0 | h0
  · rw [h0]; exact SameKind.refl l _
  · exact h _ h0

theorem stays_same {l : List Bytes} {w w' : World} {es : List Ev} (h1 : w'.disk = w.disk) (h2 : w'.log = w.log ++ es)
    (h3 : disks es = []) : Stays l w w' :=
  ⟨by rw [h1]; exact SameKind.refl l _, es, h2, by rw [h3]; simp⟩

variable (S : Sys) (l : List Bytes)

theorem stays_emit {e : Ev} (h : ∀ d, e ≠ .disk d) : Rel (Stays l) (emit e) := fun _ =>
  stays_same rfl rfl (disks_of_no h)

theorem stays_readFile (p : Bytes) : Rel (Stays l) (Os.readFile S p) := fun w => by
  rw [Os.readFile_run]; exact stays_same (es := []) rfl (by simp) rfl

theorem stays_stat (p : Bytes) : Rel (Stays l) (Os.stat S p) := fun w => by
  rw [Os.stat_run]; exact stays_same (es := []) rfl (by simp) rfl

theorem stays_now : Rel (Stays l) (Os.now S) := fun w => by
  rw [Os.now_run]; exact stays_same (es := []) rfl (by simp) rfl

theorem stays_httpGet (url : Bytes) (t : Int) : Rel (Stays l) (Os.httpGet S url t) := fun w => by
  rw [Os.httpGet_run]; exact stays_same (es := [.request url t]) rfl rfl rfl

theorem stays_mkdirAll (p : Bytes) : Rel (Stays l) (Os.mkdirAll S p) := by
  intro w
  obtain ⟨r, ds, h1, ls, k, h2, h3, -⟩ := Os.mkdirAll_run S p w
  rw [h1]
  refine stays_after (fun d hd => ?_)
  rw [h2] at hd
  have key : ∀ l, l ∉ ls → d.at? l = w.disk.at? l ∧ d.cwd = w.disk.cwd := fun l hl => Disk.puts_keep (by
    intro e he
    obtain ⟨l', hl', rfl⟩ := List.mem_map.1 he
    intro h0
    exact hl (h0 ▸ List.mem_of_mem_take hl')) d hd
  refine ⟨(key [] (fun h0 => (h3 _ h0).2.2 rfl)).2, fun n hn => ?_⟩
  have : l ∉ ls := fun h0 => by rw [(h3 l h0).2.1] at hn; cases hn
  exact ⟨n, (key l this).1.trans hn, rfl⟩

theorem stays_createWrite (p data : Bytes) (c : Bool) :
    Rel (Stays l) (andThen (Os.create S p) fun f => Os.write S f data c) := by
  intro w
  rw [andThen_run]
  rcases Os.create_run S p w with ⟨h, -⟩ | ⟨x, h, h1, -⟩
  · rw [h]; exact stays_after (by simp)
  rw [h]
  generalize hloc : Path.resolve w.disk.cwd p = loc at h1 ⊢
  have first : SameKind l w.disk (w.disk.put loc (.file [] x)) := by
    refine ⟨rfl, fun n hn => ?_⟩
    rw [Disk.at?_put]
    by_cases h0 : loc = l
    · subst h0
      rw [if_pos rfl]
      rcases h1 with ⟨h1, -⟩ | ⟨old, h1⟩ <;> rw [h1] at hn <;> cases hn
      exact ⟨_, rfl, rfl⟩
    · rw [if_neg h0]; exact ⟨n, hn, rfl⟩
  have s1 : Stays l w (Os.after w [w.disk.put loc (.file [] x)]) :=
    stays_after (by intro d hd; rw [List.mem_singleton] at hd; rw [hd]; exact first)
  refine (stays_chain l).trans _ _ _ s1 ?_
  simp only
  generalize hv : Os.after w [w.disk.put loc (.file [] x)] = v
  have hvat : v.disk.at? loc = some (.file [] x) := by
    rw [← hv]; show (w.disk.put loc _).at? loc = _; rw [Disk.at?_put, if_pos rfl]
  have key : ∀ k, ∀ d ∈ Os.writeStates v.disk (loc, x) data k, SameKind l v.disk d := by
    intro k d hd
    refine ⟨(Os.writeStates_keep v.disk (loc, x) data k (loc ++ [[]]) (by simp) d hd).2, fun n hn => ?_⟩
    by_cases h0 : l = loc
    · subst h0
      rw [hvat] at hn
      cases hn
      obtain ⟨b, -, hb⟩ := Os.writeStates_file v.disk (l, x) data k d hd
      exact ⟨_, hb, rfl⟩
    · exact ⟨n, (Os.writeStates_keep v.disk (loc, x) data k l h0 d hd).1.trans hn, rfl⟩
  rcases Os.write_run S (loc, x) data c v with ⟨k, g, -⟩ | ⟨g, -⟩ <;> (rw [g]; exact stays_after (key _))

theorem stays_removeAll (p : Bytes) (h : ∀ cwd, ¬ Path.resolve cwd p <+: l) : Rel (Stays l) (Os.removeAll S p) := by
  intro w
  obtain ⟨r, ls, h1, h2, -⟩ := Os.removeAll_run S p w
  rw [h1]
  refine stays_after (fun d hd => ?_)
  have := Disk.dels_keep (loc := l) (fun l' hl' h0 => h _ (h0 ▸ h2 l' hl')) d hd
  exact SameKind.of_eq this.2 this.1

theorem stays_rename (src dst : Bytes) (h : ∀ cwd, Path.resolve cwd src ≠ l) : Rel (Stays l) (Os.rename S src dst) := by
  intro w
  have hd : (∃ k, w.disk.at? (Path.resolve w.disk.cwd dst) = some k ∧ k = .dir) →
      Os.rename S src dst w = (.ret (.error ioErr), Os.after w []) := by
    rintro ⟨-, hk, rfl⟩
    simp only [Os.rename, bind_run, tick, Prog.get]
    cases S.fault w.tick with
    | some k => simp [Prog.pure, Os.after_nil]
    | none =>
      cases w.disk.stat src with
      | none => simp [Prog.pure, Os.after_nil]
      | some nd =>
        cases nd with
        | dir => simp [Prog.pure, Os.after_nil]
        | file data x => simp [hk, Prog.pure, Os.after_nil]
  rcases Os.rename_run S src dst w with h1 | ⟨data, x, -, h1, -⟩
  · rw [h1]; exact stays_after (by simp)
  · rw [h1]
    refine stays_after (fun d hm => ?_)
    rw [List.mem_singleton] at hm
    subst hm
    refine ⟨rfl, fun n hn => ?_⟩
    rw [Disk.at?_put]
    by_cases h0 : Path.resolve w.disk.cwd dst = l
    · rw [if_pos h0]
      cases n with
      | file b y => exact ⟨_, rfl, rfl⟩
      | dir =>
        have := hd ⟨_, by rw [h0]; exact hn, rfl⟩
        rw [this] at h1
        cases (Prod.mk.inj h1).1
    · rw [if_neg h0, Disk.at?_del, if_neg (h _)]
      exact ⟨n, hn, rfl⟩

end Prog

namespace Upd
open Prog Spec

variable (S : Sys) {l : List Bytes} (hl : ¬ cacheLoc <+: l)

include hl in
theorem stays_install (X : Ext) (t : Int) (cb : Nat → Ev) (hcb : ∀ n d, cb n ≠ .disk d) (info : UpdateInfo) :
    Rel (Stays l) (install S X t cb info) := by
  have c := stays_chain l
  have hrm : Rel (Stays l) (Os.removeAll S cacheDir) := stays_removeAll S l _ (fun cwd => by rw [resolve_cache]; exact hl)
  refine Rel.bind c (stays_emit l (hcb 1)) (fun _ => ?_)
  refine Rel.andThen c hrm (fun _ => ?_)
  refine Rel.andThen c (stays_mkdirAll S l _) (fun _ => ?_)
  refine Rel.bind c (stays_emit l (hcb 2)) (fun _ => ?_)
  refine Rel.andThen c (rel_downloadFile c S _ _ t (stays_httpGet S l _ t) (fun d k => stays_createWrite S l _ d k)) (fun _ => ?_)
  refine Rel.bind c (stays_emit l (hcb 3)) (fun _ => ?_)
  refine Rel.andThen c (rel_downloadFile c S _ _ t (stays_httpGet S l _ t) (fun d k => stays_createWrite S l _ d k)) (fun _ => ?_)
  refine Rel.bind c (stays_emit l (hcb 4)) (fun _ => ?_)
  refine Rel.andThen c (rel_extract c S X _ _ (stays_readFile S l _) (fun n d k => stays_createWrite S l _ d k)) (fun _ => ?_)
  refine Rel.bind c (stays_emit l (hcb 5)) (fun _ => ?_)
  refine Rel.andThen c (rel_validate c S X _ _ (stays_readFile S l)) (fun _ => ?_)
  refine Rel.bind c (stays_emit l (hcb 6)) (fun _ => ?_)
  refine Rel.andThen c ?_ (fun _ => ?_)
  · unfold replaceBinary
    split
    · exact Rel.pure c _
    · refine stays_rename S l _ _ (fun cwd h => hl ?_)
      rw [← h, resolve_binary]
      exact ⟨[b!"1pass"], rfl⟩
  · exact Rel.bind c (stays_emit l (hcb 7)) (fun _ => hrm)

include hl in
theorem stays_update (X : Ext) (t : Int) (cb : Nat → Ev) (hcb : ∀ n d, cb n ≠ .disk d) : Rel (Stays l) (update S X t cb) := by
  have c := stays_chain l
  refine Rel.andThen c (rel_fetchInfo c S t (stays_httpGet S l _ t)) (fun info => ?_)
  cases info with
  | none => exact Rel.pure c _
  | some i =>
    show Rel (Stays l) (if i.newer then _ else _)
    split
    · exact stays_install S hl X t cb hcb i
    · exact Rel.pure c _

theorem stays_facadeCheck (X : Ext) (dir : Bytes) (force : Bool) (l : List Bytes) : Rel (Stays l) (facadeCheck S X dir force) := by
  have c := stays_chain l
  refine Rel.bind c (rel_read c) (fun k => ?_)
  refine rel_checkForUpdate S c _ _ _ _ _ (rel_fetchInfo c S _ (stays_httpGet S l _ _)) ?_ ?_
  · refine Rel.bind c (stays_now S l) (fun _ => ?_)
    refine Rel.bind c ?_ (fun _ => ?_)
    · refine Rel.bind c (stays_stat S l _) (fun a => ?_)
      cases a with
      | some _ => exact Rel.pure c _
      | none => exact Rel.bind c (stays_mkdirAll S l _) (fun _ => Rel.pure c _)
    · exact Rel.bind c (stays_createWrite S l _ _ _) (fun _ => Rel.pure c _)
  · refine Rel.bind c (stays_stat S l _) (fun _ => ?_)
    refine Rel.bind c (stays_readFile S l _) (fun _ => ?_)
    exact Rel.bind c (stays_now S l) (fun _ => Rel.pure c _)

end Upd

namespace Cli
open Prog Fmt Spec Upd

theorem stays_println (l : List Bytes) (b : Bytes) : Rel (Stays l) (println b) := stays_emit l (by simp)

theorem stays_die (l : List Bytes) (e : Err) : Rel (Stays l) (die e) :=
  Rel.bind (stays_chain l) (stays_println l _) (fun _ => Rel.lift (stays_chain l) _)

theorem stays_updating (C : Ctx) {l : List Bytes} (hl : ¬ cacheLoc <+: l) : Rel (Stays l) (command C .update) := by
  have c := stays_chain l
  show Rel (Stays l) (update C)
  unfold update
  refine Rel.bind c (stays_println l _) (fun _ => ?_)
  refine Rel.bind c (stays_facadeCheck C.sys C.ext C.dir true l) (fun r => ?_)
  cases r with
  | error e => exact stays_die l e
  | ok info =>
    refine Rel.bind c (stays_println l _) (fun _ => ?_)
    refine Rel.bind c (stays_emit l (by simp)) (fun _ => ?_)
    refine Rel.bind c (fun w => ?_) (fun a => ?_)
    · exact stays_same (es := [.scan]) rfl rfl rfl
    · simp only
      split
      · exact Rel.bind c (stays_println l _) (fun _ => Rel.lift c _)
      · split
        · exact Rel.bind c (stays_println l _) (fun _ => Rel.lift c _)
        · refine Rel.bind c (stays_println l _) (fun _ => ?_)
          refine Rel.bind c ?_ (fun r => ?_)
          · exact Rel.bind c (rel_read c) (fun k => stays_update C.sys hl C.ext _ _ (by simp))
          · cases r with
            | error e => exact stays_die l e
            | ok _ => exact stays_println l _

theorem _root_.OnePass.Spec.Tried.stays {d d' : Disk} (h : Tried d d') {l : List Bytes} (hl : ¬ cacheLoc <+: l) : SameKind l d d' := by
  induction h with
  | never => exact SameKind.refl l _
  | again C w d' _ hw hd ih =>
    obtain ⟨-, es, h1, h2⟩ := stays_updating C hl w
    rw [hw, List.nil_append] at h1
    exact ih.trans (h2 d' (mem_disks.2 (h1 ▸ hd)))

/-- However often the update was tried, and however it went wrong, the program can still be replaced if it could be before. -/
theorem C130_replaceable {d d' : Disk} (h : Tried d d') (S : Sys) (e : Bytes) (hp : Replaceable S d e) (ht : d.at? [b!"tmp"] = some .dir) :
    Replaceable S d' e := by
  have hcwd : d'.cwd = d.cwd := (h.stays (l := []) (by decide +kernel)).1
  have hdir : ∀ {l}, ¬ cacheLoc <+: l → d.at? l = some .dir → d'.at? l = some .dir := by
    intro l hl h0
    obtain ⟨n, h1, h2⟩ := (h.stays hl).2 _ h0
    cases n with
    | dir => exact h1
    | file b x => cases h2
  have hres : Path.resolve d'.cwd e = Path.resolve d.cwd e := by rw [hcwd]
  refine ⟨hp.exe, hp.named, ?_, ?_, ?_, ?_, fun b x h0 => ?_⟩
  · rw [hres]
    obtain ⟨b, x, h0⟩ := hp.file
    obtain ⟨n, h1, h2⟩ := (h.stays hp.apart.1).2 _ h0
    cases n with
    | dir => cases h2
    | file b x => exact ⟨b, x, h1⟩
  · rw [hres]
    have := hp.dir
    unfold Disk.isDir at this ⊢
    rw [Bool.or_eq_true, beq_iff_eq, beq_iff_eq] at this ⊢
    exact this.imp id (fun h0 => hdir (fun h1 => hp.apart.1 (h1.trans (List.dropLast_prefix _))) h0)
  · rw [hres]; exact hp.apart
  · rw [hres]; exact hp.device
  · rw [hdir (by decide +kernel) ht] at h0
    cases h0

/-- C130. An update can be repeated: after any number of attempts that failed or were cut off at whatever moment, with whatever
servers, an update of a release published in order installs it, if nothing fails any more and the user agrees. -/
theorem C130_repeat {d d' : Disk} (h : Tried d d') (C : Ctx) (hq : C.sys.Quiet) (hdir : C.dir ≠ []) (w : World) (hw : w.disk = d')
    (hc : WellTyped w.conf) (info : UpdateInfo) (hi : Published C.sys info) (data : Bytes) (hr : Ready C.sys C.ext info data)
    (e : Bytes) (hp : Replaceable C.sys d e) (htmp : d.at? [b!"tmp"] = some .dir) (a rest : Bytes) (ht : Types w.stdin a rest)
    (hy : Yes C.env.text a) :
    ∃ w', command C .update w = (.ret (), w') ∧ w'.disk.at? (Path.resolve d.cwd e) = some (.file data false) ∧
      ∀ l, cacheLoc <+: l → w'.disk.at? l = none := by
  have hcwd : d'.cwd = d.cwd := (h.stays (l := []) (by decide +kernel)).1
  obtain ⟨w', h1, h2, h3, -⟩ := C115_installs_partial C hq hdir w hc info hi data hr e
    (by rw [hw]; exact C130_replaceable h C.sys e hp htmp) a rest ht hy
  exact ⟨w', h1, by rw [← hcwd, ← hw]; exact h2, h3⟩

/-! ### Example -/

/-- The sample release, but the system call that replaces the program fails. -/
def breaking : Ctx := { steady with sys := { steady.sys with fault := fun n => if n = 17 then some 0 else none } }

/-- What an attempt with it goes through. -/
def halfway : List Disk := disks (command breaking .update (updater b!"y\n")).2.log

/-- It was cut off after the new program was unpacked, and before it was put in its place. -/
example : (command breaking .update (updater b!"y\n")).1 = .fatal ∧ halfway.length = 46 ∧
    halfway.getLast?.map (fun d => (d.at? [b!"usr", b!"bin", b!"1pass"], d.at? [b!"tmp", b!"1pass", b!"1pass"])) =
      some (some (.file b!"old" true), some (.file b!"new" false)) := by decide +kernel

/-- C130: from each of these states the sample release can be installed. -/
example (d : Disk) (hd : d ∈ halfway) : ∃ w', command steady .update { updater b!"y\n" with disk := d } = (.ret (), w') ∧
    w'.disk.at? [b!"usr", b!"bin", b!"1pass"] = some (.file b!"new" false) := by
  obtain ⟨w', h1, h2, -⟩ := C130_repeat (.again breaking (updater b!"y\n") d (.never _) rfl (mem_disks.1 hd)) steady (fun _ => rfl) (by decide)
    { updater b!"y\n" with disk := d } rfl (by unfold WellTyped; refine ⟨.inr ⟨_, rfl⟩, .inr ⟨_, rfl⟩, .inr ⟨_, rfl⟩⟩)
    sampleInfo steady_published b!"new" steady_ready b!"/usr/bin/1pass" updater_replaceable (by decide +kernel) b!"y" [] updater_yes.1
    updater_yes.2
  exact ⟨w', h1, h2⟩

end Cli
end OnePass
