/-
Files beside those of the vault format: C129.
-/
import Verif.Props.Own
import Verif.Props.Alone

namespace OnePass
open Spec

namespace Spec

/-- The names of the sixteen band files of the OPVault format: band_0.js to band_9.js and band_A.js to band_F.js. -/
def FormatBand (n : Bytes) : Prop := ∃ c : UInt8, (48 ≤ c ∧ c ≤ 57 ∨ 65 ≤ c ∧ c ≤ 70) ∧ n = b!"band_" ++ [c] ++ b!".js"

/-- Two disks with a vault at `v`: the same profile, and the same files of the names `P`. -/
structure SameFiles (P : Bytes → Prop) (d d' : Disk) (v : Bytes) (dir : List Bytes) : Prop where
  cwd : d'.cwd = d.cwd
  vault : VaultDir d v dir
  vault' : VaultDir d' v dir
  above : d'.at? (Path.resolve d.cwd v) = d.at? (Path.resolve d.cwd v)
  profile : d'.at? (dir ++ [b!"profile.js"]) = d.at? (dir ++ [b!"profile.js"])
  files : ∀ n, P n → d'.at? (dir ++ [n]) = d.at? (dir ++ [n])

end Spec

theorem mapL_congr₂ {α β γ : Type} {f : α → Out γ} {g : β → Out γ} {l : List α} {l' : List β}
    (h : List.Forall₂ (fun a b => f a = g b) l l') : Out.mapL f l = Out.mapL g l' := by
  induction h with
  | nil => rfl
  | cons h1 _ ih => simp only [Out.mapL]; rw [h1, ih]

theorem forall₂_common {α β γ : Type} {P : α → β → Prop} {Q : α → γ → Prop} {R : β → γ → Prop} {l : List α} {l1 : List β} {l2 : List γ}
    (h1 : List.Forall₂ P l l1) (h2 : List.Forall₂ Q l l2) (h : ∀ a b c, P a b → Q a c → a ∈ l → R b c) : List.Forall₂ R l1 l2 := by
  induction h1 generalizing l2 with
  | nil => cases h2; exact .nil
  | cons h3 h4 ih =>
    cases h2 with
    | cons h5 h6 => exact .cons (h _ _ _ h3 h5 (by simp)) (ih h6 fun a b c ha hb hc => h a b c ha hb (by simp [hc]))

/-- Loading looks at nothing but the files that the pattern band_*.js fits – not at the profile. -/
theorem loadItems_profileless (E : Env) (O : MapOrder) {d d' : Disk} {v : Bytes} {dir : List Bytes} (hv : VaultDir d v dir)
    (hv' : VaultDir d' v dir) (h : ∀ n, Path.IsBand n → d'.at? (dir ++ [n]) = d.at? (dir ++ [n])) :
    Repo.loadItems E O d' v = Repo.loadItems E O d v := by
  classical
  have hn : BandNames d dir ((d.dirNames dir).filter (fun n => decide (Path.IsBand n))) :=
    ⟨(dirNames_sorted d _).filter _, fun n => by rw [List.mem_filter, mem_dirNames, decide_eq_true_iff, and_comm]⟩
  generalize (d.dirNames dir).filter (fun n => decide (Path.IsBand n)) = names at hn
  have hn' : BandNames d' dir names := by
    refine ⟨hn.1, fun n => ?_⟩
    rw [hn.2]
    constructor
    · rintro ⟨h1, h2⟩; exact ⟨h1, by rw [h n h1]; exact h2⟩
    · rintro ⟨h1, h2⟩; exact ⟨h1, by rw [← h n h1]; exact h2⟩
  obtain ⟨ps, h1, h2⟩ := bandFiles_eq hv hn
  obtain ⟨ps', h1', h2'⟩ := bandFiles_eq hv' hn'
  have hb : List.Forall₂ (fun p' p => Repo.bandBody d' p' = Repo.bandBody d p) ps' ps := by
    refine forall₂_common h2' h2 fun n p' p h3 h4 hm => ?_
    unfold Repo.bandBody Disk.readFile Disk.stat
    rw [if_neg h3.1, if_neg h4.1, h3.2, h4.2, h n ((hn.2 n).1 hm).1]
  have hl := mapL_congr₂ hb
  unfold Repo.loadItems
  rw [h1, h1']
  cases hb with
  | nil => rfl
  | cons _ _ => simp only [hl]

theorem loadItems_bandwise (E : Env) (O : MapOrder) {d d' : Disk} {v : Bytes} {dir : List Bytes} (h : SameFiles Path.IsBand d d' v dir) :
    Repo.loadItems E O d' v = Repo.loadItems E O d v := loadItems_profileless E O h.vault h.vault' h.files

theorem validate_bandwise {P : Bytes → Prop} {d d' : Disk} {v : Bytes} {dir : List Bytes} (h : SameFiles P d d' v dir) (s : Session) :
    s.validate d' v = s.validate d v := by
  have hv := h.vault.nonempty
  have h1 : d'.stat v = d.stat v := by
    unfold Disk.stat
    rw [if_neg hv, if_neg hv, h.cwd, h.above]
  have hp : Path.resolve d.cwd (profilePath v) = Path.resolve d.cwd v ++ [profileDir, profileFile] :=
    Path.resolve_join d.cwd hv (by simp) (by decide +kernel)
  have hp' : Path.resolve d.cwd v ++ [profileDir, profileFile] = dir ++ [b!"profile.js"] := by
    rw [h.vault.dir_eq, List.append_assoc]; rfl
  have h2 : d'.stat (profilePath v) = d.stat (profilePath v) := by
    unfold Disk.stat
    split
    · rfl
    · rw [h.cwd, hp, hp', h.profile]
  have h3 : d'.readFile (profilePath v) = d.readFile (profilePath v) := by
    unfold Disk.readFile
    rw [h2]
  unfold Session.validate Repo.validateVault Repo.loadProfile
  rw [h1, h2, h3]

/-- What C129 asks for: only profile.js and the sixteen band files count. -/
def C129_wish : Prop :=
  ∀ (E : Env) (O : MapOrder) (d d' : Disk) (v p : Bytes) (dir : List Bytes) (s : Session), SameFiles FormatBand d d' v dir →
    s.validate d' v = s.validate d v ∧ s.unlock E O d' v p = s.unlock E O d v p

/-- C129 (partial: all files called band_*.js count, see `C129_refuted`). Files of any other name in the directory of the vault, as
those of folders and attachments, make no difference to validating and opening it, whatever the password and the state of the
process. -/
theorem C129_others_partial (E : Env) (O : MapOrder) (d d' : Disk) (v p : Bytes) (dir : List Bytes) (s : Session)
    (h : SameFiles (fun n => ∃ m, n = b!"band_" ++ m ++ b!".js") d d' v dir) :
    s.validate d' v = s.validate d v ∧ s.unlock E O d' v p = s.unlock E O d v p :=
  ⟨validate_bandwise h s, unlock_congr E O (loadItems_bandwise E O h) s p⟩

/-- C129. A file called band_*.js that comes last by its name takes the place of the real ones: whatever they say about an item, and
whichever is older, what is loaded is the item as the last file has it. -/
theorem C129_replaced (E : Env) (O : MapOrder) (d : Disk) (v : Bytes) (dir : List Bytes) (hv : VaultDir d v dir) (names : List Bytes)
    (last : Bytes) (hn : BandNames d dir (names ++ [last])) (ms : List Members) (m : Members)
    (hm : List.Forall₂ (BandFile d dir) names ms) (hl : BandFile d dir last m) (raw : List RawItem)
    (h : Repo.loadItems E O d v = .ret raw) (r : RawItem) (x : Members) (hx : LastEntry m r.uid (.obj x)) (hr : ItemDoc E.flt x r) :
    r ∈ raw ∧ ∀ r' ∈ raw, r'.uid = r.uid → r' = r := by
  obtain ⟨hnd, hmem, -⟩ := C18_items_loaded E O hv hn (List.rel_append hm (.cons hl .nil)) raw h
  have hr' : r ∈ raw := by
    rw [hmem]
    refine ⟨x, ?_, hr⟩
    obtain ⟨a, b, h1, h2⟩ := hx
    exact ⟨ms.flatten ++ a, b, by simp [h1], h2⟩
  refine ⟨hr', fun r' h1 h2 => ?_⟩
  exact List.inj_on_of_nodup_map hnd h1 hr' h2

/-! ### Examples -/

namespace StrayDemo
open Cli.Demo

/-- The entry with another time of its last change. -/
def dated (t : Bytes) : Json → Json
  | .obj m => .obj (m.map (fun e => if e.1 = b!"updated" then (e.1, .num t) else e))
  | j => j

/-- The vault at /a with one item, and another file in it. -/
def disk (name : Bytes) (members : Members) : Disk :=
  { vaultAt b!"a" [[(b!"M", mail)]] with
    fs := (vaultAt b!"a" [[(b!"M", mail)]]).fs ++
      [([b!"a", b!"default", name], .file (b!"ld({" ++ Json.renderM members ++ b!"});") false)] }

/-- The item as it was before. -/
def old : Members := [(b!"M", dated b!"3" (stored b!"001" b!"Mail" b!"0000" b!"memo" false))]

def runOn (d : Disk) (cmd : Cli.Cmd) : List Ev := (Cli.main (ctx OnePass.Demo.pa) cmd (Toy.world d [])).2.log

/-- When the item M in the vault at /a was changed last, as it is after opening. -/
def updated (d : Disk) : Option Int :=
  match Session.init.validate d b!"/a" with
  | .ret (_, s) =>
    match s.unlock Env.toy .doc d b!"/a" OnePass.Demo.pa with
    | .ret (_, s) => (s.getItem b!"M" false).map (·.updated)
    | _ => none
  | _ => none

theorem at_append {d : Disk} {loc l : List Bytes} {n : Node} (h : l ≠ loc) :
    ({ d with fs := d.fs ++ [(loc, n)] } : Disk).at? l = d.at? l := by
  unfold Disk.at?
  rw [List.find?_append]
  cases d.fs.find? (fun e => e.1 == l) with
  | some e => rfl
  | none => simp [Ne.symm h]

/-- The two disks agree on the files of the format. -/
theorem same : SameFiles FormatBand (vaultAt b!"a" [[(b!"M", mail)]]) (disk b!"band_0_old.js" old) b!"/a" [b!"a", b!"default"] where
  cwd := rfl
  vault := ⟨by decide, by decide +kernel, by decide +kernel, by decide +kernel, by decide +kernel⟩
  vault' := ⟨by decide, by decide +kernel, by decide +kernel, by decide +kernel, by decide +kernel⟩
  above := at_append (by decide +kernel)
  profile := at_append (by decide +kernel)
  files := by
    rintro n ⟨c, -, rfl⟩
    refine at_append ?_
    simp

end StrayDemo

set_option maxRecDepth 20000 in
/-- C129. A file called band_0_old.js is no band of the format, and what opening the vault gives depends on it. -/
theorem C129_refuted : ¬ C129_wish := by
  intro h
  have h1 := fun s => h Env.toy .doc _ _ b!"/a" OnePass.Demo.pa _ s StrayDemo.same
  have h2 : StrayDemo.updated (StrayDemo.disk b!"band_0_old.js" StrayDemo.old) =
      StrayDemo.updated (Cli.Demo.vaultAt b!"a" [[(b!"M", Cli.Demo.mail)]]) := by
    unfold StrayDemo.updated
    rw [(h1 _).1]
    split
    · rw [(h1 _).2]
    · rfl
  have h3 : StrayDemo.updated (StrayDemo.disk b!"band_0_old.js" StrayDemo.old) = some 3 := by decide +kernel
  have h4 : StrayDemo.updated (Cli.Demo.vaultAt b!"a" [[(b!"M", Cli.Demo.mail)]]) = some 6 := by decide +kernel
  rw [h3, h4] at h2
  cases h2

set_option maxRecDepth 20000 in
/-- C129: a copy of the band made before the password was changed. As band_0_old.js it is shown instead of the item (and the real item
is not); as band_0.js.bak or folders.js it is not looked at. -/
theorem C129_runs :
    StrayDemo.runOn (StrayDemo.disk b!"band_0_old.js" StrayDemo.old) (.details [] b!"M" false) ≠
      StrayDemo.runOn (Cli.Demo.vaultAt b!"a" [[(b!"M", Cli.Demo.mail)]]) (.details [] b!"M" false) ∧
    .out b!"Pin: 0000\n" ∈ StrayDemo.runOn (StrayDemo.disk b!"band_0_old.js" StrayDemo.old) (.details [] b!"M" false) ∧
    StrayDemo.runOn (StrayDemo.disk b!"band_0.js.bak" StrayDemo.old) (.details [] b!"M" false) =
      StrayDemo.runOn (Cli.Demo.vaultAt b!"a" [[(b!"M", Cli.Demo.mail)]]) (.details [] b!"M" false) ∧
    .out b!"Pin: 1234\n" ∈ StrayDemo.runOn (StrayDemo.disk b!"folders.js" StrayDemo.old) (.details [] b!"M" false) := by
  decide +kernel

end OnePass
