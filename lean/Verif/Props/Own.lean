/-
A vault is opened from its own files: C86.
-/
import Verif.Props.Load

namespace OnePass
open Spec

/-- Nothing outside the vault is looked at when a session is opened: with disks that agree on the vault, every session
gives the same answer and the same next session, for every password. -/
theorem unlock_congr (E : Env) (O : MapOrder) {d d' : Disk} {v : Bytes} (h : Repo.loadItems E O d' v = Repo.loadItems E O d v)
    (s : Session) (p : Bytes) : s.unlock E O d' v p = s.unlock E O d v p := by
  unfold Session.unlock Session.decodeItems
  rw [h]

theorem validate_congr {d d' : Disk} {v : Bytes} (hv : v ≠ []) (hc : d'.cwd = d.cwd)
    (h : ∀ l, Path.resolve d.cwd v <+: l → d'.at? l = d.at? l) (s : Session) : s.validate d' v = s.validate d v := by
  have h1 : d'.stat v = d.stat v := by
    unfold Disk.stat
    rw [if_neg hv, if_neg hv, hc, h _ (List.prefix_refl _)]
  have hp : Path.resolve d.cwd (profilePath v) = Path.resolve d.cwd v ++ [profileDir, profileFile] :=
    Path.resolve_join d.cwd hv (by simp) (by decide +kernel)
  have h2 : d'.stat (profilePath v) = d.stat (profilePath v) := by
    unfold Disk.stat
    split
    · rfl
    · rw [hc, hp, h _ (List.prefix_append _ _)]
  have h3 : d'.readFile (profilePath v) = d.readFile (profilePath v) := by
    unfold Disk.readFile
    rw [h2]
  unfold Session.validate Repo.validateVault Repo.loadProfile
  rw [h1, h2, h3]

/-- C86. Validating and opening a vault, on two disks that are the same in the vault's directory and may differ anywhere
else, gives the same answers and the same session, whatever the password and the state of the process. -/
theorem C86_only_its_files (E : Env) (O : MapOrder) (d d' : Disk) (v p : Bytes) (s : Session) (hv : v ≠ [])
    (hm : ∀ b ∈ v, b ≠ 42 ∧ b ≠ 63 ∧ b ≠ 91 ∧ b ≠ 92) (hnames : ∀ e ∈ d.fs, ∀ c ∈ e.1, (47 : UInt8) ∉ c)
    (hc : d'.cwd = d.cwd) (h : ∀ l, Path.resolve d.cwd v <+: l → d'.at? l = d.at? l) :
    s.validate d' v = s.validate d v ∧ s.unlock E O d' v p = s.unlock E O d v p :=
  ⟨validate_congr hv hc h s,
    unlock_congr E O (loadItems_congr E O hv hm hnames hc fun l hl => h l ((List.prefix_append _ _).trans hl)) s p⟩

/-- C86: another vault next to it, and a file of another kind, make no difference. -/
example :
    (∀ l, Path.resolve Demo.disk'.cwd b!"/a" <+: l →
      ({ Demo.disk' with fs := Demo.disk'.fs ++ [([b!"n"], .file b!"x" false), ([b!"b", b!"default", b!"band_1.js"], .dir)] } : Disk).at? l =
        Demo.disk'.at? l) ∧
    heldAfter { Demo.disk' with fs := Demo.disk'.fs ++ [([b!"n"], .file b!"x" false), ([b!"b", b!"default", b!"band_1.js"], .dir)] }
      [.validate b!"/a", .unlock .doc b!"/a" Demo.pa] = some (some 1) := by
  refine ⟨?_, by decide +kernel⟩
  have h1 : Path.resolve Demo.disk'.cwd b!"/a" = [b!"a"] := by decide +kernel
  rw [h1]
  rintro _ ⟨r, rfl⟩
  unfold Disk.at?
  rw [List.find?_append]
  cases h : Demo.disk'.fs.find? (fun e => e.1 == [b!"a"] ++ r) with
  | some e => rfl
  | none => simp

/-- C86 needs a path without special characters: what /v[1] opens to is decided by the files of /v1. -/
example : heldAfter GlobDemo.disk [.validate b!"/v[1]", .unlock .doc b!"/v[1]" Demo.pa] = some (some 1) ∧
    heldAfter { GlobDemo.disk with fs := GlobDemo.disk.fs.take 4 } [.validate b!"/v[1]", .unlock .doc b!"/v[1]" Demo.pa] =
      some (some 0) := by decide +kernel

end OnePass
