/-
Opening a vault while another program – the one that synchronises it – writes to it. `Repo.loadItems` (Repo.lean) looks at one
disk; here the directory is listed at one moment and each band file is read at a moment of its own.
-/
import Verif.Model.SessionFacts

namespace OnePass
namespace Repo

/-- itemrepo.go:99-107: the band files are read one after the other, the file number `i` as it is on the disk `reads i`. A file
that is read is read at one moment: `ioutil.ReadFile` while the file is being written in place is outside the model (programs
that replace files by renaming do not do that). -/
def bodiesDuring (reads : Nat → Disk) : Nat → List Bytes → Out (List Bytes)
  | _, [] => .ret []
  | i, p :: ps => do
    let b ← bandBody (reads i) p
    let bs ← bodiesDuring reads (i + 1) ps
    pure (b :: bs)

/-- itemrepo.go:87-132 `LoadItems`: the names are those on the disk `listed` (one call of `filepath.Glob`, one moment), the files
are read on the disks `reads`. -/
def loadItemsDuring (E : Env) (O : MapOrder) (listed : Disk) (reads : Nat → Disk) (vault : Bytes) : Out (List RawItem) :=
  match bandFiles listed vault with
  | none => .fatal
  | some [] => .ret []
  | some files => do
    let bodies ← bodiesDuring reads 0 files
    match Json.unmarshalMap (bandDoc bodies) with
    | (_, true) => .fatal
    | (m, false) => Out.mapL (rawItem E) (O.run (Json.entries (m.getD [])))

theorem bodiesDuring_still (d : Disk) : ∀ (ps : List Bytes) (i : Nat), bodiesDuring (fun _ => d) i ps = Out.mapL (bandBody d) ps
  | [], _ => rfl
  | p :: ps, i => by
    simp only [bodiesDuring, Out.mapL, bodiesDuring_still d ps]

/-- If nothing changes, it is `LoadItems`. -/
theorem loadItemsDuring_still (E : Env) (O : MapOrder) (d : Disk) (vault : Bytes) :
    loadItemsDuring E O d (fun _ => d) vault = loadItems E O d vault := by
  unfold loadItemsDuring loadItems
  simp only [bodiesDuring_still]
  rfl

/-- vaultservice.go:29-63 `ValidateVault`: the vault is looked at on the disk `d1`, its profile on `d2`, and the profile is read on
`d3`. -/
def validateDuring (d1 d2 d3 : Disk) (vault : Bytes) (p : Profile) : Out (Except Err Unit × Profile) :=
  match d1.stat vault with
  | none => .ret (.error (.invalidVault (vault ++ b!" is not a valid path")), p)
  | some (.file _ _) => .ret (.error (.invalidVault (vault ++ b!" is not a directory")), p)
  | some .dir =>
    match d2.stat (profilePath vault) with
    | none => .ret (.error (.invalidVault (profilePath vault ++ b!" do not exist")), p)
    | some .dir => .ret (.error (.invalidVault (profilePath vault ++ b!" is not a file")), p)
    | some (.file _ _) => do
      let p' ← loadProfile d3 vault p
      pure (.ok (), p')

/-- If nothing changes, it is `ValidateVault`. -/
theorem validateDuring_still (d : Disk) (vault : Bytes) (p : Profile) : validateDuring d d d vault p = validateVault d vault p := rfl

end Repo

namespace Session

/-- vaultfacade.go:82-88 `Validate`, with the disk changing meanwhile. -/
def validateDuring (d1 d2 d3 : Disk) (vault : Bytes) (s : Session) : Out (Except Err Unit × Session) := do
  let (r, p) ← Repo.validateDuring d1 d2 d3 vault s.profile
  pure (r, { s with profile := p })

/-- If nothing changes, it is `Validate`. -/
theorem validateDuring_still (d : Disk) (vault : Bytes) (s : Session) : s.validateDuring d d d vault = s.validate d vault := rfl

/-- vaultfacade.go:57-80 `Unlock`, itemservice.go:48-116 `DecodeItems`, with the disk changing meanwhile. The keys come from the
profile that the process holds already (vaultservice.go:29-63). -/
def unlockDuring (E : Env) (O : MapOrder) (listed : Disk) (reads : Nat → Disk) (vault password : Bytes) (s : Session) :
    Out (Except Err Unit × Session) := do
  match ← Key.derivedKeys E s.profile password with
  | .error _ => pure (.error .invalidPass, s)
  | .ok (dk, dm) =>
    match ← Key.masterKeys E s.profile dk dm with
    | .error _ => pure (.error .invalidPass, s)
    | .ok (masterK, masterM) =>
      match ← Key.overviewKeys E s.profile dk dm with
      | .error _ => pure (.error .invalidPass, s)
      | .ok (overK, overM) =>
        let keys : Keys :=
          { derivedKey := dk, derivedMac := dm, masterKey := masterK, masterMac := masterM,
            overviewKey := overK, overviewMac := overM }
        let raw ← Repo.loadItemsDuring E O listed reads vault
        let items ← ItemSvc.decodeItems E O s.reg keys raw
        pure (.ok (), { s with keys := some keys, items := Repo.storeItems s.items items })

/-- What is loaded is all that `Unlock` takes from the disk. -/
theorem unlockDuring_eq (E : Env) (O : MapOrder) {listed d : Disk} {reads : Nat → Disk} {vault : Bytes}
    (h : Repo.loadItemsDuring E O listed reads vault = Repo.loadItems E O d vault) (password : Bytes) (s : Session) :
    s.unlockDuring E O listed reads vault password = s.unlock E O d vault password := by
  unfold unlockDuring unlock decodeItems
  rw [h]
  simp only [Out.bind_assoc]
  rfl

/-- If nothing changes, it is `Unlock`. -/
theorem unlockDuring_still (E : Env) (O : MapOrder) (d : Disk) (vault password : Bytes) (s : Session) :
    s.unlockDuring E O d (fun _ => d) vault password = s.unlock E O d vault password :=
  unlockDuring_eq E O (Repo.loadItemsDuring_still E O d vault) password s

end Session
end OnePass
