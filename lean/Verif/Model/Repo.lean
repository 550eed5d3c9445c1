/-
1pass-parse/repo/file: itemrepo.go, profilerepo.go; 1pass-core/core/service/vaultservice.go.
-/
import Verif.Model.Item
import Verif.Go.Glob

namespace OnePass

/-- static.go: ProfileDir, ProfileFile, BandFilePattern. -/
def profileDir : Bytes := b!"default"
def profileFile : Bytes := b!"profile.js"
def bandFilePattern : Bytes := b!"band_*.js"

/-- profilerepo.go:42, vaultservice.go:44: path of the profile file. -/
def profilePath (vault : Bytes) : Bytes := Path.join [vault, profileDir, profileFile]

namespace Repo

/-- itemrepo.go:90: the band files of a vault; `none` is a bad pattern. -/
def bandFiles (d : Disk) (vault : Bytes) : Option (List Bytes) :=
  let pattern := Path.join [vault, profileDir, bandFilePattern]
  Path.glob d (pattern.length + 1) pattern

/-- itemrepo.go:100-106: one band file without the wrapper `ld({` … `});`. -/
def bandBody (d : Disk) (path : Bytes) : Out Bytes :=
  match d.readFile path with
  | none => .fatal
  | some file => subBytes file 4 ((file.length : Int) - 3)

/-- itemrepo.go:97-109: the document built from all band files. -/
def bandDoc (bodies : List Bytes) : Bytes :=
  (123 :: bodies.flatMap (fun b => b ++ [44])).dropLast ++ [125]

/-- `v[key].(float64)` and `int64(…)`. -/
def asInt (E : Env) : Json → Out Int
  | .num t => .ret (E.flt.toInt t)
  | _ => .panic

/-- itemrepo.go:121-123. -/
def asTrashed : Json → Out Bool
  | .null => .ret false
  | .bool b => .ret b
  | _ => .panic

/-- itemrepo.go:116-126: one raw item. -/
def rawItem (E : Env) (entry : Bytes × Json) : Out RawItem := do
  let v ← asObj entry.2
  let created ← asInt E (Json.field v b!"created")
  let updated ← asInt E (Json.field v b!"updated")
  let trashed ← asTrashed (Json.field v b!"trashed")
  let category ← asStr (Json.field v b!"category")
  let details ← asStr (Json.field v b!"d")
  let hmac ← asStr (Json.field v b!"hmac")
  let keys ← asStr (Json.field v b!"k")
  let overview ← asStr (Json.field v b!"o")
  pure { category, created, details, hmac, keys, overview, trashed, uid := entry.1, updated }

/-- itemrepo.go:87-132 `LoadItems`. -/
def loadItems (E : Env) (O : MapOrder) (d : Disk) (vault : Bytes) : Out (List RawItem) :=
  match bandFiles d vault with
  | none => .fatal
  | some [] => .ret []
  | some files => do
    let bodies ← Out.mapL (bandBody d) files
    match Json.unmarshalMap (bandDoc bodies) with
    | (_, true) => .fatal
    | (m, false) => Out.mapL (rawItem E) (O.run (Json.entries (m.getD [])))

/-- profilerepo.go:40-52 `LoadProfile`: the repository's profile afterwards. -/
def loadProfile (d : Disk) (vault : Bytes) (p : Profile) : Out Profile :=
  match p with
  | some m => .ret (some m)
  | none =>
    match d.readFile (profilePath vault) with
    | none => .fatal
    | some file => do
      let body ← subBytes file 12 ((file.length : Int) - 1)
      match Json.unmarshalMap body with
      | (_, true) => .fatal
      | (m, false) => pure m

/-- vaultservice.go:29-63 `ValidateVault`: result and the profile held afterwards. -/
def validateVault (d : Disk) (vault : Bytes) (p : Profile) : Out (Except Err Unit × Profile) :=
  match d.stat vault with
  | none => .ret (.error (.invalidVault (vault ++ b!" is not a valid path")), p)
  | some (.file _ _) => .ret (.error (.invalidVault (vault ++ b!" is not a directory")), p)
  | some .dir =>
    match d.stat (profilePath vault) with
    | none => .ret (.error (.invalidVault (profilePath vault ++ b!" do not exist")), p)
    | some .dir => .ret (.error (.invalidVault (profilePath vault ++ b!" is not a file")), p)
    | some (.file _ _) => do
      let p' ← loadProfile d vault p
      pure (.ok (), p')

/-! Queries on the held items; `none` is the nil slice, which Go ranges over as empty. -/

/-- itemrepo.go:25-41 `CountByCategoryAndTrashed`; a nil category is `none`. -/
def count (items : Option (List Item)) (cat : Option Cat) (trashed : Bool) : Nat :=
  (items.getD []).foldl (fun n item =>
    match cat with
    | none => if item.trashed = trashed then n + 1 else n
    | some c => if item.category = c ∧ item.trashed = trashed then n + 1 else n) 0

/-- itemrepo.go:48-68: the test in the loop; `title` is already lower-cased. -/
def matches? (T : Text) (cat : Option Cat) (title : Bytes) (trashed : Bool) (item : Item) : Bool :=
  match cat with
  | none =>
    if title = [] then item.trashed == trashed
    else Str.contains (Str.toLower T item.title) title && item.trashed == trashed
  | some c =>
    if title = [] then item.category == c && item.trashed == trashed
    else Str.contains (Str.toLower T item.title) title && item.category == c && item.trashed == trashed

/-- itemrepo.go:43-72 `FindByCategoryAndTitleAndTrashed`. -/
def findBy (T : Text) (items : Option (List Item)) (cat : Option Cat) (title : Bytes) (trashed : Bool) : List Item :=
  (items.getD []).filter (matches? T cat (Str.toLower T title) trashed)

/-- itemrepo.go:74-85 `FindFirstByUidAndTrashed`; `none` is nil. -/
def findFirst (items : Option (List Item)) (uid : Bytes) (trashed : Bool) : Option Item :=
  (items.getD []).find? (fun item => item.uid == uid && item.trashed == trashed)

/-- itemrepo.go:134-138 `RemoveItems`. -/
def removeItems (items : Option (List Item)) : Option (List Item) :=
  match items with
  | some _ => none
  | none => none

/-- itemrepo.go:140-144 `StoreItems`. -/
def storeItems (items : Option (List Item)) (new : List Item) : Option (List Item) :=
  match items with
  | none => some new
  | some l => some l

end Repo
end OnePass
