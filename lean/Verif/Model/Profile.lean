/-
1pass-parse/repo/file/profilerepo.go, the getters. (Loading is in Model/Repo.lean.)
-/
import Verif.Go.Env
import Verif.Go.Float

namespace OnePass

/-- `fileProfileRepo.profileJson` (profilerepo.go:16-18): `none` is the nil map. -/
abbrev Profile := Option Members

namespace Profile

/-- A lookup in a possibly nil map (Go reads a nil map as empty). -/
def field (p : Profile) (k : Bytes) : Json := Json.field (p.getD []) k

/-- `repo.profileJson[k].(string)` (profilerepo.go:28-38): panics if the entry is missing or no string. -/
def strField (p : Profile) (k : Bytes) : Out Bytes :=
  match p.field k with
  | .str s => .ret s
  | _ => .panic

/-- profilerepo.go:24-26 `GetIterations`. -/
def getIterations (E : Env) (p : Profile) : Out Int :=
  match p.field b!"iterations" with
  | .num t => .ret (E.flt.toInt t)
  | _ => .panic

/-- profilerepo.go:28-30 `GetMasterKey`. -/
def getMasterKey (p : Profile) : Out Bytes := p.strField b!"masterKey"

/-- profilerepo.go:32-34 `GetOverviewKey`. -/
def getOverviewKey (p : Profile) : Out Bytes := p.strField b!"overviewKey"

/-- profilerepo.go:36-38 `GetSalt`. -/
def getSalt (p : Profile) : Out Bytes := p.strField b!"salt"

end Profile
end OnePass
