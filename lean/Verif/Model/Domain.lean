/-
1pass-core/core/domain: entity.go, itemcategory.go, datatype.go, logicval.go.
-/
import Verif.Go.Fmt
import Verif.Go.Time
import Verif.Go.Float

namespace OnePass

/-! ### Item categories -/

/-- itemcategory.go:15-18 `ItemCategory`. Go compares pointers to registry entries; the entries have distinct
codes, so comparing contents is the same. -/
structure Cat where
  code : Bytes
  name : Bytes
  deriving DecidableEq, Repr

namespace Cat

/-- itemcategory.go:50-67, in the order of lines 88-90. -/
def bankAccount : Cat := ⟨b!"101", b!"Bank Account"⟩
def creditCard : Cat := ⟨b!"002", b!"Credit Card"⟩
def database : Cat := ⟨b!"102", b!"Database"⟩
def driverLicense : Cat := ⟨b!"103", b!"Driver License"⟩
def email : Cat := ⟨b!"111", b!"Email"⟩
def identity : Cat := ⟨b!"004", b!"Identity"⟩
def login : Cat := ⟨b!"001", b!"Login"⟩
def membership : Cat := ⟨b!"105", b!"Membership"⟩
def outdoorLicense : Cat := ⟨b!"104", b!"Outdoor License"⟩
def passport : Cat := ⟨b!"106", b!"Passport"⟩
def password : Cat := ⟨b!"005", b!"Password"⟩
def rewards : Cat := ⟨b!"107", b!"Rewards"⟩
def router : Cat := ⟨b!"109", b!"Router"⟩
def secureNote : Cat := ⟨b!"003", b!"Secure Note"⟩
def server : Cat := ⟨b!"110", b!"Server"⟩
def softwareLicense : Cat := ⟨b!"100", b!"Software License"⟩
def ssn : Cat := ⟨b!"108", b!"SSN"⟩
def tombstone : Cat := ⟨b!"099", b!"Tombstone"⟩

/-- itemcategory.go:88-90: the initial contents of the shared list `values`. Callers of `GetValues`
(itemcategory.go:102-104) get this very slice and may sort it in place, so the list is part of the state. -/
def values : List Cat :=
  [bankAccount, creditCard, database, driverLicense, email, identity, login, membership, outdoorLicense, passport,
   password, rewards, router, secureNote, server, softwareLicense, ssn, tombstone]

/-- itemcategory.go:106-121 `FromCode`, on the current contents of the shared list. -/
def fromCode (reg : List Cat) (code : Bytes) : Except Err Cat :=
  match reg.find? (fun c => c.code == code) with
  | some c => .ok c
  | none => .error .unknownItemCat

/-- itemcategory.go:123-139 `FromName`. -/
def fromName (T : Text) (reg : List Cat) (name : Bytes) : Except Err Cat :=
  match reg.find? (fun c => Str.toLower T c.name == Str.toLower T name) with
  | some c => .ok c
  | none => .error .unknownItemCat

end Cat

/-! ### Data types -/

/-- datatype.go:19-21, 34-45 `DataType`. -/
inductive DataType where
  | address
  | date
  | monthYear
  deriving DecidableEq, Repr

namespace DataType

/-- datatype.go:35-37. -/
def name : DataType → Bytes
  | address => b!"address"
  | date => b!"date"
  | monthYear => b!"monthYear"

/-- datatype.go:43. -/
def values : List DataType := [address, date, monthYear]

/-- datatype.go:55-71 `FromName`. -/
def fromName (T : Text) (n : Bytes) : Except Err DataType :=
  match values.find? (fun d => Str.toLower T d.name == Str.toLower T n) with
  | some d => .ok d
  | none => .error .unknownDataType

/-- datatype.go:85-91: one line of an address, `fmt.Sprintf("\n  %v: %v", key, val)`; `none` is the failing
type assertion of line 86. -/
def addressLine (m : Members) (key : Bytes) : Out Bytes :=
  match Json.field m key with
  | .str val =>
    .ret (b!"\n  " ++ key ++ b!": " ++ Str.replaceByte 10 [32] (Str.trimSpace val))
  | _ => .panic

/-- datatype.go:73-94 `parseAddress`: keys in map order, sorted, one line each. -/
def parseAddress (O : MapOrder) (m : Members) : Out Bytes := do
  let keys := sortStrings ((O.run (Json.entries m)).map (·.1))
  let lines ← Out.mapL (addressLine m) keys
  pure lines.flatten

/-- datatype.go:96-101 `parseDate`. -/
def parseDate (E : Env) (value : Bytes) : Bytes :=
  let unix := (Num.parseInt value).1
  Time.formatUnix unix (E.zone unix)

/-- datatype.go:103-111 `parseMonthYear`. -/
def parseMonthYear (value : Bytes) : Bytes :=
  if value.length > 4 then value.take 4 ++ [45] ++ value.drop 4 else value

/-- datatype.go:113-126 `ParseValue`. -/
def parseValue (E : Env) (O : MapOrder) (dt : DataType) (value : Bytes) (m : Members) : Out Bytes :=
  match dt with
  | address => parseAddress O m
  | date => .ret (parseDate E value)
  | monthYear => .ret (parseMonthYear value)

end DataType

/-! ### Logic values -/

/-- logicval.go:15-18, 33-42 `LogicVal`. -/
structure LogicVal where
  name : Bytes
  value : Bool
  deriving DecidableEq, Repr

namespace LogicVal

def no : LogicVal := ⟨b!"n", false⟩
def yes : LogicVal := ⟨b!"y", true⟩

/-- logicval.go:40. -/
def values : List LogicVal := [no, yes]

/-- logicval.go:56-72 `FromName`. -/
def fromName (T : Text) (n : Bytes) : Except Err LogicVal :=
  match values.find? (fun v => Str.toLower T v.name == Str.toLower T n) with
  | some v => .ok v
  | none => .error .unknownLogicVal

/-- logicval.go:74-84 `FromValue`: the last match; `none` is nil. -/
def fromValue (b : Bool) : Option LogicVal :=
  values.foldl (fun lv v => if b == v.value then some v else lv) none

end LogicVal

/-! ### Entities (entity.go) -/

/-- entity.go:26-29. -/
structure Field where
  name : Bytes
  value : Bytes
  deriving DecidableEq, Repr

/-- entity.go:31-34. `none` is the nil slice. -/
structure Section where
  title : Bytes
  fields : Option (List Field)
  deriving DecidableEq, Repr

/-- entity.go:14-24. `none` is the nil slice. -/
structure Item where
  category : Cat
  created : Int
  notes : Bytes
  title : Bytes
  trashed : Bool
  sections : Option (List Section)
  uid : Bytes
  url : Bytes
  updated : Int
  deriving DecidableEq, Repr

/-- entity.go:36-43. -/
structure Keys where
  derivedKey : Bytes
  derivedMac : Bytes
  masterKey : Bytes
  masterMac : Bytes
  overviewKey : Bytes
  overviewMac : Bytes
  deriving DecidableEq, Repr

/-- entity.go:45-55. -/
structure RawItem where
  category : Bytes
  created : Int
  details : Bytes
  hmac : Bytes
  keys : Bytes
  overview : Bytes
  trashed : Bool
  uid : Bytes
  updated : Int
  deriving DecidableEq, Repr

/-- entity.go:57-62. -/
structure SimpleItem where
  category : Cat
  title : Bytes
  trashed : Bool
  uid : Bytes
  deriving DecidableEq, Repr

end OnePass
