/-
1pass-core/core/service/itemservice.go: decoding of items (queries are in Model/Session.lean).
-/
import Verif.Model.Domain
import Verif.Model.Key

namespace OnePass

/-- `x.(string)` on an `interface{}`: panics on anything else, nil included. -/
def asStr : Json → Out Bytes
  | .str s => .ret s
  | _ => .panic

/-- `x.([]interface{})`. -/
def asArr : Json → Out (List Json)
  | .arr l => .ret l
  | _ => .panic

/-- `x.(map[string]interface{})`. -/
def asObj : Json → Out Members
  | .obj m => .ret m
  | _ => .panic

/-- `x != nil` for an `interface{}` out of a map. -/
def notNil : Json → Bool
  | .null => false
  | _ => true

/-- Non-nil elements only: `if x != nil { l = append(l, x) }`. -/
def keepSome {α : Type} : List (Option α) → List α := List.filterMap id

/-- `if len(l) == 0 { l = nil }`. -/
def nilIfEmpty {α : Type} (l : List α) : Option (List α) := if l.isEmpty then none else some l

namespace ItemSvc

/-- itemservice.go:155-163: `ParseItemField(false, data)`. -/
def parseLoginField (E : Env) (data : Members) : Out (Option Field) :=
  if notNil (Json.field data b!"value") && notNil (Json.field data b!"name") then do
    let value ← asStr (Json.field data b!"value")
    let name ← asStr (Json.field data b!"name")
    if value ≠ [] ∧ name ≠ [] then pure (some ⟨Str.title E.text name, value⟩) else pure none
  else pure none

/-- itemservice.go:166-176: the value of a section field. -/
def sectionValue (E : Env) (O : MapOrder) (data : Members) : Out Bytes := do
  let k ← asStr (Json.field data b!"k")
  match DataType.fromName E.text k with
  | .error _ => asStr (Json.field data b!"v")
  | .ok .address => do
    let m ← asObj (Json.field data b!"v")
    DataType.parseValue E O .address [] m
  | .ok dt => DataType.parseValue E O dt (Fmt.sprint E.flt (Json.field data b!"v")) []

/-- itemservice.go:165-179: `ParseItemField(true, data)`. -/
def parseSectionField (E : Env) (O : MapOrder) (data : Members) : Out (Option Field) :=
  if notNil (Json.field data b!"v") then do
    let value ← sectionValue E O data
    let t ← asStr (Json.field data b!"t")
    pure (some ⟨Str.title E.text t, value⟩)
  else pure none

/-- itemservice.go:151-183 `ParseItemField`. -/
def parseItemField (E : Env) (O : MapOrder) (fromSection : Bool) (data : Members) : Out (Option Field) :=
  if !fromSection then parseLoginField E data else parseSectionField E O data

/-- itemservice.go:62-71 and 190-198: the loop over a list of field documents. -/
def parseFields (E : Env) (O : MapOrder) (fromSection : Bool) (docs : List Json) : Out (List Field) := do
  let fs ← Out.mapL (fun j => do parseItemField E O fromSection (← asObj j)) docs
  pure (keepSome fs)

/-- itemservice.go:185-214 `ParseItemSection`. -/
def parseItemSection (E : Env) (O : MapOrder) (data : Members) : Out (Option Section) := do
  let fields ←
    if notNil (Json.field data b!"fields") then do
      let docs ← asArr (Json.field data b!"fields")
      parseFields E O true docs
    else pure []
  let fields := nilIfEmpty fields
  let title ←
    if notNil (Json.field data b!"title") then do
      let t ← asStr (Json.field data b!"title")
      pure (Str.title E.text t)
    else pure []
  if fields = none ∧ title = [] then pure none
  else pure (some ⟨Str.title E.text title, fields⟩)

/-- itemservice.go:58-88: the sections of an item. `details` is the (possibly nil, read as empty) map. -/
def parseSections (E : Env) (O : MapOrder) (details : Members) : Out (List Section) :=
  if notNil (Json.field details b!"sections") then do
    let docs ← asArr (Json.field details b!"sections")
    let ss ← Out.mapL (fun j => do parseItemSection E O (← asObj j)) docs
    pure (keepSome ss)
  else if notNil (Json.field details b!"fields") then do
    let docs ← asArr (Json.field details b!"fields")
    let fields ← parseFields E O false docs
    pure (if fields.length ≠ 0 then [⟨[], some fields⟩] else [])
  else pure []

/-- itemservice.go:94-104: a string entry that may be missing. -/
def optStr (m : Members) (key : Bytes) : Out Bytes :=
  if notNil (Json.field m key) then asStr (Json.field m key) else pure []

/-- `json.Unmarshal(plain, &m)` with the error ignored, after an ignored `DecodeOpdata` error (`plain` is then
nil): the map, read as empty if nil. -/
def unmarshalQuiet (r : Except Err Bytes) : Members :=
  match r with
  | .ok plain => (Json.unmarshalMap plain).1.getD []
  | .error _ => (Json.unmarshalMap []).1.getD []

/-- itemservice.go:118-125 `DecodeOverview`. -/
def decodeOverview (E : Env) (encoded : RawItem) (keys : Keys) : Out Members := do
  let data := (B64.decodeString encoded.overview).1
  let r ← Key.opdata E data keys.overviewKey keys.overviewMac
  pure (unmarshalQuiet r)

/-- itemservice.go:38-46 `DecodeDetails`. -/
def decodeDetails (E : Env) (encoded : RawItem) (keys : Keys) : Out Members := do
  let data := (B64.decodeString encoded.details).1
  let (itemKey, itemMac) ← Key.itemKeys E encoded.keys keys.masterKey
  let r ← Key.opdata E data itemKey itemMac
  pure (unmarshalQuiet r)

/-- itemservice.go:53-112: one turn of the loop of `DecodeItems`; `none` if the item is skipped. -/
def decodeItem (E : Env) (O : MapOrder) (reg : List Cat) (keys : Keys) (encoded : RawItem) : Out (Option Item) :=
  match Cat.fromCode reg encoded.category with
  | .error _ => pure none
  | .ok cat => do
    let overview ← decodeOverview E encoded keys
    let details ← decodeDetails E encoded keys
    let sections ← parseSections E O details
    let title ← optStr overview b!"title"
    let url ← optStr overview b!"url"
    let notes ← optStr details b!"notesPlain"
    pure (some
      { category := cat, created := encoded.created, notes := notes, title := title, trashed := encoded.trashed,
        sections := nilIfEmpty sections, uid := encoded.uid, url := url, updated := encoded.updated })

/-- itemservice.go:49-113: the list `DecodeItems` passes to `StoreItems`. -/
def decodeItems (E : Env) (O : MapOrder) (reg : List Cat) (keys : Keys) (raw : List RawItem) : Out (List Item) := do
  let l ← Out.mapL (decodeItem E O reg keys) raw
  pure (keepSome l)

end ItemSvc
end OnePass
