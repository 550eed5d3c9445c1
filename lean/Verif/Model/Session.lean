/-
1pass-core/core/facade/vaultfacade.go on top of the services and repositories: one process's session.
-/
import Verif.Model.Repo

namespace OnePass

/-- The mutable state of one process: `fileProfileRepo.profileJson`, `fileItemRepo.items`,
`dfltVaultFacade.keys` and the shared category list `ItemCategoryEnum.values`. -/
structure Session where
  profile : Profile
  items : Option (List Item)
  keys : Option Keys
  reg : List Cat

namespace Session

/-- A fresh process. -/
def init : Session := { profile := none, items := none, keys := none, reg := Cat.values }

/-- vaultfacade.go:30-32 `CountItems`. -/
def countItems (s : Session) (cat : Option Cat) (trashed : Bool) : Nat := Repo.count s.items cat trashed

/-- vaultfacade.go:34-36 `GetItem`. -/
def getItem (s : Session) (uid : Bytes) (trashed : Bool) : Option Item := Repo.findFirst s.items uid trashed

/-- itemservice.go:136: `NewSimpleItem`. -/
def simple (i : Item) : SimpleItem :=
  { category := i.category, title := i.title, trashed := i.trashed, uid := i.uid }

/-- itemservice.go:140-146: the less function. -/
def lessItem (a b : SimpleItem) : Bool :=
  if a.category.code ≠ b.category.code then Str.lt a.category.code b.category.code else Str.lt a.title b.title

/-- vaultfacade.go:38-40 `GetItems`, itemservice.go:131-149 `GetSimpleItems`. -/
def getItems (T : Text) (S : Sorter) (s : Session) (cat : Option Cat) (title : Bytes) (trashed : Bool) :
    List SimpleItem :=
  S.run lessItem ((Repo.findBy T s.items cat title trashed).map simple)

/-- vaultfacade.go:42-50 `IsUnlocked`. -/
def isUnlocked (s : Session) : Bool := s.keys.isSome

/-- vaultfacade.go:52-55 `Lock`. -/
def lock (s : Session) : Session := { s with items := Repo.removeItems s.items, keys := none }

/-- itemservice.go:48-116 `DecodeItems`, including `LoadItems` and `StoreItems`. -/
def decodeItems (E : Env) (O : MapOrder) (d : Disk) (vault : Bytes) (keys : Keys) (s : Session) : Out Session := do
  let raw ← Repo.loadItems E O d vault
  let items ← ItemSvc.decodeItems E O s.reg keys raw
  pure { s with items := Repo.storeItems s.items items }

/-- vaultfacade.go:57-80 `Unlock`. -/
def unlock (E : Env) (O : MapOrder) (d : Disk) (vault password : Bytes) (s : Session) :
    Out (Except Err Unit × Session) := do
  match ← Key.derivedKeys E s.profile password with
  | .error _ => pure (.error .invalidPass, s)
  | .ok (dk, dm) =>
    match ← Key.masterKeys E s.profile dk dm with
    | .error _ => pure (.error .invalidPass, s)
    | .ok (masterK, masterM) =>
      match ← Key.overviewKeys E s.profile dk dm with
      | .error _ => pure (.error .invalidPass, s)
      | .ok (overK, overM) =>
        let keys : Keys :=
          { derivedKey := dk, derivedMac := dm, masterKey := masterK, masterMac := masterM,
            overviewKey := overK, overviewMac := overM }
        let s' ← decodeItems E O d vault keys { s with keys := some keys }
        pure (.ok (), s')

/-- vaultfacade.go:82-88 `Validate`. -/
def validate (d : Disk) (vault : Bytes) (s : Session) : Out (Except Err Unit × Session) := do
  let (r, p) ← Repo.validateVault d vault s.profile
  pure (r, { s with profile := p })

/-- Callers of `ItemCategoryEnum.GetValues()` sort the shared list in place
(clicontrol.go `GetCategories`, 1passwidget.go `update`). -/
def sortReg (S : Sorter) (less : Cat → Cat → Bool) (s : Session) : Session := { s with reg := S.run less s.reg }

/-- What can happen to a process: a call of the facade, the shared list being sorted, the disk changing. -/
inductive Op where
  | validate (vault : Bytes)
  | unlock (O : MapOrder) (vault password : Bytes)
  | lock
  | count (cat : Option Cat) (trashed : Bool)
  | getItem (uid : Bytes) (trashed : Bool)
  | getItems (S : Sorter) (cat : Option Cat) (title : Bytes) (trashed : Bool)
  | isUnlocked
  | sortReg (S : Sorter) (less : Cat → Cat → Bool)
  | disk (d : Disk)

/-- What the caller sees. -/
inductive Answer where
  | err (e : Option Err)
  | num (n : Nat)
  | item (i : Option Item)
  | list (l : List SimpleItem)
  | flag (b : Bool)
  | none

/-- The process with the disk it runs on. -/
structure St where
  disk : Disk
  sess : Session

/-- `error` as the caller sees it. -/
def answerErr : Except Err Unit → Answer
  | .ok _ => .err .none
  | .error e => .err (some e)

/-- One operation. -/
def step (E : Env) (st : St) : Op → Out (Answer × St)
  | .validate v => do
    let (r, s) ← st.sess.validate st.disk v
    pure (answerErr r, { st with sess := s })
  | .unlock O v p => do
    let (r, s) ← st.sess.unlock E O st.disk v p
    pure (answerErr r, { st with sess := s })
  | .lock => .ret (.none, { st with sess := st.sess.lock })
  | .count c t => .ret (.num (st.sess.countItems c t), st)
  | .getItem u t => .ret (.item (st.sess.getItem u t), st)
  | .getItems S c ti t => .ret (.list (st.sess.getItems E.text S c ti t), st)
  | .isUnlocked => .ret (.flag st.sess.isUnlocked, st)
  | .sortReg S less => .ret (.none, { st with sess := st.sess.sortReg S less })
  | .disk d => .ret (.none, { st with disk := d })

/-- A history that the process survives: all answers and the final state. -/
def run (E : Env) (st : St) : List Op → Out (List Answer × St)
  | [] => .ret ([], st)
  | o :: os => do
    let (a, st') ← step E st o
    let (as, st'') ← run E st' os
    pure (a :: as, st'')

/-- States a process can get into. -/
def Reachable (E : Env) (s : Session) : Prop :=
  ∃ d ops as d', run E ⟨d, init⟩ ops = .ret (as, ⟨d', s⟩)

end Session
end OnePass
