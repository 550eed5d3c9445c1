/-
1pass-term/control/cobra/clicontrol.go, 1pass-app/cli/cobra.go, 1pass-app/main.go.
-/
import Verif.Model.Update

namespace OnePass

namespace Time

/-- `Format("2006-01-02 15:04:05")`. -/
def formatStamp (sec offset : Int) : Bytes :=
  let a := absSec sec offset
  formatDate (absDate a) ++ [32] ++ appendInt (a % 86400 / 3600 : Nat) 2 ++ [58] ++ appendInt (a % 3600 / 60 : Nat) 2 ++
    [58] ++ appendInt (a % 60 : Nat) 2

end Time

/-- error.go:11-20: what `fmt.Println(err)` prints. -/
def Err.text : Err → Bytes
  | .invalidMd5 => b!"invalid MD5 checksum"
  | .invalidHmac => b!"invalid HMAC"
  | .invalidPass => b!"invalid password"
  | .invalidVault d => b!"invalid vault (" ++ d ++ b!")"
  | .noUpdate => b!"up to date"
  | .unknownDataType => b!"unknown data type"
  | .unknownItemCat => b!"unknown item category"
  | .unknownLogicVal => b!"unknown logic value"
  | .stdlib w => w

/-- `%v` of a bool. -/
def boolText (b : Bool) : Bytes := if b then b!"true" else b!"false"

/-- Everything a process runs with. -/
structure Ctx where
  env : Env
  ext : Ext
  sys : Sys
  order : MapOrder
  sorter : Sorter
  dir : Bytes

namespace Cli
open Prog Fmt

variable (C : Ctx)

/-- clicontrol.go:37-49 `CheckForUpdate`. -/
def checkForUpdate : Prog Unit := do
  let c ← Conf.read
  if c.notify then
    match ← Upd.facadeCheck C.sys C.ext C.dir false with
    | .error _ => Prog.pure ()
    | .ok info =>
      println (b!"New version of 1pass is available (current: " ++ Upd.version ++ b!", available: " ++ info.version ++
        b!"). Run 'sudo 1pass update' to upgrade.\n")
  else Prog.pure ()

/-- clicontrol.go:62-71: question 1. -/
def askVault (c : Config) : Prog Config := do
  print (b!"  1. Do you want to set default OPVault path? (" ++ LogicVal.no.name ++ b!") [y - for yes/n - for no]: ")
  let confirmVal ← scanln
  match LogicVal.fromName C.env.text confirmVal with
  | .ok v =>
    if v = LogicVal.yes then
      print (b!"     Default OPVault path (" ++ c.vault ++ b!"): ")
      let vaultVal ← scanln
      Prog.pure { c with vault := Str.trimSpace vaultVal }
    else Prog.pure c
  | .error _ => Prog.pure c

/-- clicontrol.go:73-80: question 2. -/
def askNotify (c : Config) : Prog Config := do
  match LogicVal.fromValue c.notify with
  | none => Prog.panic
  | some lv =>
    print (b!"  2. Update notifications? (" ++ lv.name ++ b!") [y - for yes/n - for no]: ")
    let notifyVal ← scanln
    match LogicVal.fromName C.env.text notifyVal with
    | .ok v => Prog.pure { c with notify := v.value }
    | .error _ => Prog.pure c

/-- `strconv.ParseInt` and the range check of questions 3 and 4. -/
def inRange (lo hi : Int) (answer : Bytes) (old : Int) : Int :=
  let v := Num.parseInt answer
  if v.2 = false ∧ lo ≤ v.1 ∧ v.1 ≤ hi then v.1 else old

/-- clicontrol.go:82-88: question 3. -/
def askTimeout (c : Config) : Prog Config := do
  print (b!"  3. Update HTTP timeout in seconds (" ++ Num.intDec c.timeout ++ b!") [1-30]: ")
  let v ← scanln
  Prog.pure { c with timeout := inRange 1 30 v c.timeout }

/-- clicontrol.go:90-96: question 4. -/
def askPeriod (c : Config) : Prog Config := do
  print (b!"  4. How often check for updates in days (" ++ Num.intDec c.period ++ b!") [0-365]: ")
  let v ← scanln
  Prog.pure { c with period := inRange 0 365 v c.period }

/-- clicontrol.go:51-100 `Configure`. -/
def configure : Prog Unit := do
  checkForUpdate C
  let c ← Conf.read
  println b!"Detailed configuration manual can be found online: https://github.com/mashmb/1pass#configuration"
  println b!"Configuring 1pass:"
  let c ← askVault C c
  let c ← askNotify C c
  let c ← askTimeout c
  let c ← askPeriod c
  Conf.save C.sys C.ext C.dir c
  println b!"1pass configured"

/-- clicontrol.go:102-109 `FirstRun`. -/
def firstRun : Prog Unit := do
  let w ← Prog.get
  if Conf.isAvailable w.conf then Prog.pure ()
  else
    println b!"Running 1pass for the first time? Let's configure it!"
    println []
    configure C
    println []

/-- clicontrol.go:118-120: categories by code. -/
def lessCode (a b : Cat) : Bool := Str.lt a.code b.code

/-- Rows numbered from 1. -/
def numbered (n : Nat) : List (List Bytes) → List (List Bytes)
  | [] => []
  | r :: rs => (Num.natDec n :: r) :: numbered (n + 1) rs

/-- The session in the running process. -/
def setSess (s : Session) : Prog Unit := fun w => (.ret (), { w with sess := s })

/-- clicontrol.go:111-127 `GetCategories`. The layout of the table is that of go-pretty and not modelled. -/
def getCategories : Prog Unit := do
  checkForUpdate C
  let w ← Prog.get
  let sess := w.sess.sortReg C.sorter lessCode
  setSess sess
  emit (.table [b!"lp.", b!"category"] (numbered 1 (sess.reg.map (fun c => [c.name]))))

/-- clicontrol.go:132-139, 213-220, 293-300: which vault. -/
def chooseVault (path : Bytes) : Prog Bytes :=
  if path ≠ [] then Prog.pure path
  else do
    let c ← Conf.read
    Prog.pure c.vault

/-- Running a facade operation of the session. -/
def onSession {α : Type} (f : Disk → Session → Out (α × Session)) : Prog α := fun w =>
  match f w.disk w.sess with
  | .ret (a, s) => (.ret a, { w with sess := s })
  | .panic => (.panic, w)
  | .fatal => (.fatal, w)

/-- Print an error and leave with status 1. -/
def die (e : Err) : Prog Unit := do
  println e.text
  exit

/-- clicontrol.go:130-155, 211-236, 291-316: what the item commands begin with. The error of
`ReadPassword` is overwritten before anybody looks at it. -/
def openVault (path : Bytes) : Prog Unit := do
  firstRun C
  checkForUpdate C
  let vault ← chooseVault path
  match ← onSession (fun d s => s.validate d vault) with
  | .error e => die e
  | .ok _ =>
    println b!"Password:"
    let read ← Os.readPassword C.sys
    match ← onSession (fun d s => s.unlock C.env C.order d vault read.1) with
    | .error e => die e
    | .ok _ => Prog.pure ()

def rule : Bytes := b!"------------------------------"
def mask : Bytes := b!"**********"

/-- clicontrol.go:160-202, 241-283: the lines of an item; `hide` for the overview. -/
def itemLines (E : Env) (hide : Bool) (i : Item) : List Bytes :=
  [[], i.category.name, rule, i.title, [],
   b!"Updated: " ++ Time.formatStamp i.updated (E.zone i.updated) ++ b!"\nCreated: " ++
     Time.formatStamp i.created (E.zone i.created) ++ b!"\nTrashed: " ++ boolText i.trashed] ++
  (if i.url ≠ [] then [b!"URL: " ++ i.url] else []) ++
  (match i.sections with
   | none => []
   | some ss =>
     ss.flatMap (fun s =>
       [[]] ++ (if s.title ≠ [] then [s.title] else []) ++ [rule] ++
       (match s.fields with
        | none => []
        | some fs => fs.map (fun f => f.name ++ b!": " ++ (if hide then mask else f.value)))) ++ [[]]) ++
  (if i.notes ≠ [] then
     (if i.sections = none then [[]] else []) ++ [b!"Notes", rule, if hide then mask else i.notes, []]
   else [])

/-- `for … { fmt.Println }`. -/
def printLines : List Bytes → Prog Unit
  | [] => Prog.pure ()
  | l :: r => do
    println l
    printLines r

/-- clicontrol.go:157-206, 238-287. -/
def printItem (hide : Bool) (uid : Bytes) (trashed : Bool) : Prog Unit := do
  let w ← Prog.get
  match w.sess.getItem uid trashed with
  | some i => printLines (itemLines C.env hide i)
  | none => println (b!"Item with UID " ++ uid ++ b!" do not exist")

/-- clicontrol.go:129-208 `GetItemDetails`. -/
def getItemDetails (path uid : Bytes) (trashed : Bool) : Prog Unit := do
  openVault C path
  printItem C false uid trashed

/-- clicontrol.go:210-288 `GetItemOverview`. -/
def getItemOverview (path uid : Bytes) (trashed : Bool) : Prog Unit := do
  openVault C path
  printItem C true uid trashed

/-- clicontrol.go:322-332: the category filter; `none` is "no category". -/
def categoryFilter (reg : List Cat) (category : Bytes) : Except Err (Option Cat) :=
  if category = [] then .ok none
  else match Cat.fromName C.env.text reg (Str.trimSpace category) with
    | .ok c => .ok (some c)
    | .error e => .error e

/-- clicontrol.go:290-347 `GetItems`. -/
def getItems (path category title : Bytes) (trashed : Bool) : Prog Unit := do
  openVault C path
  let w ← Prog.get
  match categoryFilter C w.sess.reg category with
  | .error e => die e
  | .ok cat =>
    let category := Str.trimSpace category
    let title := Str.trimSpace title
    let items := w.sess.getItems C.env.text C.sorter cat title trashed
    if items.length > 0 then
      emit (.table [b!"lp.", b!"uid", b!"category", b!"title"]
        (numbered 1 (items.map (fun i => [i.uid, i.category.name, i.title]))))
    else
      println (b!"No results for search (category: " ++ category ++ b!", name: " ++ title ++ b!", trashed: " ++
        boolText trashed ++ b!")")

/-- clicontrol.go:374-400 `stageInfo`. -/
def stageText : Nat → Bytes
  | 1 => b!"  Creating update cache..."
  | 2 => b!"  Downloading new version..."
  | 3 => b!"  Downloading checksums..."
  | 4 => b!"  Extracting downloaded files..."
  | 5 => b!"  Validating checksums..."
  | 6 => b!"  Replacing binary..."
  | 7 => b!"  Cleaning update cache..."
  | _ => b!"  Unknown update stage"

/-- clicontrol.go:349-408 `Update`. -/
def update : Prog Unit := do
  println b!"Checking for 1pass application updates..."
  match ← Upd.facadeCheck C.sys C.ext C.dir true with
  | .error e => die e
  | .ok info =>
    println (b!"New version of 1pass is available (" ++ info.version ++ b!").\n\n" ++ info.changelog ++ b!"\n")
    print (b!"Do you want to update now? (" ++ LogicVal.no.name ++ b!") [y - for yes/n - for no]: ")
    let permissionVal ← scanln
    match LogicVal.fromName C.env.text permissionVal with
    | .error _ =>
      println b!"Aborting update..."
      exit
    | .ok permission =>
      if permission = LogicVal.no then
        println b!"Aborting update..."
        exit
      else
        println (b!"Updating 1pass application from version " ++ Upd.version ++ b!" to " ++ info.version ++ b!"...")
        match ← Upd.facadeUpdate C.sys C.ext (fun n => .out (stageText n ++ [10])) with
        | .error e => die e
        | .ok _ => println (b!"1pass application updated to version " ++ info.version)

/-- cobra.go:33-146: the commands with their flags. -/
inductive Cmd where
  | gui (vault : Bytes)
  | update
  | configure
  | categories
  | list (vault category name : Bytes) (trashed : Bool)
  | overview (vault uid : Bytes) (trashed : Bool)
  | details (vault uid : Bytes) (trashed : Bool)
  | version
  deriving DecidableEq, Repr

/-- cobra.go:33-157. Parsing of the command line is cobra's; the GUI itself is in `Model/Gui.lean`. -/
def command : Cmd → Prog Unit
  | .gui _ => firstRun C
  | .update => update C
  | .configure => configure C
  | .categories => getCategories C
  | .list v c n t => getItems C v c n t
  | .overview v u t => getItemOverview C v u t
  | .details v u t => getItemDetails C v u t
  | .version => println (b!"=== " ++ Upd.version ++ b!" ===")

/-- main.go:26-76: one run of the program. -/
def main (cmd : Cmd) : Prog Unit := do
  Conf.boot C.sys C.ext C.dir
  command C cmd

end Cli
end OnePass
