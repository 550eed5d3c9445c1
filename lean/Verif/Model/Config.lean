/-
1pass-parse/repo/file/configrepo.go, 1pass-core/core/service/configservice.go, core/facade/configfacade.go.
-/
import Verif.Model.World

namespace OnePass

/-- entity.go:7-12 `Config`. -/
structure Config where
  timeout : Int
  notify : Bool
  period : Int
  vault : Bytes
  deriving DecidableEq, Repr

namespace Conf
open Prog

/-- static.go:12. -/
def configFile : Bytes := b!"1pass.yml"

/-- configrepo.go:31, 97. -/
def path (dir : Bytes) : Bytes := Path.join [dir, configFile]

def kVault : Bytes := b!"opvault"
def kTimeout : Bytes := b!"timeout"
def kNotify : Bytes := b!"update-notification"
def kPeriod : Bytes := b!"update-period"

/-- configrepo.go:30-50 `loadConfigFile`; the result `none` is the nil map. -/
def load (S : Sys) (X : Ext) (dir : Bytes) : Prog (Option YMap) := do
  match ← Os.stat S (path dir) with
  | none => Prog.pure (some [])
  | some _ =>
    match ← Os.readFile S (path dir) with
    | .error _ => exit
    | .ok file =>
      match X.yamlDecode file with
      | none => exit
      | some m => Prog.pure m

/-- Reading an entry; reading a nil map gives nil. -/
def entry (conf : Option YMap) (k : Bytes) : YVal :=
  match conf with
  | none => .null
  | some m => m.get k

/-- configrepo.go:52-54 `IsAvailable`. -/
def isAvailable (conf : Option YMap) : Bool :=
  match conf with
  | none => false
  | some m => !m.isEmpty

/-- `fmt.Sprint` of an entry. -/
def shown : YVal → Bytes
  | .null => b!"<nil>"
  | .int n => Num.intDec n
  | .bool b => if b then b!"true" else b!"false"
  | .str s => s
  | .other _ s => s

/-- configrepo.go:56-64 `GetDefaultVault`. -/
def defaultVault (conf : Option YMap) : Bytes :=
  match entry conf kVault with
  | .null => []
  | v => shown v

/-- configrepo.go:66-74, 86-94 `GetTimeout`, `GetUpdatePeriod`: 1 if missing, a failed type assertion panics. -/
def intEntry (conf : Option YMap) (k : Bytes) : Out Int :=
  match entry conf k with
  | .null => .ret 1
  | .int n => .ret n
  | _ => .panic

/-- configrepo.go:76-84 `GetUpdateNotification`. -/
def notification (conf : Option YMap) : Out Bool :=
  match entry conf kNotify with
  | .null => .ret true
  | .bool b => .ret b
  | _ => .panic

/-- configservice.go:26-33 `GetConfig`. -/
def getConfig (conf : Option YMap) : Out Config := do
  let n ← notification conf
  let p ← intEntry conf kPeriod
  let t ← intEntry conf kTimeout
  pure { timeout := t, notify := n, period := p, vault := defaultVault conf }

/-- `GetConfig` in a running process. -/
def read : Prog Config := fun w => (getConfig w.conf, w)

def setConf (c : Option YMap) : Prog Unit := fun w => (.ret (), { w with conf := c })

/-- configrepo.go:98-101: the map with the new values. -/
def updated (m : YMap) (c : Config) : YMap :=
  (((m.set kVault (.str c.vault)).set kTimeout (.int c.timeout)).set kNotify (.bool c.notify)).set kPeriod (.int c.period)

/-- configrepo.go:96-118 `Save`. Writing to a nil map panics. -/
def save (S : Sys) (X : Ext) (dir : Bytes) (c : Config) : Prog Unit := do
  let w ← Prog.get
  match w.conf with
  | none => Prog.panic
  | some m =>
    setConf (some (updated m c))
    let file := X.yamlEncode (updated m c)
    Os.ensureDir S dir
    match ← Os.writeFile S (path dir) file with
    | .error _ => exit
    | .ok _ =>
      let m ← load S X dir
      setConf m

/-- A new process with this configuration map. -/
def fresh (m : Option YMap) : Prog Unit := fun w => (.ret (), { w with conf := m, sess := Session.init })

/-- main.go:54 `NewFileConfigRepo` in a new process. -/
def boot (S : Sys) (X : Ext) (dir : Bytes) : Prog Unit := do
  let m ← load S X dir
  fresh m

end Conf
end OnePass
