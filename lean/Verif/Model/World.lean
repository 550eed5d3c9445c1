/-
The world around the process: disk, network, clock, terminal. System calls of package `os`, `io/ioutil` and
`net/http` as the repository uses them.

Every system call may fail, the disk passes through all intermediate states of a call, and both are recorded:
the log of a run contains every state the disk was ever in, so that a crash at any point is a point of the log.
-/
import Verif.Model.Session
import Mathlib.Algebra.Order.Ring.Rat

namespace OnePass

/-- What `http.Client.Get` and reading the body give: `failed` – no answer; otherwise the body, and whether it
arrived completely. The status code is not looked at by the repository. -/
inductive HttpAnswer where
  | failed
  | body (data : Bytes) (complete : Bool)
  deriving DecidableEq, Repr

/-- An entry of a tar archive: its name, whether it is a regular file, its contents, and whether the contents
can be read to the end. -/
structure TarEntry where
  name : Bytes
  reg : Bool
  data : Bytes
  whole : Bool
  deriving DecidableEq, Repr

/-- A YAML value as `yaml.v2` hands it to an `interface{}`: the types the repository asks for, and all others
with what `fmt.Sprint` prints for them. -/
inductive YVal where
  | null
  | int (n : Int)
  | bool (b : Bool)
  | str (s : Bytes)
  | other (id : Nat) (shown : Bytes)
  deriving DecidableEq, Repr

/-- A Go map with string keys; the last entry of a key counts. -/
abbrev YMap := List (Bytes × YVal)

namespace YMap

/-- `m[k]`; a missing entry reads as nil. -/
def get (m : YMap) (k : Bytes) : YVal :=
  match m with
  | [] => .null
  | (k', v) :: r => if r.any (fun e => e.1 == k) then get r k else if k' = k then v else get r k

/-- `m[k] = v`. -/
def set (m : YMap) (k : Bytes) (v : YVal) : YMap := m ++ [(k, v)]

end YMap

/-- The library functions of these parts of the program, as parameters with the laws used. -/
structure Ext where
  /-- MD5. -/
  md5 : Bytes → Bytes
  md5_len : ∀ b, (md5 b).length = 16
  /-- `gzip.NewReader` and `tar.Reader`: the entries in order, and whether the end is a clean `io.EOF`. -/
  untar : Bytes → List TarEntry × Bool
  /-- `yaml.Unmarshal` into a nil map: `none` is an error, `some none` leaves the map nil. -/
  yamlDecode : Bytes → Option (Option YMap)
  /-- `yaml.Marshal`. -/
  yamlEncode : YMap → Bytes
  /-- What was marshalled is unmarshalled with the same entries. -/
  yaml_law : ∀ m, ∃ m', yamlDecode (yamlEncode m) = some (some m') ∧ (m' = [] ↔ m = []) ∧ ∀ k, m'.get k = m.get k
  /-- An empty file leaves the map nil. -/
  yaml_empty : yamlDecode [] = some none

/-- What the outside does to a run: everything here is arbitrary. The argument `n` is the number of system
calls made before. -/
structure Sys where
  /-- Whether the call fails, and after how many of its steps. -/
  fault : Nat → Option Nat
  /-- The order in which `RemoveAll` deletes. -/
  order : Nat → List (List Bytes) → List (List Bytes)
  order_perm : ∀ n l, (order n l).Perm l
  /-- The answer to a GET. -/
  answer : Nat → Bytes → HttpAnswer
  /-- The clock, in nanoseconds since 1970. -/
  now : Nat → Int
  /-- `os.Executable()`; `none` is an error. -/
  exe : Option Bytes
  /-- What `term.ReadPassword` reads; `none` is an error (standard input is not a terminal, or it ends at once). -/
  typed : Nat → Option Bytes
  /-- The file system a location is on. -/
  device : List Bytes → Nat := fun _ => 0

/-- The bytes `term.ReadPassword` returns: none, if it fails. -/
def Sys.password (S : Sys) (n : Nat) : Bytes := (S.typed n).getD []

/-- What can be observed of a run. -/
inductive Ev where
  | disk (d : Disk)
  | request (url : Bytes) (timeout : Int)
  | stage (n : Nat)
  | out (text : Bytes)
  | table (header : List Bytes) (rows : List (List Bytes))
  | scan
  | password
  deriving DecidableEq, Repr

/-- The state of process and surroundings. `log` is ghost state. -/
structure World where
  disk : Disk
  log : List Ev
  tick : Nat
  stdin : Bytes
  conf : Option YMap
  sess : Session

/-- A Go function with effects. -/
def Prog (α : Type) := World → Out α × World

namespace Prog

def pure {α : Type} (a : α) : Prog α := fun w => (.ret a, w)

def bind {α β : Type} (m : Prog α) (f : α → Prog β) : Prog β := fun w =>
  match m w with
  | (.ret a, w') => f a w'
  | (.panic, w') => (.panic, w')
  | (.fatal, w') => (.fatal, w')

instance : Monad Prog where
  pure := Prog.pure
  bind := Prog.bind

/-- A pure computation that may panic. -/
def lift {α : Type} (o : Out α) : Prog α := fun w => (o, w)

def panic {α : Type} : Prog α := lift .panic

/-- `os.Exit(1)`, `log.Fatalln`. -/
def exit {α : Type} : Prog α := lift .fatal

def get : Prog World := fun w => (.ret w, w)

/-- Something happens that can be observed. -/
def emit (e : Ev) : Prog Unit := fun w => (.ret (), { w with log := w.log ++ [e] })

/-- The disk goes through these states. -/
def through (ds : List Disk) : Prog Unit := fun w =>
  (.ret (), { w with disk := ds.getLast?.getD w.disk, log := w.log ++ ds.map Ev.disk })

/-- The next system call: its number. -/
def tick : Prog Nat := fun w => (.ret w.tick, { w with tick := w.tick + 1 })

/-- The Go idiom `if x, err := m; err != nil { return err }; f(x)`. -/
def andThen {α β : Type} (m : Prog (Except Err α)) (f : α → Prog (Except Err β)) : Prog (Except Err β) := do
  match ← m with
  | .error e => Prog.pure (.error e)
  | .ok a => f a

end Prog

/-- An error of the operating system. -/
def ioErr : Err := .stdlib b!"io"

namespace Disk

/-- Put an object somewhere. -/
def put (d : Disk) (loc : List Bytes) (n : Node) : Disk :=
  { d with fs := (loc, n) :: d.fs.filter (fun e => e.1 != loc) }

/-- Take away what is at a location. -/
def del (d : Disk) (loc : List Bytes) : Disk := { d with fs := d.fs.filter (fun e => e.1 != loc) }

/-- Is there a directory? The root always is one. -/
def isDir (d : Disk) (loc : List Bytes) : Bool := loc == [] || d.at? loc == some .dir

/-- What lies at or below a location. -/
def tree (d : Disk) (loc : List Bytes) : List (List Bytes) := (d.fs.map (·.1)).filter (fun l => loc.isPrefixOf l)

/-- The directories `MkdirAll` has to make, outermost first; `none` if a file is in the way. -/
def missing (d : Disk) (loc : List Bytes) : Option (List (List Bytes)) :=
  let above := loc.inits.filter (fun l => l ≠ [])
  if above.any (fun l => match d.at? l with | some (.file _ _) => true | _ => false) then none
  else some (above.filter (fun l => d.at? l = none))

/-- The states while things are put one after the other. -/
def puts (d : Disk) : List (List Bytes × Node) → List Disk
  | [] => []
  | (l, n) :: r => d.put l n :: (d.put l n).puts r

/-- The states while things are taken away one after the other. -/
def dels (d : Disk) : List (List Bytes) → List Disk
  | [] => []
  | l :: r => d.del l :: (d.del l).dels r

end Disk

namespace Os
open Prog

variable (S : Sys)

/-- `os.Stat`. -/
def stat (p : Bytes) : Prog (Option Node) := do
  let n ← tick
  let w ← Prog.get
  match S.fault n with
  | some _ => Prog.pure none
  | none => Prog.pure (w.disk.stat p)

/-- `ioutil.ReadFile`. -/
def readFile (p : Bytes) : Prog (Except Err Bytes) := do
  let n ← tick
  let w ← Prog.get
  match S.fault n, w.disk.readFile p with
  | none, some b => Prog.pure (.ok b)
  | _, _ => Prog.pure (.error ioErr)

/-- `os.MkdirAll`. -/
def mkdirAll (p : Bytes) : Prog (Except Err Unit) := do
  let n ← tick
  let w ← Prog.get
  match w.disk.missing (Path.resolve w.disk.cwd p) with
  | none => Prog.pure (.error ioErr)
  | some ls =>
    match S.fault n with
    | some k =>
      through (w.disk.puts ((ls.take k).map (fun l => (l, .dir))))
      Prog.pure (.error ioErr)
    | none =>
      through (w.disk.puts (ls.map (fun l => (l, .dir))))
      Prog.pure (.ok ())

/-- configrepo.go:108-110, updater.go:111-113: `if _, err := os.Stat(dir); err != nil { os.MkdirAll(dir, 0700) }`. -/
def ensureDir (dir : Bytes) : Prog Unit := do
  match ← stat S dir with
  | some _ => Prog.pure ()
  | none =>
    let _ ← mkdirAll S dir
    Prog.pure ()

/-- `os.OpenFile(p, O_CREATE|O_TRUNC)`: the location that is now an empty file. A file that is there keeps its
mode; a new one is not executable (modes 0644 and 0666). -/
def create (p : Bytes) : Prog (Except Err (List Bytes × Bool)) := do
  let n ← tick
  let w ← Prog.get
  let loc := Path.resolve w.disk.cwd p
  match S.fault n with
  | some _ => Prog.pure (.error ioErr)
  | none =>
    if p = [] ∨ loc = [] ∨ w.disk.isDir loc.dropLast = false then Prog.pure (.error ioErr)
    else
      match w.disk.at? loc with
      | some .dir => Prog.pure (.error ioErr)
      | some (.file _ x) =>
        through [w.disk.put loc (.file [] x)]
        Prog.pure (.ok (loc, x))
      | none =>
        through [w.disk.put loc (.file [] false)]
        Prog.pure (.ok (loc, false))

/-- Writing into the file just created, byte by byte; `complete = false` if the source of the data fails at the
end. -/
def write (f : List Bytes × Bool) (data : Bytes) (complete : Bool) : Prog (Except Err Unit) := do
  let n ← tick
  let w ← Prog.get
  let states (k : Nat) : List Disk :=
    w.disk.puts ((data.take k).inits.tail.map (fun b => (f.1, .file b f.2)))
  match S.fault n with
  | some k =>
    through (states k)
    Prog.pure (.error ioErr)
  | none =>
    through (states data.length)
    Prog.pure (if complete then .ok () else .error ioErr)

/-- `ioutil.WriteFile`. -/
def writeFile (p data : Bytes) : Prog (Except Err Unit) :=
  andThen (create S p) fun f => write S f data true

/-- `os.Rename` of a file; atomic. It does not work from one file system to another. Renaming a directory is not modelled
(an error). -/
def rename (src dst : Bytes) : Prog (Except Err Unit) := do
  let n ← tick
  let w ← Prog.get
  let s := Path.resolve w.disk.cwd src
  let t := Path.resolve w.disk.cwd dst
  match S.fault n, w.disk.stat src with
  | none, some (.file data x) =>
    if dst = [] ∨ t = [] ∨ w.disk.isDir t.dropLast = false ∨ w.disk.at? t = some .dir ∨ S.device s ≠ S.device t then Prog.pure (.error ioErr)
    else
      through [(w.disk.del s).put t (.file data x)]
      Prog.pure (.ok ())
  | _, _ => Prog.pure (.error ioErr)

/-- `os.RemoveAll`: what lies at or below the path, one by one. -/
def removeAll (p : Bytes) : Prog (Except Err Unit) := do
  let n ← tick
  let w ← Prog.get
  let ls := S.order n (w.disk.tree (Path.resolve w.disk.cwd p))
  match S.fault n with
  | some k =>
    through (w.disk.dels (ls.take k))
    Prog.pure (.error ioErr)
  | none =>
    through (w.disk.dels ls)
    Prog.pure (.ok ())

/-- `http.Client.Get`. -/
def httpGet (url : Bytes) (timeout : Int) : Prog HttpAnswer := do
  let n ← tick
  emit (.request url timeout)
  Prog.pure (S.answer n url)

/-- `time.Now()`. -/
def now : Prog Int := do
  let n ← tick
  Prog.pure (S.now n)

/-- `term.ReadPassword`: the bytes, and whether there was no error. -/
def readPassword : Prog (Bytes × Bool) := do
  let n ← tick
  emit .password
  Prog.pure (S.password n, (S.typed n).isSome)

end Os

/-! ### fmt -/

namespace Fmt
open Prog

/-- `readRune.ReadRune` of fmt/scan.go: the next character and the input after it. Bytes that are not UTF-8 give U+FFFD,
one by one. -/
def readRune : Bytes → Option (Bytes × Bytes)
  | [] => none
  | b :: r =>
    if b < 128 then some ([b], r)
    else if Json.utf8Len (b :: r) = 0 then some (Json.replacement, r)
    else some ((b :: r).take (Json.utf8Len (b :: r)), (b :: r).drop (Json.utf8Len (b :: r)))

/-- The rest of a line that `Scanln` looks at after its word: the input up to and including the newline, or
the first character that is no space. -/
def afterWord : Nat → Bytes → Bytes
  | 0, s => s
  | n + 1, s =>
    match readRune s with
    | none => []
    | some (c, r) => if c = [10] then r else if Str.spaceLen c = 0 then r else afterWord n r

/-- `ss.token`: characters up to the next space. -/
def takeWord : Nat → Bytes → Bytes × Bytes
  | 0, s => ([], s)
  | n + 1, s =>
    match readRune s with
    | none => ([], [])
    | some (c, r) => if Str.spaceLen c = 0 then (c ++ (takeWord n r).1, (takeWord n r).2) else ([], s)

/-- `fmt.Scanln(&s)` on an input: the word read (nothing on an empty line or at the end) and the remaining input.
A second word on the line is an error of Scanln that the program ignores; its first character is lost and the rest is
left for the next call. -/
def scanFrom : Nat → Bytes → Bytes × Bytes
  | 0, s => ([], s)
  | n + 1, s =>
    match readRune s with
    | none => ([], [])
    | some (c, r) =>
      if c = [10] then ([], r)
      else if Str.spaceLen c = 0 then
        ((takeWord s.length s).1, afterWord s.length (takeWord s.length s).2)
      else scanFrom n r

/-- A character is at least one byte of the input. -/
def scanWord (s : Bytes) : Bytes × Bytes := scanFrom s.length s

/-- `fmt.Scanln(&s)`. -/
def scanln : Prog Bytes := fun w =>
  (.ret (scanWord w.stdin).1, { w with stdin := (scanWord w.stdin).2, log := w.log ++ [.scan] })

/-- `fmt.Println`. -/
def println (s : Bytes) : Prog Unit := emit (.out (s ++ [10]))

/-- `fmt.Print`. -/
def print (s : Bytes) : Prog Unit := emit (.out s)

end Fmt
end OnePass
