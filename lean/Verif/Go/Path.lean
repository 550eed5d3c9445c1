/-
Package `path/filepath` (Unix) and a file system.
-/
import Verif.Go.Sort

namespace OnePass
namespace Path

/-- The parts between slashes. -/
def split : Bytes → List Bytes
  | [] => [[]]
  | b :: r =>
    if b = 47 then [] :: split r
    else match split r with
      | [] => [[b]]
      | h :: t => (b :: h) :: t

/-- Join parts with slashes. -/
def joinSlash : List Bytes → Bytes
  | [] => []
  | [a] => a
  | a :: r => a ++ 47 :: joinSlash r

def isAbs (p : Bytes) : Bool := p.head? == some 47

/-- One step of `Clean`; the stack holds the components so far, last first. -/
def cleanStep (rooted : Bool) (st : List Bytes) (c : Bytes) : List Bytes :=
  if c = [] ∨ c = [46] then st
  else if c = [46, 46] then
    match st with
    | [] => if rooted then [] else [[46, 46]]
    | top :: rest => if top = [46, 46] then [46, 46] :: st else rest
  else c :: st

/-- The components of the cleaned path. -/
def comps (p : Bytes) : List Bytes := ((split p).foldl (cleanStep (isAbs p)) []).reverse

/-- `filepath.Clean`. -/
def clean (p : Bytes) : Bytes :=
  if isAbs p then 47 :: joinSlash (comps p)
  else if comps p = [] then [46] else joinSlash (comps p)

/-- `filepath.Join`. -/
def join (l : List Bytes) : Bytes :=
  let l' := l.dropWhile List.isEmpty
  if l'.isEmpty then [] else clean (joinSlash l')

/-- The absolute location (list of components) a path names, given the current directory. `..` is resolved
lexically: the model has no symbolic links. -/
def resolve (cwd : List Bytes) (p : Bytes) : List Bytes :=
  if isAbs p then comps p
  else ((split p).foldl (cleanStep true) cwd.reverse).reverse

end Path

/-- A file system object. `exec` is the execute permission of a file. -/
inductive Node where
  | dir
  | file (data : Bytes) (exec : Bool)
  deriving DecidableEq, Repr

/-- A file system: objects by location, the first entry of a location counts. No symbolic links, no
permissions that deny reading. -/
abbrev FS := List (List Bytes × Node)

/-- The file system and the current directory of the process. -/
structure Disk where
  fs : FS
  cwd : List Bytes
  deriving DecidableEq, Repr

namespace Disk

/-- The object at a location. -/
def at? (d : Disk) (loc : List Bytes) : Option Node :=
  (d.fs.find? (fun e => e.1 == loc)).map (·.2)

/-- `os.Stat(path)`: `none` is an error. The empty path does not exist. -/
def stat (d : Disk) (p : Bytes) : Option Node :=
  if p = [] then none else d.at? (Path.resolve d.cwd p)

/-- `ioutil.ReadFile(path)`: `none` is an error. -/
def readFile (d : Disk) (p : Bytes) : Option Bytes :=
  match d.stat p with
  | some (.file data _) => some data
  | _ => none

/-- The name of a location directly below a directory. -/
def childName (dir loc : List Bytes) : Option Bytes :=
  if loc.dropLast = dir then loc.getLast? else none

/-- `Readdirnames(-1)` followed by `sort.Strings`: the names in a directory, sorted. -/
def dirNames (d : Disk) (dir : List Bytes) : List Bytes :=
  sortStrings ((d.fs.filterMap (fun e => childName dir e.1)).dedup)

end Disk
end OnePass
