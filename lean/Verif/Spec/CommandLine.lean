/-
What may be written on a command line, in the usual conventions: words, options with a long name (`--vault=x`,
`--vault x`) or a letter (`-v x`, `-vx`, `-v=x`), several letters behind one dash, and `--` before words only.
-/
import Verif.Model.Args

namespace OnePass
namespace Spec
open Args (Flag Slot)

/-- How the value of an option with a long name is given. -/
inductive Given where
  | none
  | equals (v : Bytes)
  | next (v : Bytes)

/-- What may follow the letters of options without value. -/
inductive Last where
  | none
  | equals (f : Flag) (v : Bytes)
  | next (f : Flag) (v : Bytes)
  | joined (f : Flag) (v : Bytes)
  | test (rest : Bytes)

/-- A piece of a command line. -/
inductive Piece where
  | word (a : Bytes)
  | long (f : Flag) (g : Given)
  | short (bs : List Flag) (l : Last)

namespace Piece

/-- The words of the command line a piece consists of. -/
def written : Piece → List Bytes
  | word a => [a]
  | long f .none => [b!"--" ++ f.long]
  | long f (.equals v) => [b!"--" ++ f.long ++ b!"=" ++ v]
  | long f (.next v) => [b!"--" ++ f.long, v]
  | short bs .none => [b!"-" ++ bs.map (·.short)]
  | short bs (.equals f v) => [b!"-" ++ bs.map (·.short) ++ [f.short] ++ b!"=" ++ v]
  | short bs (.next f v) => [b!"-" ++ bs.map (·.short) ++ [f.short], v]
  | short bs (.joined f v) => [b!"-" ++ bs.map (·.short) ++ [f.short] ++ v]
  | short bs (.test r) => [b!"-" ++ bs.map (·.short) ++ b!"test." ++ r]

/-- The words that are no options. -/
def words : Piece → List Bytes
  | word a => [a]
  | _ => []

/-- The options with their values, in order. -/
def options : Piece → List (Slot × Bytes)
  | word _ => []
  | long f .none => [(f.slot, b!"true")]
  | long f (.equals v) => [(f.slot, v)]
  | long f (.next v) => [(f.slot, v)]
  | short bs l => bs.map (fun b => (b.slot, b!"true")) ++
    match l with
    | .none => []
    | .equals f v => [(f.slot, v)]
    | .next f v => [(f.slot, v)]
    | .joined f v => [(f.slot, v)]
    | .test _ => []

end Piece

/-- The ways to write a truth value. -/
def yes : List Bytes := [b!"1", b!"t", b!"T", b!"true", b!"True", b!"TRUE"]
def no : List Bytes := [b!"0", b!"f", b!"F", b!"false", b!"False", b!"FALSE"]

/-- The value fits the option. -/
def Fits (f : Flag) (v : Bytes) : Prop := f.bool = true → v ∈ yes ∨ v ∈ no

/-- A piece written with the options `fs`. A word does not begin with a dash, unless it is a dash. -/
def Piece.Ok (fs : List Flag) : Piece → Prop
  | .word a => a = b!"-" ∨ a.head? ≠ some 45
  | .long f g => f ∈ fs ∧
    match g with
    | .none => f.bool = true
    | .equals v => Fits f v
    | .next _ => f.bool = false
  | .short bs l => (∀ b ∈ bs, b ∈ fs ∧ b.bool = true) ∧
    match l with
    | .none => bs ≠ []
    | .equals f v => f ∈ fs ∧ v ≠ [] ∧ Fits f v
    | .next f _ => f ∈ fs ∧ f.bool = false
    | .joined f v => f ∈ fs ∧ f.bool = false ∧ v ≠ [] ∧ ∀ x y, v ≠ 61 :: x :: y
    | .test _ => True

/-- The last value given for an option. -/
def lastValue (os : List (Slot × Bytes)) (s : Slot) : Option Bytes := (os.reverse.find? (·.1 = s)).map (·.2)

/-- The text of an option, empty if it is not given. -/
def textOf (os : List (Slot × Bytes)) (s : Slot) : Bytes := (lastValue os s).getD []

/-- Whether an option without value is on. -/
def isOn (os : List (Slot × Bytes)) (s : Slot) : Bool := (lastValue os s).any (· ∈ yes)

/-- A command line behind the command: pieces, and perhaps `--` and words. -/
structure Line where
  pieces : List Piece
  dashes : Option (List Bytes) := none

namespace Line

def written (l : Line) : List Bytes :=
  l.pieces.flatMap Piece.written ++ (match l.dashes with | none => [] | some ws => b!"--" :: ws)

def words (l : Line) : List Bytes := l.pieces.flatMap Piece.words ++ l.dashes.getD []

def options (l : Line) : List (Slot × Bytes) := l.pieces.flatMap Piece.options

def Ok (fs : List Flag) (l : Line) : Prop := ∀ p ∈ l.pieces, p.Ok fs

end Line

/-! ### The options the help texts describe -/

/-- `-v, --vault`: the path of the vault. -/
def vaultOption : Flag := { long := b!"vault", short := 'v'.toUInt8, slot := .vault, bool := false }
/-- `-c, --category`. -/
def categoryOption : Flag := { long := b!"category", short := 'c'.toUInt8, slot := .category, bool := false }
/-- `-n, --name`. -/
def nameOption : Flag := { long := b!"name", short := 'n'.toUInt8, slot := .name, bool := false }
/-- `-t, --trashed`. -/
def trashedOption : Flag := { long := b!"trashed", short := 't'.toUInt8, slot := .trashed, bool := true }
/-- `-h, --help`. -/
def helpOption : Flag := { long := b!"help", short := 'h'.toUInt8, slot := .help, bool := true }

def listOptions : List Flag := [vaultOption, categoryOption, nameOption, trashedOption, helpOption]
def itemOptions : List Flag := [vaultOption, trashedOption, helpOption]
def guiOptions : List Flag := [vaultOption, helpOption]
def noOptions : List Flag := [helpOption]

/-! ### The command lines of the README -/

/-- README.md:125-133, with the command that is meant. `-c`, `-n` and `-t` are optional. -/
inductive Readme : List Bytes → Cli.Cmd → Prop
  | gui : Readme [] (.gui [])
  | configure : Readme [b!"configure"] .configure
  | categories : Readme [b!"categories"] .categories
  | list (c n : Option Bytes) (t : Bool) (path : Bytes) :
      Readme ([b!"list"] ++ (c.elim [] fun c => [b!"-c", c]) ++ (n.elim [] fun n => [b!"-n", n]) ++
        (if t then [b!"-t"] else []) ++ [path]) (.list path (c.getD []) (n.getD []) t)
  | overview (t : Bool) (uid path : Bytes) :
      Readme ([b!"overview"] ++ (if t then [b!"-t"] else []) ++ [uid, path]) (.overview path uid t)
  | details (t : Bool) (uid path : Bytes) :
      Readme ([b!"details"] ++ (if t then [b!"-t"] else []) ++ [uid, path]) (.details path uid t)
  | update : Readme [b!"update"] .update
  | version : Readme [b!"version"] .version

/-- The same with the path as the value of `-v`. -/
inductive Working : List Bytes → Cli.Cmd → Prop
  | gui (path : Bytes) : Working [b!"-v", path] (.gui path)
  | list (c n : Option Bytes) (t : Bool) (path : Bytes) :
      Working ([b!"list"] ++ (c.elim [] fun c => [b!"-c", c]) ++ (n.elim [] fun n => [b!"-n", n]) ++
        (if t then [b!"-t"] else []) ++ [b!"-v", path]) (.list path (c.getD []) (n.getD []) t)
  | overview (t : Bool) (uid path : Bytes) (h : uid.head? ≠ some 45) :
      Working ([b!"overview"] ++ (if t then [b!"-t"] else []) ++ [uid, b!"-v", path]) (.overview path uid t)
  | details (t : Bool) (uid path : Bytes) (h : uid.head? ≠ some 45) :
      Working ([b!"details"] ++ (if t then [b!"-t"] else []) ++ [uid, b!"-v", path]) (.details path uid t)

end Spec
end OnePass
