/-
1pass-app/cli/cobra.go with the command line parsing of cobra v1.1.3 and pflag v1.0.5 it relies on, and
1pass-app/main.go. The sources of the two libraries are not in the sandbox; they are modelled from knowledge of
those releases. The texts of help and usage are not modelled, nor what the hidden `__complete` command prints.
-/
import Verif.Model.Gui

namespace OnePass
namespace Args

open Cli (Cmd)

/-- The variables flags write to: the fields of `cobraCli` (cobra.go:15-23) and cobra's own `help`. -/
inductive Slot where
  | vault | category | name | trashed | help
  deriving DecidableEq, Repr

/-- A flag with its long name and its shorthand; `bool` flags need no value. -/
structure Flag where
  long : Bytes
  short : UInt8
  slot : Slot
  bool : Bool
  deriving DecidableEq, Repr

/-- cobra.go:45, 98, 115, 130. -/
def vaultFlag : Flag := ⟨b!"vault", 118, .vault, false⟩
/-- cobra.go:99. -/
def categoryFlag : Flag := ⟨b!"category", 99, .category, false⟩
/-- cobra.go:100. -/
def nameFlag : Flag := ⟨b!"name", 110, .name, false⟩
/-- cobra.go:101, 116, 131. -/
def trashedFlag : Flag := ⟨b!"trashed", 116, .trashed, true⟩
/-- `InitDefaultHelpFlag` of cobra. -/
def helpFlag : Flag := ⟨b!"help", 104, .help, true⟩

/-- The commands: cobra.go:34, 47, 65, 79, 87, 103, 118, 133, cobra's `help` and its hidden completion command. -/
inductive Name where
  | root | update | configure | categories | list | overview | details | version | help | complete
  deriving DecidableEq, Repr

/-- The flags of each command when it is looked up (`Flags()`). -/
def flags : Name → List Flag
  | .root => [vaultFlag]
  | .list => [vaultFlag, categoryFlag, nameFlag, trashedFlag]
  | .overview => [vaultFlag, trashedFlag]
  | .details => [vaultFlag, trashedFlag]
  | _ => []

/-- `findNext` of the root command: cobra.go:142-148 and what cobra adds. The other commands have no subcommands. -/
def sub (s : Bytes) : Option Name :=
  if s = b!"update" then some .update
  else if s = b!"configure" then some .configure
  else if s = b!"categories" then some .categories
  else if s = b!"list" then some .list
  else if s = b!"overview" then some .overview
  else if s = b!"details" then some .details
  else if s = b!"version" then some .version
  else if s = b!"help" then some .help
  else if s = b!"__complete" ∨ s = b!"__completeNoDesc" then some .complete
  else none

/-- The values of the variables after parsing; their defaults are those given to `StringVarP` and `BoolVarP`. -/
structure Vals where
  vault : Bytes := []
  category : Bytes := []
  name : Bytes := []
  trashed : Bool := false
  help : Bool := false
  deriving DecidableEq, Repr

/-- Why a command line is refused. -/
inductive Bad where
  | syntax (s : Bytes)
  | unknownFlag (s : Bytes)
  | unknownShort (c : UInt8)
  | noValue (s : Bytes)
  | badValue (s : Bytes)
  | unknownCommand (s : Bytes)
  | count (n : Nat)
  deriving DecidableEq, Repr

/-- `strconv.ParseBool`. -/
def parseBool (s : Bytes) : Option Bool :=
  if s = b!"1" ∨ s = b!"t" ∨ s = b!"T" ∨ s = b!"TRUE" ∨ s = b!"true" ∨ s = b!"True" then some true
  else if s = b!"0" ∨ s = b!"f" ∨ s = b!"F" ∨ s = b!"FALSE" ∨ s = b!"false" ∨ s = b!"False" then some false
  else none

/-- `FlagSet.Set` of pflag. -/
def assign (f : Flag) (s : Bytes) (v : Vals) : Except Bad Vals :=
  match f.slot with
  | .vault => .ok { v with vault := s }
  | .category => .ok { v with category := s }
  | .name => .ok { v with name := s }
  | .trashed =>
    match parseBool s with
    | some b => .ok { v with trashed := b }
    | none => .error (.badValue s)
  | .help =>
    match parseBool s with
    | some b => .ok { v with help := b }
    | none => .error (.badValue s)

/-- `strings.SplitN(name, "=", 2)`. -/
def splitEq : Bytes → Bytes × Option Bytes
  | [] => ([], none)
  | c :: r => if c = 61 then ([], some r) else (c :: (splitEq r).1, (splitEq r).2)

/-- `parseLongArg` of pflag: `s` is what follows the two dashes. -/
def parseLong (fs : List Flag) (s : Bytes) (args : List Bytes) (v : Vals) : Except Bad (Vals × List Bytes) :=
  match s with
  | [] => .error (.syntax s)
  | c :: _ =>
    if c = 45 ∨ c = 61 then .error (.syntax s)
    else
      match fs.find? (fun f => f.long = (splitEq s).1) with
      | none => .error (.unknownFlag s)
      | some f =>
        match (splitEq s).2 with
        | some x => (assign f x v).map (fun v => (v, args))
        | none =>
          if f.bool then (assign f b!"true" v).map (fun v => (v, args))
          else
            match args with
            | [] => .error (.noValue s)
            | a :: args => (assign f a v).map (fun v => (v, args))

/-- `parseShortArg` and `parseSingleShortArg` of pflag: what follows the dash. -/
def parseShort (fs : List Flag) : Bytes → List Bytes → Vals → Except Bad (Vals × List Bytes)
  | [], args, v => .ok (v, args)
  | c :: r, args, v =>
    if b!"test." <+: c :: r then .ok (v, args)
    else
      match fs.find? (fun f => f.short = c) with
      | none => .error (.unknownShort c)
      | some f =>
        match r with
        | 61 :: x :: y => (assign f (x :: y) v).map (fun v => (v, args))
        | _ =>
          if f.bool then
            match assign f b!"true" v with
            | .error e => .error e
            | .ok v => parseShort fs r args v
          else if r ≠ [] then (assign f r v).map (fun v => (v, args))
          else
            match args with
            | [] => .error (.noValue [c])
            | a :: args => (assign f a v).map (fun v => (v, args))

/-- `parseArgs` of pflag, flags and arguments interspersed: the values and the arguments. `n` is fuel. -/
def parseArgs (fs : List Flag) : Nat → List Bytes → Vals → List Bytes → Except Bad (Vals × List Bytes)
  | 0, _, v, ws => .ok (v, ws)
  | _ + 1, [], v, ws => .ok (v, ws)
  | n + 1, s :: args, v, ws =>
    match s with
    | 45 :: 45 :: [] => .ok (v, ws ++ args)
    | 45 :: 45 :: r =>
      match parseLong fs r args v with
      | .error e => .error e
      | .ok (v, args) => parseArgs fs n args v ws
    | 45 :: c :: r =>
      match parseShort fs (c :: r) args v with
      | .error e => .error e
      | .ok (v, args) => parseArgs fs n args v ws
    | s => parseArgs fs n args v (ws ++ [s])

/-- `FlagSet.Parse`. -/
def parse (fs : List Flag) (args : List Bytes) : Except Bad (Vals × List Bytes) :=
  parseArgs fs args.length args {} []

/-- `stripFlags` of cobra: does this word take the next one as its value? -/
def takesNext (fs : List Flag) (s : Bytes) : Bool :=
  !s.contains 61 &&
    match s with
    | 45 :: 45 :: r => !(fs.find? (fun f => f.long = r)).any (·.bool)
    | [45, c] => !(fs.find? (fun f => f.short = c)).any (·.bool)
    | _ => false

/-- `stripFlags` of cobra: the words of a command line that look like commands or arguments. -/
def strip (fs : List Flag) : List Bytes → List Bytes
  | [] => []
  | s :: args =>
    if s = b!"--" then []
    else if takesNext fs s then
      match args with
      | _ :: a :: args => strip fs (a :: args)
      | _ => []
    else
      match s with
      | [] => strip fs args
      | c :: _ => if c = 45 then strip fs args else s :: strip fs args

/-- `Find` of cobra with `argsMinusFirstX` and `legacyArgs`. -/
def find (args : List Bytes) : Except Bad (Name × List Bytes) :=
  match strip (flags .root) args with
  | [] => .ok (.root, args)
  | x :: _ =>
    match sub x with
    | some n => .ok (n, args.erase x)
    | none => .error (.unknownCommand x)

/-- What a command line leads to. -/
inductive Invoked where
  | run (c : Cmd)
  | help (n : Name)
  | noTopic
  | refused (n : Name) (b : Bad)
  | completion
  deriving DecidableEq, Repr

/-- The `Run` functions of cobra.go and of cobra's help command. -/
def runs (n : Name) (v : Vals) (ws : List Bytes) : Invoked :=
  match n with
  | .root => .run (.gui v.vault)
  | .update => .run .update
  | .configure => .run .configure
  | .categories => .run .categories
  | .list => .run (.list v.vault v.category v.name v.trashed)
  | .overview => .run (.overview v.vault (ws.headD []) v.trashed)
  | .details => .run (.details v.vault (ws.headD []) v.trashed)
  | .version => .run .version
  | .help =>
    match find ws with
    | .ok (n, _) => .help n
    | .error _ => .noTopic
  | .complete => .completion

/-- cobra.go:93, 109, 124: `cobra.NoArgs` and `cobra.ExactArgs(1)`; the other commands take any arguments. -/
def checkArgs (n : Name) (ws : List Bytes) : Option Bad :=
  match n with
  | .list => ws.head?.map .unknownCommand
  | .overview => if ws.length = 1 then none else some (.count ws.length)
  | .details => if ws.length = 1 then none else some (.count ws.length)
  | _ => none

/-- `execute` of cobra. -/
def execute (n : Name) (args : List Bytes) : Invoked :=
  match parse (flags n ++ [helpFlag]) args with
  | .error e => .refused n e
  | .ok (v, ws) =>
    if v.help then .help n
    else
      match checkArgs n ws with
      | some e => .refused n e
      | none => runs n v ws

/-- `ExecuteC` of cobra: what the arguments of the process (without its name) lead to. -/
def argv (args : List Bytes) : Invoked :=
  match find args with
  | .error e => .refused .root e
  | .ok (.complete, _) => .completion
  | .ok (n, a) => execute n a

end Args

/-- Help and usage: `Cli.main` up to the command, then a text. cobra.go:152-158 prints the error of a refused command
line once more and returns, so that the process ends with status 0. -/
def Args.tell (C : Ctx) (text : Bytes) : Prog Unit := do
  Conf.boot C.sys C.ext C.dir
  Fmt.print text

/-- main.go:33: the directory of the configuration. -/
def Ctx.atHome (C : Ctx) (home : Bytes) : Ctx := { C with dir := Path.join [home, b!".config", b!"1pass"] }

/-- main.go:26-76: a process with the home directory `home` and the arguments `args`. `text` is what cobra prints;
`width`, `height` and `es` are the terminal and what happens at it if the GUI is started. -/
def process (C : Ctx) (K : Gui.Kit) (text : Args.Invoked → Bytes) (home : Bytes) (args : List Bytes) (width height : Nat)
    (es : List Gui.Event) : Prog Unit :=
  if home = [] then Prog.exit
  else
    match Args.argv args with
    | .run (.gui v) => Gui.main (C.atHome home) K v width height es
    | .run c => Cli.main (C.atHome home) c
    | i => Args.tell (C.atHome home) (text i)

end OnePass
