/-
What the commands do to the terminal they run on, step by step. The program installs no handler for signals, so that CTRL+C ends
it between any two steps; nothing that was deferred is run then.

`term.ReadPassword` (golang.org/x/term, term_unix.go `readPassword`): the echo is switched off, with ISIG set, so that CTRL+C
still makes a signal; a line is read; a deferred call puts the old settings back. Simplification: standard input is a terminal (if
not, nothing is changed).
-/
import Verif.Model.Cli

namespace OnePass
namespace Cli

/-- What happens on the terminal. -/
inductive Step where
  | shows
  | waits
  | echo (on : Bool)
  deriving DecidableEq, Repr

/-- The steps of an event. -/
def stepsOf : Ev → List Step
  | .out _ => [.shows]
  | .table _ _ => [.shows]
  | .scan => [.waits]
  | .password => [.echo false, .waits, .echo true]
  | .disk _ => []
  | .request _ _ => []
  | .stage _ => []

/-- The steps of a run. -/
def steps (es : List Ev) : List Step := es.flatMap stepsOf

/-- Whether what is typed is shown, after these steps. -/
def echoes (on : Bool) : List Step → Bool
  | [] => on
  | .echo b :: l => echoes b l
  | _ :: l => echoes on l

/-- The terminal as CTRL+C leaves it, pressed after `k` steps of a run. -/
def interrupted (es : List Ev) (k : Nat) : Bool := echoes true ((steps es).take k)

end Cli
end OnePass
