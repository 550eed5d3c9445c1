/-
1pass-app/gui/gocui.go:40-63: who has the terminal. `gocui.NewGui` (termbox) takes it: other screen, no echo, no line editing.
`ui.Close` gives it back; the call is deferred, so it happens when `Run` returns and when a panic unwinds it, and neither at
`log.Fatalln`, which exits at once, nor when a goroutine other than the main one panics.
-/
import Verif.Model.Gui

namespace OnePass
namespace Gui

/-- Who has the terminal. -/
inductive Tty where
  | shell | gui
  deriving DecidableEq, Repr

/-- Does the main goroutine handle the event? The only other one is that of versionwidget.go:57, its end is the event `checked`. -/
def Event.inMain : Event → Bool
  | .checked => false
  | _ => true

/-- gocui.go:60-63 and `defer ui.Close()` in line 46: who has the terminal after a step with this result, of the main goroutine or
of another one. -/
def left (main : Bool) : Res Unit → Tty
  | .ok _ => .gui
  | .err .quit => .shell
  | .err _ => .gui
  | .panic => if main then .shell else .gui
  | .fatal => .gui

variable (C : Ctx) (K : Kit)

/-- The main loop. -/
def tty : List Event → St → Tty
  | [], _ => .gui
  | e :: es, s =>
    match step C K e s with
    | (.ok _, t) => tty es t
    | (r, _) => left e.inMain r

/-- The same for the program from its first drawing on. -/
def terminal (vault : Bytes) (width height : Nat) (es : List Event) (w : World) : Tty :=
  tty C K (.flush width height :: es) (start vault w)

end Gui
end OnePass
