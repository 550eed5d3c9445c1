/-
1pass-up/component/github/updater.go:34-48 `httpClient`: how long a request waits.

net/http and net, as far as the fields the code sets or leaves zero matter: `Transport.Dial`, `TLSHandshakeTimeout`,
`ResponseHeaderTimeout`, `Client.Timeout`; `net.DialTimeout`. Times are in nanoseconds.
-/
import Verif.Model.World

namespace OnePass
namespace Http

/-- What one server does with a request: how long it takes to connect, to shake hands, to send the header of the answer, and
to send the body. `none`: it never happens. -/
structure Hop where
  connect : Option Nat
  handshake : Option Nat
  header : Option Nat
  body : Option Nat
  deriving DecidableEq

/-- The limits of a client; zero is no limit. -/
structure Client where
  dial : Int
  tls : Int
  header : Int
  total : Int

/-- An int64 product wraps. -/
def wrap (n : Int) : Int := (n + 9223372036854775808) % 18446744073709551616 - 9223372036854775808

/-- updater.go:34-48: only the dialling has a limit, `time.Duration(timeout) * time.Second`. -/
def httpClient (timeout : Int) : Client := { dial := wrap (timeout * 1000000000), tls := 0, header := 0, total := 0 }

/-- Waiting for something that takes `d`: how long (`none`: for ever), and whether it happened. A limit that is negative has
passed already. -/
def phase (limit : Int) (d : Option Nat) : Option Nat × Bool :=
  if limit = 0 then (d, d.isSome)
  else match d with
    | some n => if (n : Int) ≤ limit then (some n, true) else (some limit.toNat, false)
    | none => (some limit.toNat, false)

/-- One after the other, up to the first that fails. -/
def phases : List (Int × Option Nat) → Option Nat × Bool
  | [] => (some 0, true)
  | p :: ps =>
    match phase p.1 p.2 with
    | (some n, true) => ((phases ps).1.map (n + ·), (phases ps).2)
    | r => r

/-- `Client.Get` and reading the body; redirections make it a list of servers. (A new `Transport` has no connection to
use again.) -/
def Client.get (c : Client) (hops : List Hop) : Option Nat × Bool :=
  let r := phases (hops.flatMap fun h => [(c.dial, h.connect), (c.tls, h.handshake), (c.header, h.header), (0, h.body)])
  if 0 < c.total then
    match r.1 with
    | some n => if (n : Int) ≤ c.total then r else (some c.total.toNat, false)
    | none => (some c.total.toNat, false)
  else r

/-- How long a request of the program waits. -/
def waits (timeout : Int) (hops : List Hop) : Option Nat := ((httpClient timeout).get hops).1

/-- How long a run of the program waits for servers, given what it did and how they behave towards each request in turn. -/
def waited (net : Nat → Bytes → List Hop) : List Ev → Option Nat
  | [] => some 0
  | .request u t :: es =>
    match waits t (net es.length u), waited net es with
    | some a, some b => some (a + b)
    | _, _ => none
  | _ :: es => waited net es

end Http
end OnePass
