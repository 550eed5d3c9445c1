/-
`fmt.Sprint` of a decoded JSON value.
-/
import Verif.Go.Sort
import Verif.Go.Env

namespace OnePass
namespace Fmt

/-- Later entries of a key overwrite earlier ones. -/
def lastWins : List (Bytes × Bytes) → List (Bytes × Bytes)
  | [] => []
  | e :: r => if r.any (fun x => x.1 == e.1) then lastWins r else e :: lastWins r

/-- Join with single spaces. -/
def spaced : List Bytes → Bytes
  | [] => []
  | [a] => a
  | a :: r => a ++ 32 :: spaced r

mutual

/-- `fmt.Sprint(v)` (`%v`): strings as they are, numbers as float64, `nil` as `<nil>`, slices as `[a b]`,
maps as `map[k:v k:v]` with the keys sorted (internal/fmtsort). -/
def sprint (F : Flt) : Json → Bytes
  | .null => b!"<nil>"
  | .bool true => b!"true"
  | .bool false => b!"false"
  | .num t => F.sprint t
  | .str s => s
  | .arr l => 91 :: spaced (sprintL F l) ++ [93]
  | .obj m =>
    b!"map[" ++ spaced ((Sorter.ins.run (fun a b => Str.lt a.1 b.1) (lastWins (sprintM F m))).map
      (fun e => e.1 ++ 58 :: e.2)) ++ [93]

def sprintL (F : Flt) : List Json → List Bytes
  | [] => []
  | j :: l => sprint F j :: sprintL F l

def sprintM (F : Flt) : List (Bytes × Json) → List (Bytes × Bytes)
  | [] => []
  | (k, j) :: l => (k, sprint F j) :: sprintM F l

end

end Fmt
end OnePass
