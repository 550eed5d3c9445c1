/-
encoding/json: number literals as numbers, the range of float64, and `json.Unmarshal`.
-/
import Verif.Go.Json

namespace OnePass
namespace Num

/-- The number a string of digits stands for. -/
def natOf (ds : Bytes) : Nat := ds.foldl (fun a b => 10 * a + (b.toNat - 48)) 0

/-- The fraction digits after an integer part, and the rest. -/
def litFrac : Bytes → Bytes × Bytes
  | [] => ([], [])
  | b :: r => if b = 46 then Json.digits r else ([], b :: r)

/-- The exponent at the end of a literal. -/
def litExp : Bytes → Int
  | [] => 0
  | _ :: r =>
    match r with
    | [] => 0
    | s :: ds => if s = 45 then -(natOf ds : Int) else if s = 43 then natOf ds else natOf (s :: ds)

/-- strconv `readFloat` on a JSON number literal: whether there is a minus sign, the digits as an integer and the decimal exponent, so
that the literal stands for mantissa × 10^exponent. (Exponents of six digits and more, which Go cuts off, are kept.) -/
def litParts (t : Bytes) : Bool × Nat × Int :=
  let neg := t.head? == some 45
  let body := if neg then t.tail else t
  let i := Json.digits body
  let fr := litFrac i.2
  (neg, natOf (i.1 ++ fr.1), litExp fr.2 - fr.1.length)

/-- From here on a number is rounded to 2^1024, which is no float64: half way between the largest float64 and 2^1024. -/
def floatLimit : Nat := 2 ^ 1024 - 2 ^ 970

/-- `strconv.ParseFloat` fails on the literal: the number is beyond the range of float64. -/
def tooBig (t : Bytes) : Bool :=
  match litParts t with
  | (_, 0, _) => false
  | (_, m, .ofNat e) => floatLimit ≤ m * 10 ^ e
  | (_, m, .negSucc e) => floatLimit * 10 ^ (e + 1) ≤ m

end Num

namespace Json

mutual

/-- encoding/json decode.go `convertNumber`, `literalInterface`: a number beyond the range of float64 is an error, and is `nil`
in the value that is built all the same. -/
def clip : Json → Json
  | .num t => if Num.tooBig t then .null else .num t
  | .arr l => .arr (clipL l)
  | .obj m => .obj (clipM m)
  | j => j

def clipL : List Json → List Json
  | [] => []
  | j :: l => clip j :: clipL l

def clipM : List (Bytes × Json) → List (Bytes × Json)
  | [] => []
  | (k, j) :: m => (k, clip j) :: clipM m

end

mutual

/-- No number is beyond the range of float64. -/
def finite : Json → Bool
  | .num t => !Num.tooBig t
  | .arr l => finiteL l
  | .obj m => finiteM m
  | _ => true

def finiteL : List Json → Bool
  | [] => true
  | j :: l => finite j && finiteL l

def finiteM : List (Bytes × Json) → Bool
  | [] => true
  | (_, j) :: m => finite j && finiteM m

end

mutual

theorem clip_finite : ∀ j, finite j = true → clip j = j
  | .null, _ => rfl
  | .bool _, _ => rfl
  | .str _, _ => rfl
  | .num t, h => by
    rw [finite, Bool.not_eq_true'] at h
    rw [clip, h]; rfl
  | .arr l, h => by rw [finite] at h; rw [clip, clipL_finite l h]
  | .obj m, h => by rw [finite] at h; rw [clip, clipM_finite m h]

theorem clipL_finite : ∀ l, finiteL l = true → clipL l = l
  | [], _ => rfl
  | j :: l, h => by
    rw [finiteL, Bool.and_eq_true] at h
    rw [clipL, clip_finite j h.1, clipL_finite l h.2]

theorem clipM_finite : ∀ m, finiteM m = true → clipM m = m
  | [], _ => rfl
  | (k, j) :: m, h => by
    rw [finiteM, Bool.and_eq_true] at h
    rw [clipM, clip_finite j h.1, clipM_finite m h.2]

end

/-- `json.Unmarshal(s, &m)` with `var m map[string]interface{}`: the map afterwards (`none` is the nil
map) and whether there is an error. A document that is no object and not `null` is a type error and
leaves the map nil. A number beyond the range of float64 is a type error too, but the map is filled. -/
def unmarshalMap (s : Bytes) : Option Members × Bool :=
  match parse s with
  | none => (none, true)
  | some (.obj m) => (some (clipM m), !finiteM m)
  | some .null => (none, false)
  | some _ => (none, true)

/-- The text is a document for the value, and `json.Unmarshal` has nothing against it. -/
def ReadR (t : Bytes) (j : Json) : Prop := DocR t j ∧ finite j = true

theorem finiteM_append (m m' : List (Bytes × Json)) : finiteM (m ++ m') = (finiteM m && finiteM m') := by
  induction m with
  | nil => simp [finiteM]
  | cons e m ih => obtain ⟨k, j⟩ := e; rw [List.cons_append, finiteM, finiteM, ih, Bool.and_assoc]

theorem finiteM_iff (m : List (Bytes × Json)) : finiteM m = true ↔ ∀ e ∈ m, finite e.2 = true := by
  induction m with
  | nil => simp [finiteM]
  | cons e m ih => obtain ⟨k, j⟩ := e; simp [finiteM, ih]

end Json
end OnePass
