/-
A concrete library and a concrete outside world for examples: a YAML stand-in that satisfies the laws of `Ext`,
archives that contain themselves as the program, exact arithmetic.
-/
import Verif.Model.World
import Verif.Go.Md5
import Mathlib.Tactic.Linarith
import Mathlib.Tactic.Positivity

namespace OnePass
namespace Toy

def unary (n : Nat) : Bytes := List.replicate n 1 ++ [0]

def readUnary : Bytes → Option (Nat × Bytes)
  | 1 :: r => (readUnary r).map (fun p => (p.1 + 1, p.2))
  | 0 :: r => some (0, r)
  | _ => none

def str (s : Bytes) : Bytes := unary s.length ++ s

def readStr (b : Bytes) : Option (Bytes × Bytes) :=
  match readUnary b with
  | none => none
  | some (n, r) => if r.length < n then none else some (r.take n, r.drop n)

def val : YVal → Bytes
  | .null => [0]
  | .int (.ofNat n) => 1 :: unary n
  | .int (.negSucc n) => 2 :: unary n
  | .bool true => [3]
  | .bool false => [4]
  | .str s => 5 :: str s
  | .other n s => 6 :: (unary n ++ str s)

def readVal : Bytes → Option (YVal × Bytes)
  | 0 :: r => some (.null, r)
  | 1 :: r => (readUnary r).map (fun p => (.int (.ofNat p.1), p.2))
  | 2 :: r => (readUnary r).map (fun p => (.int (.negSucc p.1), p.2))
  | 3 :: r => some (.bool true, r)
  | 4 :: r => some (.bool false, r)
  | 5 :: r => (readStr r).map (fun p => (.str p.1, p.2))
  | 6 :: r =>
    match readUnary r with
    | none => none
    | some (n, r) => (readStr r).map (fun p => (.other n p.1, p.2))
  | _ => none

def entries : YMap → Bytes
  | [] => []
  | (k, v) :: r => str k ++ (val v ++ entries r)

def readEntries : Nat → Bytes → Option YMap
  | _, [] => some []
  | 0, _ => none
  | n + 1, b =>
    match readStr b with
    | none => none
    | some (k, r) =>
      match readVal r with
      | none => none
      | some (v, r) => (readEntries n r).map ((k, v) :: ·)

def encode (m : YMap) : Bytes := 33 :: entries m

def decode : Bytes → Option (Option YMap)
  | [] => some none
  | 33 :: r => (readEntries r.length r).map some
  | _ => none

theorem readUnary_unary (n : Nat) (r : Bytes) : readUnary (unary n ++ r) = some (n, r) := by
  induction n with
  | zero => simp [unary, readUnary]
  | succ n ih =>
    have : unary (n + 1) ++ r = 1 :: (unary n ++ r) := by simp [unary, List.replicate_succ]
    rw [this, readUnary, ih]; rfl

theorem readStr_str (s r : Bytes) : readStr (str s ++ r) = some (s, r) := by
  simp [readStr, str, List.append_assoc, readUnary_unary]

theorem readVal_val (v : YVal) (r : Bytes) : readVal (val v ++ r) = some (v, r) := by
  cases v with
  | null => rfl
  | int n => cases n <;> simp [val, readVal, readUnary_unary]
  | bool b => cases b <;> rfl
  | str s => simp [val, readVal, readStr_str]
  | other n s => simp [val, readVal, readUnary_unary, readStr_str, List.append_assoc]

theorem readEntries_entries (m : YMap) (n : Nat) (h : m.length ≤ n) : readEntries n (entries m) = some m := by
  induction m generalizing n with
  | nil => cases n <;> rfl
  | cons e m ih =>
    obtain ⟨k, v⟩ := e
    cases n with
    | zero => simp at h
    | succ n =>
      have hne : entries ((k, v) :: m) ≠ [] := by simp [entries, str, unary]
      rw [readEntries]
      · rw [entries, readStr_str]
        simp only [readVal_val]
        rw [ih n (by simpa using h)]; rfl
      · exact hne

theorem length_le_entries (m : YMap) : m.length ≤ (entries m).length := by
  induction m with
  | nil => simp
  | cons e m ih => simp [entries, str, unary]; omega

theorem decode_encode (m : YMap) : decode (encode m) = some (some m) := by
  simp [decode, encode, readEntries_entries m _ (length_le_entries m)]

/-- A library, with MD5 as it is. -/
def ext : Ext where
  md5 := Md5.sum
  md5_len := Md5.sum_len
  untar b := ([⟨b!"1pass", true, b, true⟩], true)
  yamlDecode := decode
  yamlEncode := encode
  yaml_law m := ⟨m, decode_encode m, Iff.rfl, fun _ => rfl⟩
  yaml_empty := rfl

/-- A quiet outside: the server always answers `body`, the clock stands at `now`. -/
def sys (body : Bytes) (now : Int) : Sys where
  fault _ := none
  order _ l := l
  order_perm _ l := List.Perm.refl l
  answer _ _ := .body body true
  now _ := now
  exe := some b!"/usr/bin/1pass"
  typed _ := some b!"pw"

/-- A world with a disk and an input. -/
def world (d : Disk) (stdin : Bytes) : World :=
  { disk := d, log := [], tick := 0, stdin := stdin, conf := none, sess := Session.init }

end Toy
end OnePass
