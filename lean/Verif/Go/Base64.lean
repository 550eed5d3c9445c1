/-
`base64.StdEncoding.DecodeString` of Go's encoding/base64, including what it returns beside an error
and the capacity of the returned slice (the repository ignores the error in three places and slices up
to the capacity in one).
-/
import Verif.Go.Strings

namespace OnePass
namespace B64

/-- `decodeMap` of the standard alphabet. -/
def val (c : UInt8) : Option Nat :=
  if 65 ≤ c ∧ c ≤ 90 then some (c.toNat - 65)
  else if 97 ≤ c ∧ c ≤ 122 then some (c.toNat - 97 + 26)
  else if 48 ≤ c ∧ c ≤ 57 then some (c.toNat - 48 + 52)
  else if c = 43 then some 62
  else if c = 47 then some 63
  else none

/-- `StdEncoding`'s alphabet. -/
def char (i : Nat) : UInt8 :=
  if i < 26 then UInt8.ofNat (65 + i)
  else if i < 52 then UInt8.ofNat (97 + (i - 26))
  else if i < 62 then UInt8.ofNat (48 + (i - 52))
  else if i = 62 then 43 else 47

def isNL (c : UInt8) : Bool := c == 10 || c == 13

/-- The three bytes of four 6-bit values. -/
def byte0 (a b : Nat) : UInt8 := UInt8.ofNat (a * 4 + b / 16)
def byte1 (b c : Nat) : UInt8 := UInt8.ofNat (b % 16 * 16 + c / 4)
def byte2 (c d : Nat) : UInt8 := UInt8.ofNat (c % 4 * 64 + d)

/-- The quanta loop of `Encoding.Decode` / `decodeQuantum` on input without line breaks: the bytes
decoded so far and whether there is an error. Bytes decoded before an error are returned. -/
def quanta : Bytes → Bytes × Bool
  | [] => ([], false)
  | c0 :: r0 =>
    match val c0 with
    | none => ([], true)
    | some a =>
      match r0 with
      | [] => ([], true)
      | c1 :: r1 =>
        match val c1 with
        | none => ([], true)
        | some b =>
          match r1 with
          | [] => ([], true)
          | c2 :: r2 =>
            match val c2 with
            | none =>
              if c2 = 61 then
                match r2 with
                | 61 :: r3 => ([byte0 a b], !r3.isEmpty)
                | _ => ([], true)
              else ([], true)
            | some c =>
              match r2 with
              | [] => ([], true)
              | c3 :: r3 =>
                match val c3 with
                | none =>
                  if c3 = 61 then ([byte0 a b, byte1 b c], !r3.isEmpty) else ([], true)
                | some d =>
                  (byte0 a b :: byte1 b c :: byte2 c d :: (quanta r3).1, (quanta r3).2)

/-- `Encoding.DecodedLen` for a padded encoding. -/
def decodedLen (n : Nat) : Nat := n / 4 * 3

/-- `base64.StdEncoding.DecodeString(s)`: line breaks are skipped; the slice has length `n` within a
buffer of `DecodedLen(len(s))` bytes; the second component says whether the error is non-nil. -/
def decodeString (s : Bytes) : Slice × Bool :=
  let q := quanta (s.filter (fun c => !isNL c))
  ({ buf := q.1 ++ List.replicate (decodedLen s.length - q.1.length) 0, len := q.1.length }, q.2)

/-! ### Specification: the standard encoding (RFC 4648), used by whoever wrote the vault -/

def encode : Bytes → Bytes
  | [] => []
  | [x] => [char (x.toNat / 4), char (x.toNat % 4 * 16), 61, 61]
  | [x, y] => [char (x.toNat / 4), char (x.toNat % 4 * 16 + y.toNat / 16), char (y.toNat % 16 * 4), 61]
  | x :: y :: z :: r =>
    char (x.toNat / 4) :: char (x.toNat % 4 * 16 + y.toNat / 16) ::
      char (y.toNat % 16 * 4 + z.toNat / 64) :: char (z.toNat % 64) :: encode r

/-! ### Facts -/

theorem val_char {i : Nat} (h : i < 64) : val (char i) = some i := by
  have : ∀ i : Fin 64, val (char i) = some i.val := by decide +kernel
  exact this ⟨i, h⟩

theorem val_lt {c : UInt8} {i : Nat} (h : val c = some i) : i < 64 := by
  have : ∀ c : UInt8, (val c).all (· < 64) = true := by decide +kernel
  have := this c
  simpa [h] using this

theorem char_not_nl (i : Nat) (h : i < 64) : isNL (char i) = false := by
  have : ∀ i : Fin 64, isNL (char i) = false := by decide +kernel
  exact this ⟨i, h⟩

theorem byte0_char (x y : UInt8) :
    byte0 (x.toNat / 4) (x.toNat % 4 * 16 + y.toNat / 16) = x := by
  apply UInt8.toNat_inj.1
  have := x.toNat_lt; have := y.toNat_lt
  simp [byte0]; omega

theorem byte0_char' (x : UInt8) : byte0 (x.toNat / 4) (x.toNat % 4 * 16) = x := by
  apply UInt8.toNat_inj.1
  have := x.toNat_lt
  simp [byte0]; omega

theorem byte1_char (x y z : UInt8) :
    byte1 (x.toNat % 4 * 16 + y.toNat / 16) (y.toNat % 16 * 4 + z.toNat / 64) = y := by
  apply UInt8.toNat_inj.1
  have := x.toNat_lt; have := y.toNat_lt; have := z.toNat_lt
  simp [byte1]; omega

theorem byte1_char' (x y : UInt8) :
    byte1 (x.toNat % 4 * 16 + y.toNat / 16) (y.toNat % 16 * 4) = y := by
  apply UInt8.toNat_inj.1
  have := x.toNat_lt; have := y.toNat_lt
  simp [byte1]; omega

theorem byte2_char (y z : UInt8) :
    byte2 (y.toNat % 16 * 4 + z.toNat / 64) (z.toNat % 64) = z := by
  apply UInt8.toNat_inj.1
  have := y.toNat_lt; have := z.toNat_lt
  simp [byte2]; omega

theorem quanta_encode (b : Bytes) : quanta (encode b) = (b, false) := by
  fun_induction encode b with
  | case1 => rfl
  | case2 x =>
    have := x.toNat_lt
    have hv : val 61 = none := by decide
    simp [quanta, val_char (show x.toNat / 4 < 64 by omega),
      val_char (show x.toNat % 4 * 16 < 64 by omega), hv, byte0_char']
  | case3 x y =>
    have := x.toNat_lt; have := y.toNat_lt
    have hv : val 61 = none := by decide
    simp [quanta, val_char (show x.toNat / 4 < 64 by omega),
      val_char (show x.toNat % 4 * 16 + y.toNat / 16 < 64 by omega),
      val_char (show y.toNat % 16 * 4 < 64 by omega), hv, byte0_char, byte1_char']
  | case4 x y z r ih =>
    have := x.toNat_lt; have := y.toNat_lt; have := z.toNat_lt
    simp [quanta, val_char (show x.toNat / 4 < 64 by omega),
      val_char (show x.toNat % 4 * 16 + y.toNat / 16 < 64 by omega),
      val_char (show y.toNat % 16 * 4 + z.toNat / 64 < 64 by omega),
      val_char (show z.toNat % 64 < 64 by omega), byte0_char, byte1_char, byte2_char, ih]

theorem encode_no_nl (b : Bytes) : ∀ c ∈ encode b, isNL c = false := by
  fun_induction encode b with
  | case1 => simp
  | case2 x =>
    have := x.toNat_lt
    simp [char_not_nl _ (show x.toNat / 4 < 64 by omega),
      char_not_nl _ (show x.toNat % 4 * 16 < 64 by omega)]
    decide
  | case3 x y =>
    have := x.toNat_lt; have := y.toNat_lt
    simp [char_not_nl _ (show x.toNat / 4 < 64 by omega),
      char_not_nl _ (show x.toNat % 4 * 16 + y.toNat / 16 < 64 by omega),
      char_not_nl _ (show y.toNat % 16 * 4 < 64 by omega)]
    decide
  | case4 x y z r ih =>
    have := x.toNat_lt; have := y.toNat_lt; have := z.toNat_lt
    simp [char_not_nl _ (show x.toNat / 4 < 64 by omega),
      char_not_nl _ (show x.toNat % 4 * 16 + y.toNat / 16 < 64 by omega),
      char_not_nl _ (show y.toNat % 16 * 4 + z.toNat / 64 < 64 by omega),
      char_not_nl _ (show z.toNat % 64 < 64 by omega)]
    exact ih

/-- The decoded bytes are never more than the buffer holds. -/
theorem quanta_length (b : Bytes) : (quanta b).1.length ≤ decodedLen b.length := by
  fun_induction quanta b <;> simp_all [decodedLen] <;> omega

theorem decodeString_wf (s : Bytes) : (decodeString s).1.WF := by
  simp [decodeString, Slice.WF, Slice.cap]

theorem decodeString_cap (s : Bytes) : (decodeString s).1.cap = decodedLen s.length := by
  have h1 := quanta_length (s.filter (fun c => !isNL c))
  have h2 : (s.filter (fun c => !isNL c)).length ≤ s.length := List.length_filter_le _ _
  simp only [decodeString, Slice.cap, List.length_append, List.length_replicate]
  have : decodedLen (s.filter (fun c => !isNL c)).length ≤ decodedLen s.length := by
    simp only [decodedLen]; omega
  omega

theorem decodeString_data (s : Bytes) :
    (decodeString s).1.data = (quanta (s.filter (fun c => !isNL c))).1 := by
  simp [decodeString, Slice.data]

end B64
end OnePass
