/-
encoding/json: `json.Unmarshal` into a `map[string]interface{}`.

The parser follows Go's scanner (Go 1.15): RFC 8259 grammar, nesting limited to 10000, strings unquoted with
invalid UTF-8 and lone surrogates replaced by U+FFFD, later duplicates of a key overwrite earlier ones.
Numbers keep their literal text; their conversion to float64 happens where the program uses them
(`json.Unmarshal` itself, which refuses a literal beyond the float64 range, is in Go/Float.lean).
-/
import Verif.Go.Strings

namespace OnePass

/-- A decoded JSON value (`interface{}`). An object keeps all its members in document order; Go's map
view of it is `Json.get` / `Json.entries`. -/
inductive Json where
  | null
  | bool (b : Bool)
  | num (t : Bytes)
  | str (s : Bytes)
  | arr (l : List Json)
  | obj (m : List (Bytes × Json))
  deriving Repr, Inhabited

/-- The members of a JSON object in document order. -/
abbrev Members := List (Bytes × Json)

namespace Json

/-- `m[k]` on the Go map of an object: the last member with that key. -/
def get (m : Members) (k : Bytes) : Option Json :=
  match m with
  | [] => none
  | (k', v) :: r =>
    match get r k with
    | some x => some x
    | none => if k' = k then some v else none

/-- `m[k]` as an `interface{}`: a missing key and a JSON `null` are both `nil`. -/
def field (m : Members) (k : Bytes) : Json := (get m k).getD .null

/-- The key/value pairs of the Go map of an object, in some order (here: of their last occurrence). -/
def entries : Members → Members
  | [] => []
  | (k, v) :: r => if r.any (fun e => e.1 == k) then entries r else (k, v) :: entries r

/-! ### Parser -/

def isWs (b : UInt8) : Bool := b == 32 || b == 9 || b == 10 || b == 13

def skipWs (s : Bytes) : Bytes := s.dropWhile isWs

/-- A continuation byte of UTF-8. -/
def isCont (b : UInt8) : Bool := 128 ≤ b && b ≤ 191

/-- Length of the valid multi-byte UTF-8 sequence at the start, 0 if there is none
(utf8.DecodeRune's accept table). -/
def utf8Len : Bytes → Nat
  | b0 :: b1 :: r =>
    if 0xC2 ≤ b0 && b0 ≤ 0xDF then (if isCont b1 then 2 else 0)
    else match r with
    | b2 :: r' =>
      if b0 == 0xE0 then (if 0xA0 ≤ b1 && b1 ≤ 0xBF && isCont b2 then 3 else 0)
      else if b0 == 0xED then (if 0x80 ≤ b1 && b1 ≤ 0x9F && isCont b2 then 3 else 0)
      else if 0xE1 ≤ b0 && b0 ≤ 0xEF then (if isCont b1 && isCont b2 then 3 else 0)
      else match r' with
      | b3 :: _ =>
        if b0 == 0xF0 then (if 0x90 ≤ b1 && b1 ≤ 0xBF && isCont b2 && isCont b3 then 4 else 0)
        else if b0 == 0xF4 then (if 0x80 ≤ b1 && b1 ≤ 0x8F && isCont b2 && isCont b3 then 4 else 0)
        else if 0xF1 ≤ b0 && b0 ≤ 0xF3 then (if isCont b1 && isCont b2 && isCont b3 then 4 else 0)
        else 0
      | [] => 0
    | [] => 0
  | _ => 0

/-- U+FFFD in UTF-8. -/
def replacement : Bytes := [0xEF, 0xBF, 0xBD]

/-- `utf8.EncodeRune` for a code point that is no surrogate. -/
def utf8Enc (c : Nat) : Bytes :=
  if c < 0x80 then [UInt8.ofNat c]
  else if c < 0x800 then [UInt8.ofNat (0xC0 + c / 64), UInt8.ofNat (0x80 + c % 64)]
  else if c < 0x10000 then
    [UInt8.ofNat (0xE0 + c / 4096), UInt8.ofNat (0x80 + c / 64 % 64), UInt8.ofNat (0x80 + c % 64)]
  else
    [UInt8.ofNat (0xF0 + c / 262144), UInt8.ofNat (0x80 + c / 4096 % 64),
     UInt8.ofNat (0x80 + c / 64 % 64), UInt8.ofNat (0x80 + c % 64)]

def hexVal (b : UInt8) : Option Nat :=
  if 48 ≤ b ∧ b ≤ 57 then some (b.toNat - 48)
  else if 97 ≤ b ∧ b ≤ 102 then some (b.toNat - 87)
  else if 65 ≤ b ∧ b ≤ 70 then some (b.toNat - 55)
  else none

/-- `getu4`: the value of four hex digits. -/
def hex4 (a b c d : UInt8) : Option Nat := do
  let a ← hexVal a
  let b ← hexVal b
  let c ← hexVal c
  let d ← hexVal d
  pure (a * 4096 + b * 256 + c * 16 + d)

/-- High and low surrogates. -/
def isHigh (c : Nat) : Bool := 0xD800 ≤ c && c < 0xDC00
def isLow (c : Nat) : Bool := 0xDC00 ≤ c && c < 0xE000

/-- The character of a one-letter escape. -/
def escChar (b : UInt8) : Option UInt8 :=
  if b = 34 then some 34 else if b = 92 then some 92 else if b = 47 then some 47
  else if b = 98 then some 8 else if b = 102 then some 12 else if b = 110 then some 10
  else if b = 114 then some 13 else if b = 116 then some 9 else none

/-- The `\uXXXX` at the start of the input, if there is one: its value and the rest. -/
def getu4 : Bytes → Option (Nat × Bytes)
  | 92 :: 117 :: a :: b :: c :: d :: r => (hex4 a b c d).map (fun n => (n, r))
  | _ => none

/-- The string after its opening quote: contents and the input after the closing quote. Go scans
(`stateInString`…) and unquotes (`unquoteBytes`) in two passes; here they are one. -/
def pStr : Nat → Bytes → Option (Bytes × Bytes)
  | 0, _ => none
  | f + 1, s =>
    match s with
    | [] => none
    | b :: r =>
      if b = 34 then some ([], r)
      else if b = 92 then
        match r with
        | [] => none
        | e :: r1 =>
          if e = 117 then
            match getu4 s with
            | none => none
            | some (c, r2) =>
              if isHigh c then
                -- utf16.DecodeRune on a following \uXXXX; otherwise U+FFFD and go on after the first
                match getu4 r2 with
                | some (c2, r3) =>
                  if isLow c2 then
                    (pStr f r3).map (fun x => (utf8Enc (0x10000 + (c - 0xD800) * 1024 + (c2 - 0xDC00)) ++ x.1, x.2))
                  else (pStr f r2).map (fun x => (replacement ++ x.1, x.2))
                | none => (pStr f r2).map (fun x => (replacement ++ x.1, x.2))
              else if isLow c then (pStr f r2).map (fun x => (replacement ++ x.1, x.2))
              else (pStr f r2).map (fun x => (utf8Enc c ++ x.1, x.2))
          else
            match escChar e with
            | none => none
            | some c => (pStr f r1).map (fun x => (c :: x.1, x.2))
      else if b < 32 then none
      else if b < 128 then (pStr f r).map (fun x => (b :: x.1, x.2))
      else
        match utf8Len s with
        | 0 => (pStr f r).map (fun x => (replacement ++ x.1, x.2))
        | n => (pStr f (s.drop n)).map (fun x => (s.take n ++ x.1, x.2))

def digits (s : Bytes) : Bytes × Bytes := (s.takeWhile Str.isDigitA, s.dropWhile Str.isDigitA)

/-- Integer part of a number. -/
def intPart : Bytes → Option (Bytes × Bytes)
  | [] => none
  | b :: r =>
    if b = 48 then some ([48], r)
    else if Str.isDigitA b then some (b :: (digits r).1, (digits r).2)
    else none

def fracPart : Bytes → Option (Bytes × Bytes)
  | 46 :: r => if (digits r).1.isEmpty then none else some (46 :: (digits r).1, (digits r).2)
  | s => some ([], s)

def expSign : Bytes → Bytes × Bytes
  | [] => ([], [])
  | b :: r => if b = 43 ∨ b = 45 then ([b], r) else ([], b :: r)

def expPart : Bytes → Option (Bytes × Bytes)
  | [] => some ([], [])
  | b :: r =>
    if b = 101 ∨ b = 69 then
      if (digits (expSign r).2).1.isEmpty then none
      else some (b :: (expSign r).1 ++ (digits (expSign r).2).1, (digits (expSign r).2).2)
    else some ([], b :: r)

/-- A number literal: its text and the rest. -/
def number (s : Bytes) : Option (Bytes × Bytes) :=
  let (sign, s0) := match s with
    | 45 :: r => (([45] : Bytes), r)
    | _ => ([], s)
  match intPart s0 with
  | none => none
  | some (i, s1) =>
    match fracPart s1 with
    | none => none
    | some (fr, s2) =>
      match expPart s2 with
      | none => none
      | some (e, s3) => some (sign ++ i ++ fr ++ e, s3)

mutual

/-- A value; `d` is how many more levels of nesting are allowed, `f` is fuel. -/
def pValue : Nat → Nat → Bytes → Option (Json × Bytes)
  | 0, _, _ => none
  | f + 1, d, s =>
    match s with
    | 34 :: r => (pStr (r.length + 1) r).map (fun x => (.str x.1, x.2))
    | 123 :: r =>
      match d with
      | 0 => none
      | d + 1 =>
        match skipWs r with
        | 125 :: r' => some (.obj [], r')
        | r' => (pMembers f d r').map (fun x => (.obj x.1, x.2))
    | 91 :: r =>
      match d with
      | 0 => none
      | d + 1 =>
        match skipWs r with
        | 93 :: r' => some (.arr [], r')
        | r' => (pElems f d r').map (fun x => (.arr x.1, x.2))
    | 110 :: 117 :: 108 :: 108 :: r => some (.null, r)
    | 116 :: 114 :: 117 :: 101 :: r => some (.bool true, r)
    | 102 :: 97 :: 108 :: 115 :: 101 :: r => some (.bool false, r)
    | _ => (number s).map (fun x => (.num x.1, x.2))

/-- One or more array elements up to and including `]`. -/
def pElems : Nat → Nat → Bytes → Option (List Json × Bytes)
  | 0, _, _ => none
  | f + 1, d, s =>
    match pValue f d s with
    | none => none
    | some (j, r) =>
      match skipWs r with
      | 44 :: r' => (pElems f d (skipWs r')).map (fun x => (j :: x.1, x.2))
      | 93 :: r' => some ([j], r')
      | _ => none

/-- One or more object members up to and including `}`. -/
def pMembers : Nat → Nat → Bytes → Option (Members × Bytes)
  | 0, _, _ => none
  | f + 1, d, s =>
    match s with
    | 34 :: r =>
      match pStr (r.length + 1) r with
      | none => none
      | some (k, r1) =>
        match skipWs r1 with
        | 58 :: r2 =>
          match pValue f d (skipWs r2) with
          | none => none
          | some (j, r3) =>
            match skipWs r3 with
            | 44 :: r4 => (pMembers f d (skipWs r4)).map (fun x => ((k, j) :: x.1, x.2))
            | 125 :: r4 => some ([(k, j)], r4)
            | _ => none
        | _ => none
    | _ => none

end

/-- `maxNestingDepth` of encoding/json/scanner.go. -/
def maxDepth : Nat := 10000

/-- A whole document: `checkValid` and decoding. `none` is a syntax error. -/
def parse (s : Bytes) : Option Json :=
  match pValue (s.length + 1) maxDepth (skipWs s) with
  | none => none
  | some (j, r) => if (skipWs r).isEmpty then some j else none

/-! ### Grammar (RFC 8259 with Go's leniency in strings), as a relation between texts and values -/

/-- White space. -/
def WS (w : Bytes) : Prop := ∀ b ∈ w, isWs b = true

/-- The text between the quotes and the string it stands for. -/
inductive StrR : Bytes → Bytes → Prop
  | nil : StrR [] []
  | plain {b : UInt8} {t s : Bytes} : 32 ≤ b → b < 128 → b ≠ 34 → b ≠ 92 → StrR t s → StrR (b :: t) (b :: s)
  | utf8 {u t s : Bytes} : 2 ≤ u.length → utf8Len u = u.length → StrR t s → StrR (u ++ t) (u ++ s)
  | esc {e c : UInt8} {t s : Bytes} : escChar e = some c → StrR t s → StrR (92 :: e :: t) (c :: s)
  | uni {a b c d : UInt8} {n : Nat} {t s : Bytes} : hex4 a b c d = some n → isHigh n = false → isLow n = false →
      StrR t s → StrR (92 :: 117 :: a :: b :: c :: d :: t) (utf8Enc n ++ s)
  | pair {a b c d a' b' c' d' : UInt8} {n n' : Nat} {t s : Bytes} :
      hex4 a b c d = some n → isHigh n = true → hex4 a' b' c' d' = some n' → isLow n' = true → StrR t s →
      StrR (92 :: 117 :: a :: b :: c :: d :: 92 :: 117 :: a' :: b' :: c' :: d' :: t)
        (utf8Enc (0x10000 + (n - 0xD800) * 1024 + (n' - 0xDC00)) ++ s)
  /-- What RFC 8259 does not allow and Go reads all the same: a byte that begins no UTF-8 sequence … -/
  | badByte {b : UInt8} {t s : Bytes} : 128 ≤ b → utf8Len (b :: t) = 0 → StrR t s → StrR (b :: t) (replacement ++ s)
  /-- … a high surrogate without a low one behind it … -/
  | loneHigh {a b c d : UInt8} {n : Nat} {t s : Bytes} : hex4 a b c d = some n → isHigh n = true →
      (∀ a' b' c' d' n' t', t = 92 :: 117 :: a' :: b' :: c' :: d' :: t' → hex4 a' b' c' d' = some n' → isLow n' = false) →
      StrR t s → StrR (92 :: 117 :: a :: b :: c :: d :: t) (replacement ++ s)
  /-- … and a low surrogate without a high one before it. -/
  | loneLow {a b c d : UInt8} {n : Nat} {t s : Bytes} : hex4 a b c d = some n → isLow n = true →
      StrR t s → StrR (92 :: 117 :: a :: b :: c :: d :: t) (replacement ++ s)

def Digits (l : Bytes) : Prop := ∀ b ∈ l, Str.isDigitA b = true

/-- A number literal. -/
def NumR (t : Bytes) : Prop :=
  ∃ sign i fr e, t = sign ++ i ++ fr ++ e ∧
    (sign = [] ∨ sign = [45]) ∧
    (i = [48] ∨ ∃ b r, i = b :: r ∧ b ≠ 48 ∧ Str.isDigitA b = true ∧ Digits r) ∧
    (fr = [] ∨ ∃ r, fr = 46 :: r ∧ r ≠ [] ∧ Digits r) ∧
    (e = [] ∨ ∃ b s r, e = b :: s ++ r ∧ (b = 101 ∨ b = 69) ∧ (s = [] ∨ s = [43] ∨ s = [45]) ∧ r ≠ [] ∧ Digits r)

mutual

/-- `ValR d t j`: the text `t` is a rendering of `j` with at most `d` levels of nesting. -/
inductive ValR : Nat → Bytes → Json → Prop
  | null {d} : ValR d [110, 117, 108, 108] .null
  | tru {d} : ValR d [116, 114, 117, 101] (.bool true)
  | fls {d} : ValR d [102, 97, 108, 115, 101] (.bool false)
  | num {d t} : NumR t → ValR d t (.num t)
  | str {d t s} : StrR t s → ValR d (34 :: t ++ [34]) (.str s)
  | arr0 {d w} : WS w → ValR (d + 1) (91 :: w ++ [93]) (.arr [])
  | arr {d w t l} : WS w → ElemsR d t l → ValR (d + 1) (91 :: w ++ t ++ [93]) (.arr l)
  | obj0 {d w} : WS w → ValR (d + 1) (123 :: w ++ [125]) (.obj [])
  | obj {d w t m} : WS w → MemsR d t m → ValR (d + 1) (123 :: w ++ t ++ [125]) (.obj m)

/-- One or more elements, separated by commas. -/
inductive ElemsR : Nat → Bytes → List Json → Prop
  | one {d t j w} : ValR d t j → WS w → ElemsR d (t ++ w) [j]
  | cons {d t j w w' ts l} : ValR d t j → WS w → WS w' → ElemsR d ts l →
      ElemsR d (t ++ w ++ 44 :: w' ++ ts) (j :: l)

/-- One or more members, separated by commas. -/
inductive MemsR : Nat → Bytes → Members → Prop
  | one {d kt k w1 w2 t j w3} : StrR kt k → WS w1 → WS w2 → ValR d t j → WS w3 →
      MemsR d (34 :: kt ++ 34 :: w1 ++ 58 :: w2 ++ t ++ w3) [(k, j)]
  | cons {d kt k w1 w2 t j w3 w4 ts m} : StrR kt k → WS w1 → WS w2 → ValR d t j → WS w3 → WS w4 →
      MemsR d ts m →
      MemsR d (34 :: kt ++ 34 :: w1 ++ 58 :: w2 ++ t ++ w3 ++ 44 :: w4 ++ ts) ((k, j) :: m)

end

/-- A document: a value with white space around it. -/
def DocR (t : Bytes) (j : Json) : Prop :=
  ∃ w1 t' w2, WS w1 ∧ WS w2 ∧ ValR maxDepth t' j ∧ t = w1 ++ t' ++ w2

end Json
end OnePass
