/-
The functions of Go's `strings` package the repository calls, on byte strings.

ASCII text is handled concretely. For text with a non-ASCII byte the result of the Unicode-dependent
functions is a parameter (`Text`), so theorems hold for any Unicode tables.
-/
import Verif.Go.Basic

namespace OnePass

/-- What Go's `unicode` tables contribute: the results on strings with a byte ≥ 0x80. -/
structure Text where
  lowerU  : Bytes → Bytes
  titleU  : Bytes → Bytes

namespace Str

/-- `isASCII` of strings.go. -/
def isAscii (s : Bytes) : Bool := s.all (fun b => b < 128)

def isUpperA (b : UInt8) : Bool := 65 ≤ b && b ≤ 90
def isLowerA (b : UInt8) : Bool := 97 ≤ b && b ≤ 122
def isDigitA (b : UInt8) : Bool := 48 ≤ b && b ≤ 57

/-- Lower-case an ASCII byte. -/
def lowerByte (b : UInt8) : UInt8 := if isUpperA b then b + 32 else b
/-- Upper- (and title-) case an ASCII byte. -/
def upperByte (b : UInt8) : UInt8 := if isLowerA b then b - 32 else b

/-- `strings.ToLower`. -/
def toLower (T : Text) (s : Bytes) : Bytes :=
  if isAscii s then s.map lowerByte else T.lowerU s

/-- `isSeparator` of strings.go on ASCII: letters, digits and underscore are not separators. -/
def isSepA (b : UInt8) : Bool := !(isUpperA b || isLowerA b || isDigitA b || b == 95)

/-- The loop of `strings.Title` on ASCII; `prev` is the previous byte of the *input*. -/
def titleFrom (prev : UInt8) : Bytes → Bytes
  | [] => []
  | b :: r => (if isSepA prev then upperByte b else b) :: titleFrom b r

/-- `strings.Title`. -/
def title (T : Text) (s : Bytes) : Bytes :=
  if isAscii s then titleFrom 32 s else T.titleU s

/-- `unicode.IsSpace` on ASCII: `\t \n \v \f \r` and space. -/
def isSpaceA (b : UInt8) : Bool := (9 ≤ b && b ≤ 13) || b == 32

/-- `unicode.IsSpace` of the character that a string begins with: the number of its bytes, 0 if the string begins
with no white space. -/
def spaceLen : Bytes → Nat
  | [] => 0
  | a :: r =>
    if isSpaceA a then 1
    else
      match r with
      | [] => 0
      | b :: r =>
        if a == 0xC2 && (b == 0x85 || b == 0xA0) then 2
        else
          match r with
          | [] => 0
          | c :: _ =>
            if (a == 0xE1 && b == 0x9A && c == 0x80) ||
              (a == 0xE2 && b == 0x80 && ((0x80 ≤ c && c ≤ 0x8A) || c == 0xA8 || c == 0xA9 || c == 0xAF)) ||
              (a == 0xE2 && b == 0x81 && c == 0x9F) || (a == 0xE3 && b == 0x80 && c == 0x80) then 3
            else 0

/-- The same for the character that a string ends with; the string is given backwards. -/
def spaceLenBack (s : Bytes) : Nat :=
  if spaceLen (s.take 1) = 1 then 1
  else if spaceLen (s.take 2).reverse = 2 then 2
  else if spaceLen (s.take 3).reverse = 3 then 3
  else 0

/-- `TrimLeftFunc(s, unicode.IsSpace)`. -/
def trimLeft : Nat → Bytes → Bytes
  | 0, s => s
  | n + 1, s => if spaceLen s = 0 then s else trimLeft n (s.drop (spaceLen s))

/-- `TrimRightFunc(s, unicode.IsSpace)` on a string given backwards. -/
def trimBack : Nat → Bytes → Bytes
  | 0, s => s
  | n + 1, s => if spaceLenBack s = 0 then s else trimBack n (s.drop (spaceLenBack s))

/-- `strings.TrimSpace`. -/
def trimSpace (s : Bytes) : Bytes :=
  if isAscii s then ((s.dropWhile isSpaceA).reverse.dropWhile isSpaceA).reverse
  else
    let t := trimLeft s.length s
    (trimBack t.length t.reverse).reverse

/-- The loop of `strings.Fields` on ASCII; `cur` is the current word, reversed. -/
def fieldsFrom (cur : Bytes) : Bytes → List Bytes
  | [] => if cur.isEmpty then [] else [cur.reverse]
  | b :: r =>
    if isSpaceA b then
      (if cur.isEmpty then fieldsFrom [] r else cur.reverse :: fieldsFrom [] r)
    else fieldsFrom (b :: cur) r

/-- `FieldsFunc(s, unicode.IsSpace)`. No byte inside a character looks like the beginning of white space, so going on
byte by byte in a word is the same as going on by characters. -/
def fieldsUni (cur : Bytes) : Nat → Bytes → List Bytes
  | 0, _ => if cur.isEmpty then [] else [cur.reverse]
  | n + 1, s =>
    match s with
    | [] => if cur.isEmpty then [] else [cur.reverse]
    | b :: r =>
      if spaceLen s = 0 then fieldsUni (b :: cur) n r
      else if cur.isEmpty then fieldsUni [] n (s.drop (spaceLen s))
      else cur.reverse :: fieldsUni [] n (s.drop (spaceLen s))

/-- `strings.Fields`. -/
def fields (s : Bytes) : List Bytes :=
  if isAscii s then fieldsFrom [] s else fieldsUni [] s.length s

/-- `strings.Contains(hay, needle)`. -/
def contains (hay needle : Bytes) : Bool :=
  match hay with
  | [] => needle.isEmpty
  | h :: t => needle.isPrefixOf (h :: t) || contains t needle

/-- `strings.ReplaceAll(s, old, new)` for a one-byte `old`. -/
def replaceByte (old : UInt8) (new : Bytes) (s : Bytes) : Bytes :=
  s.flatMap (fun b => if b = old then new else [b])

/-- `a < b` on Go strings: lexicographic byte order. -/
def lt (a b : Bytes) : Bool := decide (a < b)

/-! ### Facts -/

theorem contains_iff {hay needle : Bytes} :
    contains hay needle = true ↔ needle <:+: hay := by
  induction hay with
  | nil => simp [contains]
  | cons h t ih =>
    simp [contains, ih, List.isPrefixOf_iff_prefix, List.infix_cons_iff]

theorem isAscii_iff {s : Bytes} : isAscii s = true ↔ ∀ b ∈ s, b < 128 := by
  simp [isAscii]

theorem lowerByte_ascii : ∀ b : UInt8, b < 128 → lowerByte b < 128 := by
  intro b; revert b; decide +kernel

theorem lowerByte_idem : ∀ b : UInt8, lowerByte (lowerByte b) = lowerByte b := by
  intro b; revert b; decide +kernel

theorem lowerByte_upperByte : ∀ b : UInt8, lowerByte (upperByte b) = lowerByte b := by
  intro b; revert b; decide +kernel

theorem upperByte_ascii : ∀ b : UInt8, b < 128 → upperByte b < 128 := by
  intro b; revert b; decide +kernel

theorem upperByte_idem : ∀ b : UInt8, upperByte (upperByte b) = upperByte b := by
  intro b; revert b; decide +kernel

theorem isSepA_upperByte : ∀ b : UInt8, isSepA (upperByte b) = isSepA b := by
  intro b; revert b; decide +kernel

end Str
end OnePass
