/-
RFC 8259 (JSON), RFC 3629 (UTF-8) and RFC 4648 (base64), written down without reference to the parser.
-/
import Verif.Go.Json

namespace OnePass
namespace Rfc

/-- RFC 3629: the bytes that stand for a character. -/
inductive Utf8 : Nat → Bytes → Prop
  | one {c : Nat} : c < 128 → Utf8 c [UInt8.ofNat c]
  | two {x y : Nat} : x < 32 → y < 64 → 128 ≤ 64 * x + y → Utf8 (64 * x + y) [UInt8.ofNat (192 + x), UInt8.ofNat (128 + y)]
  | three {x y z : Nat} : x < 16 → y < 64 → z < 64 → 2048 ≤ 4096 * x + 64 * y + z →
      ¬ (55296 ≤ 4096 * x + 64 * y + z ∧ 4096 * x + 64 * y + z < 57344) →
      Utf8 (4096 * x + 64 * y + z) [UInt8.ofNat (224 + x), UInt8.ofNat (128 + y), UInt8.ofNat (128 + z)]
  | four {x y z v : Nat} : x < 8 → y < 64 → z < 64 → v < 64 → 65536 ≤ 262144 * x + 4096 * y + 64 * z + v →
      262144 * x + 4096 * y + 64 * z + v < 1114112 →
      Utf8 (262144 * x + 4096 * y + 64 * z + v)
        [UInt8.ofNat (240 + x), UInt8.ofNat (128 + y), UInt8.ofNat (128 + z), UInt8.ofNat (128 + v)]

/-- Space, tab, line feed, carriage return. -/
def White (w : Bytes) : Prop := ∀ b ∈ w, b ∈ b!" \t\n\r"

/-- The value of a hexadecimal digit. -/
def Hex (b : UInt8) (v : Nat) : Prop := b!"0123456789abcdef"[v]? = some b ∨ b!"0123456789ABCDEF"[v]? = some b

/-- The number of a `\u` escape. -/
def Code (a b c d : UInt8) (n : Nat) : Prop :=
  ∃ i j k l, Hex a i ∧ Hex b j ∧ Hex c k ∧ Hex d l ∧ n = 4096 * i + 256 * j + 16 * k + l

/-- The escapes of one letter. -/
def escapes : List (UInt8 × UInt8) := [(34, 34), (92, 92), (47, 47), (98, 8), (102, 12), (110, 10), (114, 13), (116, 9)]

/-- The character U+FFFD. -/
def unknown : Bytes := [239, 191, 189]

/-- The text between the quotes and the string it stands for. -/
inductive Str : Bytes → Bytes → Prop
  | nil : Str [] []
  | char {c : Nat} {u t s : Bytes} : Utf8 c u → 32 ≤ c → c ≠ 34 → c ≠ 92 → Str t s → Str (u ++ t) (u ++ s)
  | esc {e c : UInt8} {t s : Bytes} : (e, c) ∈ escapes → Str t s → Str (92 :: e :: t) (c :: s)
  | code {a b c d : UInt8} {n : Nat} {u t s : Bytes} : Code a b c d n → Utf8 n u → Str t s →
      Str (92 :: 117 :: a :: b :: c :: d :: t) (u ++ s)
  | pair {a b c d a' b' c' d' : UInt8} {x y : Nat} {u t s : Bytes} : x < 1024 → y < 1024 →
      Code a b c d (55296 + x) → Code a' b' c' d' (56320 + y) → Utf8 (65536 + 1024 * x + y) u → Str t s →
      Str (92 :: 117 :: a :: b :: c :: d :: 92 :: 117 :: a' :: b' :: c' :: d' :: t) (u ++ s)
  /-- What the RFC does not allow and Go reads as U+FFFD: a byte that begins no character … -/
  | bad {b : UInt8} {t s : Bytes} : (∀ c u r, Utf8 c u → b :: t ≠ u ++ r) → Str t s → Str (b :: t) (unknown ++ s)
  /-- … the first half of a pair without a second behind it … -/
  | high {a b c d : UInt8} {x : Nat} {t s : Bytes} : x < 1024 → Code a b c d (55296 + x) →
      (∀ a' b' c' d' y t', y < 1024 → Code a' b' c' d' (56320 + y) → t ≠ 92 :: 117 :: a' :: b' :: c' :: d' :: t') →
      Str t s → Str (92 :: 117 :: a :: b :: c :: d :: t) (unknown ++ s)
  /-- … and a second half alone. -/
  | low {a b c d : UInt8} {y : Nat} {t s : Bytes} : y < 1024 → Code a b c d (56320 + y) →
      Str t s → Str (92 :: 117 :: a :: b :: c :: d :: t) (unknown ++ s)

/-- Decimal digits. -/
def Digits (l : Bytes) : Prop := ∀ b ∈ l, b ∈ b!"0123456789"

/-- A number literal. -/
def Num (t : Bytes) : Prop :=
  ∃ sign i fr e, t = sign ++ i ++ fr ++ e ∧ (sign = [] ∨ sign = b!"-") ∧
    (i = b!"0" ∨ ∃ b r, i = b :: r ∧ b ∈ b!"123456789" ∧ Digits r) ∧
    (fr = [] ∨ ∃ r, fr = b!"." ++ r ∧ r ≠ [] ∧ Digits r) ∧
    (e = [] ∨ ∃ b s r, e = b :: s ++ r ∧ b ∈ b!"eE" ∧ (s = [] ∨ s = b!"+" ∨ s = b!"-") ∧ r ≠ [] ∧ Digits r)

mutual

/-- The text is a rendering of the value with at most `d` levels of nesting. -/
inductive Val : Nat → Bytes → Json → Prop
  | null {d} : Val d b!"null" .null
  | tru {d} : Val d b!"true" (.bool true)
  | fls {d} : Val d b!"false" (.bool false)
  | num {d t} : Num t → Val d t (.num t)
  | str {d t s} : Str t s → Val d (b!"\"" ++ t ++ b!"\"") (.str s)
  | arr0 {d w} : White w → Val (d + 1) (b!"[" ++ w ++ b!"]") (.arr [])
  | arr {d w t l} : White w → Elems d t l → Val (d + 1) (b!"[" ++ w ++ t ++ b!"]") (.arr l)
  | obj0 {d w} : White w → Val (d + 1) (b!"{" ++ w ++ b!"}") (.obj [])
  | obj {d w t m} : White w → Mems d t m → Val (d + 1) (b!"{" ++ w ++ t ++ b!"}") (.obj m)

/-- One or more elements, separated by commas. -/
inductive Elems : Nat → Bytes → List Json → Prop
  | one {d t j w} : Val d t j → White w → Elems d (t ++ w) [j]
  | cons {d t j w w' ts l} : Val d t j → White w → White w' → Elems d ts l → Elems d (t ++ w ++ b!"," ++ w' ++ ts) (j :: l)

/-- One or more members, separated by commas. -/
inductive Mems : Nat → Bytes → Members → Prop
  | one {d kt k w1 w2 t j w3} : Str kt k → White w1 → White w2 → Val d t j → White w3 →
      Mems d (b!"\"" ++ kt ++ b!"\"" ++ w1 ++ b!":" ++ w2 ++ t ++ w3) [(k, j)]
  | cons {d kt k w1 w2 t j w3 w4 ts m} : Str kt k → White w1 → White w2 → Val d t j → White w3 → White w4 → Mems d ts m →
      Mems d (b!"\"" ++ kt ++ b!"\"" ++ w1 ++ b!":" ++ w2 ++ t ++ w3 ++ b!"," ++ w4 ++ ts) ((k, j) :: m)

end

/-- A document; Go allows ten thousand levels of nesting. -/
def Doc (t : Bytes) (j : Json) : Prop := ∃ w1 t' w2, White w1 ∧ White w2 ∧ Val 10000 t' j ∧ t = w1 ++ t' ++ w2

/-- RFC 4648: the value of a letter of the base64 alphabet. -/
def Digit (b : UInt8) (v : Nat) : Prop := b!"ABCDEFGHIJKLMNOPQRSTUVWXYZabcdefghijklmnopqrstuvwxyz0123456789+/"[v]? = some b

/-- RFC 4648: a text without line breaks and the bytes it stands for. Bits left over in the last group may be anything. -/
inductive Base64 : Bytes → Bytes → Prop
  | nil : Base64 [] []
  | four {a b c d x y z : UInt8} {i j k l : Nat} {t s : Bytes} : Digit a i → Digit b j → Digit c k → Digit d l →
      65536 * x.toNat + 256 * y.toNat + z.toNat = 262144 * i + 4096 * j + 64 * k + l → Base64 t s →
      Base64 (a :: b :: c :: d :: t) (x :: y :: z :: s)
  | three {a b c x y : UInt8} {i j k r : Nat} : Digit a i → Digit b j → Digit c k → r < 4 →
      4 * (256 * x.toNat + y.toNat) + r = 4096 * i + 64 * j + k → Base64 (a :: b :: c :: b!"=") [x, y]
  | two {a b x : UInt8} {i j r : Nat} : Digit a i → Digit b j → r < 16 →
      16 * x.toNat + r = 64 * i + j → Base64 (a :: b :: b!"==") [x]

end Rfc
end OnePass
