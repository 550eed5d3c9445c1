/-
MD5 (RFC 1321), as in crypto/md5. Words are natural numbers below 2^32.
-/
import Verif.Go.Env

namespace OnePass
namespace Md5

/-- RFC 1321, 3.4: the integer part of 2^32 times abs(sin(i)), i from 1 to 64. -/
def table : List Nat := [
  3614090360, 3905402710, 606105819, 3250441966, 4118548399, 1200080426, 2821735955, 4249261313,
  1770035416, 2336552879, 4294925233, 2304563134, 1804603682, 4254626195, 2792965006, 1236535329,
  4129170786, 3225465664, 643717713, 3921069994, 3593408605, 38016083, 3634488961, 3889429448,
  568446438, 3275163606, 4107603335, 1163531501, 2850285829, 4243563512, 1735328473, 2368359562,
  4294588738, 2272392833, 1839030562, 4259657740, 2763975236, 1272893353, 4139469664, 3200236656,
  681279174, 3936430074, 3572445317, 76029189, 3654602809, 3873151461, 530742520, 3299628645,
  4096336452, 1126891415, 2878612391, 4237533241, 1700485571, 2399980690, 4293915773, 2240044497,
  1873313359, 4264355552, 2734768916, 1309151649, 4149444226, 3174756917, 718787259, 3951481745]

/-- The rotations of the four rounds. -/
def shifts : List (List Nat) := [[7, 12, 17, 22], [5, 9, 14, 20], [4, 11, 16, 23], [6, 10, 15, 21]]

def low (x : Nat) : Nat := x % 4294967296

def rotl (n x : Nat) : Nat := low (x <<< n) ||| (x >>> (32 - n))

/-- RFC 1321, 3.4: the functions F, G, H, I and the word of the block that step `i` uses. -/
def mix (i b c d : Nat) : Nat × Nat :=
  if i < 16 then ((b &&& c) ||| ((4294967295 - b) &&& d), i)
  else if i < 32 then ((d &&& b) ||| ((4294967295 - d) &&& c), (5 * i + 1) % 16)
  else if i < 48 then (b ^^^ c ^^^ d, (3 * i + 5) % 16)
  else (c ^^^ (b ||| (4294967295 - d)), (7 * i) % 16)

/-- One step. -/
def step (m : List Nat) (s : Nat × Nat × Nat × Nat) (i : Nat) : Nat × Nat × Nat × Nat :=
  match s with
  | (a, b, c, d) =>
    let f := mix i b c d
    let r := ((shifts.getD (i / 16) []).getD (i % 4) 0)
    (d, low (b + rotl r (low (a + f.1 + table.getD i 0 + m.getD f.2 0))), b, c)

/-- Little endian. -/
def word (b : Bytes) : Nat := b.foldr (fun x a => x.toNat + 256 * a) 0

def bytes : Nat → Nat → Bytes
  | 0, _ => []
  | n + 1, x => UInt8.ofNat (x % 256) :: bytes n (x / 256)

def chunks (n : Nat) : Nat → Bytes → List Bytes
  | 0, _ => []
  | f + 1, b => if b = [] then [] else b.take n :: chunks n f (b.drop n)

/-- One block of 64 bytes. -/
def block (s : Nat × Nat × Nat × Nat) (b : Bytes) : Nat × Nat × Nat × Nat :=
  let m := (chunks 4 16 b).map word
  match s, (List.range 64).foldl (step m) s with
  | (a, b, c, d), (a', b', c', d') => (low (a + a'), low (b + b'), low (c + c'), low (d + d'))

/-- RFC 1321, 3.1, 3.2. -/
def pad (b : Bytes) : Bytes :=
  b ++ 128 :: List.replicate ((119 - b.length % 64) % 64) 0 ++ bytes 8 (8 * b.length)

/-- `md5.Sum`. -/
def sum (b : Bytes) : Bytes :=
  match (chunks 64 (b.length / 64 + 2) (pad b)).foldl block (1732584193, 4023233417, 2562383102, 271733878) with
  | (a, b, c, d) => bytes 4 a ++ bytes 4 b ++ bytes 4 c ++ bytes 4 d

theorem bytes_len (n x : Nat) : (bytes n x).length = n := by
  induction n generalizing x with
  | zero => rfl
  | succ n ih => simp [bytes, ih]

theorem sum_len (b : Bytes) : (sum b).length = 16 := by
  unfold sum
  generalize (chunks 64 (b.length / 64 + 2) (pad b)).foldl block _ = r
  obtain ⟨a, b, c, d⟩ := r
  simp [bytes_len]

/-- The test suite of RFC 1321, A.5. -/
theorem rfc1321 : sum b!"" =
      [212, 29, 140, 217, 143, 0, 178, 4, 233, 128, 9, 152, 236, 248, 66, 126] ∧
    sum b!"a" =
      [12, 193, 117, 185, 192, 241, 182, 168, 49, 195, 153, 226, 105, 119, 38, 97] ∧
    sum b!"abc" =
      [144, 1, 80, 152, 60, 210, 79, 176, 214, 150, 63, 125, 40, 225, 127, 114] ∧
    sum b!"message digest" =
      [249, 107, 105, 125, 124, 183, 147, 141, 82, 90, 47, 49, 170, 241, 97, 208] ∧
    sum b!"abcdefghijklmnopqrstuvwxyz" =
      [195, 252, 211, 215, 97, 146, 228, 0, 125, 251, 73, 108, 202, 103, 225, 59] ∧
    sum b!"ABCDEFGHIJKLMNOPQRSTUVWXYZabcdefghijklmnopqrstuvwxyz0123456789" =
      [209, 116, 171, 152, 210, 119, 217, 245, 165, 97, 28, 44, 159, 65, 157, 159] ∧
    sum b!"12345678901234567890123456789012345678901234567890123456789012345678901234567890" =
      [87, 237, 244, 162, 43, 227, 201, 85, 172, 73, 218, 46, 33, 7, 182, 122] := by decide +kernel

/-- Lengths around the border of a block. -/
theorem borders : sum (List.replicate 55 97) =
      [239, 23, 114, 182, 223, 249, 161, 34, 53, 133, 82, 149, 74, 208, 223, 101] ∧
    sum (List.replicate 56 97) =
      [59, 12, 138, 199, 3, 248, 40, 176, 76, 108, 25, 112, 6, 209, 114, 24] ∧
    sum (List.replicate 63 97) =
      [176, 101, 33, 243, 145, 83, 214, 24, 85, 6, 6, 190, 41, 116, 102, 213] ∧
    sum (List.replicate 64 97) =
      [1, 72, 66, 212, 128, 181, 113, 73, 90, 74, 3, 99, 121, 63, 115, 103] ∧
    sum (List.replicate 119 97) =
      [138, 123, 208, 115, 46, 214, 162, 140, 231, 95, 109, 171, 201, 14, 22, 19] ∧
    sum (List.replicate 120 97) =
      [95, 97, 192, 204, 173, 76, 172, 68, 199, 95, 245, 5, 225, 241, 229, 55] := by decide +kernel

end Md5
end OnePass
