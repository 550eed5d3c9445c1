/-
The opdata01 format as a vault *writer* produces it (the published OPVault design), and CBC decryption
stated block by block. Independent of the code under test.
-/
import Verif.Go.Env

namespace OnePass
namespace Spec

/-- xor of two byte strings, position by position. -/
def xor (a b : Bytes) : Bytes := List.zipWith (· ^^^ ·) a b

/-- CBC encryption of `n` blocks. -/
def cbcEnc (E : Env) (key : Bytes) : Nat → Bytes → Bytes → Bytes
  | 0, _, _ => []
  | n + 1, iv, plain =>
    let c := E.crypto.enc key (xor (plain.take 16) iv)
    c ++ cbcEnc E key n c (plain.drop 16)

/-- The 8 bytes of a length, least significant first. -/
def le64 (n : Nat) : Bytes :=
  (List.range 8).map (fun i => UInt8.ofNat (n / 256 ^ i))

/-- Everything before the MAC: tag, length, IV, encrypted padding and plaintext. -/
def opdataHead (E : Env) (key tag iv pad p : Bytes) : Bytes :=
  tag ++ le64 p.length ++ iv ++ cbcEnc E key ((pad ++ p).length / 16) iv (pad ++ p)

/-- The packed item. -/
def pack (E : Env) (key mac tag iv pad p : Bytes) : Bytes :=
  opdataHead E key tag iv pad p ++ E.crypto.hmac mac (opdataHead E key tag iv pad p)

/-- Side conditions on what is packed: an 8-byte tag (`opdata01`), a one-block IV, padding that fills up
a block, an AES key size, a length that fits into 63 bits. -/
structure Packable (key tag iv pad p : Bytes) : Prop where
  key_size : key.length = 16 ∨ key.length = 24 ∨ key.length = 32
  tag_len : tag.length = 8
  iv_len : iv.length = 16
  blocks : (pad.length + p.length) % 16 = 0
  fits : p.length < 9223372036854775808

/-- The `i`-th 16-byte block. -/
def block (b : Bytes) (i : Nat) : Bytes := (b.drop (16 * i)).take 16

/-- `p` is the CBC decryption of `c`: every block is the decrypted block xor the block before. -/
def CbcDecrypted (E : Env) (key iv c p : Bytes) : Prop :=
  p.length = c.length ∧
  ∀ i, 16 * (i + 1) ≤ c.length →
    block p i = xor (E.crypto.dec key (block c i)) (if i = 0 then iv else block c (i - 1))

/-- The declared length: bytes 8 to 15, least significant first, as a signed 64-bit number. -/
def declared (d : Bytes) : Int :=
  let u : Nat := ((List.range 8).map (fun i => (d.getD (8 + i) 0).toNat * 256 ^ i)).sum
  if u < 9223372036854775808 then u else (u : Int) - 18446744073709551616

end Spec
end OnePass
