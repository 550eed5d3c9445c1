/-
The external primitives the program calls, as parameters. Every theorem quantifies over all of them;
the laws listed here are the only facts used about them. `Env.toy` shows that the laws are satisfiable.
-/
import Verif.Go.Strconv

namespace OnePass

/-- Keyed hashes and the block cipher. -/
structure Crypto where
  /-- HMAC-SHA256 of a message under a key (key first). -/
  hmac : Bytes → Bytes → Bytes
  /-- SHA-512. -/
  sha512 : Bytes → Bytes
  /-- `pbkdf2.Key(password, salt, iterations, keyLength, sha512.New)`. -/
  pbkdf2 : Bytes → Bytes → Int → Nat → Bytes
  /-- AES decryption of one block (key first). -/
  dec : Bytes → Bytes → Bytes
  /-- AES encryption of one block; used only by specifications of what a vault writer does. -/
  enc : Bytes → Bytes → Bytes
  hmac_len : ∀ k m, (hmac k m).length = 32
  sha512_len : ∀ m, (sha512 m).length = 64
  pbkdf2_len : ∀ p s i n, (pbkdf2 p s i n).length = n
  dec_len : ∀ k b, b.length = 16 → (dec k b).length = 16
  enc_len : ∀ k b, b.length = 16 → (enc k b).length = 16
  dec_enc : ∀ k b, b.length = 16 → dec k (enc k b) = b

/-- `float64` as the program uses it: a JSON number literal converted to an integer or printed. -/
structure Flt where
  /-- `int64(x)` for the float64 `x` nearest to the literal. -/
  toInt : Bytes → Int
  /-- `fmt.Sprint(x)`. -/
  sprint : Bytes → Bytes
  toInt_dec : ∀ n : Int, -9007199254740992 ≤ n → n ≤ 9007199254740992 → toInt (Num.intDec n) = n
  sprint_dec : ∀ n : Int, -9007199254740992 ≤ n → n ≤ 9007199254740992 → sprint (Num.intDec n) = Num.sprintFloatInt n

/-- All external primitives. `zone` is the offset of the local time zone at a Unix time. -/
structure Env where
  text : Text
  flt : Flt
  crypto : Crypto
  zone : Int → Int

/-! ### A toy instance, used only for non-vacuity examples and refuting witnesses -/

/-- Pad or cut to a length. -/
def fit (n : Nat) (b : Bytes) : Bytes := (b ++ List.replicate n 0).take n

theorem fit_len (n : Nat) (b : Bytes) : (fit n b).length = n := by simp [fit]

/-- Sum of the bytes, as a byte. -/
def sumB (b : Bytes) : UInt8 := b.foldl (· + ·) 0

/-- Toy primitives: nothing here is cryptography; the laws are all that counts. The block cipher is the
identity; the hashes mix in the key and every byte. -/
def Crypto.toy : Crypto where
  hmac k m := fit 32 (sumB k :: sumB m :: m)
  sha512 m := fit 64 (sumB m :: m)
  pbkdf2 p s i n := fit n (p ++ s ++ [UInt8.ofNat i.toNat])
  dec _ b := b
  enc _ b := b
  hmac_len _ _ := fit_len _ _
  sha512_len _ := fit_len _ _
  pbkdf2_len _ _ _ _ := fit_len _ _
  dec_len _ _ h := h
  enc_len _ _ h := h
  dec_enc _ _ _ := rfl

/-- Integer literals only. -/
def Flt.toy : Flt where
  toInt t := (Num.parseInt t).1
  sprint t := Num.sprintFloatInt (Num.parseInt t).1
  toInt_dec n h1 h2 := by rw [Num.parseInt_intDec n (by omega) (by omega)]
  sprint_dec n h1 h2 := by rw [Num.parseInt_intDec n (by omega) (by omega)]

def Text.toy : Text where
  lowerU s := s
  titleU s := s

def Env.toy : Env where
  text := .toy
  flt := .toy
  crypto := .toy
  zone _ := 0

end OnePass
