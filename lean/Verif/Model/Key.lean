/-
1pass-core/core/service/keyservice.go.
-/
import Verif.Model.Profile
import Verif.Go.Base64

namespace OnePass
namespace Key

/-- keyservice.go:34-53 `CheckHmac`: nil iff the computed MAC equals the desired one. `hash.Write` never
fails (hash.Hash contract), so the other two errors cannot occur; `hmac.Equal` is equality. -/
def checkHmac (E : Env) (msg key desired : Bytes) : Option Err :=
  if E.crypto.hmac key msg = desired then none else some .invalidHmac

/-- xor of two blocks. -/
def xorB (a b : Bytes) : Bytes := List.zipWith (· ^^^ ·) a b

/-- `CryptBlocks` of a CBC decrypter on `n` blocks (crypto/cipher/cbc.go): each plaintext block is the
decrypted block xor the previous ciphertext block, the IV for the first. -/
def cbcDec (E : Env) (key : Bytes) : Nat → Bytes → Bytes → Bytes
  | 0, _, _ => []
  | n + 1, iv, data =>
    xorB (E.crypto.dec key (data.take 16)) iv ++ cbcDec E key n (data.take 16) (data.drop 16)

/-- `aes.NewCipher` accepts exactly these key sizes. -/
def keySizeOk (key : Bytes) : Bool := key.length == 16 || key.length == 24 || key.length == 32

/-- Result of `aes.NewCipher` failing. -/
def errKeySize : Err := .stdlib b!"crypto/aes: invalid key size"

/-- keyservice.go:55-66 `DecodeData`: decrypts in place and returns the same slice. Panics if the IV is
not one block (cipher.NewCBCDecrypter) or the data not a whole number of blocks (CryptBlocks). -/
def decodeData (E : Env) (key iv : Bytes) (data : Slice) : Out (Except Err Slice) :=
  if !keySizeOk key then .ret (.error errKeySize)
  else if iv.length ≠ 16 then .panic
  else if data.len % 16 ≠ 0 then .panic
  else
    .ret (.ok { buf := cbcDec E key (data.len / 16) iv data.data ++ data.buf.drop data.len, len := data.len })

/-- Little-endian unsigned value. -/
def leNat : Bytes → Nat
  | [] => 0
  | b :: r => b.toNat + 256 * leNat r

/-- `binary.Read(reader, binary.LittleEndian, &plainSize)` on 8 bytes: a signed 64-bit value. -/
def leInt64 (b : Bytes) : Int :=
  if leNat b < 9223372036854775808 then leNat b else (leNat b : Int) - 18446744073709551616

/-- keyservice.go:86-107 `DecodeOpdata` (order of evaluation as in Go: the slice expressions of line 100
are evaluated before the call). Also gives the contents of the caller's backing array afterwards: the
data is decrypted in place (line 63).
Simplification: `len(plain)-int(plainSize)` is computed without wrap-around; when Go's subtraction would
wrap (`plainSize` near -2^63) both give an index outside the slice, hence the same panic. -/
def decodeOpdata (E : Env) (cipherText : Slice) (key macKey : Bytes) :
    Out (Except Err Bytes × Bytes) := do
  let n : Int := cipherText.len
  let data ← cipherText.upto (n - 32)                       -- line 87
  let mac ← cipherText.suffix (n - 32)                      -- line 87
  match checkHmac E data.data macKey mac.data with          -- line 89
  | some e => pure (.error e, cipherText.buf)
  | none =>
    let sizeS ← data.sub 8 16                               -- line 94
    let plainSize := leInt64 sizeS.data                     -- line 96
    let iv ← data.sub 16 32                                 -- line 100
    let body ← data.suffix 32                               -- line 100
    match ← decodeData E key iv.data body with
    | .error e => pure (.error e, cipherText.buf)
    | .ok plain =>
      let r ← plain.suffix ((plain.len : Int) - plainSize)  -- line 106
      pure (.ok r.data, cipherText.buf.take 32 ++ plain.buf)

/-- The value `DecodeOpdata` returns, without the effect on the buffer. -/
def opdata (E : Env) (cipherText : Slice) (key macKey : Bytes) : Out (Except Err Bytes) :=
  (fun r => r.1) <$> decodeOpdata E cipherText key macKey

/-- keyservice.go:68-84 `DecodeKeys`. -/
def decodeKeys (E : Env) (key : Slice) (derivedKey derivedMac : Bytes) : Out (Except Err (Bytes × Bytes)) := do
  match ← opdata E key derivedKey derivedMac with
  | .error e => pure (.error e)
  | .ok base =>
    let keys := Slice.ofBytes (E.crypto.sha512 base)
    let a ← keys.sub 0 32
    let b ← keys.sub 32 64
    pure (.ok (a.data, b.data))

/-- The base64 error of `DecodeString`. -/
def errBase64 : Err := .stdlib b!"illegal base64 data"

/-- keyservice.go:109-120 `DerivedKeys`. -/
def derivedKeys (E : Env) (p : Profile) (password : Bytes) : Out (Except Err (Bytes × Bytes)) := do
  let iterations ← p.getIterations E
  let saltText ← p.getSalt
  let salt := B64.decodeString saltText
  if salt.2 then pure (.error errBase64)
  else
    let keys := Slice.ofBytes (E.crypto.pbkdf2 password salt.1.data iterations 64)
    let a ← keys.sub 0 32
    let b ← keys.suffix 32
    pure (.ok (a.data, b.data))

/-- keyservice.go:122-128 `ItemKeys`: base64 error ignored, MAC not looked at, cipher error ignored
(then `plain` is nil and line 127 panics). -/
def itemKeys (E : Env) (itemKeysText masterKey : Bytes) : Out (Bytes × Bytes) := do
  let blob := (B64.decodeString itemKeysText).1
  let data ← blob.upto ((blob.len : Int) - 32)
  let iv ← data.sub 0 16
  let body ← data.suffix 16
  match ← decodeData E masterKey iv.data body with
  | .error _ => .panic
  | .ok plain =>
    let a ← plain.sub 0 32
    let b ← plain.sub 32 64
    pure (a.data, b.data)

/-- keyservice.go:130-138 `MasterKeys`. -/
def masterKeys (E : Env) (p : Profile) (derivedKey derivedMac : Bytes) : Out (Except Err (Bytes × Bytes)) := do
  let text ← p.getMasterKey
  let encoded := B64.decodeString text
  if encoded.2 then pure (.error errBase64)
  else decodeKeys E encoded.1 derivedKey derivedMac

/-- keyservice.go:140-148 `OverviewKeys`. -/
def overviewKeys (E : Env) (p : Profile) (derivedKey derivedMac : Bytes) : Out (Except Err (Bytes × Bytes)) := do
  let text ← p.getOverviewKey
  let encoded := B64.decodeString text
  if encoded.2 then pure (.error errBase64)
  else decodeKeys E encoded.1 derivedKey derivedMac

end Key
end OnePass
