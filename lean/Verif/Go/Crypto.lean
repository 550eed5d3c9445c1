/-
The primitives the program really uses: AES, HMAC-SHA256, SHA-512 and PBKDF2-HMAC-SHA512 satisfy the laws of `Crypto`.
-/
import Verif.Go.Aes
import Verif.Go.Sha

namespace OnePass

/-- The primitives of the Go libraries. -/
def Crypto.std : Crypto where
  hmac := Sha.hmac Sha.k256
  sha512 := Sha.hash Sha.k512
  pbkdf2 := Sha.pbkdf2 Sha.k512
  dec := Aes.dec
  enc := Aes.enc
  hmac_len k m := Sha.hmac_len _ k m
  sha512_len m := Sha.hash_len _ m
  pbkdf2_len p s i n := Sha.pbkdf2_len _ p s i n (by decide)
  dec_len := Aes.dec_len
  enc_len := Aes.enc_len
  dec_enc := Aes.dec_enc

/-- FIPS 180-4 examples, and a message of more than one block. -/
theorem sha256_abc : Sha.hash Sha.k256 b!"abc" = [186, 120, 22, 191, 143, 1, 207, 234, 65, 65, 64, 222, 93, 174, 34, 35, 176, 3, 97, 163, 150, 23, 122, 156, 180, 16, 255, 97, 242, 0, 21, 173] := by decide +kernel
theorem sha512_abc : Crypto.std.sha512 b!"abc" = [221, 175, 53, 161, 147, 97, 122, 186, 204, 65, 115, 73, 174, 32, 65, 49, 18, 230, 250, 78, 137, 169, 126, 162, 10, 158, 238, 230, 75, 85, 211, 154, 33, 146, 153, 42, 39, 79, 193, 168, 54, 186, 60, 35, 163, 254, 235, 189, 69, 77, 68, 35, 100, 60, 232, 14, 42, 154, 201, 79, 165, 76, 164, 159] := by decide +kernel
theorem sha512_long : Crypto.std.sha512 (List.replicate 200 97) = [75, 17, 69, 156, 51, 245, 42, 34, 238, 130, 54, 120, 39, 20, 193, 80, 163, 178, 198, 9, 148, 233, 172, 238, 23, 254, 104, 148, 122, 62, 103, 137, 243, 30, 118, 104, 57, 69, 146, 218, 123, 239, 130, 124, 221, 202, 136, 196, 230, 248, 110, 77, 247, 237, 26, 230, 203, 167, 31, 62, 152, 250, 238, 159] := by decide +kernel
/-- RFC 4231, test cases 2 and 6 (a key longer than a block). -/
theorem rfc4231_2 : Crypto.std.hmac b!"Jefe" b!"what do ya want for nothing?" = [91, 220, 193, 70, 191, 96, 117, 78, 106, 4, 36, 38, 8, 149, 117, 199, 90, 0, 63, 8, 157, 39, 57, 131, 157, 236, 88, 185, 100, 236, 56, 67] := by
  decide +kernel
theorem rfc4231_6 : Crypto.std.hmac (List.replicate 131 170) b!"Test Using Larger Than Block-Size Key - Hash Key First" =
    [96, 228, 49, 89, 30, 224, 182, 127, 13, 138, 38, 170, 203, 245, 183, 127, 142, 11, 198, 33, 55, 40, 197, 20, 5, 70, 4, 15, 14, 227, 127, 84] := by decide +kernel
/-- PBKDF2-HMAC-SHA512 with three iterations, 80 bytes. -/
theorem pbkdf2_3 : Crypto.std.pbkdf2 b!"password" b!"salt" 3 80 =
    [182, 176, 124, 178, 206, 191, 74, 216, 68, 104, 57, 26, 84, 56, 36, 252, 207, 254, 14, 7, 105, 219, 230, 189, 223, 16, 166, 86, 115, 196, 182, 72, 230, 18, 212, 73, 24, 249, 206, 154, 25, 161, 41, 76, 245, 20, 6, 40, 8, 75, 169, 148, 195, 178, 26, 78, 244, 116, 18, 32, 184, 17, 198, 51, 207, 192, 100, 31, 204, 188, 196, 22, 79, 27, 191, 203, 31, 51, 245, 149] := by decide +kernel

end OnePass
