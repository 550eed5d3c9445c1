/-
AES (FIPS 197), as in crypto/aes: the block cipher and its inverse.
-/
import Verif.Go.Env

namespace OnePass
namespace Aes

/-- FIPS 197, figure 7: the S-box. -/
def sboxTable : List UInt8 :=
  [99, 124, 119, 123, 242, 107, 111, 197, 48, 1, 103, 43, 254, 215, 171, 118,
   202, 130, 201, 125, 250, 89, 71, 240, 173, 212, 162, 175, 156, 164, 114, 192,
   183, 253, 147, 38, 54, 63, 247, 204, 52, 165, 229, 241, 113, 216, 49, 21,
   4, 199, 35, 195, 24, 150, 5, 154, 7, 18, 128, 226, 235, 39, 178, 117,
   9, 131, 44, 26, 27, 110, 90, 160, 82, 59, 214, 179, 41, 227, 47, 132,
   83, 209, 0, 237, 32, 252, 177, 91, 106, 203, 190, 57, 74, 76, 88, 207,
   208, 239, 170, 251, 67, 77, 51, 133, 69, 249, 2, 127, 80, 60, 159, 168,
   81, 163, 64, 143, 146, 157, 56, 245, 188, 182, 218, 33, 16, 255, 243, 210,
   205, 12, 19, 236, 95, 151, 68, 23, 196, 167, 126, 61, 100, 93, 25, 115,
   96, 129, 79, 220, 34, 42, 144, 136, 70, 238, 184, 20, 222, 94, 11, 219,
   224, 50, 58, 10, 73, 6, 36, 92, 194, 211, 172, 98, 145, 149, 228, 121,
   231, 200, 55, 109, 141, 213, 78, 169, 108, 86, 244, 234, 101, 122, 174, 8,
   186, 120, 37, 46, 28, 166, 180, 198, 232, 221, 116, 31, 75, 189, 139, 138,
   112, 62, 181, 102, 72, 3, 246, 14, 97, 53, 87, 185, 134, 193, 29, 158,
   225, 248, 152, 17, 105, 217, 142, 148, 155, 30, 135, 233, 206, 85, 40, 223,
   140, 161, 137, 13, 191, 230, 66, 104, 65, 153, 45, 15, 176, 84, 187, 22]

/-- FIPS 197, figure 14: the inverse S-box. -/
def invTable : List UInt8 :=
  [82, 9, 106, 213, 48, 54, 165, 56, 191, 64, 163, 158, 129, 243, 215, 251,
   124, 227, 57, 130, 155, 47, 255, 135, 52, 142, 67, 68, 196, 222, 233, 203,
   84, 123, 148, 50, 166, 194, 35, 61, 238, 76, 149, 11, 66, 250, 195, 78,
   8, 46, 161, 102, 40, 217, 36, 178, 118, 91, 162, 73, 109, 139, 209, 37,
   114, 248, 246, 100, 134, 104, 152, 22, 212, 164, 92, 204, 93, 101, 182, 146,
   108, 112, 72, 80, 253, 237, 185, 218, 94, 21, 70, 87, 167, 141, 157, 132,
   144, 216, 171, 0, 140, 188, 211, 10, 247, 228, 88, 5, 184, 179, 69, 6,
   208, 44, 30, 143, 202, 63, 15, 2, 193, 175, 189, 3, 1, 19, 138, 107,
   58, 145, 17, 65, 79, 103, 220, 234, 151, 242, 207, 206, 240, 180, 230, 115,
   150, 172, 116, 34, 231, 173, 53, 133, 226, 249, 55, 232, 28, 117, 223, 110,
   71, 241, 26, 113, 29, 41, 197, 137, 111, 183, 98, 14, 170, 24, 190, 27,
   252, 86, 62, 75, 198, 210, 121, 32, 154, 219, 192, 254, 120, 205, 90, 244,
   31, 221, 168, 51, 136, 7, 199, 49, 177, 18, 16, 89, 39, 128, 236, 95,
   96, 81, 127, 169, 25, 181, 74, 13, 45, 229, 122, 159, 147, 201, 156, 239,
   160, 224, 59, 77, 174, 42, 245, 176, 200, 235, 187, 60, 131, 83, 153, 97,
   23, 43, 4, 126, 186, 119, 214, 38, 225, 105, 20, 99, 85, 33, 12, 125]

def sbox (x : UInt8) : UInt8 := sboxTable.getD x.toNat 0
def invSbox (x : UInt8) : UInt8 := invTable.getD x.toNat 0

theorem invSbox_sbox (x : UInt8) : invSbox (sbox x) = x := by
  have h : ∀ n : Fin 256, invSbox (sbox (UInt8.ofNat n.val)) = UInt8.ofNat n.val := by decide +kernel
  simpa using h ⟨x.toNat, x.toNat_lt⟩

/-! ### Steps of a round -/

def subBytes (s : Bytes) : Bytes := s.map sbox
def invSubBytes (s : Bytes) : Bytes := s.map invSbox

theorem invSub_sub (s : Bytes) : invSubBytes (subBytes s) = s := by
  simp [invSubBytes, subBytes, invSbox_sbox, Function.comp_def]

/-- FIPS 197, 5.1.2: byte `r` of column `c` comes from column `c + r`. -/
def shiftRows : Bytes → Bytes
  | [x0, x1, x2, x3, x4, x5, x6, x7, x8, x9, x10, x11, x12, x13, x14, x15] =>
    [x0, x5, x10, x15, x4, x9, x14, x3, x8, x13, x2, x7, x12, x1, x6, x11]
  | s => s

def invShiftRows : Bytes → Bytes
  | [x0, x1, x2, x3, x4, x5, x6, x7, x8, x9, x10, x11, x12, x13, x14, x15] =>
    [x0, x13, x10, x7, x4, x1, x14, x11, x8, x5, x2, x15, x12, x9, x6, x3]
  | s => s

/-- A list of 16. -/
theorem block {b : Bytes} (h : b.length = 16) : ∃ x0 x1 x2 x3 x4 x5 x6 x7 x8 x9 x10 x11 x12 x13 x14 x15, b = [x0, x1, x2, x3, x4, x5, x6, x7, x8, x9, x10, x11, x12, x13, x14, x15] := by
  rcases b with _ | ⟨x0, _ | ⟨x1, _ | ⟨x2, _ | ⟨x3, _ | ⟨x4, _ | ⟨x5, _ | ⟨x6, _ | ⟨x7, _ | ⟨x8, _ | ⟨x9, _ | ⟨x10, _ | ⟨x11, _ | ⟨x12,
    _ | ⟨x13, _ | ⟨x14, _ | ⟨x15, _ | ⟨x16, b⟩⟩⟩⟩⟩⟩⟩⟩⟩⟩⟩⟩⟩⟩⟩⟩⟩
  all_goals first | exact ⟨x0, x1, x2, x3, x4, x5, x6, x7, x8, x9, x10, x11, x12, x13, x14, x15, rfl⟩ | (simp only [List.length_cons, List.length_nil] at h; omega)

theorem shiftRows_len {s : Bytes} (h : s.length = 16) : (shiftRows s).length = 16 := by
  obtain ⟨x0, x1, x2, x3, x4, x5, x6, x7, x8, x9, x10, x11, x12, x13, x14, x15, rfl⟩ := block h
  rfl

theorem invShiftRows_len {s : Bytes} (h : s.length = 16) : (invShiftRows s).length = 16 := by
  obtain ⟨x0, x1, x2, x3, x4, x5, x6, x7, x8, x9, x10, x11, x12, x13, x14, x15, rfl⟩ := block h
  rfl

theorem invShift_shift {s : Bytes} (h : s.length = 16) : invShiftRows (shiftRows s) = s := by
  obtain ⟨x0, x1, x2, x3, x4, x5, x6, x7, x8, x9, x10, x11, x12, x13, x14, x15, rfl⟩ := block h
  rfl

/-- FIPS 197, 4.2.1: multiplication by x. -/
def xtime (x : UInt8) : UInt8 := (x <<< 1) ^^^ (if x >>> 7 = 0 then 0 else 27)

theorem xtime_xor (x y : UInt8) : xtime (x ^^^ y) = xtime x ^^^ xtime y := by
  have h : ∀ n : Fin 256, UInt8.ofNat n.val >>> 7 = 0 ∨ UInt8.ofNat n.val >>> 7 = 1 := by decide +kernel
  have hb : ∀ x : UInt8, x >>> 7 = 0 ∨ x >>> 7 = 1 := fun x => by simpa using h ⟨x.toNat, x.toNat_lt⟩
  unfold xtime
  rw [UInt8.shiftLeft_xor, UInt8.shiftRight_xor]
  rcases hb x with e | e <;> rcases hb y with e' | e' <;> rw [e, e']
  · simp
  · simp [UInt8.xor_assoc]
  · simp
    ac_rfl
  · simp
    rw [show x <<< 1 ^^^ (27 : UInt8) ^^^ (y <<< 1 ^^^ (27 : UInt8)) = x <<< 1 ^^^ y <<< 1 ^^^ ((27 : UInt8) ^^^ 27) by ac_rfl]
    simp

def m2 (x : UInt8) : UInt8 := xtime x
def m3 (x : UInt8) : UInt8 := xtime x ^^^ x
def m9 (x : UInt8) : UInt8 := xtime (xtime (xtime x)) ^^^ x
def m11 (x : UInt8) : UInt8 := xtime (xtime (xtime x)) ^^^ xtime x ^^^ x
def m13 (x : UInt8) : UInt8 := xtime (xtime (xtime x)) ^^^ xtime (xtime x) ^^^ x
def m14 (x : UInt8) : UInt8 := xtime (xtime (xtime x)) ^^^ xtime (xtime x) ^^^ xtime x

/-- FIPS 197, 5.1.3: the first byte of a column; the others are the same after rotation. -/
def mixRow (a b c d : UInt8) : UInt8 := m2 a ^^^ m3 b ^^^ c ^^^ d

def mixColumns : Bytes → Bytes
  | a :: b :: c :: d :: r => mixRow a b c d :: mixRow b c d a :: mixRow c d a b :: mixRow d a b c :: mixColumns r
  | s => s

/-- FIPS 197, 5.3.3. -/
def invRow (a b c d : UInt8) : UInt8 := m14 a ^^^ m11 b ^^^ m13 c ^^^ m9 d

def invMixColumns : Bytes → Bytes
  | a :: b :: c :: d :: r => invRow a b c d :: invRow b c d a :: invRow c d a b :: invRow d a b c :: invMixColumns r
  | s => s

theorem mixColumns_len (s : Bytes) : (mixColumns s).length = s.length := by
  fun_induction mixColumns s with
  | case1 a b c d r ih => simp [ih]
  | case2 s h => rfl

theorem invMixColumns_len (s : Bytes) : (invMixColumns s).length = s.length := by
  fun_induction invMixColumns s with
  | case1 a b c d r ih => simp [ih]
  | case2 s h => rfl

/-- All bytes. -/
theorem byBytes {f g : UInt8 → UInt8} (h : ∀ n : Fin 256, f (UInt8.ofNat n.val) = g (UInt8.ofNat n.val)) (x : UInt8) : f x = g x := by
  simpa using h ⟨x.toNat, x.toNat_lt⟩

theorem m9_xor (x y : UInt8) : m9 (x ^^^ y) = m9 x ^^^ m9 y := by simp only [m9, xtime_xor]; ac_rfl
theorem m11_xor (x y : UInt8) : m11 (x ^^^ y) = m11 x ^^^ m11 y := by simp only [m11, xtime_xor]; ac_rfl
theorem m13_xor (x y : UInt8) : m13 (x ^^^ y) = m13 x ^^^ m13 y := by simp only [m13, xtime_xor]; ac_rfl
theorem m14_xor (x y : UInt8) : m14 (x ^^^ y) = m14 x ^^^ m14 y := by simp only [m14, xtime_xor]; ac_rfl

/-- Sums by rows and by columns. -/
theorem by_columns (a b c d e f g h i j k l m n o p : UInt8) :
    (a ^^^ b ^^^ c ^^^ d) ^^^ (e ^^^ f ^^^ g ^^^ h) ^^^ (i ^^^ j ^^^ k ^^^ l) ^^^ (m ^^^ n ^^^ o ^^^ p) =
      (a ^^^ h ^^^ k ^^^ n) ^^^ (b ^^^ e ^^^ l ^^^ o) ^^^ (c ^^^ f ^^^ i ^^^ p) ^^^ (d ^^^ g ^^^ j ^^^ m) := by ac_rfl

/-- The two matrices are inverse to each other. -/
theorem one (x : UInt8) : m14 (m2 x) ^^^ m11 x ^^^ m13 x ^^^ m9 (m3 x) = x :=
  byBytes (f := fun x => m14 (m2 x) ^^^ m11 x ^^^ m13 x ^^^ m9 (m3 x)) (g := id) (by decide +kernel) x
theorem two (x : UInt8) : m14 (m3 x) ^^^ m11 (m2 x) ^^^ m13 x ^^^ m9 x = 0 :=
  byBytes (f := fun x => m14 (m3 x) ^^^ m11 (m2 x) ^^^ m13 x ^^^ m9 x) (g := fun _ => 0) (by decide +kernel) x
theorem three (x : UInt8) : m14 x ^^^ m11 (m3 x) ^^^ m13 (m2 x) ^^^ m9 x = 0 :=
  byBytes (f := fun x => m14 x ^^^ m11 (m3 x) ^^^ m13 (m2 x) ^^^ m9 x) (g := fun _ => 0) (by decide +kernel) x
theorem four (x : UInt8) : m14 x ^^^ m11 x ^^^ m13 (m3 x) ^^^ m9 (m2 x) = 0 :=
  byBytes (f := fun x => m14 x ^^^ m11 x ^^^ m13 (m3 x) ^^^ m9 (m2 x)) (g := fun _ => 0) (by decide +kernel) x

theorem column (a b c d : UInt8) : invRow (mixRow a b c d) (mixRow b c d a) (mixRow c d a b) (mixRow d a b c) = a := by
  simp only [invRow, mixRow, m9_xor, m11_xor, m13_xor, m14_xor]
  rw [by_columns, one, two, three, four]
  simp

theorem invMix_mix (s : Bytes) (h : s.length % 4 = 0) : invMixColumns (mixColumns s) = s := by
  fun_induction mixColumns s with
  | case1 a b c d r ih =>
    have hr : r.length % 4 = 0 := by simp only [List.length_cons] at h; omega
    unfold invMixColumns
    rw [ih hr, column, column, column, column]
  | case2 s hs =>
    rcases s with _ | ⟨a, _ | ⟨b, _ | ⟨c, _ | ⟨d, r⟩⟩⟩⟩
    · rfl
    · simp at h
    · simp at h
    · simp at h
    · exact absurd rfl (hs a b c d r)

/-! ### The cipher -/

/-- FIPS 197, 5.1.4. -/
def addKey (k s : Bytes) : Bytes := List.zipWith (· ^^^ ·) s (fit 16 k)

theorem addKey_len {k s : Bytes} (h : s.length = 16) : (addKey k s).length = 16 := by simp [addKey, fit_len, h]

theorem zip_cancel (a b : Bytes) (h : a.length ≤ b.length) : List.zipWith (· ^^^ ·) (List.zipWith (· ^^^ ·) a b) b = a := by
  induction a generalizing b with
  | nil => rfl
  | cons x a ih =>
    cases b with
    | nil => simp at h
    | cons y b =>
      simp only [List.zipWith_cons_cons, UInt8.xor_assoc, UInt8.xor_self, UInt8.xor_zero]
      rw [ih b (by simpa using h)]

theorem addKey_addKey {k s : Bytes} (h : s.length = 16) : addKey k (addKey k s) = s :=
  zip_cancel _ _ (by simp [fit_len, h])

def round (s k : Bytes) : Bytes := addKey k (mixColumns (shiftRows (subBytes s)))
def invRound (s k : Bytes) : Bytes := invSubBytes (invShiftRows (invMixColumns (addKey k s)))
def lastRound (s k : Bytes) : Bytes := addKey k (shiftRows (subBytes s))
def invLastRound (s k : Bytes) : Bytes := invSubBytes (invShiftRows (addKey k s))

theorem subBytes_len (s : Bytes) : (subBytes s).length = s.length := by simp [subBytes]
theorem invSubBytes_len (s : Bytes) : (invSubBytes s).length = s.length := by simp [invSubBytes]

theorem round_len {s : Bytes} (k : Bytes) (h : s.length = 16) : (round s k).length = 16 :=
  addKey_len (by rw [mixColumns_len, shiftRows_len (by rw [subBytes_len, h])])

theorem invRound_len {s : Bytes} (k : Bytes) (h : s.length = 16) : (invRound s k).length = 16 := by
  rw [invRound, invSubBytes_len, invShiftRows_len (by rw [invMixColumns_len, addKey_len h])]

theorem lastRound_len {s : Bytes} (k : Bytes) (h : s.length = 16) : (lastRound s k).length = 16 :=
  addKey_len (shiftRows_len (by rw [subBytes_len, h]))

theorem invLastRound_len {s : Bytes} (k : Bytes) (h : s.length = 16) : (invLastRound s k).length = 16 := by
  rw [invLastRound, invSubBytes_len, invShiftRows_len (addKey_len h)]

theorem invRound_round {s : Bytes} (k : Bytes) (h : s.length = 16) : invRound (round s k) k = s := by
  have h1 : (shiftRows (subBytes s)).length = 16 := shiftRows_len (by rw [subBytes_len, h])
  unfold invRound round
  rw [addKey_addKey (by rw [mixColumns_len, h1]), invMix_mix _ (by rw [h1]), invShift_shift (by rw [subBytes_len, h]), invSub_sub]

theorem invLast_last {s : Bytes} (k : Bytes) (h : s.length = 16) : invLastRound (lastRound s k) k = s := by
  unfold invLastRound lastRound
  rw [addKey_addKey (shiftRows_len (by rw [subBytes_len, h])), invShift_shift (by rw [subBytes_len, h]), invSub_sub]

/-- FIPS 197, 5.1: with the round keys. -/
def encWith (k0 : Bytes) (ks : List Bytes) (kn b : Bytes) : Bytes := lastRound (ks.foldl round (addKey k0 b)) kn

/-- FIPS 197, 5.3. -/
def decWith (k0 : Bytes) (ks : List Bytes) (kn b : Bytes) : Bytes := addKey k0 (ks.reverse.foldl invRound (invLastRound b kn))

theorem foldl_len (f : Bytes → Bytes → Bytes) (hf : ∀ s k, s.length = 16 → (f s k).length = 16) (ks : List Bytes) (s : Bytes)
    (h : s.length = 16) : (ks.foldl f s).length = 16 := by
  induction ks generalizing s with
  | nil => exact h
  | cons k ks ih => exact ih _ (hf s k h)

theorem unfold_rounds (ks : List Bytes) (s : Bytes) (h : s.length = 16) : ks.reverse.foldl invRound (ks.foldl round s) = s := by
  induction ks generalizing s with
  | nil => rfl
  | cons k ks ih =>
    rw [List.reverse_cons, List.foldl_append]
    show invRound (ks.reverse.foldl invRound (ks.foldl round (round s k))) k = s
    rw [ih _ (round_len k h)]
    exact invRound_round k h

theorem decWith_encWith (k0 : Bytes) (ks : List Bytes) (kn b : Bytes) (h : b.length = 16) :
    decWith k0 ks kn (encWith k0 ks kn b) = b := by
  unfold decWith encWith
  rw [invLast_last _ (foldl_len _ (fun s k => round_len k) _ _ (addKey_len h)), unfold_rounds _ _ (addKey_len h), addKey_addKey h]

/-! ### Key expansion -/

/-- FIPS 197, 5.2: the next word; `ws` are the words so far, the last one first, `i` their number, `nk` the words of the key. -/
def nextWord (nk i : Nat) (rcon : UInt8) (ws : List Bytes) : Bytes :=
  let temp := ws.headD []
  let t :=
    if i % nk = 0 then
      match (temp.drop 1 ++ temp.take 1).map sbox with
      | x :: r => (x ^^^ rcon) :: r
      | [] => []
    else if nk > 6 ∧ i % nk = 4 then temp.map sbox
    else temp
  List.zipWith (· ^^^ ·) (ws.getD (nk - 1) []) t

/-- `n` further words. -/
def expand (nk : Nat) : Nat → Nat → UInt8 → List Bytes → List Bytes
  | 0, _, _, ws => ws
  | n + 1, i, rcon, ws => expand nk n (i + 1) (if i % nk = 0 then xtime rcon else rcon) (nextWord nk i rcon ws :: ws)

/-- A list in pieces. -/
def pieces {α : Type} (size : Nat) : Nat → List α → List (List α)
  | 0, _ => []
  | n + 1, l => l.take size :: pieces size n (l.drop size)

/-- The words of the key and the expanded ones, in order. -/
def words (key : Bytes) : List Bytes :=
  let nk := key.length / 4
  (expand nk (4 * (nk + 7) - nk) nk 1 (pieces 4 nk key).reverse).reverse

/-- The round keys: one more than there are rounds. -/
def roundKeys (key : Bytes) : List Bytes := (pieces 4 (key.length / 4 + 7) (words key)).map List.flatten

/-- `cipher.Block.Encrypt` of `aes.NewCipher(key)`. -/
def enc (key b : Bytes) : Bytes :=
  let ks := roundKeys key
  encWith (ks.headD []) (ks.drop 1).dropLast (ks.getLastD []) b

/-- `cipher.Block.Decrypt`. -/
def dec (key b : Bytes) : Bytes :=
  let ks := roundKeys key
  decWith (ks.headD []) (ks.drop 1).dropLast (ks.getLastD []) b

theorem dec_enc (key b : Bytes) (h : b.length = 16) : dec key (enc key b) = b := decWith_encWith _ _ _ _ h

theorem enc_len (key b : Bytes) (h : b.length = 16) : (enc key b).length = 16 :=
  lastRound_len _ (foldl_len _ (fun _ k => round_len k) _ _ (addKey_len h))

theorem dec_len (key b : Bytes) (h : b.length = 16) : (dec key b).length = 16 :=
  addKey_len (foldl_len _ (fun _ k => invRound_len k) _ _ (invLastRound_len _ h))

/-- FIPS 197, appendix C.1 and C.3. -/
theorem fips_c1 : enc ((List.range 16).map UInt8.ofNat) ((List.range 16).map (fun i => UInt8.ofNat (17 * i))) =
    [105, 196, 224, 216, 106, 123, 4, 48, 216, 205, 183, 128, 112, 180, 197, 90] := by decide +kernel
theorem fips_c3 : enc ((List.range 32).map UInt8.ofNat) ((List.range 16).map (fun i => UInt8.ofNat (17 * i))) =
    [142, 162, 183, 202, 81, 103, 69, 191, 234, 252, 73, 144, 75, 73, 96, 137] := by decide +kernel
theorem fips_c3_dec : dec ((List.range 32).map UInt8.ofNat) [142, 162, 183, 202, 81, 103, 69, 191, 234, 252, 73, 144, 75, 73, 96, 137] =
    (List.range 16).map (fun i => UInt8.ofNat (17 * i)) := by decide +kernel

end Aes
end OnePass
