/-
SHA-256, SHA-512 (FIPS 180-4), HMAC (FIPS 198-1) and PBKDF2 (RFC 8018), as in crypto/sha256, crypto/sha512, crypto/hmac and
golang.org/x/crypto/pbkdf2. Words are natural numbers below a power of two.
-/
import Verif.Go.Env

namespace OnePass
namespace Sha

/-- What SHA-256 and SHA-512 differ in: bits of a word, constants, initial value, rotations. -/
structure Kind where
  bits : Nat
  k : List Nat
  h : List Nat
  /-- rotations of the two functions of the state, rotations and shift of the two of the schedule -/
  e : Nat × Nat × Nat
  a : Nat × Nat × Nat
  s0 : Nat × Nat × Nat
  s1 : Nat × Nat × Nat

/-- FIPS 180-4, 4.1.2, 4.2.2, 5.3.3. -/
def k256 : Kind where
  bits := 32
  k := [
    1116352408, 1899447441, 3049323471, 3921009573, 961987163, 1508970993, 2453635748, 2870763221,
    3624381080, 310598401, 607225278, 1426881987, 1925078388, 2162078206, 2614888103, 3248222580,
    3835390401, 4022224774, 264347078, 604807628, 770255983, 1249150122, 1555081692, 1996064986,
    2554220882, 2821834349, 2952996808, 3210313671, 3336571891, 3584528711, 113926993, 338241895,
    666307205, 773529912, 1294757372, 1396182291, 1695183700, 1986661051, 2177026350, 2456956037,
    2730485921, 2820302411, 3259730800, 3345764771, 3516065817, 3600352804, 4094571909, 275423344,
    430227734, 506948616, 659060556, 883997877, 958139571, 1322822218, 1537002063, 1747873779,
    1955562222, 2024104815, 2227730452, 2361852424, 2428436474, 2756734187, 3204031479, 3329325298]
  h := [
    1779033703, 3144134277, 1013904242, 2773480762, 1359893119, 2600822924, 528734635, 1541459225]
  e := (6, 11, 25)
  a := (2, 13, 22)
  s0 := (7, 18, 3)
  s1 := (17, 19, 10)

/-- FIPS 180-4, 4.1.3, 4.2.3, 5.3.5. -/
def k512 : Kind where
  bits := 64
  k := [
    4794697086780616226, 8158064640168781261, 13096744586834688815, 16840607885511220156,
    4131703408338449720, 6480981068601479193, 10538285296894168987, 12329834152419229976,
    15566598209576043074, 1334009975649890238, 2608012711638119052, 6128411473006802146,
    8268148722764581231, 9286055187155687089, 11230858885718282805, 13951009754708518548,
    16472876342353939154, 17275323862435702243, 1135362057144423861, 2597628984639134821,
    3308224258029322869, 5365058923640841347, 6679025012923562964, 8573033837759648693,
    10970295158949994411, 12119686244451234320, 12683024718118986047, 13788192230050041572,
    14330467153632333762, 15395433587784984357, 489312712824947311, 1452737877330783856,
    2861767655752347644, 3322285676063803686, 5560940570517711597, 5996557281743188959,
    7280758554555802590, 8532644243296465576, 9350256976987008742, 10552545826968843579,
    11727347734174303076, 12113106623233404929, 14000437183269869457, 14369950271660146224,
    15101387698204529176, 15463397548674623760, 17586052441742319658, 1182934255886127544,
    1847814050463011016, 2177327727835720531, 2830643537854262169, 3796741975233480872,
    4115178125766777443, 5681478168544905931, 6601373596472566643, 7507060721942968483,
    8399075790359081724, 8693463985226723168, 9568029438360202098, 10144078919501101548,
    10430055236837252648, 11840083180663258601, 13761210420658862357, 14299343276471374635,
    14566680578165727644, 15097957966210449927, 16922976911328602910, 17689382322260857208,
    500013540394364858, 748580250866718886, 1242879168328830382, 1977374033974150939,
    2944078676154940804, 3659926193048069267, 4368137639120453308, 4836135668995329356,
    5532061633213252278, 6448918945643986474, 6902733635092675308, 7801388544844847127]
  h := [
    7640891576956012808, 13503953896175478587, 4354685564936845355, 11912009170470909681,
    5840696475078001361, 11170449401992604703, 2270897969802886507, 6620516959819538809]
  e := (14, 18, 41)
  a := (28, 34, 39)
  s0 := (1, 8, 7)
  s1 := (19, 61, 6)

variable (K : Kind)

/-- Modulo 2^bits. -/
def low (x : Nat) : Nat := x % 2 ^ K.bits

/-- FIPS 180-4, 3.2. -/
def rotr (n x : Nat) : Nat := low K ((x >>> n) ||| (x <<< (K.bits - n)))

def big (r : Nat × Nat × Nat) (x : Nat) : Nat := rotr K r.1 x ^^^ rotr K r.2.1 x ^^^ rotr K r.2.2 x
def small (r : Nat × Nat × Nat) (x : Nat) : Nat := rotr K r.1 x ^^^ rotr K r.2.1 x ^^^ (x >>> r.2.2)

/-- Big-endian. -/
def beNat (b : Bytes) : Nat := b.foldl (fun n x => n * 256 + x.toNat) 0

/-- The low `n` bytes, big-endian. -/
def beBytes : Nat → Nat → Bytes
  | 0, _ => []
  | n + 1, x => beBytes n (x / 256) ++ [UInt8.ofNat (x % 256)]

theorem beBytes_len (n x : Nat) : (beBytes n x).length = n := by
  induction n generalizing x with
  | zero => rfl
  | succ n ih => simp [beBytes, ih]

/-- The words of a block. -/
def wordsOf (size : Nat) : Nat → Bytes → List Nat
  | 0, _ => []
  | n + 1, b => beNat (b.take size) :: wordsOf size n (b.drop size)

/-- FIPS 180-4, 6.2.2 step 1: `n` more words of the schedule; the last 16, the latest first. -/
def nextW (w : List Nat) : Nat :=
  match w with
  | [_, w2, _, _, _, _, w7, _, _, _, _, _, _, _, w15, w16] => low K (small K K.s1 w2 + w7 + small K K.s0 w15 + w16)
  | _ => 0

/-- The state: eight words. -/
structure State where
  (a b c d e f g h : Nat)

/-- FIPS 180-4, 6.2.2 step 3. -/
def step (s : State) (k w : Nat) : State :=
  let ch := (s.e &&& s.f) ^^^ ((2 ^ K.bits - 1 - s.e) &&& s.g)
  let t1 := s.h + big K K.e s.e + ch + k + w
  let maj := (s.a &&& s.b) ^^^ (s.a &&& s.c) ^^^ (s.b &&& s.c)
  let t2 := big K K.a s.a + maj
  ⟨low K (t1 + t2), s.a, s.b, s.c, low K (s.d + t1), s.e, s.f, s.g⟩

/-- All rounds: the constants, the words to come (oldest first) of which there are always 16. -/
def rounds : List Nat → List Nat → State → State
  | [], _, s => s
  | k :: ks, w, s => rounds ks (w.drop 1 ++ [nextW K w.reverse]) (step K s k (w.headD 0))

def add (s t : State) : State :=
  ⟨low K (s.a + t.a), low K (s.b + t.b), low K (s.c + t.c), low K (s.d + t.d), low K (s.e + t.e), low K (s.f + t.f),
   low K (s.g + t.g), low K (s.h + t.h)⟩

def ofList : List Nat → State
  | [a, b, c, d, e, f, g, h] => ⟨a, b, c, d, e, f, g, h⟩
  | _ => ⟨0, 0, 0, 0, 0, 0, 0, 0⟩

/-- Bytes of a block. -/
def blockSize : Nat := 2 * K.bits

/-- One block. -/
def compress (s : State) (b : Bytes) : State := add K s (rounds K K.k (wordsOf (K.bits / 8) 16 b) s)

/-- FIPS 180-4, 5.1: `n` bytes of message; a one, zeros, the length in bits. -/
def padding (n : Nat) : Bytes :=
  let field := K.bits / 4
  let used := (n + 1 + field) % blockSize K
  128 :: List.replicate ((blockSize K - used) % blockSize K) 0 ++ beBytes field (8 * n)

def blocks : Nat → Bytes → State → State
  | 0, _, s => s
  | n + 1, b, s => blocks n (b.drop (blockSize K)) (compress K s (b.take (blockSize K)))

/-- The hash. -/
def hash (m : Bytes) : Bytes :=
  let p := m ++ padding K m.length
  let s := blocks K (p.length / blockSize K) p (ofList K.h)
  let n := K.bits / 8
  beBytes n s.a ++ beBytes n s.b ++ beBytes n s.c ++ beBytes n s.d ++ beBytes n s.e ++ beBytes n s.f ++ beBytes n s.g ++ beBytes n s.h

theorem hash_len (m : Bytes) : (hash K m).length = 8 * (K.bits / 8) := by
  simp only [hash, List.length_append, beBytes_len]
  omega

/-- FIPS 198-1: the key made as long as a block. -/
def hmacKey (key : Bytes) : Bytes := fit (blockSize K) (if key.length > blockSize K then hash K key else key)

def hmac (key m : Bytes) : Bytes :=
  hash K ((hmacKey K key).map (· ^^^ 92) ++ hash K ((hmacKey K key).map (· ^^^ 54) ++ m))

theorem hmac_len (key m : Bytes) : (hmac K key m).length = 8 * (K.bits / 8) := hash_len K _

/-- RFC 8018, 5.2: `n` more iterations from `u`, with `t` the sum so far. -/
def iter (password : Bytes) : Nat → Bytes → Bytes → Bytes
  | 0, _, t => t
  | n + 1, u, t =>
    let u' := hmac K password u
    iter password n u' (List.zipWith (· ^^^ ·) t u')

/-- Block number `i`, from 1. -/
def pbBlock (password salt : Bytes) (iterations : Int) (i : Nat) : Bytes :=
  let u := hmac K password (salt ++ beBytes 4 i)
  iter K password (iterations - 1).toNat u u

/-- `pbkdf2.Key(password, salt, iterations, n, h)`; fewer than two iterations are one. -/
def pbkdf2 (password salt : Bytes) (iterations : Int) (n : Nat) : Bytes :=
  let size := 8 * (K.bits / 8)
  ((List.range ((n + size - 1) / size)).flatMap (fun i => pbBlock K password salt iterations (i + 1))).take n

theorem iter_len (password : Bytes) (n : Nat) (u t : Bytes) (h : t.length = 8 * (K.bits / 8)) :
    (iter K password n u t).length = 8 * (K.bits / 8) := by
  induction n generalizing u t with
  | zero => exact h
  | succ n ih => exact ih _ _ (by rw [List.length_zipWith, hmac_len, h]; simp)

theorem pbBlock_len (password salt : Bytes) (iterations : Int) (i : Nat) :
    (pbBlock K password salt iterations i).length = 8 * (K.bits / 8) := iter_len K _ _ _ _ (hmac_len K _ _)

theorem flatMap_len {α β : Type} (f : α → List β) (n : Nat) (hf : ∀ a, (f a).length = n) (l : List α) :
    (l.flatMap f).length = l.length * n := by
  induction l with
  | nil => simp
  | cons a l ih => simp only [List.flatMap_cons, List.length_append, hf, ih, List.length_cons, Nat.add_mul]; omega

theorem pbkdf2_len (password salt : Bytes) (iterations : Int) (n : Nat) (hK : 8 ≤ K.bits) :
    (pbkdf2 K password salt iterations n).length = n := by
  simp only [pbkdf2]
  rw [List.length_take, flatMap_len _ _ (fun i => pbBlock_len K _ _ _ _), List.length_range]
  have hp : 0 < 8 * (K.bits / 8) := by omega
  generalize 8 * (K.bits / 8) = s at *
  refine Nat.min_eq_left ?_
  have h1 := Nat.div_add_mod (n + s - 1) s
  have h2 := Nat.mod_lt (n + s - 1) hp
  have h3 : (n + s - 1) / s * s = s * ((n + s - 1) / s) := Nat.mul_comm _ _
  omega

end Sha
end OnePass
