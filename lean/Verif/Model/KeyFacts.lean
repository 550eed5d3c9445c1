/-
Facts about the key service: CBC, and `DecodeOpdata` in terms of the bytes of its input.
-/
import Verif.Model.Key
import Verif.Spec.Opdata
import Mathlib.Data.List.Induction
import Mathlib.Data.List.GetD

set_option linter.unusedSimpArgs false

namespace OnePass
namespace Key

theorem xorB_length (a b : Bytes) : (xorB a b).length = min a.length b.length := by simp [xorB]

theorem xorB_cancel {a b : Bytes} (h : a.length = b.length) : xorB (xorB a b) b = a := by
  induction a generalizing b with
  | nil => cases b <;> simp [xorB]
  | cons x a ih =>
    cases b with
    | nil => simp at h
    | cons y b =>
      have := ih (b := b) (by simpa using h)
      simp only [xorB] at this
      simp only [xorB, List.zipWith_cons_cons, this]
      congr 1
      apply UInt8.toBitVec_inj.1
      simp [BitVec.xor_assoc]

theorem cbcDec_length (E : Env) (key : Bytes) (n : Nat) (iv data : Bytes) (hiv : iv.length = 16)
    (hd : 16 * n ≤ data.length) : (cbcDec E key n iv data).length = 16 * n := by
  induction n generalizing iv data with
  | zero => rfl
  | succ n ih =>
    have h16 : (data.take 16).length = 16 := by simp; omega
    have := ih (data.take 16) (data.drop 16) h16 (by simp; omega)
    simp only [cbcDec, List.length_append, this, xorB_length, E.crypto.dec_len key _ h16, hiv]
    omega

/-- Only the first `n` blocks count. -/
theorem cbcDec_take (E : Env) (key : Bytes) (n : Nat) (iv data x : Bytes) (hd : 16 * n ≤ data.length) :
    cbcDec E key n iv (data ++ x) = cbcDec E key n iv data := by
  induction n generalizing iv data with
  | zero => rfl
  | succ n ih =>
    have h16 : 16 ≤ data.length := by omega
    simp only [cbcDec, List.take_append_of_le_length h16, List.drop_append_of_le_length h16]
    rw [ih _ _ (by simp; omega)]

theorem cbcEnc_length (E : Env) (key : Bytes) (n : Nat) (iv plain : Bytes) (hiv : iv.length = 16)
    (hd : 16 * n ≤ plain.length) : (Spec.cbcEnc E key n iv plain).length = 16 * n := by
  induction n generalizing iv plain with
  | zero => rfl
  | succ n ih =>
    have hx : (Spec.xor (plain.take 16) iv).length = 16 := by simp [Spec.xor]; omega
    have hc := E.crypto.enc_len key _ hx
    have := ih _ (plain.drop 16) hc (by simp; omega)
    simp only [Spec.cbcEnc, List.length_append, this, hc]
    omega

/-- Decryption undoes encryption. -/
theorem cbcDec_cbcEnc (E : Env) (key : Bytes) (n : Nat) (iv plain : Bytes) (hiv : iv.length = 16)
    (hd : plain.length = 16 * n) : cbcDec E key n iv (Spec.cbcEnc E key n iv plain) = plain := by
  induction n generalizing iv plain with
  | zero => simp at hd; simp [cbcDec, hd]
  | succ n ih =>
    have hp : (plain.take 16).length = 16 := by simp; omega
    have hx : (Spec.xor (plain.take 16) iv).length = 16 := by simp [Spec.xor]; omega
    have hc := E.crypto.enc_len key _ hx
    have := ih _ (plain.drop 16) hc (by simp; omega)
    have hcx : xorB (Spec.xor (plain.take 16) iv) iv = plain.take 16 :=
      xorB_cancel (by omega)
    simp only [Spec.cbcEnc, cbcDec]
    rw [List.take_left' hc, List.drop_left' hc, this, E.crypto.dec_enc _ _ hx, hcx, List.take_append_drop]

theorem block_append_left {a b : Bytes} {i : Nat} (h : 16 * (i + 1) ≤ a.length) :
    Spec.block (a ++ b) i = Spec.block a i := by
  simp only [Spec.block]
  rw [List.drop_append_of_le_length (by omega), List.take_append_of_le_length (by simp; omega)]

theorem block_succ (a : Bytes) (i : Nat) : Spec.block a (i + 1) = Spec.block (a.drop 16) i := by
  simp [Spec.block, Nat.mul_add, Nat.add_comm]

/-- The model's CBC agrees with the block-by-block specification. -/
theorem cbcDec_spec (E : Env) (key iv c : Bytes) (hiv : iv.length = 16) (hc : c.length % 16 = 0) :
    Spec.CbcDecrypted E key iv c (cbcDec E key (c.length / 16) iv c) := by
  refine ⟨by rw [cbcDec_length E key _ iv c hiv (by omega)]; omega, ?_⟩
  generalize hn : c.length / 16 = n
  have hl : c.length = 16 * n := by omega
  clear hn hc
  induction n generalizing iv c with
  | zero => intro i hi; omega
  | succ n ih =>
    intro i hi
    have h16 : (c.take 16).length = 16 := by simp; omega
    have hx : (xorB (E.crypto.dec key (c.take 16)) iv).length = 16 := by
      rw [xorB_length, E.crypto.dec_len key _ h16, hiv]; rfl
    cases i with
    | zero =>
      simp only [cbcDec, if_true]
      rw [block_append_left (by omega)]
      have hb : Spec.block (xorB (E.crypto.dec key (c.take 16)) iv) 0 =
          xorB (E.crypto.dec key (c.take 16)) iv := by
        simp only [Spec.block, Nat.mul_zero, List.drop_zero]
        exact List.take_of_length_le (by omega)
      rw [hb]
      simp only [Spec.block, Nat.mul_zero, List.drop_zero]
      rfl
    | succ i =>
      have := ih (c.take 16) (c.drop 16) h16 (by simp; omega) i (by simp; omega)
      rw [block_succ]
      simp only [cbcDec]
      rw [List.drop_left' hx, this, block_succ]
      cases i with
      | zero => simp [Spec.block]
      | succ i =>
        simp only [Nat.add_one_ne_zero, if_false, Nat.add_sub_cancel]
        rw [block_succ c i]

/-- CBC decryption is determined by its specification. -/
theorem cbcDecrypted_unique {E : Env} {key iv c p q : Bytes} (hc : c.length % 16 = 0)
    (hp : Spec.CbcDecrypted E key iv c p) (hq : Spec.CbcDecrypted E key iv c q) : p = q := by
  have hb : ∀ i, 16 * (i + 1) ≤ c.length → Spec.block p i = Spec.block q i :=
    fun i hi => by rw [hp.2 i hi, hq.2 i hi]
  have hl : p.length = q.length := by rw [hp.1, hq.1]
  have hpl : p.length % 16 = 0 := by rw [hp.1]; exact hc
  replace hb : ∀ i, 16 * (i + 1) ≤ p.length → Spec.block p i = Spec.block q i := by
    rw [hp.1]; exact hb
  clear hp hq hc
  generalize hn : p.length / 16 = n
  induction n generalizing p q with
  | zero =>
    have h0 : p.length = 0 := by omega
    have h1 : q.length = 0 := by omega
    rw [List.length_eq_zero_iff] at h0 h1
    rw [h0, h1]
  | succ n ih =>
    have h0 := hb 0 (by omega)
    simp only [Spec.block, Nat.mul_zero, List.drop_zero] at h0
    have := ih (p := p.drop 16) (q := q.drop 16) (by simp; omega) (by simp; omega)
      (by
        intro i hi
        rw [← block_succ, ← block_succ]
        exact hb (i + 1) (by simp at hi; omega))
      (by simp; omega)
    rw [← List.take_append_drop 16 p, ← List.take_append_drop 16 q, h0, this]

/-! ### Little-endian numbers -/

theorem leNat_lt (b : Bytes) : leNat b < 256 ^ b.length := by
  induction b with
  | nil => simp [leNat]
  | cons x b ih =>
    have := x.toNat_lt
    simp only [leNat, List.length_cons, Nat.pow_succ]
    omega

theorem leNat_append (a b : Bytes) : leNat (a ++ b) = leNat a + 256 ^ a.length * leNat b := by
  induction a with
  | nil => simp [leNat]
  | cons x a ih =>
    simp only [List.cons_append, leNat, ih, List.length_cons, Nat.pow_succ]
    grind

theorem leNat_digits (n k : Nat) :
    leNat ((List.range k).map (fun i => UInt8.ofNat (n / 256 ^ i))) = n % 256 ^ k := by
  induction k with
  | zero => simp [leNat, Nat.mod_one]
  | succ k ih =>
    rw [List.range_succ, List.map_append, leNat_append, ih]
    have h1 : leNat [UInt8.ofNat (n / 256 ^ k)] = n / 256 ^ k % 256 := by
      show (UInt8.ofNat (n / 256 ^ k)).toNat + 256 * 0 = _
      rw [UInt8.toNat_ofNat']
      rfl
    simp only [List.length_map, List.length_range, List.map_cons, List.map_nil]
    rw [h1, Nat.pow_succ, Nat.mod_mul]

theorem leNat_le64 (n : Nat) (h : n < 18446744073709551616) : leNat (Spec.le64 n) = n := by
  rw [Spec.le64, leNat_digits]
  exact Nat.mod_eq_of_lt h

theorem leInt64_le64 (n : Nat) (h : n < 9223372036854775808) : leInt64 (Spec.le64 n) = n := by
  simp only [leInt64]
  rw [leNat_le64 n (by omega), if_pos h]

theorem le64_length (n : Nat) : (Spec.le64 n).length = 8 := by simp [Spec.le64]

theorem leNat_sum (x : Bytes) :
    leNat x = ((List.range x.length).map (fun i => (x.getD i 0).toNat * 256 ^ i)).sum := by
  induction x using List.reverseRecOn with
  | nil => rfl
  | append_singleton x a ih =>
    have hm : (List.range x.length).map (fun i => ((x ++ [a]).getD i 0).toNat * 256 ^ i) =
        (List.range x.length).map (fun i => (x.getD i 0).toNat * 256 ^ i) := by
      apply List.map_congr_left
      intro i hi
      have hi' : i < x.length := by simpa using hi
      rw [List.getD_append _ _ _ _ hi']
    have hl : (x ++ [a]).length = x.length + 1 := by simp
    rw [leNat_append, ih, hl, List.range_succ, List.map_append, List.sum_append, hm]
    have h1 : leNat [a] = a.toNat := by show a.toNat + 256 * 0 = _; omega
    have h2 : ((x ++ [a]).getD x.length 0) = a := by
      rw [List.getD_append_right _ _ _ _ (Nat.le_refl _)]
      simp
    simp only [List.map_cons, List.map_nil, List.sum_cons, List.sum_nil, h1, h2]
    grind

/-- The model reads the declared length where the specification says it is. -/
theorem leInt64_declared (d : Bytes) (h : 16 ≤ d.length) :
    leInt64 ((d.drop 8).take 8) = Spec.declared d := by
  have hl : ((d.drop 8).take 8).length = 8 := by
    rw [List.length_take, List.length_drop]; omega
  have he : ((List.range 8).map (fun i => (((d.drop 8).take 8).getD i 0).toNat * 256 ^ i)) =
      ((List.range 8).map (fun i => (d.getD (8 + i) 0).toNat * 256 ^ i)) := by
    apply List.map_congr_left
    intro i hi
    have hi8 : i < 8 := by simpa using hi
    congr 2
    simp [List.getD_eq_getElem?_getD, List.getElem?_take, hi8, List.getElem?_drop]
  have hs := leNat_sum ((d.drop 8).take 8)
  rw [hl, he] at hs
  unfold leInt64 Spec.declared
  rw [hs]

/-! ### DecodeData -/

theorem decodeData_eq (E : Env) (key iv : Bytes) (s : Slice) :
    decodeData E key iv s =
      if !keySizeOk key then .ret (.error errKeySize)
      else if iv.length ≠ 16 then .panic
      else if s.len % 16 ≠ 0 then .panic
      else .ret (.ok ⟨cbcDec E key (s.len / 16) iv s.data ++ s.buf.drop s.len, s.len⟩) := rfl

/-! ### DecodeOpdata in terms of bytes -/

/-- `DecodeOpdata` on the bytes of its input: the value, and the buffer up to the length. -/
def opdataB (E : Env) (d key macKey : Bytes) : Out (Except Err Bytes × Bytes) :=
  let n := d.length
  if n < 32 then .panic
  else if E.crypto.hmac macKey (d.take (n - 32)) ≠ d.drop (n - 32) then .ret (.error .invalidHmac, d)
  else if n < 64 then .panic
  else if !keySizeOk key then .ret (.error errKeySize, d)
  else if (n - 64) % 16 ≠ 0 then .panic
  else
    let plain := cbcDec E key ((n - 64) / 16) ((d.drop 16).take 16) ((d.drop 32).take (n - 64))
    let size := leInt64 ((d.drop 8).take 8)
    if size < 0 ∨ (n - 64 : Nat) < size then .panic
    else .ret (.ok (plain.drop ((n - 64) - size.toNat)), d.take 32 ++ plain ++ d.drop (n - 32))

theorem decodeOpdata_eq (E : Env) (s : Slice) (key macKey : Bytes) (hw : s.WF) :
    decodeOpdata E s key macKey =
      (fun r => (r.1, r.2 ++ s.buf.drop s.len)) <$> opdataB E s.data key macKey := by
  obtain ⟨buf, len⟩ := s
  have hw' : len ≤ buf.length := hw
  have hlen : (Slice.data ⟨buf, len⟩).length = len := by simp [Slice.data, hw']
  unfold decodeOpdata opdataB
  simp only [hlen]
  by_cases h32 : len < 32
  · have e0 : Slice.upto ⟨buf, len⟩ ((len : Int) - 32) = .panic := by
      simp only [Slice.upto, Slice.sub]
      rw [if_neg]; omega
    simp only [h32, if_true, e0, Out.panic_bind, Out.map_panic]
  have e1 : Slice.upto ⟨buf, len⟩ ((len : Int) - 32) = .ret ⟨buf, len - 32⟩ := by
    have : (0 : Int) ≤ (len : Int) - 32 ∧ (len : Int) - 32 ≤ buf.length := by omega
    simp only [Slice.upto, Slice.sub, Slice.cap, this, and_self, Int.le_refl, if_true]
    have h1 : ((len : Int) - 32 - 0).toNat = len - 32 := by omega
    rw [h1]
    rfl
  have e2 : Slice.suffix ⟨buf, len⟩ ((len : Int) - 32) = .ret ⟨buf.drop (len - 32), 32⟩ := by
    have : (0 : Int) ≤ (len : Int) - 32 ∧ (len : Int) - 32 ≤ len ∧ (len : Int) ≤ buf.length := by omega
    simp only [Slice.suffix, Slice.sub, Slice.cap, this, and_self, if_true]
    have h1 : ((len : Int) - 32).toNat = len - 32 := by omega
    have h2 : ((len : Int) - ((len : Int) - 32)).toNat = 32 := by omega
    rw [h1, h2]
  have d1 : Slice.data ⟨buf, len - 32⟩ = (Slice.data ⟨buf, len⟩).take (len - 32) := by
    simp [Slice.data, List.take_take]
  have d2 : Slice.data ⟨buf.drop (len - 32), 32⟩ = (Slice.data ⟨buf, len⟩).drop (len - 32) := by
    simp only [Slice.data, List.drop_take]
    congr 1; omega
  have hbuf : (Slice.data ⟨buf, len⟩) ++ buf.drop len = buf := by simp [Slice.data]
  simp only [h32, if_false, e1, e2, Out.ret_bind, d1, d2, checkHmac]
  by_cases hm : E.crypto.hmac macKey ((Slice.data ⟨buf, len⟩).take (len - 32)) =
      (Slice.data ⟨buf, len⟩).drop (len - 32)
  swap
  · simp [hm, hbuf]
  simp only [hm, if_true, ne_eq, not_true_eq_false, if_false]
  have e3 : Slice.sub ⟨buf, len - 32⟩ 8 16 = .ret ⟨buf.drop 8, 8⟩ := by
    have : (16 : Int) ≤ buf.length := by omega
    simp [Slice.sub, Slice.cap, this]
  have e4 : Slice.sub ⟨buf, len - 32⟩ 16 32 = .ret ⟨buf.drop 16, 16⟩ := by
    have : (32 : Int) ≤ buf.length := by omega
    simp [Slice.sub, Slice.cap, this]
  simp only [e3, e4, Out.ret_bind]
  by_cases h64 : len < 64
  · have : ¬ (32 : Int) ≤ ((len - 32 : Nat) : Int) := by omega
    simp [Slice.suffix, Slice.sub, this, h64]
  have e5 : Slice.suffix ⟨buf, len - 32⟩ 32 = .ret ⟨buf.drop 32, len - 64⟩ := by
    have : (32 : Int) ≤ ((len - 32 : Nat) : Int) ∧ ((len - 32 : Nat) : Int) ≤ buf.length := by omega
    simp only [Slice.suffix, Slice.sub, Slice.cap, this, and_self, and_true, if_true]
    have h2 : (((len - 32 : Nat) : Int) - 32).toNat = len - 64 := by omega
    simp [h2]
  have d4 : Slice.data ⟨buf.drop 16, 16⟩ = ((Slice.data ⟨buf, len⟩).drop 16).take 16 := by
    simp only [Slice.data, List.drop_take, List.take_take]
    congr 1; omega
  have d3 : Slice.data ⟨buf.drop 8, 8⟩ = ((Slice.data ⟨buf, len⟩).drop 8).take 8 := by
    simp only [Slice.data, List.drop_take, List.take_take]
    congr 1; omega
  have d5 : Slice.data ⟨buf.drop 32, len - 64⟩ = ((Slice.data ⟨buf, len⟩).drop 32).take (len - 64) := by
    simp only [Slice.data, List.drop_take, List.take_take]
    congr 1; omega
  have hiv : (((Slice.data ⟨buf, len⟩).drop 16).take 16).length = 16 := by
    simp [Slice.data]; omega
  simp only [h64, if_false, e5, Out.ret_bind, decodeData_eq, d3, d4, d5, hiv]
  by_cases hk : keySizeOk key = true
  swap
  · simp [hk, hbuf]
  simp only [hk, Bool.not_true, Bool.false_eq_true, if_false, ne_eq, not_true_eq_false]
  by_cases h16 : (len - 64) % 16 = 0
  swap
  · simp [h16]
  simp only [h16, not_true_eq_false, if_false, Out.ret_bind]
  have hdl : (((Slice.data ⟨buf, len⟩).drop 32).take (len - 64)).length = len - 64 := by
    simp [Slice.data]; omega
  have hpl := cbcDec_length E key ((len - 64) / 16) _ _ hiv (by rw [hdl]; omega)
  generalize leInt64 (((Slice.data ⟨buf, len⟩).drop 8).take 8) = size
  generalize hplain : cbcDec E key ((len - 64) / 16) (((Slice.data ⟨buf, len⟩).drop 16).take 16)
    (((Slice.data ⟨buf, len⟩).drop 32).take (len - 64)) = plain at hpl ⊢
  have hpl' : plain.length = len - 64 := by omega
  by_cases hs : size < 0 ∨ ((len - 64 : Nat) : Int) < size
  · have : ¬ ((0 : Int) ≤ ((len - 64 : Nat) : Int) - size ∧
        ((len - 64 : Nat) : Int) - size ≤ ((len - 64 : Nat) : Int)) := by omega
    simp only [hs, if_true, Slice.suffix, Slice.sub, Out.map_panic, Out.ret_bind]
    rw [if_neg]
    · rfl
    · rintro ⟨a, b, c⟩; exact this ⟨a, b⟩
  · have : (0 : Int) ≤ ((len - 64 : Nat) : Int) - size ∧
        ((len - 64 : Nat) : Int) - size ≤ ((len - 64 : Nat) : Int) := by omega
    have hcap : ((len - 64 : Nat) : Int) ≤ ((plain ++ (buf.drop 32).drop (len - 64)).length : Nat) := by
      simp [hpl']; omega
    simp only [hs, if_false, Slice.suffix, Slice.sub, Slice.cap, this.1, this.2, hcap, and_self, if_true,
      Out.ret_bind, Out.pure_eq, Out.map_ret]
    have hk1 : (((len - 64 : Nat) : Int) - size).toNat = len - 64 - size.toNat := by omega
    have hk2 : (((len - 64 : Nat) : Int) - (((len - 64 : Nat) : Int) - size)).toNat = size.toNat := by omega
    congr 2
    · congr 1
      simp only [Slice.data, hk1, hk2]
      rw [List.drop_append_of_le_length (by omega), List.take_left' (by simp; omega)]
    · have t32 : (Slice.data ⟨buf, len⟩).take 32 = buf.take 32 := by
        simp only [Slice.data, List.take_take]; congr 1; omega
      have hdd : (Slice.data ⟨buf, len⟩).drop (len - 32) ++ buf.drop len = buf.drop (len - 32) := by
        have h := congrArg (List.drop (len - 32)) hbuf
        rw [List.drop_append_of_le_length (by omega)] at h
        exact h
      rw [t32, List.append_assoc, List.append_assoc, hdd, List.drop_drop,
        show 32 + (len - 64) = len - 32 by omega]

theorem opdata_eq (E : Env) (s : Slice) (key macKey : Bytes) (hw : s.WF) :
    opdata E s key macKey = (fun r => r.1) <$> opdataB E s.data key macKey := by
  rw [opdata, decodeOpdata_eq E s key macKey hw]
  cases opdataB E s.data key macKey <;> rfl

/-! ### ItemKeys in terms of the decoded blob -/

/-- The decrypted key area followed by whatever lies behind it in the buffer. -/
def itemPlain (E : Env) (master : Bytes) (blob : Slice) : Bytes :=
  cbcDec E master ((blob.len - 48) / 16) (blob.buf.take 16) ((blob.buf.drop 16).take (blob.len - 48)) ++
    blob.buf.drop (blob.len - 32)

theorem itemKeys_eq (E : Env) (t master : Bytes) (blob : Slice) (hb : (B64.decodeString t).1 = blob)
    (hw : blob.WF) :
    itemKeys E t master =
      if 48 ≤ blob.len ∧ (blob.len - 48) % 16 = 0 ∧ 80 ≤ blob.cap ∧ keySizeOk master = true then
        .ret ((itemPlain E master blob).take 32, ((itemPlain E master blob).drop 32).take 32)
      else .panic := by
  obtain ⟨buf, len⟩ := blob
  have hw' : len ≤ buf.length := hw
  unfold itemKeys
  rw [hb]
  show _ = if 48 ≤ len ∧ (len - 48) % 16 = 0 ∧ 80 ≤ buf.length ∧ keySizeOk master = true then
    Out.ret ((itemPlain E master ⟨buf, len⟩).take 32, ((itemPlain E master ⟨buf, len⟩).drop 32).take 32)
    else .panic
  by_cases h48 : 48 ≤ len
  swap
  · rw [if_neg (by rintro ⟨h, -⟩; exact h48 h)]
    by_cases h32 : len < 32
    · have e0 : Slice.upto ⟨buf, len⟩ ((len : Int) - 32) = .panic := by
        simp only [Slice.upto, Slice.sub]
        rw [if_neg]; omega
      simp only [e0, Out.panic_bind]
    · have e1 : Slice.upto ⟨buf, len⟩ ((len : Int) - 32) = .ret ⟨buf, len - 32⟩ := by
        have : (0 : Int) ≤ (len : Int) - 32 ∧ (len : Int) - 32 ≤ buf.length := by omega
        simp only [Slice.upto, Slice.sub, Slice.cap, this, and_self, Int.le_refl, if_true]
        have h1 : ((len : Int) - 32 - 0).toNat = len - 32 := by omega
        rw [h1]; rfl
      have e2 : Slice.sub ⟨buf, len - 32⟩ 0 16 = .ret ⟨buf, 16⟩ := by
        have : (16 : Int) ≤ buf.length := by omega
        simp [Slice.sub, Slice.cap, this]
      have e3 : Slice.suffix ⟨buf, len - 32⟩ 16 = .panic := by
        simp only [Slice.suffix, Slice.sub]
        rw [if_neg]; omega
      simp only [e1, e2, e3, Out.ret_bind, Out.panic_bind]
  have e1 : Slice.upto ⟨buf, len⟩ ((len : Int) - 32) = .ret ⟨buf, len - 32⟩ := by
    have : (0 : Int) ≤ (len : Int) - 32 ∧ (len : Int) - 32 ≤ buf.length := by omega
    simp only [Slice.upto, Slice.sub, Slice.cap, this, and_self, Int.le_refl, if_true]
    have h1 : ((len : Int) - 32 - 0).toNat = len - 32 := by omega
    rw [h1]; rfl
  have e2 : Slice.sub ⟨buf, len - 32⟩ 0 16 = .ret ⟨buf, 16⟩ := by
    have : (16 : Int) ≤ buf.length := by omega
    simp [Slice.sub, Slice.cap, this]
  have e3 : Slice.suffix ⟨buf, len - 32⟩ 16 = .ret ⟨buf.drop 16, len - 48⟩ := by
    have : (16 : Int) ≤ ((len - 32 : Nat) : Int) ∧ ((len - 32 : Nat) : Int) ≤ buf.length := by omega
    simp only [Slice.suffix, Slice.sub, Slice.cap, this, and_self, and_true, if_true]
    have h2 : (((len - 32 : Nat) : Int) - 16).toNat = len - 48 := by omega
    simp [h2]
  have d2 : Slice.data ⟨buf, 16⟩ = buf.take 16 := rfl
  have d3 : Slice.data ⟨buf.drop 16, len - 48⟩ = (buf.drop 16).take (len - 48) := rfl
  have hiv : (buf.take 16).length = 16 := by simp; omega
  simp only [e1, e2, e3, Out.ret_bind, decodeData_eq, d2, d3, hiv]
  by_cases hk : keySizeOk master = true
  swap
  · simp [hk]
  simp only [hk, Bool.not_true, Bool.false_eq_true, if_false, ne_eq, not_true_eq_false, and_true, h48, true_and]
  by_cases h16 : (len - 48) % 16 = 0
  swap
  · simp [h16]
  simp only [h16, not_true_eq_false, if_false, Out.ret_bind, true_and]
  have hbl : ((buf.drop 16).take (len - 48)).length = len - 48 := by simp; omega
  have hpl := cbcDec_length E master ((len - 48) / 16) (buf.take 16) _ hiv (by rw [hbl]; omega)
  have hcap : (itemPlain E master ⟨buf, len⟩).length = buf.length - 16 := by
    simp only [itemPlain, List.length_append, hpl, List.length_drop]; omega
  have hbuf : cbcDec E master ((len - 48) / 16) (buf.take 16) ((buf.drop 16).take (len - 48)) ++
      (buf.drop 16).drop (len - 48) = itemPlain E master ⟨buf, len⟩ := by
    simp only [itemPlain]
    rw [List.drop_drop, show 16 + (len - 48) = len - 32 by omega]
  rw [hbuf]
  generalize itemPlain E master ⟨buf, len⟩ = plain at hcap
  by_cases h80 : 80 ≤ buf.length
  · have c1 : (32 : Int) ≤ plain.length := by omega
    have c2 : (64 : Int) ≤ plain.length := by omega
    simp [Slice.sub, Slice.cap, c1, c2, h80, Slice.data]
  · have c2 : ¬ (64 : Int) ≤ plain.length := by omega
    have hs : Slice.sub ⟨plain, len - 48⟩ 32 64 = .panic := if_neg (fun h => c2 h.2.2)
    simp only [hs, h80, if_false, Out.panic_bind]
    rcases Slice.sub_cases ⟨plain, len - 48⟩ 0 32 with ⟨x, hx⟩ | hx <;> rw [hx] <;> rfl

end Key
end OnePass
