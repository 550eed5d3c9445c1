/-
C01–C08, C76: opdata, keys and base64.
-/
import Verif.Model.KeyFacts
import Verif.Spec.Encoding

namespace OnePass
open Key Spec

/-! ### C76 -/

/-- C76. Base64 text of `b`, with line breaks anywhere, decodes to `b` without error. -/
theorem C76_base64_round_trip (t b : Bytes) (h : IsBase64 t b) :
    (B64.decodeString t).1.data = b ∧ (B64.decodeString t).2 = false :=
  ⟨(decodeString_of h).1, (decodeString_of h).2.2⟩

/-- "hello" broken over two lines. -/
example : IsBase64 b!"aGVs\r\nbG8=" b!"hello" := by decide

/-- A character of the base64 alphabet. -/
def B64Char (c : UInt8) : Prop :=
  (65 ≤ c.toNat ∧ c.toNat ≤ 90) ∨ (97 ≤ c.toNat ∧ c.toNat ≤ 122) ∨ (48 ≤ c.toNat ∧ c.toNat ≤ 57) ∨ c = 43 ∨ c = 47

/-- The shape RFC 4648 gives to base64 text: characters of the alphabet in groups of four, where the last group
may have one or two characters replaced by `=`. -/
def B64Shape (q : Bytes) : Prop :=
  ∃ x pad, q = x ++ pad ∧ (∀ c ∈ x, B64Char c) ∧
    ((pad = [] ∧ x.length % 4 = 0) ∨ (pad = [61] ∧ x.length % 4 = 3) ∨ (pad = [61, 61] ∧ x.length % 4 = 2))

theorem b64Char_iff (c : UInt8) : B64Char c ↔ ∃ v, B64.val c = some v := by
  have h : ∀ c : UInt8, ((65 ≤ c.toNat ∧ c.toNat ≤ 90) ∨ (97 ≤ c.toNat ∧ c.toNat ≤ 122) ∨
      (48 ≤ c.toNat ∧ c.toNat ≤ 57) ∨ c = 43 ∨ c = 47) ↔ (B64.val c).isSome = true := by decide +kernel
  exact (h c).trans Option.isSome_iff_exists

theorem not_b64Char_61 : ¬ B64Char 61 := by
  rw [b64Char_iff]; rintro ⟨v, hv⟩; cases hv

theorem b64Shape_length {q : Bytes} (h : B64Shape q) : q.length % 4 = 0 := by
  obtain ⟨x, pad, rfl, -, hl⟩ := h
  rcases hl with ⟨rfl, hl⟩ | ⟨rfl, hl⟩ | ⟨rfl, hl⟩ <;> simp <;> omega

theorem b64Shape_four (c0 c1 c2 c3 : UInt8) (q : Bytes) : B64Shape (c0 :: c1 :: c2 :: c3 :: q) ↔
    B64Char c0 ∧ B64Char c1 ∧ ((B64Char c2 ∧ B64Char c3 ∧ B64Shape q) ∨ (B64Char c2 ∧ c3 = 61 ∧ q = []) ∨
      (c2 = 61 ∧ c3 = 61 ∧ q = [])) := by
  constructor
  · rintro ⟨x, pad, he, hx, hl⟩
    match x with
    | [] => rcases hl with ⟨rfl, hl⟩ | ⟨rfl, hl⟩ | ⟨rfl, hl⟩ <;> simp at he hl
    | [_] => simp at hl
    | [a, b] =>
      rcases hl with ⟨rfl, hl⟩ | ⟨rfl, hl⟩ | ⟨rfl, hl⟩ <;> simp at he hl
      obtain ⟨rfl, rfl, rfl, rfl, rfl⟩ := he
      exact ⟨hx _ (by simp), hx _ (by simp), .inr (.inr ⟨rfl, rfl, rfl⟩)⟩
    | [a, b, c] =>
      rcases hl with ⟨rfl, hl⟩ | ⟨rfl, hl⟩ | ⟨rfl, hl⟩ <;> simp at he hl
      obtain ⟨rfl, rfl, rfl, rfl, rfl⟩ := he
      exact ⟨hx _ (by simp), hx _ (by simp), .inr (.inl ⟨hx _ (by simp), rfl, rfl⟩)⟩
    | a :: b :: c :: d :: x =>
      simp only [List.cons_append, List.cons.injEq] at he
      obtain ⟨rfl, rfl, rfl, rfl, rfl⟩ := he
      refine ⟨hx _ (by simp), hx _ (by simp), .inl ⟨hx _ (by simp), hx _ (by simp), x, pad, rfl,
        fun c hc => hx c (by simp [hc]), ?_⟩⟩
      have e : (c0 :: c1 :: c2 :: c3 :: x).length = x.length + 4 := rfl
      rw [e] at hl
      have m : (x.length + 4) % 4 = x.length % 4 := Nat.add_mod_right _ _
      rw [m] at hl
      exact hl
  · rintro ⟨h0, h1, (⟨h2, h3, x, pad, rfl, hx, hl⟩ | ⟨h2, rfl, rfl⟩ | ⟨rfl, rfl, rfl⟩)⟩
    · refine ⟨c0 :: c1 :: c2 :: c3 :: x, pad, rfl, ?_, ?_⟩
      · intro c hc
        simp only [List.mem_cons] at hc
        rcases hc with rfl | rfl | rfl | rfl | hc
        · exact h0
        · exact h1
        · exact h2
        · exact h3
        · exact hx c hc
      · have e : (c0 :: c1 :: c2 :: c3 :: x).length = x.length + 4 := rfl
        rw [e]
        have m : (x.length + 4) % 4 = x.length % 4 := Nat.add_mod_right _ _
        rw [m]
        exact hl
    · exact ⟨[c0, c1, c2], [61], rfl, by simp [h0, h1, h2], .inr (.inl ⟨rfl, rfl⟩)⟩
    · exact ⟨[c0, c1], [61, 61], rfl, by simp [h0, h1], .inr (.inr ⟨rfl, rfl⟩)⟩

theorem quanta_error : ∀ q : Bytes, (B64.quanta q).2 = false ↔ B64Shape q
  | [] => ⟨fun _ => ⟨[], [], rfl, by simp, .inl ⟨rfl, rfl⟩⟩, fun _ => rfl⟩
  | [c0] => by
    refine ⟨fun h => ?_, fun h => by have := b64Shape_length h; simp at this⟩
    rw [B64.quanta] at h
    cases h0 : B64.val c0 <;> simp [h0] at h
  | [c0, c1] => by
    refine ⟨fun h => ?_, fun h => by have := b64Shape_length h; simp at this⟩
    rw [B64.quanta] at h
    cases h0 : B64.val c0 <;> cases h1 : B64.val c1 <;> simp [h0, h1] at h
  | [c0, c1, c2] => by
    refine ⟨fun h => ?_, fun h => by have := b64Shape_length h; simp at this⟩
    rw [B64.quanta] at h
    cases h0 : B64.val c0 <;> cases h1 : B64.val c1 <;> cases h2 : B64.val c2 <;> simp [h0, h1, h2] at h
  | c0 :: c1 :: c2 :: c3 :: q => by
    have ih := quanta_error q
    rw [b64Shape_four, b64Char_iff, b64Char_iff, b64Char_iff, b64Char_iff, ← ih, B64.quanta]
    cases h0 : B64.val c0 with
    | none => simp
    | some a =>
      cases h1 : B64.val c1 with
      | none => simp [h1]
      | some b =>
        cases h2 : B64.val c2 with
        | none =>
          by_cases e2 : c2 = 61
          · subst e2
            by_cases e3 : c3 = 61
            · subst e3; simp [h1, h2]
            · simp [h1, h2, e3]
          · simp [h1, h2, e2]
        | some c =>
          have n2 : c2 ≠ 61 := by rintro rfl; cases h2
          cases h3 : B64.val c3 with
          | none =>
            by_cases e3 : c3 = 61
            · subst e3; simp [h1, h2, h3, n2]
            · simp [h1, h2, h3, e3, n2]
          | some d =>
            have n3 : c3 ≠ 61 := by rintro rfl; cases h3
            simp [h1, h2, h3, n2, n3]

/-- C76. Decoding reports an error exactly if the text, without its line breaks, has not the shape of base64. -/
theorem C76_error_iff (t : Bytes) :
    (B64.decodeString t).2 = true ↔ ¬ B64Shape (t.filter (fun c => c ≠ 10 ∧ c ≠ 13)) := by
  have hf : t.filter (fun c => !B64.isNL c) = t.filter (fun c => c ≠ 10 ∧ c ≠ 13) := by
    apply List.filter_congr
    intro c _
    by_cases h1 : c = 10 <;> by_cases h2 : c = 13 <;> simp [B64.isNL, h1, h2]
  rw [← quanta_error, ← hf]
  show (B64.quanta _).2 = true ↔ _
  simp

/-- Text cut short, a stray character, and something behind the padding. -/
example : (B64.decodeString b!"aGVsbG8").2 = true ∧ (B64.decodeString b!"aGVs-G8=").2 = true ∧
    (B64.decodeString b!"aGVsbG8=AAAA").2 = true ∧ (B64.decodeString b!"aGVs\nbG8=").2 = false := by decide

/-! ### C01 -/

theorem opdataHead_length (E : Env) {key tag iv pad p : Bytes} (h : Packable key tag iv pad p) :
    (opdataHead E key tag iv pad p).length = 32 + (pad ++ p).length := by
  have hb := h.blocks
  have hl := cbcEnc_length E key ((pad ++ p).length / 16) iv (pad ++ p) h.iv_len (by omega)
  simp only [opdataHead, List.length_append, le64_length, h.tag_len, h.iv_len] at hl ⊢
  omega

theorem keySizeOk_iff (key : Bytes) :
    keySizeOk key = true ↔ (key.length = 16 ∨ key.length = 24 ∨ key.length = 32) := by
  simp [keySizeOk, or_assoc]

/-- The value and the buffer after unpacking a packed item. -/
theorem opdataB_pack (E : Env) {key mac tag iv pad p : Bytes} (h : Packable key tag iv pad p) :
    opdataB E (pack E key mac tag iv pad p) key mac =
      .ret (.ok p, (tag ++ le64 p.length ++ iv) ++ (pad ++ p) ++
        E.crypto.hmac mac (opdataHead E key tag iv pad p)) := by
  have hh := opdataHead_length E h
  have hm := E.crypto.hmac_len mac (opdataHead E key tag iv pad p)
  have hb : (pad ++ p).length % 16 = 0 := by simpa using h.blocks
  generalize hB : cbcEnc E key ((pad ++ p).length / 16) iv (pad ++ p) = body
  have hbl : body.length = (pad ++ p).length := by
    rw [← hB, cbcEnc_length E key _ iv _ h.iv_len (by omega)]; omega
  have hH : opdataHead E key tag iv pad p = tag ++ (le64 p.length ++ (iv ++ body)) := by
    rw [← hB]; simp only [opdataHead, List.append_assoc]
  have hn : (pack E key mac tag iv pad p).length = 64 + (pad ++ p).length := by
    simp only [pack, List.length_append, hh, hm]; omega
  have hpk : pack E key mac tag iv pad p = opdataHead E key tag iv pad p ++
      E.crypto.hmac mac (opdataHead E key tag iv pad p) := rfl
  have ht : (pack E key mac tag iv pad p).take (64 + (pad ++ p).length - 32) =
      opdataHead E key tag iv pad p := by
    rw [hpk]; exact List.take_left' (by omega)
  have hd : (pack E key mac tag iv pad p).drop (64 + (pad ++ p).length - 32) =
      E.crypto.hmac mac (opdataHead E key tag iv pad p) := by
    rw [hpk]; exact List.drop_left' (by omega)
  have hk : keySizeOk key = true := (keySizeOk_iff key).2 h.key_size
  have hsize : ((pack E key mac tag iv pad p).drop 8).take 8 = le64 p.length := by
    rw [hpk, hH]
    simp only [List.append_assoc]
    rw [List.drop_left' h.tag_len, List.take_left' (le64_length _)]
  have hiv : ((pack E key mac tag iv pad p).drop 16).take 16 = iv := by
    rw [hpk, hH]
    simp only [List.append_assoc]
    rw [show (16 : Nat) = 8 + 8 from rfl, ← List.drop_drop, List.drop_left' h.tag_len,
      List.drop_left' (le64_length _), List.take_left' h.iv_len]
  have hbody : ((pack E key mac tag iv pad p).drop 32).take (64 + (pad ++ p).length - 64) = body := by
    rw [hpk, hH]
    simp only [List.append_assoc]
    rw [show (32 : Nat) = 8 + (8 + 16) from rfl, ← List.drop_drop, List.drop_left' h.tag_len,
      ← List.drop_drop, List.drop_left' (le64_length _), List.drop_left' h.iv_len]
    exact List.take_left' (by omega)
  have hdec : cbcDec E key ((64 + (pad ++ p).length - 64) / 16) iv body = pad ++ p := by
    rw [show 64 + (pad ++ p).length - 64 = (pad ++ p).length by omega, ← hB]
    exact cbcDec_cbcEnc E key _ iv _ h.iv_len (by omega)
  have h32 : (pack E key mac tag iv pad p).take 32 = tag ++ le64 p.length ++ iv := by
    rw [hpk, hH]
    have : tag ++ (le64 p.length ++ (iv ++ body)) ++ E.crypto.hmac mac (tag ++ (le64 p.length ++ (iv ++ body))) =
        (tag ++ le64 p.length ++ iv) ++ (body ++ E.crypto.hmac mac (tag ++ (le64 p.length ++ (iv ++ body)))) := by
      simp
    rw [this]
    exact List.take_left' (by simp [h.tag_len, h.iv_len, le64_length])
  unfold opdataB
  simp only [hn, ht, hd, hsize, hiv, hbody, hdec, h32, hk, leInt64_le64 _ h.fits]
  have c1 : ¬ (64 + (pad ++ p).length < 32) := by omega
  have c2 : ¬ (64 + (pad ++ p).length < 64) := by omega
  have c3 : (64 + (pad ++ p).length - 64) % 16 = 0 := by omega
  have c4 : ¬ (((p.length : Nat) : Int) < 0 ∨ ((64 + (pad ++ p).length - 64 : Nat) : Int) < ((p.length : Nat) : Int)) := by
    simp only [List.length_append]; omega
  have c5 : (pad ++ p).drop (64 + (pad ++ p).length - 64 - ((p.length : Nat) : Int).toNat) = p := by
    apply List.drop_left'
    simp only [List.length_append]; omega
  simp only [c1, c2, c3, c4, c5, if_false, ne_eq, not_true_eq_false, Bool.not_true, Bool.false_eq_true]

/-- C01. What was packed is unpacked, for every plaintext, key, IV and padding. -/
theorem C01_opdata_round_trip (E : Env) (s : Slice) (hw : s.WF) (key mac tag iv pad p : Bytes)
    (h : Packable key tag iv pad p) (hs : s.data = pack E key mac tag iv pad p) :
    opdata E s key mac = .ret (.ok p) := by
  rw [opdata_eq E s key mac hw, hs, opdataB_pack E h]
  rfl

/-- A concrete packed item meets the hypotheses. -/
example : Packable (List.replicate 32 7) b!"opdata01" (List.replicate 16 9) (List.replicate 11 1) b!"hello" where
  key_size := by decide
  tag_len := by decide
  iv_len := by decide
  blocks := by decide
  fits := by decide

example : opdata Env.toy (.ofBytes (pack Env.toy (List.replicate 32 7) b!"mac" b!"opdata01" (List.replicate 16 9)
    (List.replicate 11 1) b!"hello")) (List.replicate 32 7) b!"mac" = .ret (.ok b!"hello") := by
  decide +kernel

/-! ### C02 -/

/-- The last 32 bytes are the MAC of the bytes before them. -/
def Authentic (E : Env) (macKey d : Bytes) : Prop :=
  E.crypto.hmac macKey (d.take (d.length - 32)) = d.drop (d.length - 32)

instance (E : Env) (macKey d : Bytes) : Decidable (Authentic E macKey d) := by
  unfold Authentic; infer_instance

/-- C02. Plaintext comes out only of an authentic input; an input that is not authentic gives the
invalid-HMAC error and the caller's buffer is untouched. -/
theorem C02_authenticated_before_use (E : Env) (s : Slice) (hw : s.WF) (key macKey : Bytes) :
    (∀ p buf, decodeOpdata E s key macKey = .ret (.ok p, buf) → Authentic E macKey s.data) ∧
    (32 ≤ s.len → ¬ Authentic E macKey s.data →
      decodeOpdata E s key macKey = .ret (.error .invalidHmac, s.buf)) := by
  have hl := Slice.data_length hw
  have hbuf : s.data ++ s.buf.drop s.len = s.buf := by simp [Slice.data]
  rw [decodeOpdata_eq E s key macKey hw]
  unfold opdataB Authentic
  simp only [hl]
  constructor
  · intro p buf h
    by_cases h32 : s.len < 32
    · simp [h32] at h
    · by_cases hm : E.crypto.hmac macKey (s.data.take (s.len - 32)) = s.data.drop (s.len - 32)
      · exact hm
      · simp [h32, hm] at h
  · intro h32 hm
    simp [show ¬ s.len < 32 by omega, hm, hbuf]

/-- A tampered input exists (and a packed one is authentic, by `C01`). -/
example : 32 ≤ (Slice.ofBytes (List.replicate 80 1)).len ∧
    ¬ Authentic Env.toy b!"mac" (Slice.ofBytes (List.replicate 80 1)).data := by decide

/-! ### C03 -/

/-- C03. The outcome of `DecodeOpdata` is determined for every input: `d` is the input, `P` the CBC
decryption of the bytes between header and MAC. -/
theorem C03_outcome_determined (E : Env) (s : Slice) (hw : s.WF) (key macKey : Bytes) :
    let d := s.data
    let body := (d.drop 32).take (d.length - 64)
    (d.length < 32 → opdata E s key macKey = .panic) ∧
    (32 ≤ d.length → ¬ Authentic E macKey d → opdata E s key macKey = .ret (.error .invalidHmac)) ∧
    (32 ≤ d.length → Authentic E macKey d → d.length < 64 → opdata E s key macKey = .panic) ∧
    (64 ≤ d.length → Authentic E macKey d → ¬ (key.length = 16 ∨ key.length = 24 ∨ key.length = 32) →
      opdata E s key macKey = .ret (.error errKeySize)) ∧
    (64 ≤ d.length → Authentic E macKey d → (key.length = 16 ∨ key.length = 24 ∨ key.length = 32) →
      (d.length % 16 ≠ 0 ∨ declared d < 0 ∨ (d.length : Int) - 64 < declared d →
        opdata E s key macKey = .panic) ∧
      (d.length % 16 = 0 → 0 ≤ declared d → declared d ≤ (d.length : Int) - 64 →
        ∃ P, CbcDecrypted E key ((d.drop 16).take 16) body P ∧
          opdata E s key macKey = .ret (.ok (P.drop (P.length - (declared d).toNat))))) := by
  intro d body
  rw [opdata_eq E s key macKey hw]
  rw [show s.data = d from rfl]
  refine ⟨?_, ?_, ?_, ?_, ?_⟩
  · intro h; simp [opdataB, h]
  · intro h hm; unfold Authentic at hm
    simp [opdataB, show ¬ d.length < 32 by omega, hm]
  · intro h hm h64; unfold Authentic at hm
    simp [opdataB, show ¬ d.length < 32 by omega, hm, h64]
  · intro h hm hk; unfold Authentic at hm
    have hk' : keySizeOk key = false := by
      by_contra h'; exact hk ((keySizeOk_iff key).1 (by simpa using h'))
    simp [opdataB, show ¬ d.length < 32 by omega, show ¬ d.length < 64 by omega, hm, hk']
  · intro h hm hk; unfold Authentic at hm
    have hk' : keySizeOk key = true := (keySizeOk_iff key).2 hk
    have hdecl := leInt64_declared d (by omega)
    generalize declared d = size at hdecl ⊢
    unfold opdataB
    simp only [show ¬ d.length < 32 by omega, show ¬ d.length < 64 by omega, hm, hk', hdecl, if_false,
      ne_eq, not_true_eq_false, Bool.not_true, Bool.false_eq_true]
    constructor
    · intro hbad
      by_cases h16 : (d.length - 64) % 16 = 0
      · have : size < 0 ∨ ((d.length - 64 : Nat) : Int) < size := by omega
        simp [h16, this]
      · simp [h16]
    · intro h16 h0 h1
      have h16' : (d.length - 64) % 16 = 0 := by omega
      have hn : ¬ (size < 0 ∨ ((d.length - 64 : Nat) : Int) < size) := by omega
      have hiv : ((d.drop 16).take 16).length = 16 := by simp; omega
      have hbl : body.length = d.length - 64 := by
        show ((d.drop 32).take (d.length - 64)).length = _
        simp; omega
      refine ⟨_, cbcDec_spec E key _ body hiv (by omega), ?_⟩
      rw [cbcDec_length E key _ _ body hiv (by omega)]
      simp only [h16', hn, not_true_eq_false, if_false, Out.map_ret, hbl]
      congr 3
      omega

/-- The decryption in the last case is unique. -/
theorem C03_decryption_unique {E : Env} {key iv c p q : Bytes} (hc : c.length % 16 = 0)
    (hp : CbcDecrypted E key iv c p) (hq : CbcDecrypted E key iv c q) : p = q :=
  cbcDecrypted_unique hc hp hq

/-- Inputs for each of the cases: an authentic one that is too short for a header, one that declares more
than it holds. -/
example : Authentic Env.toy [] (Env.toy.crypto.hmac [] []) ∧ (Env.toy.crypto.hmac [] []).length = 32 := by
  decide
example :
    let head : Bytes := b!"opdata01" ++ le64 17 ++ List.replicate 32 0
    let d := head ++ Env.toy.crypto.hmac [] head
    Authentic Env.toy [] d ∧ 64 ≤ d.length ∧ (d.length : Int) - 64 < declared d := by decide +kernel

/-! ### C04 -/

/-- The profile entry is the string `t`. -/
def ProfileStr (p : Profile) (k t : Bytes) : Prop := p.field k = .str t

theorem decodeKeys_eq (E : Env) (s : Slice) (dk dm : Bytes) :
    decodeKeys E s dk dm = (opdata E s dk dm >>= fun r => .ret (match r with
      | .error e => .error e
      | .ok base => .ok ((E.crypto.sha512 base).take 32, (E.crypto.sha512 base).drop 32))) := by
  unfold decodeKeys
  congr 1
  funext r
  cases r with
  | error e => rfl
  | ok base =>
    have hl := E.crypto.sha512_len base
    have h32 : (32 : Int) ≤ (E.crypto.sha512 base).length := by omega
    have h64 : (64 : Int) ≤ (E.crypto.sha512 base).length := by omega
    have e1 : Slice.sub (.ofBytes (E.crypto.sha512 base)) 0 32 = .ret ⟨E.crypto.sha512 base, 32⟩ :=
      if_pos ⟨by decide, by decide, h32⟩
    have e2 : Slice.sub (.ofBytes (E.crypto.sha512 base)) 32 64 = .ret ⟨(E.crypto.sha512 base).drop 32, 32⟩ :=
      if_pos ⟨by decide, by decide, h64⟩
    have hd : ((E.crypto.sha512 base).drop 32).take 32 = (E.crypto.sha512 base).drop 32 :=
      List.take_of_length_le (by simp; omega)
    simp [e1, e2, hd, Slice.data]

/-- The specification of reading a key pair out of base64 text `t`. -/
def KeyPairOf (E : Env) (t dk dm : Bytes) (r : Out (Except Err (Bytes × Bytes))) : Prop :=
  ((B64.decodeString t).2 = true → r = .ret (.error errBase64)) ∧
  ((B64.decodeString t).2 = false →
    (∀ e, opdata E (B64.decodeString t).1 dk dm = .ret (.error e) → r = .ret (.error e)) ∧
    (∀ base, opdata E (B64.decodeString t).1 dk dm = .ret (.ok base) →
      r = .ret (.ok ((E.crypto.sha512 base).take 32, (E.crypto.sha512 base).drop 32))) ∧
    (opdata E (B64.decodeString t).1 dk dm = .panic → r = .panic))

theorem keyPairOf_of (E : Env) (t dk dm : Bytes) :
    KeyPairOf E t dk dm (if (B64.decodeString t).2 then .ret (.error errBase64)
      else decodeKeys E (B64.decodeString t).1 dk dm) := by
  refine ⟨fun h => by simp [h], fun h => ⟨fun e he => ?_, fun base hb => ?_, fun hp => ?_⟩⟩
  · simp [h, decodeKeys_eq, he]
  · simp [h, decodeKeys_eq, hb]
  · simp [h, decodeKeys_eq, hp]

/-- C04. `MasterKeys` and `OverviewKeys`, for every profile and all derived keys: base64 error, opdata
error, or the two halves of SHA-512 of the decrypted blob; and a missing entry crashes. -/
theorem C04_master_and_overview_keys (E : Env) (p : Profile) (dk dm : Bytes) :
    (∀ t, ProfileStr p b!"masterKey" t → KeyPairOf E t dk dm (masterKeys E p dk dm)) ∧
    (∀ t, ProfileStr p b!"overviewKey" t → KeyPairOf E t dk dm (overviewKeys E p dk dm)) ∧
    ((∀ t, ¬ ProfileStr p b!"masterKey" t) → masterKeys E p dk dm = .panic) ∧
    ((∀ t, ¬ ProfileStr p b!"overviewKey" t) → overviewKeys E p dk dm = .panic) := by
  unfold ProfileStr
  refine ⟨?_, ?_, ?_, ?_⟩
  · intro t ht
    have : masterKeys E p dk dm = _ := rfl
    simp only [masterKeys, Profile.getMasterKey, Profile.strField, ht, Out.ret_bind, Out.pure_eq]
    exact keyPairOf_of E t dk dm
  · intro t ht
    simp only [overviewKeys, Profile.getOverviewKey, Profile.strField, ht, Out.ret_bind, Out.pure_eq]
    exact keyPairOf_of E t dk dm
  · intro h
    simp only [masterKeys, Profile.getMasterKey, Profile.strField]
    cases hf : p.field b!"masterKey" with
    | str t => exact absurd hf (h t)
    | _ => rfl
  · intro h
    simp only [overviewKeys, Profile.getOverviewKey, Profile.strField]
    cases hf : p.field b!"overviewKey" with
    | str t => exact absurd hf (h t)
    | _ => rfl

/-- C04, from the writer's side: a profile written with `base` as master key material gives the halves of
its SHA-512. -/
theorem C04_written_keys (E : Env) (p : Profile) (dk dm t tag iv pad base : Bytes)
    (hp : Packable dk tag iv pad base) (ht : IsBase64 t (pack E dk dm tag iv pad base)) :
    (ProfileStr p b!"masterKey" t → masterKeys E p dk dm =
      .ret (.ok ((E.crypto.sha512 base).take 32, (E.crypto.sha512 base).drop 32))) ∧
    (ProfileStr p b!"overviewKey" t → overviewKeys E p dk dm =
      .ret (.ok ((E.crypto.sha512 base).take 32, (E.crypto.sha512 base).drop 32))) := by
  have hd := decodeString_of ht
  have ho := C01_opdata_round_trip E _ (B64.decodeString_wf t) dk dm tag iv pad base hp hd.1
  have h4 := C04_master_and_overview_keys E p dk dm
  exact ⟨fun h => ((h4.1 t h).2 hd.2.2).2.1 _ ho, fun h => ((h4.2.1 t h).2 hd.2.2).2.1 _ ho⟩

/-- Halves are 32 bytes each: usable as AES-256 and MAC keys. -/
theorem C04_halves (E : Env) (base : Bytes) :
    ((E.crypto.sha512 base).take 32).length = 32 ∧ ((E.crypto.sha512 base).drop 32).length = 32 := by
  have := E.crypto.sha512_len base
  simp; omega

/-! ### C05 -/

/-- C05. `DerivedKeys`: the two halves of 64 bytes of PBKDF2 of exactly the password, with the decoded
salt and the iteration count of the profile. -/
theorem C05_derived_keys (E : Env) (p : Profile) (password t salt : Bytes) (n : Int)
    (hn : 0 ≤ n) (hn' : n ≤ 9007199254740992)
    (hit : p.field b!"iterations" = .num (Num.intDec n)) (hs : ProfileStr p b!"salt" t) (ht : IsBase64 t salt) :
    derivedKeys E p password =
      .ret (.ok ((E.crypto.pbkdf2 password salt n 64).take 32, (E.crypto.pbkdf2 password salt n 64).drop 32)) := by
  have hd := decodeString_of ht
  have hl := E.crypto.pbkdf2_len password salt n 64
  have h32 : (32 : Int) ≤ (E.crypto.pbkdf2 password salt n 64).length := by omega
  have hfi := E.flt.toInt_dec n (by omega) hn'
  unfold ProfileStr at hs
  simp only [derivedKeys, Profile.getIterations, hit, Profile.getSalt, Profile.strField, hs, Out.ret_bind, hfi,
    hd.1, hd.2.2, Bool.false_eq_true, if_false]
  have e1 : Slice.sub (.ofBytes (E.crypto.pbkdf2 password salt n 64)) 0 32 =
      .ret ⟨E.crypto.pbkdf2 password salt n 64, 32⟩ := if_pos ⟨by decide, by decide, h32⟩
  have e2 : Slice.suffix (.ofBytes (E.crypto.pbkdf2 password salt n 64)) 32 =
      .ret ⟨(E.crypto.pbkdf2 password salt n 64).drop 32, 32⟩ := by
    have := hl
    simp only [Slice.suffix, Slice.ofBytes_len, hl]
    exact if_pos ⟨by decide, by decide, by simp [hl]⟩
  have hd2 : ((E.crypto.pbkdf2 password salt n 64).drop 32).take 32 = (E.crypto.pbkdf2 password salt n 64).drop 32 :=
    List.take_of_length_le (by simp; omega)
  simp [e1, e2, Slice.data, hd2]

/-- C05, the other outcomes: a salt that is not base64 is an error, a profile without the two entries
crashes. -/
theorem C05_bad_profile (E : Env) (p : Profile) (password : Bytes) :
    (∀ t n, p.field b!"iterations" = .num n → ProfileStr p b!"salt" t → (B64.decodeString t).2 = true →
      derivedKeys E p password = .ret (.error errBase64)) ∧
    ((∀ n, p.field b!"iterations" ≠ .num n) → derivedKeys E p password = .panic) ∧
    ((∀ t, ¬ ProfileStr p b!"salt" t) → derivedKeys E p password = .panic) := by
  unfold ProfileStr
  refine ⟨?_, ?_, ?_⟩
  · intro t n hn ht hb
    simp [derivedKeys, Profile.getIterations, Profile.getSalt, Profile.strField, hn, ht, hb]
  · intro h
    have : p.getIterations E = .panic := by
      unfold Profile.getIterations
      split
      · rename_i n hf; exact absurd hf (h n)
      · rfl
    simp only [derivedKeys, this, Out.panic_bind]
  · intro h
    have : p.getSalt = .panic := by
      unfold Profile.getSalt Profile.strField
      split
      · rename_i t hf; exact absurd hf (h t)
      · rfl
    have hi : (∃ n, p.getIterations E = .ret n) ∨ p.getIterations E = .panic := by
      simp only [Profile.getIterations]
      cases p.field b!"iterations" <;> simp
    simp only [derivedKeys, this]
    rcases hi with ⟨n, hi⟩ | hi <;> rw [hi] <;> rfl

/-- A profile that meets the hypotheses of `C05_derived_keys`. -/
example :
    let p : Profile := some [(b!"salt", .str b!"P/9t\nKw=="), (b!"iterations", .num b!"50000")]
    p.field b!"iterations" = .num (Num.intDec 50000) ∧ ProfileStr p b!"salt" b!"P/9t\nKw==" ∧
    IsBase64 b!"P/9t\nKw==" [0x3f, 0xff, 0x6d, 0x2b] := ⟨rfl, rfl, by decide⟩

/-! ### C06, C07 -/

/-- The key blob of an item as written: IV, encrypted key pair, MAC. -/
def keyBlob (E : Env) (master iv itemKey itemMac mac : Bytes) : Bytes :=
  iv ++ cbcEnc E master 4 iv (itemKey ++ itemMac) ++ mac

/-- C06. The item keys that were written are the ones read, whatever the trailing MAC. -/
theorem C06_item_keys_round_trip (E : Env) (master iv itemKey itemMac mac t : Bytes)
    (hm : master.length = 16 ∨ master.length = 24 ∨ master.length = 32) (hiv : iv.length = 16)
    (hk : itemKey.length = 32) (hk' : itemMac.length = 32) (hmac : mac.length = 32)
    (ht : IsBase64 t (keyBlob E master iv itemKey itemMac mac)) :
    itemKeys E t master = .ret (itemKey, itemMac) := by
  obtain ⟨hd, hl, -⟩ := decodeString_of ht
  have hw := B64.decodeString_wf t
  rw [itemKeys_eq E t master _ rfl hw]
  generalize (B64.decodeString t).1 = blob at hd hl hw
  have hpair : (itemKey ++ itemMac).length = 64 := by simp [hk, hk']
  have hc := cbcEnc_length E master 4 iv (itemKey ++ itemMac) hiv (by omega)
  have hlen : (keyBlob E master iv itemKey itemMac mac).length = 112 := by
    simp only [keyBlob, List.length_append, hiv, hc, hmac]
  rw [hlen] at hl
  obtain ⟨buf, len⟩ := blob
  simp only at hl
  subst hl
  have hw' : 112 ≤ buf.length := hw
  have hbuf : buf = keyBlob E master iv itemKey itemMac mac ++ buf.drop 112 := by
    rw [← hd]; simp [Slice.data]
  have hiv' : buf.take 16 = iv := by
    rw [hbuf]; simp only [keyBlob, List.append_assoc]; exact List.take_left' hiv
  have hbody : (buf.drop 16).take (112 - 48) = cbcEnc E master 4 iv (itemKey ++ itemMac) := by
    rw [hbuf]; simp only [keyBlob, List.append_assoc]
    rw [List.drop_left' hiv]
    exact List.take_left' hc
  have hdec : cbcDec E master ((112 - 48) / 16) iv (cbcEnc E master 4 iv (itemKey ++ itemMac)) =
      itemKey ++ itemMac := cbcDec_cbcEnc E master 4 iv _ hiv hpair
  have hplain : itemPlain E master ⟨buf, 112⟩ = itemKey ++ (itemMac ++ buf.drop 80) := by
    simp only [itemPlain, hiv', hbody, hdec, List.append_assoc]
  rw [if_pos ⟨by show 48 ≤ 112; decide, by show (112 - 48) % 16 = 0; decide, by simp only [Slice.cap]; omega, (keySizeOk_iff master).2 hm⟩, hplain]
  rw [List.take_left' hk, List.drop_left' hk, List.take_left' hk']

/-- A written key blob. -/
example : IsBase64 (B64.encode (keyBlob Env.toy (List.replicate 32 1) (List.replicate 16 2) (List.replicate 32 3)
    (List.replicate 32 4) (List.replicate 32 5)))
    (keyBlob Env.toy (List.replicate 32 1) (List.replicate 16 2) (List.replicate 32 3) (List.replicate 32 4)
      (List.replicate 32 5)) := isBase64_encode _

/-- The wish of C07: item keys are only accepted from a blob whose trailing MAC verifies under the master
MAC key (any key the reader might use). -/
def C07_wish (E : Env) (macKey : Bytes) : Prop :=
  ∀ t master k, itemKeys E t master = .ret k → Authentic E macKey (B64.decodeString t).1.data

/-- C07 fails: whatever key one would check the MAC with, a blob with a wrong MAC is accepted. -/
theorem C07_refuted (macKey : Bytes) : ¬ C07_wish Env.toy macKey := by
  intro h
  -- a blob that is not authentic under macKey: choose between two MACs
  let blob := fun x : UInt8 => keyBlob Env.toy (List.replicate 32 1) (List.replicate 16 2)
    (List.replicate 32 3) (List.replicate 32 4) (List.replicate 32 x)
  have hk : ∀ x, itemKeys Env.toy (B64.encode (blob x)) (List.replicate 32 1) =
      .ret (List.replicate 32 3, List.replicate 32 4) := fun x =>
    C06_item_keys_round_trip Env.toy _ _ _ _ (List.replicate 32 x) _ (by decide) (by decide) (by decide)
      (by decide) (by simp) (isBase64_encode _)
  have ha : ∀ x, Authentic Env.toy macKey (blob x) := by
    intro x
    have := h _ _ _ (hk x)
    rwa [(decodeString_of (isBase64_encode (blob x))).1] at this
  have h0 := ha 0
  have h1 := ha 1
  have key : ∀ x : UInt8, Authentic Env.toy macKey (blob x) →
      Env.toy.crypto.hmac macKey ((blob 0).take 80) = List.replicate 32 x := by
    intro x hx
    have hl : (blob x).length = 112 := by
      simp only [blob, keyBlob, List.length_append]
      rw [cbcEnc_length Env.toy _ 4 _ _ (by decide) (by decide)]
      simp
    unfold Authentic at hx
    rw [hl] at hx
    exact hx
  have := (key 0 h0).symm.trans (key 1 h1)
  exact absurd this (by decide)

/-- More than a witness: on a written blob the trailing 32 bytes have no influence at all. -/
theorem C07_mac_ignored (E : Env) (master iv itemKey itemMac mac mac' t t' : Bytes)
    (hm : master.length = 16 ∨ master.length = 24 ∨ master.length = 32) (hiv : iv.length = 16)
    (hk : itemKey.length = 32) (hk' : itemMac.length = 32) (h1 : mac.length = 32) (h2 : mac'.length = 32)
    (ht : IsBase64 t (keyBlob E master iv itemKey itemMac mac))
    (ht' : IsBase64 t' (keyBlob E master iv itemKey itemMac mac')) :
    itemKeys E t master = itemKeys E t' master := by
  rw [C06_item_keys_round_trip E master iv itemKey itemMac mac t hm hiv hk hk' h1 ht,
    C06_item_keys_round_trip E master iv itemKey itemMac mac' t' hm hiv hk hk' h2 ht']

/-- C07, the part that holds: a blob without room for IV, whole blocks and MAC gives no keys (it crashes
the program instead of being reported). Missing: rejection of a wrong MAC, which the code does not do. -/
theorem C07_item_key_blob_partial (E : Env) (t master : Bytes) (k : Bytes × Bytes)
    (h : itemKeys E t master = .ret k) :
    48 ≤ (B64.decodeString t).1.data.length ∧ (B64.decodeString t).1.data.length % 16 = 0 ∧
    (master.length = 16 ∨ master.length = 24 ∨ master.length = 32) := by
  rw [itemKeys_eq E t master _ rfl (B64.decodeString_wf t)] at h
  rw [Slice.data_length (B64.decodeString_wf t)]
  split at h
  · rename_i hc
    exact ⟨hc.1, by omega, (keySizeOk_iff master).1 hc.2.2.2⟩
  · cases h

/-! ### C08 -/

/-- C08. What `DecodeOpdata` does to the caller's buffer: on success exactly the bytes between the 32-byte
header and the MAC are replaced by their decryption; on an error nothing changes. -/
theorem C08_in_place (E : Env) (s : Slice) (hw : s.WF) (key macKey : Bytes) (r : Except Err Bytes) (buf : Bytes)
    (h : decodeOpdata E s key macKey = .ret (r, buf)) :
    (∀ e, r = .error e → buf = s.buf) ∧
    (∀ p, r = .ok p → ∃ P, CbcDecrypted E key ((s.data.drop 16).take 16)
        ((s.data.drop 32).take (s.len - 64)) P ∧
      buf = s.buf.take 32 ++ P ++ s.buf.drop (s.len - 32)) := by
  have hl := Slice.data_length hw
  have hbuf : s.data ++ s.buf.drop s.len = s.buf := by simp [Slice.data]
  rw [decodeOpdata_eq E s key macKey hw] at h
  unfold opdataB at h
  simp only [hl] at h
  by_cases h32 : s.len < 32
  · simp [h32] at h
  by_cases hm : E.crypto.hmac macKey (s.data.take (s.len - 32)) = s.data.drop (s.len - 32)
  swap
  · simp [h32, hm, hbuf] at h
    obtain ⟨rfl, rfl⟩ := h
    exact ⟨fun e _ => rfl, fun p hp => by cases hp⟩
  by_cases h64 : s.len < 64
  · simp [h32, hm, h64] at h
  by_cases hk : keySizeOk key = true
  swap
  · simp [h32, hm, h64, hk, hbuf] at h
    obtain ⟨rfl, rfl⟩ := h
    exact ⟨fun e _ => rfl, fun p hp => by cases hp⟩
  by_cases h16 : (s.len - 64) % 16 = 0
  swap
  · simp [h32, hm, h64, hk, h16] at h
  simp only [h32, hm, h64, hk, h16, if_false, ne_eq, not_true_eq_false, Bool.not_true, Bool.false_eq_true] at h
  split at h
  · cases h
  · simp only [Out.map_ret, Out.ret.injEq, Prod.mk.injEq] at h
    obtain ⟨rfl, rfl⟩ := h
    refine ⟨fun e he => (by cases he), fun p _ => ?_⟩
    have hiv : ((s.data.drop 16).take 16).length = 16 := by simp [hl]; omega
    have hbl : ((s.data.drop 32).take (s.len - 64)).length = s.len - 64 := by simp [hl]; omega
    have hs := cbcDec_spec E key _ ((s.data.drop 32).take (s.len - 64)) hiv (by omega)
    rw [hbl] at hs
    refine ⟨_, hs, ?_⟩
    have t32 : s.data.take 32 = s.buf.take 32 := by
      simp only [Slice.data, List.take_take]; congr 1; omega
    have hdd : s.data.drop (s.len - 32) ++ s.buf.drop s.len = s.buf.drop (s.len - 32) := by
      have h := congrArg (List.drop (s.len - 32)) hbuf
      rw [List.drop_append_of_le_length (by omega)] at h
      exact h
    rw [t32, List.append_assoc, hdd]

/-- The buffer of a packed item after a successful call, and of a tampered one after a failed call. -/
example : decodeOpdata Env.toy (.ofBytes (pack Env.toy (List.replicate 32 7) b!"mac" b!"opdata01"
    (List.replicate 16 9) (List.replicate 11 1) b!"hello")) (List.replicate 32 7) b!"mac" =
    .ret (.ok b!"hello", b!"opdata01" ++ [5, 0, 0, 0, 0, 0, 0, 0] ++ List.replicate 16 9 ++ List.replicate 11 1 ++
      b!"hello" ++ Env.toy.crypto.hmac b!"mac" (opdataHead Env.toy (List.replicate 32 7) b!"opdata01"
        (List.replicate 16 9) (List.replicate 11 1) b!"hello")) := by
  decide +kernel

end OnePass
