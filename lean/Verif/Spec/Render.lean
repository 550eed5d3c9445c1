/-
A writer for JSON documents: one of the many renderings a document has. Used to show that the grammar is
inhabited for every document with ASCII strings, and to build examples.
-/
import Verif.Go.Float
import Verif.Go.JsonFacts

namespace OnePass
namespace Json

/-- A lower-case hexadecimal digit. -/
def hexDigit (n : Nat) : UInt8 := if n < 10 then UInt8.ofNat (48 + n) else UInt8.ofNat (87 + n)

/-- A byte of an ASCII string: as it is, or as `\u00xx`. -/
def renderByte (b : UInt8) : Bytes :=
  if 32 ≤ b ∧ b < 127 ∧ b ≠ 34 ∧ b ≠ 92 then [b]
  else [92, 117, 48, 48, hexDigit (b.toNat / 16), hexDigit (b.toNat % 16)]

/-- The text between the quotes. -/
def renderStr (s : Bytes) : Bytes := s.flatMap renderByte

mutual

/-- A document without white space. -/
def render : Json → Bytes
  | .null => b!"null"
  | .bool true => b!"true"
  | .bool false => b!"false"
  | .num t => t
  | .str s => 34 :: renderStr s ++ [34]
  | .arr l => 91 :: renderL l ++ [93]
  | .obj m => 123 :: renderM m ++ [125]

def renderL : List Json → Bytes
  | [] => []
  | [j] => render j
  | j :: l => render j ++ 44 :: renderL l

def renderM : List (Bytes × Json) → Bytes
  | [] => []
  | [(k, j)] => 34 :: renderStr k ++ 34 :: 58 :: render j
  | (k, j) :: m => 34 :: renderStr k ++ 34 :: 58 :: render j ++ 44 :: renderM m

end

mutual

/-- ASCII strings, proper number literals within the range of float64, at most `d` levels of nesting. -/
def Plain (d : Nat) : Json → Prop
  | .null => True
  | .bool _ => True
  | .num t => NumR t ∧ Num.tooBig t = false
  | .str s => Str.isAscii s = true
  | .arr l => 0 < d ∧ PlainL (d - 1) l
  | .obj m => 0 < d ∧ PlainM (d - 1) m

def PlainL (d : Nat) : List Json → Prop
  | [] => True
  | j :: l => Plain d j ∧ PlainL d l

def PlainM (d : Nat) : List (Bytes × Json) → Prop
  | [] => True
  | (k, j) :: m => Str.isAscii k = true ∧ Plain d j ∧ PlainM d m

end

theorem renderByte_uni : ∀ b : UInt8, b < 128 →
    hex4 48 48 (hexDigit (b.toNat / 16)) (hexDigit (b.toNat % 16)) = some b.toNat ∧
    isHigh b.toNat = false ∧ isLow b.toNat = false ∧ utf8Enc b.toNat = [b] := by
  intro b; revert b; decide +kernel

theorem renderStr_ok {s : Bytes} (h : Str.isAscii s = true) : StrR (renderStr s) s := by
  induction s with
  | nil => exact .nil
  | cons b s ih =>
    rw [Str.isAscii_iff] at h
    have hb := h b (by simp)
    have hs := ih (Str.isAscii_iff.2 (fun x hx => h x (by simp [hx])))
    rw [renderStr, List.flatMap_cons, renderByte]
    split
    · rename_i hc
      exact .plain hc.1 hb hc.2.2.1 hc.2.2.2 hs
    · obtain ⟨h1, h2, h3, h4⟩ := renderByte_uni b hb
      have := StrR.uni h1 h2 h3 hs
      rw [h4] at this
      exact this

theorem ws_nil : WS [] := by intro b hb; cases hb

mutual

theorem render_val {d : Nat} : ∀ j, Plain d j → ValR d (render j) j
  | .null, _ => by rw [render]; exact .null
  | .bool true, _ => by rw [render]; exact .tru
  | .bool false, _ => by rw [render]; exact .fls
  | .num t, h => by rw [render]; rw [Plain] at h; exact .num h.1
  | .str s, h => by rw [render]; rw [Plain] at h; exact .str (renderStr_ok h)
  | .arr [], h => by
      rw [Plain] at h
      obtain ⟨d, rfl⟩ : ∃ e, d = e + 1 := ⟨d - 1, by omega⟩
      rw [render, renderL]
      exact .arr0 ws_nil
  | .arr (j :: l), h => by
      rw [Plain] at h
      obtain ⟨d, rfl⟩ : ∃ e, d = e + 1 := ⟨d - 1, by omega⟩
      rw [render]
      exact .arr (w := []) ws_nil (renderL_elems j l h.2)
  | .obj [], h => by
      rw [Plain] at h
      obtain ⟨d, rfl⟩ : ∃ e, d = e + 1 := ⟨d - 1, by omega⟩
      rw [render, renderM]
      exact .obj0 ws_nil
  | .obj (e :: m), h => by
      rw [Plain] at h
      obtain ⟨d, rfl⟩ : ∃ e, d = e + 1 := ⟨d - 1, by omega⟩
      rw [render]
      exact .obj (w := []) ws_nil (renderM_mems e m h.2)

theorem renderL_elems {d : Nat} : ∀ j l, PlainL d (j :: l) → ElemsR d (renderL (j :: l)) (j :: l)
  | j, [], h => by
      rw [PlainL] at h
      rw [renderL]
      have := ElemsR.one (w := []) (render_val j h.1) ws_nil
      simpa using this
  | j, j' :: l, h => by
      rw [PlainL] at h
      rw [renderL]
      have := ElemsR.cons (w := []) (w' := []) (render_val j h.1) ws_nil ws_nil (renderL_elems j' l h.2)
      simpa using this
      intro h; cases h

theorem renderM_mems {d : Nat} : ∀ e m, PlainM d (e :: m) → MemsR d (renderM (e :: m)) (e :: m)
  | (k, j), [], h => by
      rw [PlainM] at h
      rw [renderM]
      have := MemsR.one (w1 := []) (w2 := []) (w3 := []) (renderStr_ok h.1) ws_nil ws_nil (render_val j h.2.1) ws_nil
      simpa using this
  | (k, j), e' :: m, h => by
      rw [PlainM] at h
      rw [renderM]
      have := MemsR.cons (w1 := []) (w2 := []) (w3 := []) (w4 := []) (renderStr_ok h.1) ws_nil ws_nil
        (render_val j h.2.1) ws_nil ws_nil (renderM_mems e' m h.2.2)
      simpa using this
      intro h; cases h

end

mutual

theorem plain_finite {d : Nat} : ∀ j, Plain d j → finite j = true
  | .null, _ => rfl
  | .bool _, _ => rfl
  | .num t, h => by rw [Plain] at h; rw [finite, h.2]; rfl
  | .str _, _ => rfl
  | .arr l, h => by rw [Plain] at h; rw [finite]; exact plainL_finite l h.2
  | .obj m, h => by rw [Plain] at h; rw [finite]; exact plainM_finite m h.2

theorem plainL_finite {d : Nat} : ∀ l, PlainL d l → finiteL l = true
  | [], _ => rfl
  | j :: l, h => by rw [PlainL] at h; rw [finiteL, plain_finite j h.1, plainL_finite l h.2]; rfl

theorem plainM_finite {d : Nat} : ∀ m, PlainM d m → finiteM m = true
  | [], _ => rfl
  | (_, j) :: m, h => by rw [PlainM] at h; rw [finiteM, plain_finite j h.2.1, plainM_finite m h.2.2]; rfl

end

/-- Every such document has a text. -/
theorem render_doc {j : Json} (h : Plain maxDepth j) : ReadR (render j) j :=
  ⟨⟨[], render j, [], ws_nil, ws_nil, render_val j h, by simp⟩, plain_finite j h⟩

theorem numR_digit (b : UInt8) (h : Str.isDigitA b = true) : NumR [b] ∧ Num.tooBig [b] = false := by
  refine ⟨?_, by revert b; decide +kernel⟩
  refine ⟨[], [b], [], [], by simp, .inl rfl, ?_, .inl rfl, .inl rfl⟩
  by_cases h0 : b = 48
  · exact .inl (by rw [h0])
  · exact .inr ⟨b, [], rfl, h0, h, by intro x hx; cases hx⟩

end Json
end OnePass
