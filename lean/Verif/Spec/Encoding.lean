/-
What a vault writer does with base64: the standard encoding, with line breaks anywhere.
-/
import Verif.Go.Base64

namespace OnePass
namespace Spec

/-- `t` is the base64 of `b`, possibly broken into lines. -/
def IsBase64 (t b : Bytes) : Prop := t.filter (fun c => c ≠ 10 ∧ c ≠ 13) = B64.encode b

instance (t b : Bytes) : Decidable (IsBase64 t b) := by unfold IsBase64; infer_instance

theorem isBase64_filter {t b : Bytes} (h : IsBase64 t b) :
    t.filter (fun c => !B64.isNL c) = B64.encode b := by
  rw [← h]
  apply List.filter_congr
  intro c _
  by_cases h1 : c = 10 <;> by_cases h2 : c = 13 <;> simp [B64.isNL, h1, h2]

theorem isBase64_encode (b : Bytes) : IsBase64 (B64.encode b) b := by
  rw [IsBase64, List.filter_eq_self]
  intro c hc
  have := B64.encode_no_nl b c hc
  simpa [B64.isNL] using this

/-- What `DecodeString` gives on base64 text. -/
theorem decodeString_of {t b : Bytes} (h : IsBase64 t b) :
    (B64.decodeString t).1.data = b ∧ (B64.decodeString t).1.len = b.length ∧
    (B64.decodeString t).2 = false := by
  have hf := isBase64_filter h
  refine ⟨?_, ?_, ?_⟩
  · rw [B64.decodeString_data, hf, B64.quanta_encode]
  · simp only [B64.decodeString, hf, B64.quanta_encode]
  · simp only [B64.decodeString, hf, B64.quanta_encode]

end Spec
end OnePass
