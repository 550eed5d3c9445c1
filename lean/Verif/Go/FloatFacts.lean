/-
Facts about number literals and `json.Unmarshal`.
-/
import Verif.Go.Float
import Verif.Go.JsonSound

namespace OnePass
namespace Json

theorem unmarshalMap_read {t : Bytes} {m : Members} (h : ReadR t (.obj m)) : unmarshalMap t = (some m, false) := by
  have hf : finiteM m = true := by simpa [finite] using h.2
  simp [unmarshalMap, parse_complete h.1, hf, clipM_finite m hf]

theorem unmarshalMap_null {t : Bytes} (h : DocR t .null) : unmarshalMap t = (none, false) := by
  simp [unmarshalMap, parse_complete h]

/-- An error, unless the text is an object in range or `null`. -/
theorem unmarshalMap_error (t : Bytes) :
    (unmarshalMap t).2 = true ↔ (∀ m, ¬ ReadR t (.obj m)) ∧ ¬ ReadR t .null := by
  constructor
  · intro h
    refine ⟨fun m hm => ?_, fun hm => ?_⟩
    · rw [unmarshalMap_read hm] at h; cases h
    · rw [unmarshalMap_null hm.1] at h; cases h
  · rintro ⟨h1, h2⟩
    unfold unmarshalMap
    cases hp : parse t with
    | none => rfl
    | some j =>
      have hj := parse_sound hp
      cases j with
      | obj m =>
        cases hf : finiteM m with
        | false => simp [hf]
        | true => exact absurd ⟨hj, by rw [finite]; exact hf⟩ (h1 m)
      | null => exact absurd ⟨hj, rfl⟩ h2
      | _ => rfl

theorem finiteM_flatten (ms : List Members) : finiteM ms.flatten = true ↔ ∀ m ∈ ms, finiteM m = true := by
  simp only [finiteM_iff, List.mem_flatten]
  exact ⟨fun h m hm e he => h e ⟨m, hm, he⟩, fun h e ⟨m, hm, he⟩ => h m hm e he⟩

end Json
end OnePass
