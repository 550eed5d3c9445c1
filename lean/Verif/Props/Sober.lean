/-
C146: what the server can write on the terminal.
-/
import Verif.Props.Messages
import Verif.Props.Display
import Verif.Props.Notice

set_option linter.unusedSimpArgs false

namespace OnePass
namespace Cli
open Prog Fmt Spec Upd

/-- The text begins with a numeral beyond all range. -/
def Monstrous (tag : Bytes) : Prop := ∃ pre v, pre <+: dotless tag ∧ Numeral pre v ∧ 18446744073709551615 < v

/-- A newer tag is made of digits, dots and a sign, unless it is monstrous. -/
theorem tag_tame {tag : Bytes} (h : NewerTag tag) (hm : ¬ Monstrous tag) : Tame tag := by
  obtain ⟨pre, v, h1, h2, -, h3⟩ := h
  rcases h3 with rfl | h3
  swap
  · exact absurd ⟨pre, v, h1, h2, h3⟩ hm
  obtain ⟨ds, -, hd, h4⟩ := h2
  intro c hc
  by_cases h46 : c = 46
  · subst h46; decide
  have hmem : c ∈ dotless tag := List.mem_filter.2 ⟨hc, by simpa using h46⟩
  have hdig : c = 43 ∨ c = 45 ∨ (48 ≤ c ∧ c ≤ 57) := by
    rcases h4 with ⟨h4 | h4, -⟩ | ⟨h4, -⟩ <;> rw [h4] at hmem
    · exact .inr (.inr (hd c hmem))
    · rcases List.mem_cons.1 hmem with rfl | h
      · exact .inl rfl
      · exact .inr (.inr (hd c h))
    · rcases List.mem_cons.1 hmem with rfl | h
      · exact .inr (.inl rfl)
      · exact .inr (.inr (hd c h))
  rcases hdig with rfl | rfl | ⟨h5, h6⟩
  · decide
  · decide
  · rintro (⟨h8, -⟩ | rfl)
    · have h7 := UInt8.le_iff_toNat_le.1 h5
      have h8 := UInt8.lt_iff_toNat_lt.1 h8
      have h9 : (48 : UInt8).toNat = 48 := rfl
      have h10 : (32 : UInt8).toNat = 32 := rfl
      omega
    · exact absurd h6 (by decide)

/-- C146, what holds of the notice before a command: it has no control characters, unless the tag of the release begins with a
number of twenty digits or more. -/
theorem C146_notice_partial (C : Ctx) (w : World) :
    texts (checkForUpdate C w).2.log = texts w.log ∨
    ∃ tag, texts (checkForUpdate C w).2.log = texts w.log ++ [notice tag] ∧ (Tame (notice tag) ∨ Monstrous tag) := by
  rcases C95_notice C w with h | ⟨n, body, r, -, -, h1, h2⟩
  · exact .inl h
  · refine .inr ⟨r.tag, h2, ?_⟩
    by_cases hm : Monstrous r.tag
    · exact .inr hm
    · refine .inl (tame_append (tame_append (by decide +kernel) (tag_tame h1 hm)) (by decide +kernel))

/-- C146, what holds of the command `update`: what it says before the question is the text of the release between constants, so
it has no control characters if the release has none. -/
theorem C146_offer_partial (C : Ctx) (w w1 : World) (info : UpdateInfo) (a rest : Bytes) (ht : Types w.stdin a rest)
    (hn : ¬ Yes C.env.text a) (h : facadeCheck C.sys C.ext C.dir true (checking w) = (.ret (.ok info), w1))
    (hv : Tame info.version) (hc : Tame info.changelog) :
    ∃ ts, texts (command C .update w).2.log = texts w.log ++ ts ∧ ∀ t ∈ ts, Tame t := by
  refine ⟨offerTexts info ++ [b!"Aborting update...\n"], by rw [C95_declined C w w1 info a rest ht hn h, List.append_assoc], ?_⟩
  intro t ht
  rcases List.mem_append.1 ht with ht | ht
  · unfold offerTexts at ht
    rcases List.mem_cons.1 ht with rfl | ht
    · decide +kernel
    rcases List.mem_cons.1 ht with rfl | ht
    · refine tame_append (tame_append (tame_append (tame_append ?_ hv) ?_) hc) ?_ <;> decide +kernel
    rw [List.mem_singleton.1 ht]
    decide +kernel
  · rw [List.mem_singleton.1 ht]
    decide +kernel

namespace Sober

/-- A release whose notes clear the screen. -/
def rude : Bytes := b!"[{\"body\":\"\\u001b[2J\",\"tag_name\":\"1.4.0\",\"assets\":[]}]"

/-- A release whose tag does. -/
def monster : Bytes := b!"[{\"body\":\"\",\"tag_name\":\"99999999999999999999\\u001b[2J\",\"assets\":[]}]"

/-- A user who wants to be told of releases. -/
def told : World := { user b!"n\n" with conf := some (Conf.updated [] { Conf.myConf with notify := true }) }

end Sober
open Sober

/-- C146 fails of the command `update`: the notes of a release reach the terminal as they are, before the user has agreed to
anything. -/
theorem C146_refuted : ∃ (C : Ctx) (w : World), (command C .update w).1 = .fatal ∧
    ∃ t ∈ texts (command C .update w).2.log, 27 ∈ t ∧ ¬ Tame t := by
  refine ⟨demo rude 1209600000000000000, user b!"n\n", ?_, ?_⟩
  · decide +kernel
  · decide +kernel

/-- C146 fails of the notice too: the number in front is beyond all range, the error of `ParseInt` is dropped, and the rest of
the tag is printed before a command that has nothing to do with updates. -/
theorem C146_notice_refuted : ∃ (C : Ctx) (w : World) (tag : Bytes), (command C .categories w).1 = .ret () ∧
    notice tag ∈ texts (command C .categories w).2.log ∧ ¬ Tame tag := by
  refine ⟨demo monster 1209600000000000000, told, b!"99999999999999999999" ++ [27, 91, 50, 74], ?_, ?_, ?_⟩
  · decide +kernel
  · decide +kernel
  · decide +kernel

/-- The tag of a real release is not monstrous, and tame; the other one is monstrous. -/
example : NewerTag b!"1.4.0" ∧ Tame b!"1.4.0" ∧ ¬ Monstrous b!"1.4.0" ∧ Monstrous (b!"99999999999999999999" ++ [27, 91, 50, 74]) := by
  refine ⟨?_, by decide +kernel, ?_, ?_⟩
  · exact ⟨b!"140", 140, List.prefix_refl _, ⟨b!"140", by decide, by decide +kernel, .inl ⟨.inl rfl, by decide +kernel⟩⟩, by decide, .inl rfl⟩
  · rintro ⟨pre, v, h1, ⟨ds, -, -, h2⟩, h3⟩
    have h4 : pre ∈ [[], [49], [49, 52], [49, 52, 48]] := by
      have := List.mem_inits (pre) (dotless b!"1.4.0") |>.2 h1
      exact this
    rcases h2 with ⟨h2 | h2, h5⟩ | ⟨-, h5⟩
    · subst h2 h5
      simp only [List.mem_cons, List.not_mem_nil, or_false] at h4
      rcases h4 with rfl | rfl | rfl | rfl <;> revert h3 <;> decide +kernel
    · subst h2
      simp only [List.mem_cons, List.not_mem_nil, or_false] at h4
      rcases h4 with h | h | h | h <;> revert h <;> simp
    · omega
  · exact ⟨b!"99999999999999999999", 99999999999999999999, ⟨[27, 91, 50, 74], by decide +kernel⟩,
      ⟨b!"99999999999999999999", by decide, by decide +kernel, .inl ⟨.inl rfl, by decide +kernel⟩⟩, by decide⟩

end Cli
end OnePass
