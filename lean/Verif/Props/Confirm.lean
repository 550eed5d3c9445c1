/-
C127: confirming what the dialog shows, answering it twice.
-/
import Verif.Props.Dialog

namespace OnePass
namespace Cli
open Prog Fmt Spec

/-- The answers repeat what is configured: each number and truth value as shown; the path too, if it is to be changed. -/
structure Repeats (T : Text) (old : Config) (a1 path a2 a3 a4 : Bytes) : Prop where
  vault : Yes T a1 → Str.trimSpace path = old.vault
  notify : if old.notify then Yes T a2 else No T a2
  timeout : Decimal a3 old.timeout
  period : Decimal a4 old.period

theorem numeral_unique {s : Bytes} {n m : Int} (h : Numeral s n) (h' : Numeral s m) : n = m := by
  obtain ⟨ds, h1, h2, h3⟩ := h
  obtain ⟨ds', k1, k2, k3⟩ := h'
  have no : ∀ (l : Bytes) (c : UInt8) (r : Bytes), (∀ b ∈ l, 48 ≤ b ∧ b ≤ 57) → (c = 43 ∨ c = 45) → l ≠ c :: r := by
    rintro l c r hl hc rfl
    have := hl c (by simp)
    rcases hc with rfl | rfl
    · exact absurd this.1 (by decide)
    · exact absurd this.1 (by decide)
  rcases h3 with ⟨rfl | rfl, rfl⟩ | ⟨rfl, rfl⟩ <;> rcases k3 with ⟨k | k, rfl⟩ | ⟨k, rfl⟩
  · rw [k]
  · exact absurd k (no _ _ _ h2 (.inl rfl))
  · exact absurd k (no _ _ _ h2 (.inr rfl))
  · exact absurd k.symm (no _ _ _ k2 (.inl rfl))
  · rw [(List.cons.inj k).2]
  · cases (List.cons.inj k).1
  · exact absurd k.symm (no _ _ _ k2 (.inr rfl))
  · cases (List.cons.inj k).1
  · rw [(List.cons.inj k).2]

theorem decimal_numeral {t : Bytes} {n : Int} (h : Decimal t n) : Numeral t n := by
  obtain ⟨ds, h1, h2, -, h3⟩ := h
  refine ⟨ds, h1, h2, ?_⟩
  rcases h3 with ⟨-, h4, h5⟩ | ⟨-, h4, h5⟩
  · exact .inl ⟨.inl h4, h5⟩
  · exact .inr ⟨h4, h5⟩

theorem chosen_same {lo hi : Int} {a : Bytes} {old new : Int} (h : Chosen lo hi a old new) (hn : Numeral a old) : new = old := by
  rcases h with ⟨n, h1, -, -, rfl⟩ | ⟨-, rfl⟩
  · exact numeral_unique h1 hn
  · rfl

theorem chosen_again {lo hi : Int} {a : Bytes} {old new new' : Int} (h : Chosen lo hi a old new) (h' : Chosen lo hi a new new') :
    new' = new := by
  rcases h' with ⟨n, h1, h2, h3, rfl⟩ | ⟨-, h4⟩
  · rcases h with ⟨m, k1, -, -, rfl⟩ | ⟨k1, -⟩
    · exact numeral_unique h1 k1
    · exact absurd ⟨_, h1, h2, h3⟩ k1
  · exact h4

theorem config_ext {a b : Config} (h1 : a.timeout = b.timeout) (h2 : a.notify = b.notify) (h3 : a.period = b.period)
    (h4 : a.vault = b.vault) : a = b := by
  cases a
  cases b
  simp_all

theorem meant_same {T : Text} {old new : Config} {a1 path a2 a3 a4 : Bytes} (h : Meant T old new a1 path a2 a3 a4)
    (hr : Repeats T old a1 path a2 a3 a4) : new = old := by
  refine config_ext (chosen_same h.timeout (decimal_numeral hr.timeout)) ?_ (chosen_same h.period (decimal_numeral hr.period)) ?_
  · rw [h.notify]
    have := hr.notify
    cases ho : old.notify with
    | true =>
      rw [ho, if_pos rfl] at this
      rw [if_pos this]
    | false =>
      rw [ho] at this
      have hno : No T a2 := this
      rw [if_neg (fun hy => yes_not_no hy hno), if_pos hno]
  · rw [h.vault]
    split
    · rename_i hy
      exact hr.vault hy
    · rfl

theorem meant_again {T : Text} {old new new' : Config} {a1 path a2 a3 a4 : Bytes} (h : Meant T old new a1 path a2 a3 a4)
    (h' : Meant T new new' a1 path a2 a3 a4) : new' = new := by
  refine config_ext (chosen_again h.timeout h'.timeout) ?_ (chosen_again h.period h'.period) ?_
  · rw [h'.notify, h.notify]
    split <;> [rfl; (split <;> rfl)]
  · rw [h'.vault, h.vault]
    split <;> rfl

/-- C127. Whoever answers the questions with what they show keeps the configuration, whatever it was – also one with numbers
out of range. -/
theorem C127_confirm (C : Ctx) (hdir : C.dir ≠ []) (w w' : World) (old : Config) (hold : Conf.getConfig w.conf = .ret old)
    (a1 path a2 a3 a4 rest : Bytes) (ht : Typed C.env.text w.stdin a1 path a2 a3 a4 rest)
    (hr : Repeats C.env.text old a1 path a2 a3 a4) (h : configure C w = (.ret (), w')) :
    ∃ m, Conf.loaded C.ext w'.disk C.dir = some m ∧ Conf.getConfig m = .ret old := by
  obtain ⟨new, h1, h2, -⟩ := C43_answers C hdir w w' old hold a1 path a2 a3 a4 rest ht h
  rw [meant_same h1 hr] at h2
  exact h2

/-- C127. Giving the same answers in a second run changes nothing more. -/
theorem C127_twice (C C' : Ctx) (hdir : C.dir ≠ []) (hdir' : C'.dir ≠ []) (htext : C'.env.text = C.env.text) (w w' : World)
    (old : Config) (hold : Conf.getConfig w.conf = .ret old) (a1 path a2 a3 a4 rest : Bytes)
    (ht : Typed C.env.text w.stdin a1 path a2 a3 a4 rest) (h : configure C w = (.ret (), w')) :
    ∃ m new, Conf.loaded C.ext w'.disk C.dir = some m ∧ Conf.getConfig m = .ret new ∧
      ∀ (v v' : World) (rest' : Bytes), v.conf = m → Typed C.env.text v.stdin a1 path a2 a3 a4 rest' → configure C' v = (.ret (), v') →
        ∃ m', Conf.loaded C'.ext v'.disk C'.dir = some m' ∧ Conf.getConfig m' = .ret new := by
  obtain ⟨new, h1, ⟨m, h2, h3⟩, -⟩ := C43_answers C hdir w w' old hold a1 path a2 a3 a4 rest ht h
  refine ⟨m, new, h2, h3, fun v v' rest' hv hs hc => ?_⟩
  rw [← hv] at h3
  obtain ⟨new', k1, k2, -⟩ := C43_answers C' hdir' v v' new h3 a1 path a2 a3 a4 rest' (by rw [htext]; exact hs) hc
  rw [htext] at k1
  rw [meant_again h1 k1] at k2
  exact k2

/-- C127: the answers `y`, `/v`, `n`, `5`, `7` repeat the configuration of the examples, and are taken as such. -/
theorem C127_runs : Repeats .toy Conf.myConf b!"y" b!"/v" b!"n" b!"5" b!"7" ∧
    Conf.getConfig (configure (demo [] 0) (user b!"y\n/v\nn\n5\n7\n")).2.conf = .ret Conf.myConf ∧
    Conf.getConfig (configure (demo [] 0) (user b!"y\n/v\nn\n5\n8\n")).2.conf = .ret { Conf.myConf with period := 8 } := by
  refine ⟨⟨fun _ => by decide +kernel, by decide +kernel, ?_, ?_⟩, by decide +kernel, by decide +kernel⟩
  · exact ⟨b!"5", by decide +kernel, by decide +kernel, by decide +kernel, .inl ⟨by decide +kernel, rfl, by decide +kernel⟩⟩
  · exact ⟨b!"7", by decide +kernel, by decide +kernel, by decide +kernel, .inl ⟨by decide +kernel, rfl, by decide +kernel⟩⟩

end Cli
end OnePass
