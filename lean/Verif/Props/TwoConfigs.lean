/-
Two runs of configure at the same time, C131.
-/
import Verif.Props.Configured

namespace OnePass
namespace Cli
open Prog Fmt Spec

/-- Two runs overlap: a process was started at `w0`, others have worked on the disk since, and it goes on as `w1`. -/
structure Meanwhile (C : Ctx) (w0 w1 : World) : Prop where
  started : ∃ m, Conf.loaded C.ext w0.disk C.dir = some m ∧ w1.conf = m

/-- C131 as one would wish it: what others changed in the configuration file since the process was started is still there after it
was configured, unless the user was asked about it and said something else; here, if the user just confirms everything. -/
def C131_wish : Prop := ∀ (C : Ctx) (w0 w1 w' : World), C.dir ≠ [] → C.sys.Quiet → Meanwhile C w0 w1 →
  Typed C.env.text w1.stdin [] [] [] [] [] [] → configure C w1 = (.ret (), w') →
  ∀ theirs now : Config, (∃ m, Conf.loaded C.ext w1.disk C.dir = some m ∧ Conf.getConfig m = .ret theirs) →
    (∃ m, Conf.loaded C.ext w'.disk C.dir = some m ∧ Conf.getConfig m = .ret now) → now = theirs

/-- C131, what does hold: an entry that the dialog does not ask about is afterwards what it was when the process was started, so it
is kept if nobody has changed it since. Missing: changes by others in the meantime (`C131_refuted`, `C131_overwritten`). -/
theorem C131_untouched_partial (C : Ctx) (hdir : C.dir ≠ []) (w0 w1 w' : World) (hm : Meanwhile C w0 w1) (old : Config)
    (hold : Conf.getConfig w1.conf = .ret old) (h : configure C w1 = (.ret (), w')) (k : Bytes)
    (hk : k ∉ [b!"opvault", b!"timeout", b!"update-notification", b!"update-period"]) :
    ∃ m0 m', Conf.loaded C.ext w0.disk C.dir = some m0 ∧ Conf.loaded C.ext w'.disk C.dir = some m' ∧
      Conf.entry m' k = Conf.entry m0 k := by
  obtain ⟨m0, h0, hw⟩ := hm.started
  obtain ⟨v1, v2, v3, new, -, h2, -, h4, -, h6, -⟩ := configure_ret C hold h
  obtain ⟨m, m', g1, g2, g3, -⟩ := Conf.save_ret hdir h4
  refine ⟨m0, some m', h0, by rw [h6]; exact g2, ?_⟩
  rw [← hw, ← h2, g1]
  show m'.get k = m.get k
  rw [g3, Conf.get_updated]
  simp only [List.mem_cons, List.not_mem_nil, or_false, not_or] at hk
  rw [if_neg (show k ≠ Conf.kPeriod from hk.2.2.2), if_neg (show k ≠ Conf.kNotify from hk.2.2.1),
    if_neg (show k ≠ Conf.kTimeout from hk.2.1), if_neg (show k ≠ Conf.kVault from hk.1)]

/-- C131: whatever others have done in the meantime, if the user confirms everything the file says again what it said when the
process was started. -/
theorem C131_overwritten (C : Ctx) (hdir : C.dir ≠ []) (w0 w1 w' : World) (hm : Meanwhile C w0 w1)
    (ht : Typed C.env.text w1.stdin [] [] [] [] [] []) (h : configure C w1 = (.ret (), w')) (m0 : Option YMap) (old : Config)
    (h0 : Conf.loaded C.ext w0.disk C.dir = some m0) (hold : Conf.getConfig m0 = .ret old) :
    ∃ m', Conf.loaded C.ext w'.disk C.dir = some m' ∧ Conf.getConfig m' = .ret old := by
  obtain ⟨m, h1, h2⟩ := hm.started
  rw [h0] at h1
  cases h1
  obtain ⟨new, g1, ⟨m', g2, g3⟩, -⟩ := C43_answers C hdir w1 w' old (by rw [h2]; exact hold) _ _ _ _ _ _ ht h
  rw [C43_empty_answers _ _ _ _ g1] at g3
  exact ⟨m', g2, g3⟩

/-- A second terminal, in which configure is run while the first one waits for answers: a timeout of 9 minutes. -/
def second : World := (configure (demo [] 0) (user b!"\n\n9\n\n")).2

/-- The first one, which goes on afterwards; the user confirms everything. -/
def first : World := { user b!"\n\n\n\n" with disk := second.disk }

theorem first_typed : Typed .toy b!"\n\n\n\n" [] [] [] [] [] [] :=
  ⟨⟨b!"\n\n\n", b!"\n\n\n", b!"\n\n", b!"\n", by
    refine ⟨⟨[], [], [], ?_⟩, ?_, ⟨[], [], [], ?_⟩, ⟨[], [], [], ?_⟩, ⟨[], [], [], ?_⟩⟩
    all_goals first | decide +kernel | exact rfl⟩⟩

theorem first_runs : (configure (demo [] 0) first).1 = .ret () ∧
    (Conf.loaded Toy.ext first.disk b!"/h").map Conf.getConfig = some (.ret { Conf.myConf with timeout := 9 }) ∧
    (Conf.loaded Toy.ext (configure (demo [] 0) first).2.disk b!"/h").map Conf.getConfig = some (.ret Conf.myConf) ∧
    Conf.loaded Toy.ext (user []).disk b!"/h" = some first.conf := by decide +kernel

theorem first_meanwhile : Meanwhile (demo [] 0) (user []) first := ⟨_, first_runs.2.2.2, rfl⟩

theorem pair_of_fst {α β : Type} {p : α × β} {a : α} (h : p.1 = a) : p = (a, p.2) := by rw [← h]

/-- C131 is false: the timeout of 9 minutes, saved by the second terminal, is gone after the first one. -/
theorem C131_refuted : ¬ C131_wish := by
  intro h
  obtain ⟨h1, h2, h3, -⟩ := first_runs
  obtain ⟨m, h4, h5⟩ := Option.map_eq_some_iff.1 h2
  obtain ⟨m', h6, h7⟩ := Option.map_eq_some_iff.1 h3
  have h8 := h (demo [] 0) (user []) first _ (by decide) (fun _ => rfl) first_meanwhile first_typed (pair_of_fst h1)
    { Conf.myConf with timeout := 9 } Conf.myConf ⟨m, h4, h5⟩ ⟨m', h6, h7⟩
  exact absurd h8 (by decide)

/-- C131, on an entry the dialog does not ask about: it is the one the first terminal has read, here none, although somebody has
written a colour into the file since. -/
example : Conf.entry first.conf b!"colour" = .null ∧
    (Conf.loaded Toy.ext (configure (demo [] 0) { first with
      disk := Conf.confDisk (Toy.encode ((b!"colour", .str b!"red") :: Conf.updated [] Conf.myConf)) }).2.disk b!"/h").map
      (Conf.entry · b!"colour") = some .null ∧
    (Conf.loaded Toy.ext (Conf.confDisk (Toy.encode ((b!"colour", .str b!"red") :: Conf.updated [] Conf.myConf))) b!"/h").map
      (Conf.entry · b!"colour") = some (.str b!"red") := by decide +kernel

/-- Nothing is lost if the first terminal has seen it: here it was started with the colour. -/
example : (Conf.loaded Toy.ext (configure (demo [] 0) { first with
      conf := some ((b!"colour", .str b!"red") :: Conf.updated [] Conf.myConf) }).2.disk b!"/h").map
      (Conf.entry · b!"colour") = some (.str b!"red") := by decide +kernel

end Cli
end OnePass
