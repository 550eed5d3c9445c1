/-
A vault and a toy kit to run the GUI on.
-/
import Verif.Model.GuiSteps
import Verif.Props.Commands

namespace OnePass
namespace Gui
namespace Demo

/-- A kit that does not pad, and an editor that appends. -/
def kit : Kit :=
  { center := fun t _ => t
    center_pad := fun t _ _ _ => ⟨0, 0, by simp⟩
    edit := fun ks => [ks.filterMap (fun k => match k with | some (.ch c) => some (UInt8.ofNat c) | _ => none)]
    order := fun _ => MapOrder.doc }

/-- The vault at /a with these items. -/
def diskOf (items : List (Bytes × Json)) : Disk :=
  { cwd := []
    fs := [([b!"a"], .dir), ([b!"a", b!"default"], .dir),
           ([b!"a", b!"default", b!"profile.js"], .file (OnePass.Demo.profileText OnePass.Demo.pa) false),
           ([b!"a", b!"default", b!"band_0.js"], .file (b!"ld({" ++ Json.renderM items ++ b!"});") false)] }

/-- Two items and one in the trash. -/
def disk (secret notes : Bytes) : Disk :=
  diskOf [(b!"N", Cli.Demo.stored b!"002" b!"Card" secret [] false), (b!"M", Cli.Demo.stored b!"001" b!"Mail" secret notes false),
    (b!"T", Cli.Demo.stored b!"001" b!"Old" secret [] true)]

/-- The world when the vault has been validated. -/
def world (d : Disk) : World :=
  match Session.init.validate d b!"/a" with
  | .ret (_, s) => { Toy.world d [] with sess := s }
  | _ => Toy.world d []

def ctx : Ctx := Cli.Demo.ctx []

def keys (t : Bytes) : List Event := t.map (fun b => .key (.ch b.toNat))

/-- A run on a terminal of this size. -/
def goOn (x y : Nat) (d : Disk) (es : List Event) : Res Unit × St :=
  run ctx kit (.flush x y :: es) (start b!"/a" (world d))

def go (d : Disk) (es : List Event) : Res Unit × St := goOn 80 24 d es

/-- Typing the password. -/
def opening : List Event := keys OnePass.Demo.pa ++ [.flush 80 24, .key .enter, .flush 80 24]

/-- What is seen of a view. -/
def text (n : Name) (r : Res Unit × St) : Option (List Bytes) := (r.2.views n).map (·.shown)

theorem world_locked (d : Disk) : (world d).sess.isUnlocked = false ∧ Session.Reachable ctx.env (world d).sess := by
  unfold world
  cases h : Session.init.validate d b!"/a" with
  | ret r =>
    obtain ⟨r, s⟩ := r
    refine ⟨?_, d, [.validate b!"/a"], [Session.answerErr r], d, ?_⟩
    · simp only
      unfold Session.validate at h
      rw [Out.bind_eq_ret] at h
      obtain ⟨⟨_, _⟩, _, h⟩ := h
      simp only [Out.pure_eq, Out.ret.injEq, Prod.mk.injEq] at h
      obtain ⟨-, rfl⟩ := h
      rfl
    · simp only [Session.run, Session.step, h, Out.ret_bind, Out.pure_eq]
  | panic => exact ⟨rfl, d, [], [], d, rfl⟩
  | fatal => exact ⟨rfl, d, [], [], d, rfl⟩

end Demo
end Gui
end OnePass
