/-
From the arguments and the home directory of a process to what it touches (C83, C89).
-/
import Verif.Props.CommandLine
import Verif.Props.GuiFoot

set_option linter.unusedSimpArgs false

namespace OnePass
open Args Prog

/-- Where a process may write: below the home directory, the configuration file and the time stamp of 1pass, and the
directories leading to them. -/
def HomeLoc (cwd : List Bytes) (home : Bytes) (l : List Bytes) : Prop :=
  l <+: Path.resolve cwd home ++ [b!".config", b!"1pass"] ∨
  l = Path.resolve cwd home ++ [b!".config", b!"1pass", b!"lastcheck"] ∨
  l = Path.resolve cwd home ++ [b!".config", b!"1pass", b!"1pass.yml"]

theorem home_resolve (cwd : List Bytes) {home : Bytes} (h : home ≠ []) :
    Path.resolve cwd (Path.join [home, b!".config", b!"1pass"]) = Path.resolve cwd home ++ [b!".config", b!"1pass"] :=
  Path.resolve_join cwd h (by simp) (by decide)

theorem home_ne {home : Bytes} (h : home ≠ []) : Path.join [home, b!".config", b!"1pass"] ≠ [] := by
  unfold Path.join
  have : [home, b!".config", b!"1pass"].dropWhile List.isEmpty = [home, b!".config", b!"1pass"] := by
    simp [List.dropWhile, show home.isEmpty = false by simpa using h]
  rw [this]
  exact Path.clean_ne_nil _

/-- The directory that main.go computes is `.config/1pass` below the home directory. -/
theorem own_home (cwd : List Bytes) {home : Bytes} (h : home ≠ []) :
    Cli.OwnLoc cwd (Path.join [home, b!".config", b!"1pass"]) = HomeLoc cwd home := by
  funext l
  have h1 := home_ne h
  have h2 : Path.resolve cwd (Path.join [Path.join [home, b!".config", b!"1pass"], Upd.lastCheckFile]) =
      Path.resolve cwd home ++ [b!".config", b!"1pass", b!"lastcheck"] := by
    rw [Path.resolve_join cwd h1 (by simp) (by decide), home_resolve cwd h, List.append_assoc]
    rfl
  have h3 : Path.resolve cwd (Conf.path (Path.join [home, b!".config", b!"1pass"])) =
      Path.resolve cwd home ++ [b!".config", b!"1pass", b!"1pass.yml"] := by
    rw [Conf.resolve_path cwd h1, home_resolve cwd h, List.append_assoc]
    rfl
  unfold Cli.OwnLoc Cli.StampLoc HomeLoc
  rw [h2, h3, home_resolve cwd h, or_assoc]

/-- C89: a command line that runs a command does exactly what the command does with the configuration in
`.config/1pass` of the home directory; one that starts the GUI starts it there. -/
theorem C89_process (C : Ctx) (K : Gui.Kit) (text : Invoked → Bytes) (home : Bytes) (args : List Bytes) (x y : Nat)
    (es : List Gui.Event) (hh : home ≠ []) :
    (∀ cmd, argv args = .run cmd → (∀ v, cmd ≠ .gui v) → process C K text home args x y es = Cli.main (C.atHome home) cmd) ∧
    (∀ v, argv args = .run (.gui v) → process C K text home args x y es = Gui.main (C.atHome home) K v x y es) := by
  constructor
  · intro cmd h hg
    unfold process
    rw [if_neg hh, h]
    cases cmd with
    | gui v => exact absurd rfl (hg v)
    | _ => rfl
  · intro v h
    unfold process
    rw [if_neg hh, h]

/-- C89: without a home directory nothing happens at all. -/
theorem C89_homeless (C : Ctx) (K : Gui.Kit) (text : Invoked → Bytes) (args : List Bytes) (x y : Nat)
    (es : List Gui.Event) (w : World) : process C K text [] args x y es w = (.fatal, w) := rfl

/-- C83, for a whole process: whatever its arguments are — any command but `update`, any mistake — and whatever is done
at the terminal, at no time is anything touched but the configuration file and the time stamp below the home directory
and the directories leading to them, and no server is asked but the one for releases. -/
theorem C83_process (C : Ctx) (K : Gui.Kit) (text : Invoked → Bytes) (home : Bytes) (args : List Bytes) (x y : Nat)
    (es : List Gui.Event) (hh : home ≠ []) (hu : argv args ≠ .run .update) (hes : ∀ e ∈ es, e.foreign = false) (w : World) :
    Foot w.disk.cwd (HomeLoc w.disk.cwd home) Cli.Ordinary w (process C K text home args x y es w).2 := by
  rw [← own_home _ hh]
  have htell : ∀ t, Foot w.disk.cwd (Cli.OwnLoc w.disk.cwd (C.atHome home).dir) Cli.Ordinary w
      (tell (C.atHome home) t w).2 := by
    intro t
    have hR := foot_chain w.disk.cwd (Cli.OwnLoc w.disk.cwd (C.atHome home).dir) Cli.Ordinary
    refine Rel.bind hR (Rel.bind hR (Cli.foot_load _ _ _ _ _ _) (fun m => Cli.foot_fresh _ _ _ m)) (fun _ => ?_) w
    exact foot_emit _ _ _ (by simp) trivial
  unfold process
  rw [if_neg hh]
  rcases hi : argv args with cmd | n | _ | ⟨n, e⟩ | _
  · cases cmd with
    | update => exact absurd hi hu
    | gui v => exact Gui.C83_gui (C.atHome home) K v x y es hes w
    | _ => exact Cli.C83_footprint (C.atHome home) _ (by simp) w
  all_goals exact htell _

/-- C83, C89: a home directory, a vault next to it, a mistyped command, the list of items. -/
example :
    argv [b!"list", b!"-v", b!"/v", b!"-t"] = .run (.list b!"/v" [] [] true) ∧ argv [b!"lst"] ≠ .run .update ∧
    ¬ HomeLoc [] b!"/home/me" (Path.resolve [] b!"/v/default/profile.js") ∧
    ¬ HomeLoc [] b!"/home/me" (Path.resolve [] b!"/home/me/.config/1pass/v") ∧
    HomeLoc [] b!"/home/me" (Path.resolve [] b!"/home/me/.config/1pass/1pass.yml") := by
  unfold HomeLoc
  decide +kernel

end OnePass
