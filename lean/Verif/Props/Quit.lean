/-
C121: how a run of the GUI ends, as the shell sees it.
-/
import Verif.Props.Verdict

set_option linter.unusedSimpArgs false

namespace OnePass
namespace Gui
open Act

variable (C : Ctx) (K : Kit)

theorem Live.run_on {vault : Bytes} {w : World} {x y : Nat} {es : List Event} {s : St} (h : Live C K vault w x y es s)
    (more : List Event) : run C K (.flush x y :: (es ++ more)) (start vault w) = run C K more s := by
  rw [← List.cons_append]
  exact run_append C K _ _ _ h.goes

/-- C121: CTRL+Q ends the program at once, on every screen, as a success: nothing that is typed after it counts, and the session,
the disk and what was printed are as they were. -/
theorem C121_quit (vault : Bytes) (w : World) (x y : Nat) (es : List Event) (s : St) (h : Live C K vault w x y es s)
    (more : List Event) : loop C K vault x y (es ++ .key .ctrlQ :: more) w = (.ret (), s.world) := by
  unfold loop
  rw [h.run_on C K, run_cons]
  have h1 : step C K (.key .ctrlQ) s = (.err .quit, s) := press_quit C K s
  rw [bind_err h1]
  rfl

/-- C121: drawing on a terminal of another size, from any state: the program goes on if there are 2 columns and 8 lines, and ends
with status 1 otherwise. -/
theorem C121_resize (vault : Bytes) (w : World) (x y : Nat) (es : List Event) (s : St) (h : Live C K vault w x y es s)
    (a b : Nat) :
    (2 ≤ a → 8 ≤ b → ∃ t, Live C K vault w x y (es ++ [.flush a b]) t) ∧
    (a < 2 ∨ b < 8 → ∀ more, (loop C K vault x y (es ++ .flush a b :: more) w).1 = .fatal) := by
  constructor
  · intro ha hb
    rcases step_trans C K (h.inv C K) (.flush a b) with ⟨t, h1, -⟩ | ⟨-, h2⟩
    · exact ⟨t, h.then C K h1⟩
    · generalize (step C K (.flush a b) s).1 = r at h2
      cases h2 with
      | smallScreen _ _ hs => omega
  · intro hs more
    unfold loop
    rw [h.run_on C K, run_cons]
    have h1 : (step C K (.flush a b) s).1 = .err .dimensions := flush_small C K (by omega)
    rcases hf : step C K (.flush a b) s with ⟨r, t⟩
    rw [hf] at h1
    cases h1
    rw [bind_err hf]
    rfl

/-- C121: TAB with an empty item list crashes the program: a stack trace, and status 2. -/
theorem C121_crash (vault : Bytes) (w : World) (x y : Nat) (es : List Event) (s : St) (h : Live C K vault w x y es s)
    (hc : s.cur = some (.live .items)) (hi : s.items = []) (more : List Event) :
    (loop C K vault x y (es ++ .key .tab :: more) w).1 = .panic := by
  unfold loop
  rw [h.run_on C K, run_cons]
  have h1 : (step C K (.key .tab) s).1 = .panic := by
    rcases step_trans C K (h.inv C K) (.key .tab) with ⟨t, h1, h2⟩ | ⟨-, h2⟩
    · exfalso
      generalize he : Event.key .tab = e at h2
      cases h2 with
      | ignored k hk =>
        cases he
        simp [Idle, hc] at hk
      | typed k hk v h => rw [h.cur] at hc; cases hc
      | reveal i v vh h hv hh hi' hl => rw [hi] at hl; exact absurd hl (by simp)
      | scroll k hk => cases he; exact hk.1 rfl
      | cover v vh h => rw [h.cur] at hc; cases hc
      | menuDown k hk i v h => rw [h.cur] at hc; cases hc
      | menuUp k hk i v h => rw [h.cur] at hc; cases hc
      | openEntry k hk vh l h => rw [h.cur] at hc; cases hc
      | itemsDown k hk => cases he; rcases hk with hk | hk <;> simp [Key.isChar] at hk
      | itemsUp k hk => cases he; rcases hk with hk | hk <;> simp [Key.isChar] at hk
      | back k hk => cases he; rcases hk with hk | hk | hk <;> simp [Key.isChar] at hk
      | _ => cases he
    · generalize (step C K (.key .tab) s).1 = r at h2
      cases h2 with
      | emptyList => rfl
      | smallList _ hk => rcases hk with hk | hk | hk <;> simp [Key.isChar] at hk
  rcases hf : step C K (.key .tab) s with ⟨r, t⟩
  rw [hf] at h1
  cases h1
  rw [bind_panic hf]
  rfl

/-- C121, as far as it holds: on a terminal that never has less than 6 columns or 10 lines, as long as no empty item list is
shown and neither a vault nor a server crashes the program, the run is a success, and if it was left before the last event, it was by
CTRL+Q. -/
theorem C121_only_partial (vault : Bytes) (w : World) (x y : Nat) (es : List Event) (hl : w.sess.isUnlocked = false)
    (hr : Session.Reachable C.env w.sess) (hx : 6 ≤ x) (hy : 10 ≤ y) (hsize : ∀ a b, .flush a b ∈ es → 6 ≤ a ∧ 10 ≤ b)
    (hn : NoEmptyList C K vault w x y es)
    (hvault : ∀ before after, es = before ++ after → ∀ s v, Live C K vault w x y before s → s.views .prompt = some v →
      ∃ a, s.world.sess.unlock C.env (K.order s.opened) s.world.disk s.vault (entered v) = .ret a)
    (hserver : ∀ before after, es = before ++ after → ∀ s, Live C K vault w x y before s →
      ∃ a, (Upd.facadeCheck C.sys C.ext C.dir true s.world).1 = .ret a) :
    (loop C K vault x y es w).1 = .ret () ∧
    ((∃ s, Live C K vault w x y es s) ∨ .key .ctrlQ ∈ es) := by
  rcases C68_goes_on_partial C K vault w x y es hl hr hx hy hsize hn hvault hserver with h | ⟨hq, h⟩
  · exact ⟨by show (run C K _ _).1.out = _; rw [h]; rfl, .inl ⟨_, hl, hr, by rw [← h]⟩⟩
  · exact ⟨by show (run C K _ _).1.out = _; rw [h]; rfl, .inr hq⟩

theorem Live.here {vault : Bytes} {w : World} {x y : Nat} (hl : w.sess.isUnlocked = false) (hr : Session.Reachable C.env w.sess)
    (hx : 2 ≤ x) (hy : 8 ≤ y) : ∃ s, Live C K vault w x y [] s :=
  ⟨_, hl, hr, by rw [run_cons]; exact bind_ok (first_run C K hx hy hl)⟩

/-- C121 is false: making the window 7 lines high ends the program. -/
theorem C121_refuted : ¬ ∀ (C : Ctx) (K : Kit) (vault : Bytes) (w : World) (x y : Nat) (es : List Event),
    w.sess.isUnlocked = false → Session.Reachable C.env w.sess → 80 ≤ x → 24 ≤ y → (∀ k, .key k ∉ es) → .checked ∉ es →
      (loop C K vault x y es w).1 = .ret () := by
  intro h
  obtain ⟨s, hs⟩ := Live.here Demo.ctx Demo.kit (vault := b!"/a") (x := 80) (y := 24) (Demo.world_locked Demo.tidy).1 (Demo.world_locked Demo.tidy).2
    (by omega) (by omega)
  have h1 := (C121_resize _ _ _ _ _ _ _ _ hs 80 7).2 (by omega) []
  rw [h _ _ _ _ _ _ _ hs.locked hs.reach (by omega) (by omega) (by simp) (by simp)] at h1
  cases h1

set_option maxRecDepth 20000 in
/-- C121: CTRL+Q with the list of items on the screen; a window of 7 lines; TAB with the empty trash on the screen. -/
example : (loop Demo.ctx Demo.kit b!"/a" 80 24 (Demo.opening ++ [.key .enter, .key .ctrlQ, .key .tab]) (Demo.world Demo.tidy)).1 = .ret () ∧
    (loop Demo.ctx Demo.kit b!"/a" 80 24 (Demo.opening ++ [.key .enter, .flush 80 7]) (Demo.world Demo.tidy)).1 = .fatal ∧
    (loop Demo.ctx Demo.kit b!"/a" 80 24 (Demo.atLast ++ [.key .enter, .key .tab]) (Demo.world Demo.tidy)).1 = .panic := by
  decide +kernel

end Gui
end OnePass
