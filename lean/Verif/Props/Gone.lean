/-
C133: an open vault does not need the disk.
-/
import Verif.Props.GuiCheck
import Verif.Props.GuiCrash

set_option linter.unusedSimpArgs false

namespace OnePass
namespace Gui
open Act

variable (C : Ctx) (K : Kit)

/-- With a vault open, the prompt is not in front. -/
theorem not_prompt {s : St} (hI : Inv s) (hu : s.world.sess.isUnlocked = true) : ∀ r, s.cur = some r → r.name ≠ .prompt := by
  intro r hr
  cases hI.screen with
  | prompt h => rw [h.locked] at hu; cases hu
  | error h => rw [h.locked] at hu; cases hu
  | menu h => rw [h.cur] at hr; cases hr; decide
  | items h => rw [h.cur] at hr; cases hr; decide
  | details h => rw [h.cur] at hr; cases hr; decide

theorem indep_bound {D : Bg} {d : Disk} {vault : Bytes} {r : Ref} {k : Key} {a : Act Unit} (h : binding C K r.name k r = some a)
    (hr : Usual r) (hn : r.name ≠ .prompt) : Indep D d vault a := by
  unfold binding at h
  split at h
  · exact indep_ite_some h (indep_closeError C K) (fun h => by cases h)
  · rename_i h'
    exact absurd h' hn
  · refine indep_ite_some h (indep_itemsLock C K) fun h => ?_
    refine indep_ite_some h (indep_scrollDown hr) fun h => ?_
    refine indep_ite_some h (indep_scrollUp hr) fun h => ?_
    refine indep_ite_some h (indep_scrollRight hr) fun h => ?_
    refine indep_ite_some h (indep_scrollLeft hr) fun h => ?_
    exact indep_ite_some h (indep_cover C) (fun h => by cases h)
  · refine indep_ite_some h (indep_itemsLock C K) fun h => ?_
    refine indep_ite_some h indep_goBack fun h => ?_
    refine indep_ite_some h (indep_itemsDown C hr) fun h => ?_
    refine indep_ite_some h (indep_itemsUp C hr) fun h => ?_
    exact indep_ite_some h (indep_reveal C) (fun h => by cases h)
  · refine indep_ite_some h (indep_lock C K hr) fun h => ?_
    refine indep_ite_some h (indep_menuDown hr) fun h => ?_
    refine indep_ite_some h (indep_menuUp hr) fun h => ?_
    exact indep_ite_some h (indep_showItems C) (fun h => by cases h)
  · cases h

theorem press_open {s : St} (hI : Inv s) (hu : s.world.sess.isUnlocked = true) (D : Bg) (k : Key) :
    press C K k (upd D s) = ((press C K k s).1, upd D (press C K k s).2) := by
  have hp := not_prompt hI hu
  unfold press
  simp only [get_bind]
  by_cases hk : k = .ctrlQ
  · rw [if_pos hk, if_pos hk]; rfl
  · rw [if_neg hk, if_neg hk, show (upd D s).cur = s.cur from rfl]
    cases hc : s.cur with
    | none => rfl
    | some r =>
      dsimp only
      have hn := hp r hc
      cases hb : binding C K r.name k r with
      | none =>
        simp only [hn, if_false]
        rfl
      | some a =>
        have hr : Usual r := by
          intro hv
          rw [hv] at hb
          cases hb
        exact (indep_bound (D := D) (d := s.world.disk) (vault := s.vault) C K hb hr hn s rfl rfl).1

theorem step_open_upd {s : St} (hI : Inv s) (hu : s.world.sess.isUnlocked = true) (D : Bg) (e : Event) (he : e.own = true) :
    ∃ D', step C K e (upd D s) = ((step C K e s).1, upd D' (step C K e s).2) := by
  cases e with
  | checked => cases he
  | disk d => cases he
  | key k => exact ⟨D, press_open C K hI hu D k⟩
  | flush x y =>
    obtain ⟨v, hv⟩ := hI.frame.ver
    show ∃ D', flush C K x y (upd D s) = ((flush C K x y s).1, upd D' (flush C K x y s).2)
    by_cases hx : x < 2
    · rw [flush_line C K hv, flush_line C K (show (upd D s).views .ver = some D.line by simp [upd]), if_pos hx, if_pos hx]
      exact ⟨D, rfl⟩
    · rw [flush_upd C K (v := v) D hx y, flush_sized C K hv hx y]
      rcases restLayout C K (sized x y v s) with ⟨r, t⟩
      cases r with
      | ok a => exact ⟨_, rfl⟩
      | err e => exact ⟨_, rfl⟩
      | panic => exact ⟨_, rfl⟩
      | fatal => exact ⟨_, rfl⟩

/-- Only CTRL+L locks. -/
theorem step_open_stays {s t : St} {e : Event} (hI : Inv s) (hu : s.world.sess.isUnlocked = true) (he : e ≠ .key .ctrlL)
    (h : step C K e s = (.ok (), t)) : t.world.sess.isUnlocked = true ∧ t.world.sess = s.world.sess := by
  obtain ⟨ht, -⟩ := inv_step C K hI h
  have : t.world.sess = s.world.sess := by
    cases ht with
    | refused v e sess h' => rw [h'.locked] at hu; cases hu
    | accepted v vm sess h' => rw [h'.locked] at hu; cases hu
    | lockMenu => exact absurd rfl he
    | lockItems => exact absurd rfl he
    | checked v r w hp hv hr => exact (check_sess C hr).1
    | _ => rfl
  rw [this]
  exact ⟨hu, rfl⟩

/-- C133. While a vault is open and is not locked, the program does not look at the disk: whatever others do to it (also: they
remove the vault), and whenever the check for updates finishes, all keys and drawings leave the same views, selections and session
as if nothing of that had happened; only the version line may be different. -/
theorem C133_open (vault : Bytes) (w : World) (x y : Nat) (es₀ : List Event) (s t : St) (h : Live C K vault w x y es₀ s)
    (hu : s.world.sess.isUnlocked = true) (es : List Event) (hes : .key .ctrlL ∉ es) (ht : run C K es s = (.ok (), t)) :
    ∃ t₀, run C K (es.filter Event.own) s = (.ok (), t₀) ∧
      (∀ n, n ≠ .ver → t.views n = t₀.views n) ∧
      { t with views := t₀.views, pending := t₀.pending, world := t₀.world } = t₀ ∧
      t.world.sess = t₀.world.sess ∧ t.world.conf = t₀.world.conf ∧ t.world.stdin = t₀.world.stdin := by
  have main : ∀ (es : List Event) (D : Bg) (s t : St), Inv s → Inv (upd D s) → s.world.sess.isUnlocked = true →
      .key .ctrlL ∉ es → run C K es (upd D s) = (.ok (), t) → ∃ t₀ D', run C K (es.filter Event.own) s = (.ok (), t₀) ∧ t = upd D' t₀ := by
    intro es
    induction es with
    | nil =>
      intro D s t _ _ _ _ h
      cases h
      exact ⟨s, D, rfl, rfl⟩
    | cons e es ih =>
      intro D s t hI hJ hu hes h
      have hes' : .key .ctrlL ∉ es := fun h => hes (List.mem_cons_of_mem _ h)
      have hel : e ≠ .key .ctrlL := fun h => hes (h ▸ List.mem_cons_self)
      rw [run_cons] at h
      cases he : e.own with
      | true =>
        rw [List.filter_cons_of_pos he, run_cons]
        obtain ⟨D1, h1⟩ := step_open_upd C K hI hu D e he
        rcases hs : step C K e s with ⟨r, u⟩
        rw [hs] at h1
        cases r with
        | ok a =>
          rw [bind_ok h1] at h
          rw [bind_ok hs]
          exact ih D1 u t (inv_step C K hI hs).2 (inv_step C K hJ h1).2 (step_open_stays C K hI hu hel hs).1 hes' h
        | err x => rw [bind_err h1] at h; cases h
        | panic => rw [bind_panic h1] at h; cases h
        | fatal => rw [bind_fatal h1] at h; cases h
      | false =>
        rw [List.filter_cons_of_neg (by simp [he])]
        have h1 : ∃ D1, step C K e (upd D s) = (.ok (), upd D1 s) := by
          cases e with
          | key k => cases he
          | flush a b => cases he
          | disk d => exact ⟨{ D with disk := d }, rfl⟩
          | checked =>
            rcases hs : step C K .checked (upd D s) with ⟨r, u⟩
            cases r with
            | err x => rw [bind_err hs] at h; cases h
            | panic => rw [bind_panic hs] at h; cases h
            | fatal => rw [bind_fatal hs] at h; cases h
            | ok a =>
              obtain ⟨hT, -⟩ := inv_step C K hJ hs
              generalize he' : Event.checked = e' at hT
              cases hT with
              | idle hp => exact ⟨D, rfl⟩
              | checked v r w hp hv hr =>
                refine ⟨⟨false, w.disk, w.log, w.tick, v.write (checkText r)⟩, ?_⟩
                rw [checked_upd C hr]
                simp only [upd, setAt_twice]
              | _ => cases he'
        obtain ⟨D1, h1⟩ := h1
        rw [bind_ok h1] at h
        exact ih D1 s t hI (inv_step C K hJ h1).2 hu hes' h
  obtain ⟨v, hv⟩ := (h.inv C K).frame.ver
  have e1 : upd ⟨s.pending, s.world.disk, s.world.log, s.world.tick, v⟩ s = s := by
    unfold upd
    simp only [← hv, setAt_id]
  obtain ⟨t₀, D', h1, h2⟩ := main es _ s t (h.inv C K) (by rw [e1]; exact h.inv C K) hu hes (by rw [e1]; exact ht)
  subst h2
  exact ⟨t₀, h1, fun n hn => setAt_ne _ _ hn, rfl, rfl, rfl, rfl⟩

/-- Nothing is left on the disk. -/
def Demo.wiped : Disk := { fs := [], cwd := [] }

set_option maxRecDepth 20000 in
/-- C133: the vault is opened, all files are removed, and an item can still be revealed. -/
example :
    Demo.text .details (Demo.go Demo.tidy (Demo.opening ++ [.disk Demo.wiped, .key .enter, .key .tab, .flush 80 24])) =
      Demo.text .details (Demo.go Demo.tidy (Demo.opening ++ [.key .enter, .key .tab, .flush 80 24])) ∧
    (Demo.text .details (Demo.go Demo.tidy (Demo.opening ++ [.disk Demo.wiped, .key .enter, .key .tab, .flush 80 24]))).any
      (·.contains b!"Pin: 1234") = true ∧
    (Demo.go Demo.tidy (Demo.opening ++ [.disk Demo.wiped, .key .enter, .key .tab, .flush 80 24])).2.world.disk.fs = [] := by
  decide +kernel

end Gui
end OnePass
