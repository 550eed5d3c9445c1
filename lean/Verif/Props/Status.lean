/-
C104: the exit status of the item commands.
-/
import Verif.Props.Commands

set_option linter.unusedSimpArgs false

namespace OnePass
namespace Cli
open Prog Fmt Spec

/-- The vault is valid and the password typed unlocks it; `s'` is the session then. -/
def Opened (C : Ctx) (vault : Bytes) (w1 : World) (s' : Session) : Prop :=
  ∃ s, w1.sess.validate w1.disk vault = .ret (.ok (), s) ∧
    s.unlock C.env C.order w1.disk vault (C.sys.password w1.tick) = .ret (.ok (), s')

/-- There is an item with this UID among those (trashed or not) that were asked for. -/
def Present (s : Session) (uid : Bytes) (trashed : Bool) : Prop := ∃ i ∈ held s, i.uid = uid ∧ i.trashed = trashed

theorem getItem_none_iff (s : Session) (uid : Bytes) (trashed : Bool) :
    s.getItem uid trashed = none ↔ ¬ Present s uid trashed := by
  show (held s).find? (fun x => x.uid == uid && x.trashed == trashed) = none ↔ _
  rw [List.find?_eq_none]
  constructor
  · rintro h ⟨i, hi, h1, h2⟩
    exact h i hi (by simp [h1, h2])
  · rintro h i hi h1
    rw [Bool.and_eq_true, beq_iff_eq, beq_iff_eq] at h1
    exact h ⟨i, hi, h1⟩

/-- Opening succeeds exactly if the vault is valid and the password right. -/
theorem openVault_ret (C : Ctx) (flag vault : Bytes) (w w1 w' : World) (hb : Begun C w w1) (hv : Meaning w1.conf flag vault) :
    openVault C flag w = (.ret (), w') ↔ ∃ s', Opened C vault w1 s' ∧ w' = after w1 s' [] := by
  constructor
  · intro h
    have h0 := h
    rw [C64_vault C flag vault w w1 hb hv] at h
    unfold opening at h
    simp only [bind_run, onSession] at h
    cases hval : w1.sess.validate w1.disk vault with
    | panic => rw [hval] at h; cases congrArg Prod.fst h
    | fatal => rw [hval] at h; cases congrArg Prod.fst h
    | ret p =>
      obtain ⟨r, s⟩ := p
      rw [hval] at h
      cases r with
      | error e => cases congrArg Prod.fst h
      | ok u =>
        simp only [println, emit, Os.readPassword_run, bind_run, onSession] at h
        cases hu : s.unlock C.env C.order w1.disk vault (C.sys.password w1.tick) with
        | panic => rw [hu] at h; cases congrArg Prod.fst h
        | fatal => rw [hu] at h; cases congrArg Prod.fst h
        | ret q =>
          obtain ⟨r', s'⟩ := q
          rw [hu] at h
          cases r' with
          | error e => cases congrArg Prod.fst h
          | ok u' =>
            refine ⟨s', ⟨s, hval, hu⟩, ?_⟩
            have := open_ok C flag vault w w1 hb hv s s' hval hu
            rw [h0] at this
            exact congrArg Prod.snd this
  · rintro ⟨s', ⟨s, h1, h2⟩, rfl⟩
    exact open_ok C flag vault w w1 hb hv s s' h1 h2

/-- Printing an item, or that there is none, always succeeds. -/
theorem printItem_ret (C : Ctx) (hide : Bool) (uid : Bytes) (trashed : Bool) (w : World) :
    (printItem C hide uid trashed w).1 = .ret () := by
  cases h : w.sess.getItem uid trashed with
  | none => rw [printItem_none C hide uid trashed w h]
  | some i => rw [printItem_run C hide uid trashed w i h]

theorem bound_ret {α : Type} {m : Prog Unit} {k : Unit → Prog α} {w : World} {a : α} (h : ((m >>= k : Prog α) w).1 = .ret a) :
    ∃ w', m w = (.ret (), w') ∧ (k () w').1 = .ret a := by
  rw [bind_run] at h
  rcases hm : m w with ⟨o, w'⟩
  rw [hm] at h
  cases o with
  | ret u => exact ⟨w', rfl, h⟩
  | panic => cases h
  | fatal => cases h

/-- C104. `overview` and `details` end with status 0 exactly if the vault is valid and the password right. -/
theorem C104_status_item (C : Ctx) (flag vault uid : Bytes) (trashed : Bool) (w w1 : World) (hb : Begun C w w1)
    (hv : Meaning w1.conf flag vault) (cmd : Cmd) (hc : cmd = .overview flag uid trashed ∨ cmd = .details flag uid trashed) :
    (command C cmd w).1 = .ret () ↔ ∃ s', Opened C vault w1 s' := by
  have key : ∀ hide, ((openVault C flag >>= fun _ => printItem C hide uid trashed : Prog Unit) w).1 = .ret () ↔ ∃ s', Opened C vault w1 s' := by
    intro hide
    constructor
    · intro h
      obtain ⟨w', h1, -⟩ := bound_ret h
      obtain ⟨s', h2, -⟩ := (openVault_ret C flag vault w w1 w' hb hv).1 h1
      exact ⟨s', h2⟩
    · rintro ⟨s', h⟩
      rw [bind_run, (openVault_ret C flag vault w w1 _ hb hv).2 ⟨s', h, rfl⟩]
      exact printItem_ret C hide uid trashed _
  rcases hc with rfl | rfl
  · exact key true
  · exact key false

/-- C104. `list` ends with status 0 exactly if the vault is valid, the password right, and the category, if one is given,
one of the categories. -/
theorem C104_status_list (C : Ctx) (flag vault category title : Bytes) (trashed : Bool) (w w1 : World) (hb : Begun C w w1)
    (hv : Meaning w1.conf flag vault) (hreg : w.sess.reg.Perm Cat.values) :
    (command C (.list flag category title trashed) w).1 = .ret () ↔
      (∃ s', Opened C vault w1 s') ∧
        (category ≠ [] → ∃ c ∈ Cat.values, SameLetters C.env.text c.name (Str.trimSpace category)) := by
  constructor
  · intro h
    have h' : (getItems C flag category title trashed w).1 = .ret () := h
    unfold getItems at h'
    obtain ⟨w', h1, -⟩ := bound_ret h'
    obtain ⟨s', h2, -⟩ := (openVault_ret C flag vault w w1 w' hb hv).1 h1
    refine ⟨⟨s', h2⟩, fun hne => ?_⟩
    by_contra hno
    obtain ⟨s, h3, h4⟩ := h2
    rw [C66_refused C flag vault category title trashed w w1 hb hv s s' h3 h4 hreg hne
      (fun c hc hl => hno ⟨c, hc, hl⟩)] at h
    cases h
  · rintro ⟨⟨s', s, h3, h4⟩, hcat⟩
    have : ∃ cat, Filter C.env.text category cat := by
      by_cases hne : category = []
      · exact ⟨none, .inl ⟨hne, rfl⟩⟩
      · obtain ⟨c, hc, hl⟩ := hcat hne
        exact ⟨some c, .inr ⟨hne, c, hc, hl, rfl⟩⟩
    obtain ⟨cat, hf⟩ := this
    obtain ⟨items, -, -, h5, h6⟩ := C65_list C flag vault category title trashed w w1 hb hv s s' h3 h4 hreg cat hf
    by_cases hi : items = []
    · rw [h6 hi]
    · obtain ⟨rows, -, h7⟩ := h5 hi
      rw [h7]

/-- C104. The wish: status 0 only if the item asked for was there. -/
def C104_wish : Prop :=
  ∀ (C : Ctx) (flag vault uid : Bytes) (trashed : Bool) (w w1 : World), Begun C w w1 → Meaning w1.conf flag vault →
    ∀ cmd, (cmd = .overview flag uid trashed ∨ cmd = .details flag uid trashed) →
      (command C cmd w).1 = .ret () → ∃ s', Opened C vault w1 s' ∧ Present s' uid trashed

/-- C104, what does hold: if the item asked for is not there, the commands say so, naming the UID, and print nothing else.
Missing: they end with status 0 nevertheless. -/
theorem C104_missing_partial (C : Ctx) (flag vault uid : Bytes) (trashed : Bool) (w w1 : World) (hb : Begun C w w1)
    (hv : Meaning w1.conf flag vault) (cmd : Cmd) (hc : cmd = .overview flag uid trashed ∨ cmd = .details flag uid trashed)
    (s' : Session) (ho : Opened C vault w1 s') :
    (¬ Present s' uid trashed → command C cmd w =
      (.ret (), after w1 s' [.out (b!"Item with UID " ++ uid ++ b!" do not exist\n")])) ∧
    (Present s' uid trashed → (command C cmd w).2.log ≠
      (after w1 s' [.out (b!"Item with UID " ++ uid ++ b!" do not exist\n")]).log) := by
  have key : ∀ hide, (¬ Present s' uid trashed → (openVault C flag >>= fun _ => printItem C hide uid trashed : Prog Unit) w =
      (.ret (), after w1 s' [.out (b!"Item with UID " ++ uid ++ b!" do not exist\n")])) ∧
      (Present s' uid trashed → ((openVault C flag >>= fun _ => printItem C hide uid trashed : Prog Unit) w).2.log ≠
        (after w1 s' [.out (b!"Item with UID " ++ uid ++ b!" do not exist\n")]).log) := by
    intro hide
    rw [bind_run, (openVault_ret C flag vault w w1 _ hb hv).2 ⟨s', ho, rfl⟩]
    constructor
    · intro hn
      show printItem C hide uid trashed (after w1 s' []) = _
      rw [printItem_none C hide uid trashed _ ((getItem_none_iff s' uid trashed).2 hn)]
      simp only [after, List.append_assoc]
      rfl
    · intro hp
      cases hg : s'.getItem uid trashed with
      | none => exact absurd hp ((getItem_none_iff s' uid trashed).1 hg)
      | some i =>
        show (printItem C hide uid trashed (after w1 s' [])).2.log ≠ _
        rw [printItem_run C hide uid trashed _ i hg]
        simp only [after, List.append_assoc]
        intro h
        have h1 := List.append_cancel_left h
        simp only [List.cons_append, List.nil_append, List.cons.injEq, true_and] at h1
        unfold itemLines at h1
        simp only [List.cons_append, List.nil_append, List.map_cons, List.cons.injEq] at h1
        have := h1.1
        simp at this
  rcases hc with rfl | rfl
  · exact key true
  · exact key false

set_option maxRecDepth 20000 in
/-- In the demo vault there is no item `X`: `details X` says so and ends with status 0; the same for the item `T`, which
is in the trash. -/
theorem C104_runs :
    Demo.run OnePass.Demo.pa b!"1" [] (.details [] b!"X" false) =
      (true, [.out b!"Password:\n", .password, .out b!"Item with UID X do not exist\n"]) ∧
    Demo.run OnePass.Demo.pa b!"1" [] (.overview [] b!"T" false) =
      (true, [.out b!"Password:\n", .password, .out b!"Item with UID T do not exist\n"]) ∧
    (Demo.run OnePass.Demo.pa b!"1" [] (.details [] b!"T" true)).2.length = 12 := by decide +kernel

/-- The world the demo runs in, after starting. -/
def Demo.started : World := (Conf.boot (Demo.ctx OnePass.Demo.pa).sys (Demo.ctx OnePass.Demo.pa).ext (Demo.ctx OnePass.Demo.pa).dir
  (Toy.world (Demo.disk b!"1" []) [])).2

set_option maxRecDepth 20000 in
theorem demo_begun : ∃ w1, Begun (Demo.ctx OnePass.Demo.pa) Demo.started w1 ∧ w1.log = [] := by
  have split : ∀ {α : Type} (p : Out α × World) (o : Out α), p.1 = o → p = (o, p.2) := fun p o h => by rw [← h]
  have h1 : (firstRun (Demo.ctx OnePass.Demo.pa) Demo.started).1 = .ret () := by decide +kernel
  have h2 : (checkForUpdate (Demo.ctx OnePass.Demo.pa) (firstRun (Demo.ctx OnePass.Demo.pa) Demo.started).2).1 = .ret () := by
    decide +kernel
  have h3 : (checkForUpdate (Demo.ctx OnePass.Demo.pa) (firstRun (Demo.ctx OnePass.Demo.pa) Demo.started).2).2.log = [] := by
    decide +kernel
  exact ⟨_, ⟨_, split _ _ h1, split _ _ h2⟩, h3⟩

set_option maxRecDepth 20000 in
theorem demo_missing : (command (Demo.ctx OnePass.Demo.pa) (.details b!"/a" b!"X" false) Demo.started).1 = .ret () ∧
    (command (Demo.ctx OnePass.Demo.pa) (.details b!"/a" b!"X" false) Demo.started).2.log =
      [.out b!"Password:\n", .password, .out b!"Item with UID X do not exist\n"] := by decide +kernel

/-- C104. The wish fails. -/
theorem C104_refuted : ¬ C104_wish := by
  intro h
  obtain ⟨w1, hb, hl⟩ := demo_begun
  have hv : Meaning w1.conf b!"/a" b!"/a" := .inl ⟨by decide, rfl⟩
  obtain ⟨h1, h2⟩ := demo_missing
  obtain ⟨s', ho, hp⟩ := h _ b!"/a" b!"/a" b!"X" false _ w1 hb hv _ (.inr rfl) h1
  refine (C104_missing_partial _ b!"/a" b!"/a" b!"X" false _ w1 hb hv _ (.inr rfl) s' ho).2 hp ?_
  rw [h2]
  show _ = w1.log ++ _
  rw [hl]
  rfl

end Cli
end OnePass
