/-
From one process to the next: C114.
-/
import Verif.Props.Agree
import Verif.Props.Status

namespace OnePass
namespace Cli
open Prog Spec Gui

theorem after_inj {w : World} {s s' : Session} {es es' : List Ev} (h : after w s es = after w s' es') : s = s' ∧ es = es' := by
  unfold after at h
  injection h with h1 h2 h3 h4 h5 h6
  simp only [List.append_cancel_left_eq, List.cons.injEq, true_and] at h2
  exact ⟨h6, h2⟩

/-- A vault that was opened can be opened again in a later process, with the same items. -/
theorem opened_again {D D' : Ctx} {flag' vault : Bytes} {w w1 w' w1' : World} {s2 : Session} (hb : Begun D w w1)
    (hs : w.sess = Session.init) (ho : Opened D vault w1 s2)
    (ha : Asked D D' flag' vault (D.sys.password w1.tick) w1.disk w1.disk w' w1') :
    ∃ t1 t2, w1'.sess.validate w1'.disk vault = .ret (.ok (), t1) ∧
      t1.unlock D'.env D'.order w1'.disk vault (D'.sys.password w1'.tick) = .ret (.ok (), t2) ∧
      (held t2).Perm (held s2) ∧ Session.Reachable D.env t2 := by
  obtain ⟨s1, h1, h2⟩ := ho
  have hs1 : w1.sess = Session.init := (begun_session hb).trans hs
  have hs1r : Session.Reachable D.env s1 := by
    rw [hs1] at h1
    exact ⟨w1.disk, [.validate vault], [Session.answerErr (.ok ())], w1.disk,
        by simp only [Session.run, Session.step, h1, Out.ret_bind, Out.pure_eq]⟩
  have hval : Session.init.validate w1.disk vault = .ret (.ok (), s1) := by rw [← hs1]; exact h1
  have hs1i : s1.items = none := by
    have := hval
    unfold Session.validate at this
    rw [Out.bind_eq_ret] at this
    obtain ⟨⟨r, P⟩, -, this⟩ := this
    simp only [Out.pure_eq, Out.ret.injEq, Prod.mk.injEq] at this
    rw [← this.2]
    rfl
  exact asked_opens D (w := { w with sess := s1 }) (sess := s2) ⟨D.order, s1, s2, hs1r, hs1i, rfl, h2, rfl⟩ hval ha

/-- C114. What `list` has shown can be asked for: as long as the vault is the same, `overview` and `details` of a UID in its
table, with the same password and the same setting of the flag for the trash, in any later process, print an item with the
category and the title in that row. -/
theorem C114_listed (D D' : Ctx) (flag flag' vault category title : Bytes) (trashed : Bool) (w w1 w' w1' : World)
    (hb : Begun D w w1) (hv : Meaning w1.conf flag vault) (hs : w.sess = Session.init) (sess : Session)
    (rows : List (List Bytes))
    (hlist : command D (.list flag category title trashed) w =
      (.ret (), after w1 sess [.table [b!"lp.", b!"uid", b!"category", b!"title"] rows]))
    (ha : Asked D D' flag' vault (D.sys.password w1.tick) w1.disk w1.disk w' w1') (row : List Bytes) (hrow : row ∈ rows) :
    ∃ n uid cat ttl, row = [n, uid, cat, ttl] ∧ ∀ hide : Bool, ∃ (sess' : Session) (lines : List Bytes),
      command D' (if hide then .overview flag' uid trashed else .details flag' uid trashed) w' =
        (.ret (), after w1' sess' (lines.map (fun l => .out (l ++ [10])))) ∧
      [[], cat, b!"------------------------------", ttl, []] <+: lines := by
  have hreg : w.sess.reg.Perm Cat.values := by rw [hs]; exact List.Perm.refl _
  obtain ⟨⟨s2, s1, h1, h2⟩, hcat⟩ := (C104_status_list D flag vault category title trashed w w1 hb hv hreg).1 (by rw [hlist])
  obtain ⟨cat, hfil⟩ : ∃ cat, Filter D.env.text category cat := by
    by_cases hne : category = []
    · exact ⟨none, .inl ⟨hne, rfl⟩⟩
    · obtain ⟨c, hc, hl⟩ := hcat hne
      exact ⟨some c, .inr ⟨hne, c, hc, hl, rfl⟩⟩
  obtain ⟨items, q1, -, q3, q4⟩ := C65_list D flag vault category title trashed w w1 hb hv s1 s2 h1 h2 hreg cat hfil
  have hne : items ≠ [] := fun hn => by
    have := q4 hn
    rw [hlist] at this
    have := (after_inj (Prod.mk.inj this).2).2
    cases this
  obtain ⟨rows', q5, q6⟩ := q3 hne
  have hrows : rows = rows' := by
    rw [hlist] at q6
    have := (after_inj (Prod.mk.inj q6).2).2
    simpa using this
  subst hrows
  obtain ⟨k, hk, hkr⟩ := List.mem_iff_getElem.1 hrow
  have hk' : k < items.length := by rw [← q5.1]; exact hk
  have hr := q5.2 k items[k] (List.getElem?_eq_getElem hk')
  rw [List.getElem?_eq_getElem hk, hkr, Option.some.injEq] at hr
  have hmem : items[k] ∈ items := List.getElem_mem _
  rw [q1.mem_iff, List.mem_map] at hmem
  obtain ⟨i, hi, hsum⟩ := hmem
  rw [List.mem_filter] at hi
  obtain ⟨hi, hw⟩ := hi
  have hw := of_decide_eq_true hw
  rw [← hsum] at hr
  refine ⟨_, _, _, _, hr, fun hide => ?_⟩
  obtain ⟨t1, t2, g1, g2, g3, g4⟩ := opened_again hb hs ⟨s1, h1, h2⟩ ha
  have hget : t2.getItem (summary i).uid trashed = some i := by
    rw [C34_lookup D.env t2 g4, g3.mem_iff]
    exact ⟨hi, rfl, hw.1⟩
  have hopen := open_ok D' flag' vault w' w1' ha.begun ha.meant t1 t2 g1 g2
  have hrun : (do openVault D' flag'; printItem D' hide (summary i).uid trashed : Prog Unit) w' =
      (.ret (), after w1' t2 ((itemLines D'.env hide i).map (fun l => .out (l ++ [10])))) := by
    rw [Prog.bind_run, hopen]
    refine (printItem_run D' hide (summary i).uid trashed (after w1' t2 []) i hget).trans ?_
    simp [after, List.append_assoc]
  refine ⟨t2, itemLines D'.env hide i, ?_, ?_⟩
  · cases hide with
    | true => exact hrun
    | false => exact hrun
  · unfold itemLines
    exact ⟨_, by simp only [List.append_assoc, List.cons_append, List.nil_append]; rfl⟩

/-- C114, the other way: an item that `overview` or `details` has shown is in the table that `list` without filters and with
the same setting of the flag for the trash prints in any later process, as long as the vault is the same. -/
theorem C114_shown (D D' : Ctx) (flag flag' vault uid : Bytes) (trashed : Bool) (w w1 w' w1' : World) (hb : Begun D w w1)
    (hv : Meaning w1.conf flag vault) (hs : w.sess = Session.init) (cmd : Cmd)
    (hc : cmd = .overview flag uid trashed ∨ cmd = .details flag uid trashed) (hret : (command D cmd w).1 = .ret ())
    (hfound : .out (b!"Item with UID " ++ uid ++ b!" do not exist\n") ∉ (command D cmd w).2.log)
    (ha : Asked D D' flag' vault (D.sys.password w1.tick) w1.disk w1.disk w' w1') :
    ∃ (sess : Session) (rows : List (List Bytes)), command D' (.list flag' [] [] trashed) w' =
        (.ret (), after w1' sess [.table [b!"lp.", b!"uid", b!"category", b!"title"] rows]) ∧
      ∃ n cat ttl, [n, uid, cat, ttl] ∈ rows := by
  obtain ⟨s2, ho⟩ := (C104_status_item D flag vault uid trashed w w1 hb hv cmd hc).1 hret
  have hp : Present s2 uid trashed := by
    by_contra hn
    rw [(C104_missing_partial D flag vault uid trashed w w1 hb hv cmd hc s2 ho).1 hn] at hfound
    exact hfound (by simp [after])
  obtain ⟨i, hi, hu, ht⟩ := hp
  obtain ⟨t1, t2, g1, g2, g3, g4⟩ := opened_again hb hs ho ha
  obtain ⟨items, q1, -, q3, -⟩ := C65_list D' flag' vault [] [] trashed w' w1' ha.begun ha.meant t1 t2 g1 g2
    (by rw [ha.fresh]; exact List.Perm.refl _) none (.inl ⟨rfl, rfl⟩)
  have hmem : summary i ∈ items := by
    rw [q1.mem_iff, List.mem_map]
    refine ⟨i, List.mem_filter.2 ⟨g3.mem_iff.2 hi, decide_eq_true ?_⟩, rfl⟩
    rw [show Str.trimSpace [] = [] by decide +kernel]
    exact ⟨ht, fun c hc => (by cases hc), by rw [show Str.toLower D'.env.text [] = [] from rfl]; exact List.nil_infix⟩
  obtain ⟨rows, q4, q5⟩ := q3 (List.ne_nil_of_mem hmem)
  refine ⟨t2, rows, q5, ?_⟩
  obtain ⟨k, hk, hki⟩ := List.mem_iff_getElem.1 hmem
  have := q4.2 k (summary i) (by rw [List.getElem?_eq_getElem hk, hki])
  rw [show (summary i).uid = uid from hu] at this
  exact ⟨_, _, _, List.mem_of_getElem? this⟩

/-! ### Examples -/

set_option maxRecDepth 20000 in
/-- The vault of the demo: what is listed, in one process, and the first lines of `overview` of the UID in the first row, in
another one. -/
example : (Demo.run OnePass.Demo.pa b!"1234" b!"memo" (.list [] [] [] false)).2.getLast? =
      some (.table [b!"lp.", b!"uid", b!"category", b!"title"]
        [[b!"1", b!"M", b!"Login", b!"Mail"], [b!"2", b!"N", b!"Credit Card", b!"Card"]]) ∧
    ((Demo.run OnePass.Demo.pa b!"1234" b!"memo" (.overview [] b!"M" false)).2.drop 2).take 5 =
      [.out b!"\n", .out b!"Login\n", .out b!"------------------------------\n", .out b!"Mail\n", .out b!"\n"] := by
  decide +kernel

set_option maxRecDepth 20000 in
/-- With the other setting of the flag for the trash the UID is not found: the setting has to be the same. -/
example : (Demo.run OnePass.Demo.pa b!"1234" b!"memo" (.overview [] b!"M" true)).2.getLast? =
    some (.out b!"Item with UID M do not exist\n") := by decide +kernel

end Cli
end OnePass
