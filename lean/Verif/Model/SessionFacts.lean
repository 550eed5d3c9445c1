/-
Lemmas about the session model.
-/
import Verif.Model.Session
import Verif.Go.JsonFacts

namespace OnePass

theorem keepSome_mem {α : Type} {l : List (Option α)} {a : α} : a ∈ keepSome l ↔ some a ∈ l := by
  simp [keepSome, List.mem_filterMap]

namespace ItemSvc

/-- Attributes a decoded item has from its raw item. -/
theorem decodeItem_some {E : Env} {O : MapOrder} {reg : List Cat} {keys : Keys} {r : RawItem} {i : Item}
    (h : decodeItem E O reg keys r = .ret (some i)) :
    Cat.fromCode reg r.category = .ok i.category ∧ i.uid = r.uid ∧ i.trashed = r.trashed ∧
      i.created = r.created ∧ i.updated = r.updated := by
  unfold decodeItem at h
  split at h
  · simp at h
  · rename_i c hc
    simp only [Out.bind_eq_ret, Out.pure_eq, Out.ret.injEq, Option.some.injEq] at h
    obtain ⟨_, _, _, _, _, _, _, _, _, _, _, _, rfl⟩ := h
    exact ⟨hc, rfl, rfl, rfl, rfl⟩

theorem decodeItem_none {E : Env} {O : MapOrder} {reg : List Cat} {keys : Keys} {r : RawItem}
    (h : decodeItem E O reg keys r = .ret none) : Cat.fromCode reg r.category = .error .unknownItemCat := by
  unfold decodeItem at h
  split at h
  · rename_i e hc
    rw [hc]
    unfold Cat.fromCode at hc
    split at hc <;> simp_all
  · simp [Out.bind_eq_ret] at h

theorem decodeItems_eq {E : Env} {O : MapOrder} {reg : List Cat} {keys : Keys} {raw : List RawItem} {items : List Item}
    (h : decodeItems E O reg keys raw = .ret items) :
    ∃ os, List.Forall₂ (fun r o => decodeItem E O reg keys r = .ret o) raw os ∧ items = keepSome os := by
  unfold decodeItems at h
  simp only [Out.bind_eq_ret, Out.pure_eq, Out.ret.injEq] at h
  obtain ⟨os, h1, h2⟩ := h
  exact ⟨os, Out.mapL_eq_ret.1 h1, h2.symm⟩

theorem decodeItems_uids {E : Env} {O : MapOrder} {reg : List Cat} {keys : Keys} {raw : List RawItem}
    {items : List Item} (h : decodeItems E O reg keys raw = .ret items) :
    (items.map (·.uid)).Sublist (raw.map (·.uid)) := by
  obtain ⟨os, hf, rfl⟩ := decodeItems_eq h
  induction hf with
  | nil => exact .slnil
  | @cons r o rs os h1 h2 ih =>
    have ih := ih (by unfold decodeItems; simp [Out.mapL_eq_ret.2 h2])
    cases o with
    | none => exact ih.cons _
    | some i =>
      have := (decodeItem_some h1).2.1
      show (i.uid :: (keepSome os).map (·.uid)).Sublist (r.uid :: rs.map (·.uid))
      rw [this]
      exact ih.cons_cons _

theorem decodeItems_cats {E : Env} {O : MapOrder} {reg : List Cat} {keys : Keys} {raw : List RawItem}
    {items : List Item} (h : decodeItems E O reg keys raw = .ret items) :
    ∀ i ∈ items, i.category ∈ reg := by
  obtain ⟨os, hf, rfl⟩ := decodeItems_eq h
  intro i hi
  rw [keepSome_mem] at hi
  obtain ⟨r, _, hr⟩ : ∃ r ∈ raw, decodeItem E O reg keys r = .ret (some i) := by
    clear h
    induction hf with
    | nil => simp at hi
    | @cons r o rs os h1 h2 ih =>
      rcases List.mem_cons.1 hi with rfl | hi
      · exact ⟨r, by simp, h1⟩
      · obtain ⟨r', h3, h4⟩ := ih hi
        exact ⟨r', by simp [h3], h4⟩
  have hc := (decodeItem_some hr).1
  unfold Cat.fromCode at hc
  split at hc
  · rename_i c hfind
    cases hc
    exact List.mem_of_find?_eq_some hfind
  · cases hc

end ItemSvc

namespace Repo

theorem rawItem_uid {E : Env} {e : Bytes × Json} {r : RawItem} (h : rawItem E e = .ret r) : r.uid = e.1 := by
  unfold rawItem at h
  simp only [Out.bind_eq_ret, Out.pure_eq, Out.ret.injEq] at h
  obtain ⟨_, _, _, _, _, _, _, _, _, _, _, _, _, _, _, _, _, _, rfl⟩ := h
  rfl

/-- The raw items of a vault have distinct UIDs. -/
theorem loadItems_nodup {E : Env} {O : MapOrder} {d : Disk} {v : Bytes} {raw : List RawItem}
    (h : loadItems E O d v = .ret raw) : (raw.map (·.uid)).Nodup := by
  unfold loadItems at h
  split at h
  · cases h
  · cases h; simp
  · rename_i files _ _
    simp only [Out.bind_eq_ret] at h
    obtain ⟨bodies, _, h⟩ := h
    split at h
    · cases h
    · rename_i m _
      have hf := Out.mapL_eq_ret.1 h
      have huid : raw.map (·.uid) = (O.run (Json.entries (m.getD []))).map (·.1) := by
        generalize O.run (Json.entries (m.getD [])) = es at hf
        clear h
        induction hf with
        | nil => rfl
        | cons h1 _ ih => simp [ih, rawItem_uid h1]
      rw [huid]
      exact ((O.perm _).map _).nodup_iff.2 (Json.entries_nodup _)

end Repo

namespace Session

/-- What an `Unlock` that returns has done. -/
theorem unlock_cases {E : Env} {O : MapOrder} {d : Disk} {v p : Bytes} {s s' : Session} {r : Except Err Unit}
    (h : unlock E O d v p s = .ret (r, s')) :
    (r = .error .invalidPass ∧ s' = s) ∨
    (r = .ok () ∧ ∃ keys raw items, Repo.loadItems E O d v = .ret raw ∧
      ItemSvc.decodeItems E O s.reg keys raw = .ret items ∧
      s' = { s with keys := some keys, items := Repo.storeItems s.items items } ∧
      Key.derivedKeys E s.profile p = .ret (.ok (keys.derivedKey, keys.derivedMac)) ∧
      Key.masterKeys E s.profile keys.derivedKey keys.derivedMac = .ret (.ok (keys.masterKey, keys.masterMac)) ∧
      Key.overviewKeys E s.profile keys.derivedKey keys.derivedMac =
        .ret (.ok (keys.overviewKey, keys.overviewMac))) := by
  unfold unlock at h
  rw [Out.bind_eq_ret] at h
  obtain ⟨r1, h1, h⟩ := h
  rcases r1 with e | ⟨dk, dm⟩
  · simp at h; exact .inl ⟨h.1.symm, h.2.symm⟩
  simp only [Out.bind_eq_ret] at h
  obtain ⟨r2, h2, h⟩ := h
  rcases r2 with e | ⟨a, b⟩
  · simp at h; exact .inl ⟨h.1.symm, h.2.symm⟩
  simp only [Out.bind_eq_ret] at h
  obtain ⟨r3, h3, h⟩ := h
  rcases r3 with e | ⟨o, m⟩
  · simp at h; exact .inl ⟨h.1.symm, h.2.symm⟩
  simp only [decodeItems, Out.bind_eq_ret, Out.pure_eq, Out.ret.injEq, Prod.mk.injEq] at h
  obtain ⟨s1, ⟨raw, hraw, items, hitems, rfl⟩, rfl, rfl⟩ := h
  exact .inr ⟨rfl, _, raw, items, hraw, hitems, rfl, h1, h2, h3⟩

/-- Invariant of all reachable sessions. -/
structure Inv (s : Session) : Prop where
  reg : s.reg.Perm Cat.values
  locked : s.keys = none → s.items = none
  uids : ∀ l, s.items = some l → (l.map (·.uid)).Nodup
  cats : ∀ l, s.items = some l → ∀ i ∈ l, i.category ∈ Cat.values

theorem inv_init : Inv init where
  reg := .refl _
  locked _ := rfl
  uids l h := by cases h
  cats l h := by cases h

theorem lock_items (s : Session) : s.lock.items = none := by
  unfold lock Repo.removeItems
  cases s.items <;> rfl

theorem inv_step {E : Env} {st st' : St} {o : Op} {a : Answer} (h : step E st o = .ret (a, st')) (hi : Inv st.sess) :
    Inv st'.sess := by
  cases o with
  | validate v =>
    simp only [step, validate, Out.bind_eq_ret, Out.pure_eq, Out.ret.injEq, Prod.mk.injEq, Prod.exists] at h
    obtain ⟨r, s, ⟨r', p, _, _, rfl⟩, _, rfl⟩ := h
    exact ⟨hi.reg, hi.locked, hi.uids, hi.cats⟩
  | unlock O v p =>
    simp only [step, Out.bind_eq_ret, Out.pure_eq, Out.ret.injEq, Prod.mk.injEq, Prod.exists] at h
    obtain ⟨r, s, hu, _, rfl⟩ := h
    rcases unlock_cases hu with ⟨-, rfl⟩ | ⟨-, keys, raw, items, hraw, hitems, rfl, -⟩
    · exact hi
    · refine ⟨hi.reg, ?_, ?_, ?_⟩
      · intro hk; cases hk
      · intro l hl
        simp only [Repo.storeItems] at hl
        split at hl
        · cases hl
          exact (Repo.loadItems_nodup hraw).sublist (ItemSvc.decodeItems_uids hitems)
        · rename_i l' hl'
          cases hl; exact hi.uids _ hl'
      · intro l hl
        simp only [Repo.storeItems] at hl
        split at hl
        · cases hl
          intro i hii
          exact hi.reg.mem_iff.1 (ItemSvc.decodeItems_cats hitems i hii)
        · rename_i l' hl'
          cases hl; exact hi.cats _ hl'
  | lock =>
    simp only [step, Out.ret.injEq, Prod.mk.injEq] at h
    obtain ⟨_, rfl⟩ := h
    refine ⟨hi.reg, fun _ => lock_items _, ?_, ?_⟩ <;> intro l hl <;> rw [lock_items] at hl <;> cases hl
  | count c t => simp only [step, Out.ret.injEq, Prod.mk.injEq] at h; obtain ⟨_, rfl⟩ := h; exact hi
  | getItem u t => simp only [step, Out.ret.injEq, Prod.mk.injEq] at h; obtain ⟨_, rfl⟩ := h; exact hi
  | getItems S c ti t => simp only [step, Out.ret.injEq, Prod.mk.injEq] at h; obtain ⟨_, rfl⟩ := h; exact hi
  | isUnlocked => simp only [step, Out.ret.injEq, Prod.mk.injEq] at h; obtain ⟨_, rfl⟩ := h; exact hi
  | sortReg S less =>
    simp only [step, Out.ret.injEq, Prod.mk.injEq] at h
    obtain ⟨_, rfl⟩ := h
    exact ⟨(S.perm _ _).trans hi.reg, hi.locked, hi.uids, hi.cats⟩
  | disk d => simp only [step, Out.ret.injEq, Prod.mk.injEq] at h; obtain ⟨_, rfl⟩ := h; exact hi

/-- Induction over histories. -/
theorem run_cons {E : Env} {st st' : St} {o : Op} {os : List Op} {as : List Answer} :
    run E st (o :: os) = .ret (as, st') ↔
      ∃ a st1 as', step E st o = .ret (a, st1) ∧ run E st1 os = .ret (as', st') ∧ as = a :: as' := by
  simp only [run, Out.bind_eq_ret, Out.pure_eq, Out.ret.injEq, Prod.mk.injEq, Prod.exists]
  constructor
  · rintro ⟨a, st1, h1, as', st2, h2, rfl, rfl⟩
    exact ⟨a, st1, as', h1, h2, rfl⟩
  · rintro ⟨a, st1, as', h1, h2, rfl⟩
    exact ⟨a, st1, h1, as', st', h2, rfl, rfl⟩

theorem run_append {E : Env} {st st' : St} {xs ys : List Op} {as : List Answer} :
    run E st (xs ++ ys) = .ret (as, st') ↔
      ∃ a b st1, run E st xs = .ret (a, st1) ∧ run E st1 ys = .ret (b, st') ∧ as = a ++ b := by
  induction xs generalizing st as with
  | nil =>
    constructor
    · intro h; exact ⟨[], as, st, rfl, h, rfl⟩
    · rintro ⟨a, b, st1, h1, h2, rfl⟩
      cases h1; exact h2
  | cons x xs ih =>
    rw [List.cons_append, run_cons]
    constructor
    · rintro ⟨a, st1, as', h1, h2, rfl⟩
      obtain ⟨a', b', st2, h3, h4, rfl⟩ := ih.1 h2
      exact ⟨a :: a', b', st2, run_cons.2 ⟨a, st1, a', h1, h3, rfl⟩, h4, rfl⟩
    · rintro ⟨a, b, st1, h1, h2, rfl⟩
      obtain ⟨a', st2, as', h3, h4, rfl⟩ := run_cons.1 h1
      exact ⟨a', st2, as' ++ b, h3, ih.2 ⟨as', b, st1, h4, h2, rfl⟩, rfl⟩

theorem inv_run {E : Env} {st st' : St} {os : List Op} {as : List Answer} (h : run E st os = .ret (as, st'))
    (hi : Inv st.sess) : Inv st'.sess := by
  induction os generalizing st as with
  | nil => cases h; exact hi
  | cons o os ih =>
    obtain ⟨a, st1, as', h1, h2, -⟩ := run_cons.1 h
    exact ih h2 (inv_step h1 hi)

theorem Reachable.inv {E : Env} {s : Session} (h : Reachable E s) : Inv s := by
  obtain ⟨d, ops, as, d', h⟩ := h
  exact inv_run h inv_init

/-- One more operation, on any disk. -/
theorem Reachable.step {E : Env} {s s' : Session} {d d' : Disk} {o : Op} {a : Answer} (h : Reachable E s)
    (hs : Session.step E ⟨d, s⟩ o = .ret (a, ⟨d', s'⟩)) : Reachable E s' := by
  obtain ⟨d0, ops, as, d1, h⟩ := h
  refine ⟨d0, ops ++ [.disk d, o], as ++ [.none, a], d', run_append.2 ⟨as, [.none, a], _, h, ?_, rfl⟩⟩
  refine run_cons.2 ⟨.none, ⟨d, s⟩, [a], rfl, run_cons.2 ⟨a, _, [], hs, rfl, rfl⟩, rfl⟩

end Session
end OnePass
