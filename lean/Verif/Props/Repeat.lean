/-
C148: the same run prints the same.
-/
import Verif.Props.Agree
import Verif.Props.Notice

namespace OnePass
open Spec

namespace ItemSvc

theorem map_nf {α β : Type} {m : Out α} {f : α → β} (h : m ≠ .fatal) : f <$> m ≠ .fatal := by
  cases m with
  | ret a => exact (nofun)
  | panic => exact (nofun)
  | fatal => exact absurd rfl h

theorem sub_nf (s : Slice) (lo hi : Int) : s.sub lo hi ≠ .fatal := by
  rcases s.sub_cases lo hi with ⟨x, h⟩ | h <;> rw [h] <;> exact (nofun)

theorem upto_nf (s : Slice) (hi : Int) : s.upto hi ≠ .fatal := sub_nf _ _ _
theorem suffix_nf (s : Slice) (lo : Int) : s.suffix lo ≠ .fatal := sub_nf _ _ _

theorem decodeData_nf (E : Env) (key iv : Bytes) (data : Slice) : Key.decodeData E key iv data ≠ .fatal := by
  unfold Key.decodeData
  split
  · exact (nofun)
  split
  · exact (nofun)
  split <;> exact (nofun)

theorem opdata_nf (E : Env) (c : Slice) (key mac : Bytes) : Key.opdata E c key mac ≠ .fatal := by
  refine map_nf ?_
  unfold Key.decodeOpdata
  refine Upd.out_bind_ne_fatal (upto_nf _ _) fun a => Upd.out_bind_ne_fatal (suffix_nf _ _) fun b => ?_
  split
  · exact (nofun)
  refine Upd.out_bind_ne_fatal (sub_nf _ _ _) fun a => Upd.out_bind_ne_fatal (sub_nf _ _ _) fun b =>
    Upd.out_bind_ne_fatal (suffix_nf _ _) fun c => Upd.out_bind_ne_fatal (decodeData_nf _ _ _ _) fun d => ?_
  split
  · exact (nofun)
  · exact Upd.out_bind_ne_fatal (suffix_nf _ _) fun c => nofun

theorem itemKeys_nf (E : Env) (t k : Bytes) : Key.itemKeys E t k ≠ .fatal := by
  unfold Key.itemKeys
  refine Upd.out_bind_ne_fatal (upto_nf _ _) fun a => Upd.out_bind_ne_fatal (sub_nf _ _ _) fun b =>
    Upd.out_bind_ne_fatal (suffix_nf _ _) fun c => Upd.out_bind_ne_fatal (decodeData_nf _ _ _ _) fun d => ?_
  split
  · exact (nofun)
  · exact Upd.out_bind_ne_fatal (sub_nf _ _ _) fun c => Upd.out_bind_ne_fatal (sub_nf _ _ _) fun c => nofun

theorem mapL_nf {α β : Type} {f : α → Out β} (h : ∀ x, f x ≠ .fatal) (l : List α) : Out.mapL f l ≠ .fatal := by
  induction l with
  | nil => exact (nofun)
  | cons a l ih => exact Upd.out_bind_ne_fatal (h a) fun b => Upd.out_bind_ne_fatal ih fun c => nofun

theorem parseItemField_nf (E : Env) (O : MapOrder) (b : Bool) (m : Members) : parseItemField E O b m ≠ .fatal := by
  unfold parseItemField
  split
  · unfold parseLoginField
    split
    · refine Upd.out_bind_ne_fatal (asStr_nf _) fun a => Upd.out_bind_ne_fatal (asStr_nf _) fun b => ?_
      split <;> exact (nofun)
    · exact (nofun)
  · unfold parseSectionField
    split
    · refine Upd.out_bind_ne_fatal ?_ fun a => Upd.out_bind_ne_fatal (asStr_nf _) fun b => nofun
      unfold sectionValue
      refine Upd.out_bind_ne_fatal (asStr_nf _) fun a => ?_
      have ha : ∀ m, DataType.parseAddress O m ≠ .fatal := by
        intro m
        refine Upd.out_bind_ne_fatal (mapL_nf (fun x => ?_) _) fun _ => nofun
        unfold DataType.addressLine
        split <;> exact (nofun)
      have hp : ∀ dt v m, DataType.parseValue E O dt v m ≠ .fatal := by
        intro dt v m
        cases dt with
        | address => exact ha m
        | _ => exact (nofun)
      split
      · exact asStr_nf _
      · exact Upd.out_bind_ne_fatal (asObj_nf _) fun _ => hp _ _ _
      · exact hp _ _ _
    · exact (nofun)

theorem parseFields_nf (E : Env) (O : MapOrder) (b : Bool) (l : List Json) : parseFields E O b l ≠ .fatal :=
  Upd.out_bind_ne_fatal (mapL_nf (fun _ => Upd.out_bind_ne_fatal (asObj_nf _) fun _ => parseItemField_nf _ _ _ _) _) fun _ => nofun

theorem parseItemSection_nf (E : Env) (O : MapOrder) (m : Members) : parseItemSection E O m ≠ .fatal := by
  unfold parseItemSection
  simp only [Out.pure_eq, Out.ret_bind]
  have hr : ∀ {α : Type} (a : α), Out.ret a ≠ .fatal := fun _ => nofun
  repeat' first
    | split
    | refine Upd.out_bind_ne_fatal (asArr_nf _) fun _ => ?_
    | refine Upd.out_bind_ne_fatal (parseFields_nf _ _ _ _) fun _ => ?_
    | refine Upd.out_bind_ne_fatal (asStr_nf _) fun _ => ?_
    | exact hr _

theorem parseSections_nf (E : Env) (O : MapOrder) (m : Members) : parseSections E O m ≠ .fatal := by
  unfold parseSections
  split
  · exact Upd.out_bind_ne_fatal (asArr_nf _) fun _ => Upd.out_bind_ne_fatal
      (mapL_nf (fun _ => Upd.out_bind_ne_fatal (asObj_nf _) fun _ => parseItemSection_nf _ _ _) _) fun _ => nofun
  split
  · exact Upd.out_bind_ne_fatal (asArr_nf _) fun _ => Upd.out_bind_ne_fatal (parseFields_nf _ _ _ _) fun _ => nofun
  · exact (nofun)

theorem optStr_nf (m : Members) (k : Bytes) : optStr m k ≠ .fatal := by
  unfold optStr
  split
  · exact asStr_nf _
  · exact (nofun)

/-- Decoding an item returns or panics. -/
theorem decodeItem_nf (E : Env) (O : MapOrder) (reg : List Cat) (keys : Keys) (r : RawItem) : decodeItem E O reg keys r ≠ .fatal := by
  unfold decodeItem
  split
  · exact (nofun)
  · refine Upd.out_bind_ne_fatal (Upd.out_bind_ne_fatal (opdata_nf _ _ _ _) fun _ => nofun) fun _ => Upd.out_bind_ne_fatal ?_ fun _ =>
      Upd.out_bind_ne_fatal (parseSections_nf _ _ _) fun _ => Upd.out_bind_ne_fatal (optStr_nf _ _) fun _ =>
      Upd.out_bind_ne_fatal (optStr_nf _ _) fun _ => Upd.out_bind_ne_fatal (optStr_nf _ _) fun _ => nofun
    exact Upd.out_bind_ne_fatal (itemKeys_nf _ _ _) fun _ => Upd.out_bind_ne_fatal (opdata_nf _ _ _ _) fun _ => nofun

end ItemSvc

namespace Session

/-- Two sessions that differ in the order of their items only. -/
structure Near (s t : Session) : Prop where
  keys : t.keys = s.keys
  profile : t.profile = s.profile
  reg : t.reg = s.reg
  held : (held t).Perm (held s)
  found : ∀ uid trashed, t.getItem uid trashed = s.getItem uid trashed

theorem Near.refl (s : Session) : Near s s := ⟨rfl, rfl, rfl, .refl _, fun _ _ => rfl⟩

theorem inv_unlock {E : Env} {O : MapOrder} {d : Disk} {v p : Bytes} {s t : Session} {r : Except Err Unit} (hi : Inv s)
    (h : unlock E O d v p s = .ret (r, t)) : Inv t :=
  inv_step (E := E) (st := ⟨d, s⟩) (st' := ⟨d, t⟩) (o := .unlock O v p) (a := answerErr r) (by simp only [step, h, Out.ret_bind, Out.pure_eq]) hi

theorem inv_validate {d : Disk} {v : Bytes} {s t : Session} {r : Except Err Unit} (hi : Inv s)
    (h : validate d v s = .ret (r, t)) : Inv t := by
  simp only [validate, Out.bind_eq_ret, Out.pure_eq, Out.ret.injEq, Prod.mk.injEq, Prod.exists] at h
  obtain ⟨r', p, _, _, rfl⟩ := h
  exact ⟨hi.reg, hi.locked, hi.uids, hi.cats⟩

theorem inv_lookup {s : Session} (hi : Inv s) (uid : Bytes) (trashed : Bool) (i : Item) :
    s.getItem uid trashed = some i ↔ i ∈ held s ∧ i.uid = uid ∧ i.trashed = trashed := by
  have hn : ((held s).map (·.uid)).Nodup := by
    unfold held
    cases h : s.items with
    | none => simp
    | some l => exact hi.uids l h
  constructor
  · intro h
    have h' : (held s).find? (fun x => x.uid == uid && x.trashed == trashed) = some i := h
    have h1 := List.mem_of_find?_eq_some h'
    have h2 := List.find?_some h'
    simp only [Bool.and_eq_true, beq_iff_eq] at h2
    exact ⟨h1, h2⟩
  · rintro ⟨h1, rfl, h3⟩
    exact find_uid hn h1 trashed h3

/-- Loading in another map order ends the same way. -/
theorem loadItems_order (E : Env) (O O' : MapOrder) (d : Disk) (v : Bytes) :
    (∃ a b, Repo.loadItems E O d v = .ret a ∧ Repo.loadItems E O' d v = .ret b ∧ a.Perm b) ∨
      (∀ a, Repo.loadItems E O d v ≠ .ret a) ∧ Repo.loadItems E O' d v = Repo.loadItems E O d v := by
  cases h : Repo.loadItems E O d v with
  | ret a =>
    obtain ⟨b, h1, h2⟩ := loadItems_perm E O O' d v h
    exact .inl ⟨a, b, rfl, h1, h2⟩
  | panic =>
    refine .inr ⟨nofun, ?_⟩
    cases h' : Repo.loadItems E O' d v with
    | ret b =>
      obtain ⟨a, h1, -⟩ := loadItems_perm E O' O d v h'
      rw [h] at h1; cases h1
    | panic => rfl
    | fatal =>
      exfalso
      unfold Repo.loadItems at h h'
      split at h'
      · rename_i e; rw [e] at h; cases h
      · cases h'
      · rename_i files e1 e2
        rw [e2] at h
        simp only at h
        cases hb : Out.mapL (Repo.bandBody d) files with
        | panic => rw [hb] at h'; cases h'
        | fatal => rw [hb] at h; cases h
        | ret bodies =>
          rw [hb] at h h'
          simp only [Out.ret_bind] at h h'
          split at h'
          · rename_i e; rw [e] at h; cases h
          · exact ItemSvc.mapL_nf (rawItem_nf E) _ h'
  | fatal =>
    refine .inr ⟨nofun, ?_⟩
    cases h' : Repo.loadItems E O' d v with
    | ret b =>
      obtain ⟨a, h1, -⟩ := loadItems_perm E O' O d v h'
      rw [h] at h1; cases h1
    | fatal => rfl
    | panic =>
      exfalso
      unfold Repo.loadItems at h h'
      split at h
      · rename_i e; rw [e] at h'; cases h'
      · cases h
      · rename_i files e1 e2
        rw [e2] at h'
        simp only at h'
        cases hb : Out.mapL (Repo.bandBody d) files with
        | panic => rw [hb] at h; cases h
        | fatal => rw [hb] at h'; cases h'
        | ret bodies =>
          rw [hb] at h h'
          simp only [Out.ret_bind] at h h'
          split at h
          · rename_i e; rw [e] at h'; cases h'
          · exact ItemSvc.mapL_nf (rawItem_nf E) _ h

theorem decodeItems_order (E : Env) (O O' : MapOrder) (reg : List Cat) (keys : Keys) {raw raw' : List RawItem} (hp : raw.Perm raw') :
    (∃ a b, ItemSvc.decodeItems E O reg keys raw = .ret a ∧ ItemSvc.decodeItems E O' reg keys raw' = .ret b ∧ a.Perm b) ∨
      ItemSvc.decodeItems E O reg keys raw = .panic ∧ ItemSvc.decodeItems E O' reg keys raw' = .panic := by
  have nf : ∀ O r, ItemSvc.decodeItems E O reg keys r ≠ .fatal := fun O r =>
    Upd.out_bind_ne_fatal (ItemSvc.mapL_nf (ItemSvc.decodeItem_nf E O reg keys) r) fun _ => nofun
  cases h : ItemSvc.decodeItems E O reg keys raw with
  | ret a =>
    obtain ⟨b, h1, h2⟩ := decodeItems_perm E O O' reg keys hp h
    exact .inl ⟨a, b, rfl, h1, h2⟩
  | fatal => exact absurd h (nf _ _)
  | panic =>
    refine .inr ⟨rfl, ?_⟩
    cases h' : ItemSvc.decodeItems E O' reg keys raw' with
    | ret b =>
      obtain ⟨a, h1, -⟩ := decodeItems_perm E O' O reg keys hp.symm h'
      rw [h] at h1; cases h1
    | panic => rfl
    | fatal => exact absurd h' (nf _ _)

/-- The same end, and sessions that hold the same items. -/
def Ends {α : Type} (x y : Out (α × Session)) : Prop :=
  (∃ r a b, x = .ret (r, a) ∧ y = .ret (r, b) ∧ b.keys = a.keys ∧ b.profile = a.profile ∧ b.reg = a.reg ∧ (held b).Perm (held a)) ∨
    (∀ z, x ≠ .ret z) ∧ y = x

theorem Ends.refl {α : Type} (x : Out (α × Session)) : Ends x x := by
  cases x with
  | ret z => exact .inl ⟨z.1, z.2, z.2, rfl, rfl, rfl, rfl, rfl, .refl _⟩
  | panic => exact .inr ⟨nofun, rfl⟩
  | fatal => exact .inr ⟨nofun, rfl⟩

theorem Ends.bind {α β : Type} (m : Out β) {f g : β → Out (α × Session)} (h : ∀ a, Ends (f a) (g a)) : Ends (m >>= f) (m >>= g) := by
  cases m with
  | ret a => exact h a
  | panic => exact .inr ⟨nofun, rfl⟩
  | fatal => exact .inr ⟨nofun, rfl⟩

theorem ends_decode (E : Env) (O O' : MapOrder) (d : Disk) (v : Bytes) (keys : Keys) (s : Session) :
    Ends (decodeItems E O d v keys s >>= fun s' => pure (Except.ok (ε := Err) (), s'))
      (decodeItems E O' d v keys s >>= fun s' => pure (Except.ok (), s')) := by
  unfold decodeItems
  rcases loadItems_order E O O' d v with ⟨raw, raw', l1, l2, l3⟩ | ⟨l1, l2⟩
  · rw [l1, l2]
    rcases decodeItems_order E O O' s.reg keys l3 with ⟨a, b, k1, k2, k3⟩ | ⟨k1, k2⟩
    · refine .inl ⟨.ok (), { s with items := Repo.storeItems s.items a }, { s with items := Repo.storeItems s.items b }, ?_, ?_,
        rfl, rfl, rfl, ?_⟩
      · simp only [Out.ret_bind, k1, Out.pure_eq]
      · simp only [Out.ret_bind, k2, Out.pure_eq]
      · unfold held Repo.storeItems
        cases s.items with
        | none => exact k3.symm
        | some l => exact .refl _
    · simp only [Out.ret_bind, k1, k2, Out.panic_bind]
      exact .refl _
  · rw [l2]
    cases hl : Repo.loadItems E O d v with
    | ret a => exact absurd hl (l1 a)
    | panic => simp only [Out.panic_bind]; exact .refl _
    | fatal => simp only [Out.fatal_bind]; exact .refl _

theorem ends_unlock (E : Env) (O O' : MapOrder) (d : Disk) (v p : Bytes) (s : Session) :
    Ends (unlock E O d v p s) (unlock E O' d v p s) := by
  unfold unlock
  refine Ends.bind _ fun r1 => ?_
  split
  · exact .refl _
  refine Ends.bind _ fun r2 => ?_
  split
  · exact .refl _
  refine Ends.bind _ fun r3 => ?_
  split
  · exact .refl _
  · exact ends_decode E O O' d v _ _

/-- Unlocking in another map order ends the same way, and leaves the same but for the order of the items. -/
theorem unlock_order (E : Env) (O O' : MapOrder) (d : Disk) (v p : Bytes) (s : Session) (hi : Inv s) :
    (∃ r a b, unlock E O d v p s = .ret (r, a) ∧ unlock E O' d v p s = .ret (r, b) ∧ Near a b) ∨
      unlock E O' d v p s = unlock E O d v p s := by
  rcases ends_unlock E O O' d v p s with ⟨r, a, b, h1, h2, k1, k2, k3, k4⟩ | ⟨-, h⟩
  · refine .inl ⟨r, a, b, h1, h2, k1, k2, k3, k4, fun uid trashed => Option.ext fun i => ?_⟩
    rw [inv_lookup (inv_unlock hi h1), inv_lookup (inv_unlock hi h2), k4.mem_iff]
  · exact .inr h

end Session

namespace Cli
open Prog Fmt Session

/-- The same program and the same world, with another order of maps and another way of sorting: what may change from one run
of a Go program to the next. -/
def again (C : Ctx) (O : MapOrder) (S : Sorter) : Ctx := { C with order := O, sorter := S }

/-- Two worlds that differ in the order of the items in memory only. -/
structure Twin (u v : World) : Prop where
  disk : v.disk = u.disk
  log : v.log = u.log
  tick : v.tick = u.tick
  stdin : v.stdin = u.stdin
  conf : v.conf = u.conf
  sess : Near u.sess v.sess

theorem Twin.refl (w : World) : Twin w w := ⟨rfl, rfl, rfl, rfl, rfl, .refl _⟩

/-- Two runs that end the same way. -/
def Twins {α : Type} (p q : Out α × World) : Prop := q.1 = p.1 ∧ Twin p.2 q.2

theorem Twins.refl {α : Type} (p : Out α × World) : Twins p p := ⟨rfl, .refl _⟩

theorem Twins.bind {α β : Type} {m m' : Prog α} {f f' : α → Prog β} {w w' : World} (h : Twins (m w) (m' w'))
    (hf : ∀ a u u', m w = (.ret a, u) → m' w' = (.ret a, u') → Twin u u' → Twins (f a u) (f' a u')) :
    Twins ((m >>= f) w) ((m' >>= f') w') := by
  rw [bind_run, bind_run]
  obtain ⟨h1, h2⟩ := h
  cases hm : m w with
  | mk o u =>
  cases hm' : m' w' with
  | mk o' u' =>
  rw [hm, hm'] at h1 h2
  simp only at h1 h2
  subst h1
  cases o' with
  | ret a => exact hf a u u' hm hm' h2
  | panic => exact ⟨rfl, h2⟩
  | fatal => exact ⟨rfl, h2⟩

theorem Twins.same {α β : Type} {m : Prog α} {f f' : α → Prog β} {w : World} 
    (hf : ∀ a u, m w = (.ret a, u) → Twins (f a u) (f' a u)) : Twins ((m >>= f) w) ((m >>= f') w) := by
  rw [bind_run, bind_run]
  cases hm : m w with
  | mk o u =>
  cases o with
  | ret a => exact hf a u hm
  | panic => exact .refl _
  | fatal => exact .refl _

theorem twin_emit {u v : World} (h : Twin u v) (e : Ev) : Twins (emit e u) (emit e v) :=
  ⟨rfl, h.disk, by simp only [emit, h.log], h.tick, h.stdin, h.conf, h.sess⟩

theorem twin_printLines {u v : World} (h : Twin u v) (l : List Bytes) : Twins (printLines l u) (printLines l v) := by
  induction l generalizing u v with
  | nil => exact ⟨rfl, h⟩
  | cons x l ih => exact Twins.bind (twin_emit h _) fun _ _ _ _ _ h => ih h

theorem same_firstRun (C : Ctx) : Rel SameSession (firstRun C) := by
  have hc := same_of_calm (calm_cliCheck C)
  have hout : ∀ b, Rel SameSession (emit (.out b)) := fun _ _ => rfl
  have hload : Rel SameSession (Conf.load C.sys C.ext C.dir) := by
    intro w
    obtain ⟨o, k, h, -⟩ := Conf.load_any C.sys C.ext C.dir w
    rw [h]; rfl
  exact rel_firstRun same_chain C hout
    (rel_configure same_chain C hc hout (fun _ => rfl) (fun c =>
      rel_save same_chain C.sys C.ext C.dir c (fun _ _ => rfl) (same_of_calm (calm_ensureDir _ _))
        (fun b => same_of_calm (calm_createWrite _ _ _ true)) hload))

theorem sess_of {α : Type} {m : Prog α} (h : Rel SameSession m) {w u : World} {o : Out α} (he : m w = (o, u)) : u.sess = w.sess := by
  have := h w
  rw [he] at this
  exact this

theorem twins_open (C : Ctx) (O : MapOrder) (S : Sorter) (path : Bytes) (w : World) (hi : Inv w.sess) :
    Twins (openVault C path w) (openVault (again C O S) path w) := by
  refine Twins.same (m := firstRun C) fun _ u1 h1 => Twins.same (m := checkForUpdate C) fun _ u2 h2 =>
    Twins.same (m := chooseVault path) fun vault u3 h3 => ?_
  have i1 : Inv u1.sess := by rw [sess_of (same_firstRun C) h1]; exact hi
  have i2 : Inv u2.sess := by rw [sess_of (same_of_calm (calm_cliCheck C)) h2]; exact i1
  have i3 : Inv u3.sess := by
    have : u3 = u2 := by
      unfold chooseVault at h3
      split at h3
      · cases h3; rfl
      · rw [bind_run] at h3
        unfold Conf.read at h3
        cases hg : Conf.getConfig u2.conf <;> rw [hg] at h3 <;> cases h3
        rfl
    rw [this]; exact i2
  refine Twins.same (m := onSession (fun d s => s.validate d vault)) fun r u4 h4 => ?_
  cases r with
  | error e => exact .refl _
  | ok _ =>
  refine Twins.same (m := println b!"Password:") fun _ u5 h5 => Twins.same (m := Os.readPassword C.sys) fun read u6 h6 => ?_
  have i4 : Inv u4.sess := by
    unfold onSession at h4
    beta_reduce at h4
    cases hv : u3.sess.validate u3.disk vault with
    | ret x =>
      obtain ⟨r, s⟩ := x
      rw [hv] at h4
      cases h4
      exact inv_validate i3 hv
    | panic => rw [hv] at h4; cases h4
    | fatal => rw [hv] at h4; cases h4
  have i6 : Inv u6.sess := by
    cases h5
    rw [Os.readPassword_run] at h6
    cases h6
    exact i4
  refine Twins.bind ?_ fun r u u' _ _ h => ?_
  · unfold onSession
    rcases unlock_order C.env C.order O u6.disk vault read.1 u6.sess i6 with ⟨r, a, b, k1, k2, k3⟩ | k2
    · simp only [k1, again, k2]
      exact ⟨rfl, rfl, rfl, rfl, rfl, rfl, k3⟩
    · simp only [again, k2]
      exact .refl _
  · cases r with
    | error e => exact Twins.bind (twin_emit h _) fun _ _ _ _ _ h => ⟨rfl, h⟩
    | ok _ => exact ⟨rfl, h⟩

theorem twins_item (C : Ctx) (O : MapOrder) (S : Sorter) (hide : Bool) (path uid : Bytes) (trashed : Bool) (w : World) (hi : Inv w.sess) :
    Twins ((openVault C path >>= fun _ => printItem C hide uid trashed) w)
      ((openVault (again C O S) path >>= fun _ => printItem (again C O S) hide uid trashed) w) := by
  refine Twins.bind (twins_open C O S path w hi) fun _ u u' _ _ h => ?_
  unfold printItem
  simp only [bind_run, Prog.get, h.sess.found]
  cases u.sess.getItem uid trashed with
  | some i => exact twin_printLines h _
  | none => exact twin_emit h _

theorem numbered_drop (l : List (List Bytes)) (n : Nat) : (numbered n l).map (·.drop 1) = l := by
  induction l generalizing n with
  | nil => rfl
  | cons r l ih => simp only [numbered, List.map_cons, List.drop_succ_cons, List.drop_zero, ih]

/-- Two orders of the same things that read the same, all of them different, are one order. -/
theorem same_order {α β : Type} {a b : List α} {g : α → β} (hp : a.Perm b) (hg : a.map g = b.map g) (hn : (a.map g).Nodup) : a = b := by
  induction a generalizing b with
  | nil => exact (List.nil_perm.1 hp).symm
  | cons x a ih =>
    cases b with
    | nil => exact absurd hp.symm.nil_eq (nofun)
    | cons y b =>
      simp only [List.map_cons, List.cons.injEq, List.nodup_cons] at hg hn
      have hx : x = y := by
        rcases List.mem_cons.1 (hp.mem_iff.1 (List.mem_cons_self ..)) with h | h
        · exact h
        · exact absurd (by rw [hg.2]; exact List.mem_map_of_mem h) hn.1
      subst hx
      rw [ih ((List.perm_cons x).1 hp) hg.2 hn.2]

/-- What a row says of an item but for its UID: category and title. -/
def labels (row : List Bytes) : List Bytes := row.drop 2

/-- Two runs of `list`: the same outcome and the same text, in which a table may have items of one category and title in another
order. -/
structure Lists (p q : Out Unit × World) : Prop where
  outcome : q.1 = p.1
  disk : q.2.disk = p.2.disk
  tick : q.2.tick = p.2.tick
  stdin : q.2.stdin = p.2.stdin
  conf : q.2.conf = p.2.conf
  log : q.2.log = p.2.log ∨ ∃ l head rows rows', p.2.log = l ++ [.table head rows] ∧ q.2.log = l ++ [.table head rows'] ∧
    rows'.map labels = rows.map labels ∧ (rows'.map (·.drop 1)).Perm (rows.map (·.drop 1)) ∧
    ((rows.map labels).Nodup → rows' = rows)

theorem Twins.lists {p q : Out Unit × World} (h : Twins p q) : Lists p q :=
  ⟨h.1, h.2.disk, h.2.tick, h.2.stdin, h.2.conf, .inl h.2.log⟩

/-- The invariant of the session is kept. -/
def Invs (u v : World) : Prop := Inv u.sess → Inv v.sess

theorem invs_chain : Chain Invs := ⟨fun _ h => h, fun _ _ _ h1 h2 h => h2 (h1 h)⟩

theorem invs_same {α : Type} {m : Prog α} (h : Rel SameSession m) : Rel Invs m := fun w hi => by rw [h w]; exact hi

theorem invs_onSession {α : Type} {f : Disk → Session → Out (α × Session)}
    (hf : ∀ (d : Disk) (s : Session) r t, Session.Inv s → f d s = .ret (r, t) → Session.Inv t) : Rel Invs (onSession f) := by
  intro w hi
  unfold onSession
  cases h : f w.disk w.sess with
  | ret x => exact hf _ _ x.1 x.2 hi h
  | panic => exact hi
  | fatal => exact hi

theorem invs_open (C : Ctx) (path : Bytes) : Rel Invs (openVault C path) := by
  have hout : ∀ b, Rel Invs (emit (.out b)) := fun _ _ h => h
  unfold openVault
  refine Rel.bind invs_chain (invs_same (same_firstRun C)) fun _ =>
    Rel.bind invs_chain (invs_same (same_of_calm (calm_cliCheck C))) fun _ =>
    Rel.bind invs_chain (rel_chooseVault invs_chain path) fun v =>
    Rel.bind invs_chain (invs_onSession fun _ _ _ _ hi h => inv_validate hi h) fun r => ?_
  cases r with
  | error e => exact rel_die invs_chain e hout
  | ok _ =>
    refine Rel.bind invs_chain (hout _) fun _ => Rel.bind invs_chain (fun w hi => ?_) fun pw =>
      Rel.bind invs_chain (invs_onSession fun _ _ _ _ hi h => inv_unlock hi h) fun r => ?_
    · rw [Os.readPassword_run]; exact hi
    · cases r with
      | error e => exact rel_die invs_chain e hout
      | ok _ => exact Rel.pure invs_chain _

theorem lists_getItems (C : Ctx) (O : MapOrder) (S : Sorter) (path category title : Bytes) (trashed : Bool) (w : World) (hi : Inv w.sess) :
    Lists (getItems C path category title trashed w) (getItems (again C O S) path category title trashed w) := by
  have ho := twins_open C O S path w hi
  have hk := invs_open C path w hi
  unfold getItems
  rw [bind_run, bind_run]
  obtain ⟨h1, h⟩ := ho
  cases hm : openVault C path w with
  | mk o u =>
  cases hm' : openVault (again C O S) path w with
  | mk o' u' =>
  rw [hm, hm'] at h1 h
  rw [hm] at hk
  simp only at h1 h hk
  subst h1
  cases o' with
  | panic => exact Twins.lists ⟨rfl, h⟩
  | fatal => exact Twins.lists ⟨rfl, h⟩
  | ret a =>
  simp only [bind_run, Prog.get, h.sess.reg]
  have hc : categoryFilter (again C O S) u.sess.reg category = categoryFilter C u.sess.reg category := rfl
  rw [hc]
  cases categoryFilter C u.sess.reg category with
  | error e => exact Twins.lists (Twins.bind (twin_emit h _) fun _ _ _ _ _ h => ⟨rfl, h⟩)
  | ok cat =>
  have p1 := C32_list_is_filter C.env.text C.sorter u.sess cat (Str.trimSpace title) trashed
  have p2 := C32_list_is_filter C.env.text S u'.sess cat (Str.trimSpace title) trashed
  have s1 := C33_sorted C.env.text C.sorter u.sess cat (Str.trimSpace title) trashed
  have s2 := C33_sorted C.env.text S u'.sess cat (Str.trimSpace title) trashed
  have hcats : ∀ i ∈ u.sess.getItems C.env.text C.sorter cat (Str.trimSpace title) trashed, i.category ∈ Cat.values := by
    intro i hx
    obtain ⟨j, hj, -, rfl⟩ := (C32_listed_iff ..).1 hx
    unfold held at hj
    cases hit : u.sess.items with
    | none => rw [hit] at hj; cases hj
    | some l => rw [hit] at hj; exact hk.cats l hit j hj
  have ha : (again C O S).env = C.env := rfl
  have hs : (again C O S).sorter = S := rfl
  simp only [ha, hs]
  generalize u.sess.getItems C.env.text C.sorter cat (Str.trimSpace title) trashed = L at *
  generalize u'.sess.getItems C.env.text S cat (Str.trimSpace title) trashed = L' at *
  have hp : L'.Perm L := p2.trans (((h.sess.held.filter _).map _).trans p1.symm)
  have hn := Gui.named (Gui.sorted_same hp s2 s1) (fun i hx => hcats i (hp.mem_iff.1 hx)) hcats
  rw [hp.length_eq]
  split
  · have hl : ∀ l : List SimpleItem, (numbered 1 (l.map (fun i => [i.uid, i.category.name, i.title]))).map labels =
        (l.map (fun i => (i.category.name, i.title))).map (fun e => [e.1, e.2]) := by
      intro l
      have : ∀ r : List (List Bytes), r.map labels = (r.map (·.drop 1)).map (·.drop 1) := by
        intro r; rw [List.map_map]; exact List.map_congr_left fun x _ => by simp only [labels, Function.comp, List.drop_drop]
      rw [this, numbered_drop]
      simp
    refine ⟨rfl, h.disk, h.tick, h.stdin, h.conf, .inr ⟨u.log, _, _, _, rfl, by simp only [emit, h.log]; rfl, ?_, ?_, fun hd => ?_⟩⟩
    · rw [hl, hl, hn]
    · rw [numbered_drop, numbered_drop]; exact hp.map _
    · rw [hl] at hd
      rw [same_order hp hn (by rw [hn]; exact hd.of_map _)]
  · exact Twins.lists (twin_emit h _)

/-- The registry can be sorted in one way only: no two categories have the same code. -/
theorem sort_unique (S S' : Sorter) {reg : List Cat} (hr : reg.Perm Cat.values) : S.run lessCode reg = S'.run lessCode reg := by
  refine List.Perm.eq_of_pairwise (le := fun a b => lessCode b a = false) ?_ (S.sorted _ _ lessCode_weak)
    (S'.sorted _ _ lessCode_weak) ((S.perm _ _).trans (S'.perm _ _).symm)
  intro a b ha hb h1 h2
  simp only [lessCode, Str.lt, decide_eq_false_iff_not, List.not_lt] at h1 h2
  have ha := hr.mem_iff.1 ((S.perm _ _).mem_iff.1 ha)
  have hb := hr.mem_iff.1 ((S'.perm _ _).mem_iff.1 hb)
  have e := List.le_antisymm h1 h2
  have l := (C38_lookup Text.toy Cat.values (List.Perm.refl _)).1
  have := ((l a.code a).2 ⟨ha, rfl⟩).symm.trans ((l a.code b).2 ⟨hb, e.symm⟩)
  cases this; rfl

theorem twins_categories (C : Ctx) (O : MapOrder) (S : Sorter) (w : World) (hi : Inv w.sess) :
    Twins (getCategories C w) (getCategories (again C O S) w) := by
  refine Twins.same (m := checkForUpdate C) fun _ u h => ?_
  have hu : Inv u.sess := by rw [sess_of (same_of_calm (calm_cliCheck C)) h]; exact hi
  have hs := sort_unique S C.sorter hu.reg
  have : (again C O S).sorter = S := rfl
  simp only [bind_run, Prog.get, this, sortReg, hs]
  exact .refl _

theorem booted {C : Ctx} {w u : World} (h : Conf.boot C.sys C.ext C.dir w = (.ret (), u)) : Inv u.sess := by
  unfold Conf.boot at h
  rw [bind_run] at h
  cases hl : Conf.load C.sys C.ext C.dir w with
  | mk o v =>
  rw [hl] at h
  cases o with
  | ret m => cases h; exact inv_init
  | panic => cases h
  | fatal => cases h

/-- C148: every command but `list` does the same in every run: the same outcome, the same text, the same disk, for every order of
maps and every way to sort. -/
theorem C148_run (C : Ctx) (O : MapOrder) (S : Sorter) (cmd : Cmd) (hl : ∀ v c n t, cmd ≠ .list v c n t) (w : World) :
    (main (again C O S) cmd w).1 = (main C cmd w).1 ∧
    (main (again C O S) cmd w).2.log = (main C cmd w).2.log ∧
    (main (again C O S) cmd w).2.disk = (main C cmd w).2.disk ∧
    (main (again C O S) cmd w).2.tick = (main C cmd w).2.tick ∧
    (main (again C O S) cmd w).2.stdin = (main C cmd w).2.stdin ∧
    (main (again C O S) cmd w).2.conf = (main C cmd w).2.conf := by
  have : Twins (main C cmd w) (main (again C O S) cmd w) := by
    refine Twins.same (m := Conf.boot C.sys C.ext C.dir) fun _ u h => ?_
    have hi := booted h
    cases cmd with
    | gui p => exact .refl _
    | update => exact .refl _
    | configure => exact .refl _
    | categories => exact twins_categories C O S u hi
    | list v c n t => exact absurd rfl (hl v c n t)
    | overview v i t => exact twins_item C O S true v i t u hi
    | details v i t => exact twins_item C O S false v i t u hi
    | version => exact .refl _
  exact ⟨this.1, this.2.log, this.2.disk, this.2.tick, this.2.stdin, this.2.conf⟩

/-- C148: so does `list`, but for the order of rows with one category and one title. -/
theorem C148_list (C : Ctx) (O : MapOrder) (S : Sorter) (path category title : Bytes) (trashed : Bool) (w : World) :
    Lists (main C (.list path category title trashed) w) (main (again C O S) (.list path category title trashed) w) := by
  show Lists ((Conf.boot C.sys C.ext C.dir >>= fun _ => getItems C path category title trashed) w)
    ((Conf.boot C.sys C.ext C.dir >>= fun _ => getItems (again C O S) path category title trashed) w)
  rw [bind_run, bind_run]
  cases hm : Conf.boot C.sys C.ext C.dir w with
  | mk o u =>
  cases o with
  | ret a => exact lists_getItems C O S path category title trashed u (booted hm)
  | panic => exact Twins.lists (.refl _)
  | fatal => exact Twins.lists (.refl _)

/-- C148 for `list`, when no two rows of the table have the same category and title. -/
theorem C148_list_partial (C : Ctx) (O : MapOrder) (S : Sorter) (path category title : Bytes) (trashed : Bool) (w : World)
    (hd : ∀ l head rows, (main C (.list path category title trashed) w).2.log = l ++ [.table head rows] → (rows.map (·.drop 2)).Nodup) :
    (main (again C O S) (.list path category title trashed) w).1 = (main C (.list path category title trashed) w).1 ∧
    (main (again C O S) (.list path category title trashed) w).2.log = (main C (.list path category title trashed) w).2.log := by
  have h := C148_list C O S path category title trashed w
  refine ⟨h.outcome, ?_⟩
  rcases h.log with h | ⟨l, head, rows, rows', h1, h2, -, -, h3⟩
  · exact h
  · rw [h1, h2, h3 (hd l head rows h1)]

/-- A vault at /a with two items of one category and one title, and another one. -/
def alikeDisk : Disk :=
  { cwd := []
    fs := [([b!"h"], .dir), ([b!"h", b!"1pass.yml"], .file (Toy.encode (Conf.updated [] { Conf.myConf with vault := b!"/a" })) false),
           ([b!"a"], .dir), ([b!"a", b!"default"], .dir),
           ([b!"a", b!"default", b!"profile.js"], .file (OnePass.Demo.profileText OnePass.Demo.pa) false),
           ([b!"a", b!"default", b!"band_0.js"], .file (b!"ld({" ++ Json.renderM
             [(b!"N", Demo.stored b!"001" b!"Mail" b!"1" [] false), (b!"C", Demo.stored b!"002" b!"Card" b!"2" [] false),
              (b!"M", Demo.stored b!"001" b!"Mail" b!"3" [] false)] ++ b!"});") false)] }

def alikeRun (O : MapOrder) (cmd : Cmd) : List Ev :=
  (main (again (Demo.ctx OnePass.Demo.pa) O (Demo.ctx OnePass.Demo.pa).sorter) cmd (Toy.world alikeDisk [])).2.log

set_option maxRecDepth 10000

/-- The negation of C148 for `list`: one vault, one password, one command, and two tables, from the order of a map alone. -/
theorem C148_refuted : ¬ ∀ (C : Ctx) (O : MapOrder) (cmd : Cmd) (w : World),
    (main (again C O C.sorter) cmd w).2.log = (main C cmd w).2.log := by
  intro h
  have := h (Demo.ctx OnePass.Demo.pa) .rev (.list [] [] [] false) (Toy.world alikeDisk [])
  revert this
  decide +kernel

/-- The two tables: the first two items have changed places. -/
example : alikeRun .doc (.list [] [] [] false) = [.out b!"Password:\n", .password, .table [b!"lp.", b!"uid", b!"category", b!"title"]
      [[b!"1", b!"M", b!"Login", b!"Mail"], [b!"2", b!"N", b!"Login", b!"Mail"], [b!"3", b!"C", b!"Credit Card", b!"Card"]]] ∧
    alikeRun .rev (.list [] [] [] false) = [.out b!"Password:\n", .password, .table [b!"lp.", b!"uid", b!"category", b!"title"]
      [[b!"1", b!"N", b!"Login", b!"Mail"], [b!"2", b!"M", b!"Login", b!"Mail"], [b!"3", b!"C", b!"Credit Card", b!"Card"]]] := by
  decide +kernel

/-- Items are found by UID whatever the order, and a filter that leaves different rows gives one table. -/
example : alikeRun .rev (.details [] b!"N" false) = alikeRun .doc (.details [] b!"N" false) ∧
    alikeRun .doc (.details [] b!"N" false) ≠ alikeRun .doc (.details [] b!"M" false) ∧
    alikeRun .rev (.list [] b!"Credit Card" [] false) = alikeRun .doc (.list [] b!"Credit Card" [] false) := by decide +kernel

end Cli
end OnePass
