/-
C125: what `list` shows depends on the overviews.
-/
import Verif.Props.Alone

set_option linter.unusedSimpArgs false

namespace OnePass
open Spec

namespace Spec

/-- Two item documents agree in category, overview and trash flag. -/
def SameCover (m m' : Members) : Prop :=
  ∀ k ∈ [b!"category", b!"o", b!"trashed"], ∀ j, LastEntry m k j ↔ LastEntry m' k j

/-- Every document that counts in the first vault has one in the second with the same UID and the same cover. -/
def Covered (ms ms' : List Members) : Prop :=
  ∀ uid m, LastEntry ms.flatten uid (.obj m) → ∃ m', LastEntry ms'.flatten uid (.obj m') ∧ SameCover m m'

end Spec

namespace ItemSvc

/-- Category, title, trash flag and UID of a decoded item come from the category, the overview, the trash flag and the UID. -/
theorem decodeItem_cover {E : Env} {O O' : MapOrder} {reg : List Cat} {keys : Keys} {r r' : RawItem} {i : Item} {o : Option Item}
    (h : decodeItem E O reg keys r = .ret (some i)) (h' : decodeItem E O' reg keys r' = .ret o) (hc : r'.category = r.category)
    (ho : r'.overview = r.overview) (ht : r'.trashed = r.trashed) (hu : r'.uid = r.uid) :
    ∃ i', o = some i' ∧ summary i' = summary i := by
  unfold decodeItem at h h'
  have hov : decodeOverview E r' keys = decodeOverview E r keys := by
    unfold decodeOverview
    rw [ho]
  rw [hc, hov] at h'
  split at h
  · simp at h
  · rename_i c hcat
    simp only [hcat] at h'
    simp only [Out.bind_eq_ret, Out.pure_eq, Out.ret.injEq, Option.some.injEq] at h h'
    obtain ⟨ov, h1, _, _, _, _, t, h2, _, _, _, _, rfl⟩ := h
    obtain ⟨ov', h1', _, _, _, _, t', h2', _, _, _, _, rfl⟩ := h'
    rw [h1] at h1'
    cases h1'
    rw [h2] at h2'
    cases h2'
    exact ⟨_, rfl, by simp [summary, ht, hu]⟩

end ItemSvc

theorem cover_doc {F : Flt} {m m' : Members} {r r' : RawItem} (hs : SameCover m m') (h : ItemDoc F m r) (h' : ItemDoc F m' r') :
    r'.category = r.category ∧ r'.overview = r.overview ∧ r'.trashed = r.trashed := by
  have det : ∀ {k : Bytes} {a b : Json}, LastEntry m' k a → LastEntry m' k b → a = b := by
    intro k a b ha hb
    rw [lastEntry_iff] at ha hb
    exact Option.some.inj (ha.symm.trans hb)
  refine ⟨?_, ?_, ?_⟩
  · exact Json.str.inj (det h'.category ((hs _ (by simp) _).1 h.category))
  · exact Json.str.inj (det h'.overview ((hs _ (by simp) _).1 h.overview))
  · have hn : ∀ {n : Members} {j : Json}, NoEntry n b!"trashed" → ¬ LastEntry n b!"trashed" j := by
      rintro n j h1 ⟨a, b, rfl, -⟩
      exact h1 (b!"trashed", j) (by simp) rfl
    have tr := fun j => hs b!"trashed" (by simp) j
    rcases h.trashed with h1 | ⟨h1, h2⟩
    · rcases h'.trashed with h3 | ⟨h3, h4⟩
      · exact Json.bool.inj (det h3 ((tr _).1 h1))
      · rcases h4 with h4 | h4
        · cases det h4 ((tr _).1 h1)
        · exact absurd ((tr _).1 h1) (hn h4)
    · rcases h'.trashed with h3 | ⟨h3, h4⟩
      · rcases h2 with h2 | h2
        · cases det h3 ((tr _).1 h2)
        · exact absurd ((tr _).2 h3) (hn h2)
      · rw [h1, h3]

namespace Cli
open Prog Fmt

/-- C125, one half: everything listed for the first vault is listed for the second. -/
theorem covered_held (C C' : Ctx) (v v' : Bytes) (w1 w1' : World) (hc : Comparable C C' v v' w1 w1') (s s' : Session)
    (h : Opened C v w1 s) (h' : Opened C' v' w1' s') (ms ms' : List Members) (hm : Holds w1.disk v ms)
    (hm' : Holds w1'.disk v' ms') (he : Covered ms ms') (i : Item) (hi : i ∈ held s) :
    ∃ i' ∈ held s', summary i' = summary i := by
  obtain ⟨P, keys, p1, p2, p3, p4, p5, p6, -⟩ := opened_held hc.fresh h hm
  obtain ⟨P', keys', q1, q2, q3, q4, q5, q6, q7⟩ := opened_held hc.fresh' h' hm'
  rw [hc.env] at q2 q3 q4 q5 q6 q7
  rw [hc.password] at q2
  have hP := same_profile hc p1 q1
  subst hP
  have hk := keys_unique p2 p3 p4 q2 q3 q4
  subst hk
  obtain ⟨r, ⟨m, hr1, hr2⟩, hr3⟩ := (p6 i).1 hi
  obtain ⟨m', hm1, hm2⟩ := he _ _ hr1
  obtain ⟨r', o, hu, hd, ho⟩ := q7 _ _ hm1
  obtain ⟨m'', hd1, hd2⟩ := hd
  rw [hu] at hd1
  have hmm : m'' = m' := by
    rw [lastEntry_iff] at hd1 hm1
    exact Json.obj.inj (Option.some.inj (hd1.symm.trans hm1))
  subst hmm
  obtain ⟨e1, e2, e3⟩ := cover_doc hm2 hr2 hd2
  obtain ⟨i', rfl, hs⟩ := ItemSvc.decodeItem_cover hr3 ho e1 e2 e3 hu
  exact ⟨i', (q6 i').2 ⟨r', ⟨_, by rw [hu]; exact hm1, hd2⟩, ho⟩, hs⟩

/-- C125. Two vaults with the same profile, whose entries agree in UID, category, overview and trash flag, and may differ in
everything else – details, item keys, times: with the same password and the same filters `list` prints the same items, with
the same categories and titles in the same rows; only the UIDs of items alike in category and title may change places. -/
theorem C125_list (C C' : Ctx) (flag flag' v v' category title : Bytes) (trashed : Bool) (w w1 w' w1' : World)
    (hb : Begun C w w1) (hb' : Begun C' w' w1') (hv : Meaning w1.conf flag v) (hv' : Meaning w1'.conf flag' v')
    (hc : Comparable C C' v v' w1 w1') (s s' : Session)
    (h : Opened C v w1 s) (h' : Opened C' v' w1' s') (ms ms' : List Members) (hm : Holds w1.disk v ms)
    (hm' : Holds w1'.disk v' ms') (he : Covered ms ms') (he' : Covered ms' ms) (cat : Option Cat)
    (hcat : Filter C.env.text category cat) :
    (∃ text, command C (.list flag category title trashed) w = (.ret (), after w1 s [.out text]) ∧
      command C' (.list flag' category title trashed) w' = (.ret (), after w1' s' [.out text])) ∨
    ∃ items items' rows rows', items.Perm items' ∧
      items.map (fun i => (i.category, i.title)) = items'.map (fun i => (i.category, i.title)) ∧
      Rows items rows ∧ Rows items' rows' ∧
      command C (.list flag category title trashed) w =
        (.ret (), after w1 s [.table [b!"lp.", b!"uid", b!"category", b!"title"] rows]) ∧
      command C' (.list flag' category title trashed) w' =
        (.ret (), after w1' s' [.table [b!"lp.", b!"uid", b!"category", b!"title"] rows']) := by
  have hc' : Comparable C' C v' v w1' w1 := ⟨hc.env.symm, hc.fresh', hc.fresh, hc.profile.symm, hc.password.symm⟩
  obtain ⟨P, keys, -, -, -, -, hr, -⟩ := opened_held hc.fresh h hm
  obtain ⟨P', keys', -, -, -, -, hr', -⟩ := opened_held hc.fresh' h' hm'
  rw [hc.env] at hr'
  have hreg : ∀ {D : Ctx} {u u1 : World}, Begun D u u1 → u1.sess = Session.init → u.sess.reg.Perm Cat.values := by
    intro D u u1 k1 k2
    rw [← begun_session k1, k2]
    exact List.Perm.refl _
  have fwd := covered_held C C' v v' w1 w1' hc s s' h h' ms ms' hm hm' he
  have bwd := covered_held C' C v' v w1' w1 hc' s' s h' h ms' ms hm' hm he'
  obtain ⟨s0, a1, a2⟩ := h
  obtain ⟨s0', a1', a2'⟩ := h'
  obtain ⟨items, b1, b2, b3, b4⟩ := C65_list C flag v category title trashed w w1 hb hv s0 s a1 a2 (hreg hb hc.fresh) cat hcat
  obtain ⟨items', b1', b2', b3', b4'⟩ := C65_list C' flag' v' category title trashed w' w1' hb' hv' s0' s' a1' a2'
    (hreg hb' hc.fresh') cat (by rw [hc.env]; exact hcat)
  rw [hc.env] at b1'
  -- the same summaries
  have wanted : ∀ i i' : Item, summary i' = summary i → (Wanted C.env.text cat (Str.trimSpace title) trashed i ↔
      Wanted C.env.text cat (Str.trimSpace title) trashed i') := by
    intro i i' hs
    simp only [summary, SimpleItem.mk.injEq] at hs
    obtain ⟨e1, e2, e3, e4⟩ := hs
    unfold Wanted
    rw [e1, e2, e3]
  have nodup : ∀ (t : Session), Session.Reachable C.env t → ∀ (l : List SimpleItem),
      l.Perm (((held t).filter (fun i => decide (Wanted C.env.text cat (Str.trimSpace title) trashed i))).map summary) → l.Nodup := by
    intro t ht l hl
    have := C33_each_once C.env t ht C.sorter cat (Str.trimSpace title) trashed
    rw [((C32_list_is_filter C.env.text C.sorter t cat (Str.trimSpace title) trashed).trans hl.symm).map (·.uid) |>.nodup_iff] at this
    exact this.of_map
  have hperm : items.Perm items' := by
    rw [List.perm_ext_iff_of_nodup (nodup s hr _ b1) (nodup s' hr' _ b1')]
    intro x
    rw [b1.mem_iff, b1'.mem_iff]
    simp only [List.mem_map, List.mem_filter, decide_eq_true_eq]
    constructor
    · rintro ⟨i, ⟨h1, h2⟩, rfl⟩
      obtain ⟨i', h3, h4⟩ := fwd i h1
      exact ⟨i', ⟨h3, (wanted i i' h4).1 h2⟩, h4⟩
    · rintro ⟨i, ⟨h1, h2⟩, rfl⟩
      obtain ⟨i', h3, h4⟩ := bwd i h1
      exact ⟨i', ⟨h3, (wanted i i' h4).1 h2⟩, h4⟩
  have hval : ∀ x ∈ items, x.category ∈ Cat.values := by
    intro x hx
    rw [b1.mem_iff] at hx
    simp only [List.mem_map, List.mem_filter, decide_eq_true_eq] at hx
    obtain ⟨i, ⟨h1, -⟩, rfl⟩ := hx
    obtain ⟨_, keys, -, -, -, -, -, p6, -⟩ := opened_held hc.fresh ⟨s0, a1, a2⟩ hm
    obtain ⟨r, -, hd⟩ := (p6 i).1 h1
    exact (((C38_lookup C.env.text Cat.values (List.Perm.refl _)).1 _ _).1 (ItemSvc.decodeItem_some hd).1).1
  by_cases hn : items = []
  · subst hn
    have hn' : items' = [] := List.nil_perm.1 hperm
    exact .inl ⟨_, b4 rfl, b4' hn'⟩
  · have hn' : items' ≠ [] := by
      rintro rfl
      exact hn (List.perm_nil.1 hperm)
    obtain ⟨rows, c1, c2⟩ := b3 hn
    obtain ⟨rows', c1', c2'⟩ := b3' hn'
    refine .inr ⟨items, items', rows, rows', hperm, ?_, c1, c1', c2, c2'⟩
    refine List.Perm.eq_of_pairwise (le := fun (a b : Cat × Bytes) => a.1.code < b.1.code ∨ (a.1.code = b.1.code ∧ a.2 ≤ b.2))
      ?_ (List.pairwise_map.2 b2) (List.pairwise_map.2 b2') (hperm.map _)
    rintro ⟨ca, ta⟩ ⟨cb, tb⟩ ha hb2 hab hba
    simp only [List.mem_map, Prod.mk.injEq] at ha hb2
    obtain ⟨x, hx, rfl, rfl⟩ := ha
    obtain ⟨y, hy, rfl, rfl⟩ := hb2
    dsimp only at hab hba
    have hcode : x.category.code = y.category.code ∧ x.title = y.title := by
      rcases hab with hab | ⟨e1, e2⟩
      · rcases hba with hba | ⟨f1, -⟩
        · exact absurd (List.lt_trans hab hba) (List.lt_irrefl _)
        · rw [f1] at hab
          exact absurd hab (List.lt_irrefl _)
      · rcases hba with hba | ⟨-, f2⟩
        · rw [e1] at hba
          exact absurd hba (List.lt_irrefl _)
        · exact ⟨e1, List.le_antisymm e2 f2⟩
    have hy' := hval y (hperm.mem_iff.2 hy)
    rw [List.inj_on_of_nodup_map (C38_distinct C.env.text).1 (hval x hx) hy' hcode.1, hcode.2]

/-! ### Examples -/

namespace Demo

/-- The card, and a note next to it, with this secret and these notes. -/
def secretly (secret notes : Bytes) : List Members :=
  [[(b!"N", stored b!"002" b!"Card" secret notes false), (b!"Q", stored b!"003" b!"Memo" secret [] false)]]

end Demo

/-- Other secrets, the same covers. -/
theorem demo_covered (a b c d : Bytes) : Covered (Demo.secretly a b) (Demo.secretly c d) := by
  intro uid m h
  have hg : ∀ (x y : Json), Json.get [(b!"N", x), (b!"Q", y)] uid = if b!"Q" = uid then some y else if b!"N" = uid then some x else none := by
    intro x y
    by_cases h1 : b!"Q" = uid
    · subst h1; rw [if_pos rfl]; rfl
    · by_cases h2 : b!"N" = uid
      · subst h2; rw [if_neg h1, if_pos rfl]; rfl
      · rw [if_neg h1, if_neg h2, Json.get_none_iff]
        intro he
        simp only [List.map_cons, List.map_nil, List.mem_cons, List.not_mem_nil, or_false] at he
        rcases he with rfl | rfl
        · exact h2 rfl
        · exact h1 rfl
  have cover : ∀ cat title x y z x' y', ∀ m, Demo.stored cat title x y z = .obj m →
      ∃ m', Demo.stored cat title x' y' z = .obj m' ∧ SameCover m m' := by
    intro cat title x y z x' y' m hm
    have g1 : ∀ c1 c2 c3 c4 c5 c6 c7 c8 : Json, Json.get [(b!"category", c1), (b!"created", c2), (b!"updated", c3), (b!"hmac", c4),
      (b!"trashed", c5), (b!"o", c6), (b!"k", c7), (b!"d", c8)] b!"category" = some c1 := fun _ _ _ _ _ _ _ _ => rfl
    have g2 : ∀ c1 c2 c3 c4 c5 c6 c7 c8 : Json, Json.get [(b!"category", c1), (b!"created", c2), (b!"updated", c3), (b!"hmac", c4),
      (b!"trashed", c5), (b!"o", c6), (b!"k", c7), (b!"d", c8)] b!"o" = some c6 := fun _ _ _ _ _ _ _ _ => rfl
    have g3 : ∀ c1 c2 c3 c4 c5 c6 c7 c8 : Json, Json.get [(b!"category", c1), (b!"created", c2), (b!"updated", c3), (b!"hmac", c4),
      (b!"trashed", c5), (b!"o", c6), (b!"k", c7), (b!"d", c8)] b!"trashed" = some c5 := fun _ _ _ _ _ _ _ _ => rfl
    unfold Demo.stored at hm
    cases hm
    refine ⟨_, rfl, fun k hk j => ?_⟩
    rw [lastEntry_iff, lastEntry_iff]
    simp only [List.mem_cons, List.not_mem_nil, or_false] at hk
    rcases hk with rfl | rfl | rfl
    · rw [g1, g1]
    · rw [g2, g2]
    · rw [g3, g3]
  unfold Demo.secretly at h ⊢
  rw [lastEntry_iff] at h
  simp only [List.flatten_cons, List.flatten_nil, List.append_nil, hg] at h
  simp only [lastEntry_iff, List.flatten_cons, List.flatten_nil, List.append_nil, hg]
  by_cases h1 : b!"Q" = uid
  · rw [if_pos h1] at h ⊢
    obtain ⟨m', h2, h3⟩ := cover _ _ a [] _ c [] m (Option.some.inj h)
    exact ⟨m', by rw [h2], h3⟩
  · by_cases h2 : b!"N" = uid
    · rw [if_neg h1, if_pos h2] at h ⊢
      obtain ⟨m', h3, h4⟩ := cover _ _ a b _ c d m (Option.some.inj h)
      exact ⟨m', by rw [h3], h4⟩
    · rw [if_neg h1, if_neg h2] at h
      cases h

set_option maxRecDepth 20000 in
/-- C125: the same list, and other details. -/
theorem C125_runs :
    Demo.runAt b!"a" (Demo.secretly b!"1234" b!"memo") (.list [] [] [] false) =
      Demo.runAt b!"c" (Demo.secretly b!"99" []) (.list [] [] [] false) ∧
    (Demo.runAt b!"a" (Demo.secretly b!"1234" b!"memo") (.list [] [] [] false)).2 = [.out b!"Password:\n", .password,
      .table [b!"lp.", b!"uid", b!"category", b!"title"]
        [[b!"1", b!"N", b!"Credit Card", b!"Card"], [b!"2", b!"Q", b!"Secure Note", b!"Memo"]]] ∧
    Demo.runAt b!"a" (Demo.secretly b!"1234" b!"memo") (.details [] b!"N" false) ≠
      Demo.runAt b!"c" (Demo.secretly b!"99" []) (.details [] b!"N" false) := by
  decide +kernel

end Cli
end OnePass
