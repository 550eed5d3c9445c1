/-
C142: damaged contents of an item, and an item without contents.
-/
import Verif.Props.Alone

set_option linter.unusedSimpArgs false

namespace OnePass
namespace Spec

/-- Details of an item that say nothing: no notes, no form, no sections. -/
def Bare (details : Members) : Prop :=
  ∀ j, (b!"notesPlain", j) ∉ details ∧ (b!"fields", j) ∉ details ∧ (b!"sections", j) ∉ details

end Spec

namespace ItemSvc
open Spec Key

theorem field_absent {m : Members} {key : Bytes} (h : ∀ j, (key, j) ∉ m) : notNil (Json.field m key) = false := by
  have : Json.get m key = none := by
    cases hg : Json.get m key with
    | none => rfl
    | some j =>
      obtain ⟨a, b, rfl, -⟩ := lastEntry_iff.2 hg
      exact absurd (by simp) (h j)
  unfold Json.field
  rw [this]
  rfl

theorem bare_sections {E : Env} {O : MapOrder} {de : Members} (h : Bare de) : parseSections E O de = .ret [] := by
  unfold parseSections
  simp only [field_absent (fun j => (h j).2.1), field_absent (fun j => (h j).2.2), Bool.false_eq_true, if_false, Out.pure_eq, Bool.not_false, if_true]

theorem bare_notes {de : Members} (h : Bare de) : optStr de b!"notesPlain" = .ret [] := by
  unfold optStr
  rw [field_absent (fun j => (h j).1)]
  rfl

/-- If damaged details are decoded at all, then as those of an item without contents. -/
theorem damaged_as_empty {E : Env} {O : MapOrder} {reg : List Cat} {keys : Keys} {r : RawItem} {d' : Bytes} {ov de : Members}
    (hw : Written E keys { r with details := d' } ov de) (hbare : Bare de)
    (hbad : ∀ k m, Key.itemKeys E r.keys keys.masterKey = .ret (k, m) → ¬ Authentic E m (B64.decodeString r.details).1.data)
    {o : Option Item} (h : decodeItem E O reg keys r = .ret o) : decodeItem E O reg keys { r with details := d' } = .ret o := by
  have h2 := written_details hw
  have h1 : decodeOverview E { r with details := d' } keys = decodeOverview E r keys := rfl
  unfold decodeItem at h ⊢
  change (match Cat.fromCode reg r.category with | .error _ => _ | .ok cat => _) = _ at h
  show (match Cat.fromCode reg r.category with | .error _ => _ | .ok cat => _) = _
  revert h
  cases Cat.fromCode reg r.category with
  | error e => exact id
  | ok cat =>
    intro h
    simp only [h1, h2, Out.ret_bind]
    simp only [Out.bind_eq_ret, Out.pure_eq] at h ⊢
    obtain ⟨x, hx, y, hy, secs, h3, title, h4, url, h5, notes, h6, h7⟩ := h
    have hy0 : y = [] := by
      unfold decodeDetails at hy
      simp only [Out.bind_eq_ret, Out.pure_eq, Out.ret.injEq] at hy
      obtain ⟨⟨k, m⟩, hk, q, hq, rfl⟩ := hy
      rw [opdata_not_authentic (B64.decodeString_wf _) (hbad k m hk) hq, unmarshalQuiet_error]
    subst hy0
    have hb : Bare [] := fun j => by simp
    rw [bare_sections hb] at h3
    rw [bare_notes hb] at h6
    exact ⟨x, hx, secs, by rw [bare_sections hbare]; exact h3, title, h4, url, h5, notes, by rw [bare_notes hbare]; exact h6, h7⟩

end ItemSvc

namespace Cli
open Prog Fmt Spec

/-- The keys an opened vault is read with. -/
theorem opened_keys {C : Ctx} {v : Bytes} {w1 : World} {s : Session} (hs : w1.sess = Session.init) (h : Opened C v w1 s) :
    ∃ (P : Profile) (keys : Keys), s.keys = some keys ∧ Repo.loadProfile w1.disk v none = .ret P ∧
      Key.derivedKeys C.env P (C.sys.password w1.tick) = .ret (.ok (keys.derivedKey, keys.derivedMac)) ∧
      Key.masterKeys C.env P keys.derivedKey keys.derivedMac = .ret (.ok (keys.masterKey, keys.masterMac)) ∧
      Key.overviewKeys C.env P keys.derivedKey keys.derivedMac = .ret (.ok (keys.overviewKey, keys.overviewMac)) := by
  obtain ⟨s0, h1, h2⟩ := h
  rw [hs] at h1
  obtain ⟨k1, -, -⟩ := validated h1
  rcases Session.unlock_cases h2 with h | h
  · cases h.1
  obtain ⟨-, keys, raw, items, -, -, rfl, g3, g4, g5⟩ := h
  exact ⟨s0.profile, keys, rfl, k1, g3, g4, g5⟩

theorem describes_unique_raw {E : Env} {all : Members} {r r' : RawItem} (h : Describes E all r) (h' : Describes E all r')
    (hu : r.uid = r'.uid) : r = r' := by
  obtain ⟨m, h1, h2⟩ := h
  obtain ⟨m', h1', h2'⟩ := h'
  rw [hu] at h1
  rw [lastEntry_iff] at h1 h1'
  rw [h1] at h1'
  cases h1'
  exact itemDoc_unique h2 h2' hu

/-- C142. Two vaults that agree in their profile and in the entry for one UID, but for its details: in the one they were
damaged (they do not authenticate), in the other they are those of an item without contents. Opened with the same
password, the item is the same. -/
theorem C142_damaged_as_empty (C C' : Ctx) (v v' : Bytes) (w1 w1' : World) (hc : Comparable C C' v v' w1 w1') (s s' : Session)
    (h : Opened C v w1 s) (h' : Opened C' v' w1' s') (ms ms' : List Members) (hm : Holds w1.disk v ms)
    (hm' : Holds w1'.disk v' ms') (keys : Keys) (hk : s.keys = some keys) (r : RawItem) (d' : Bytes) (ov de : Members)
    (hr : Describes C.env ms.flatten r) (hr' : Describes C.env ms'.flatten { r with details := d' })
    (hbad : ∀ k m, Key.itemKeys C.env r.keys keys.masterKey = .ret (k, m) →
      ¬ Authentic C.env m (B64.decodeString r.details).1.data)
    (hw : Written C.env keys { r with details := d' } ov de) (hbare : Bare de) (trashed : Bool) :
    s.getItem r.uid trashed = s'.getItem r.uid trashed := by
  obtain ⟨P, keys0, p1, p2, p3, p4, p5, p6, p7⟩ := opened_held hc.fresh h hm
  obtain ⟨P', keys', q1, q2, q3, q4, q5, q6, -⟩ := opened_held hc.fresh' h' hm'
  obtain ⟨P0, keys1, z0, z1, z2, z3, z4⟩ := opened_keys hc.fresh h
  rw [hk] at z0
  cases z0
  rw [hc.env] at q2 q3 q4 q5 q6
  rw [hc.password] at q2
  have hP := same_profile hc p1 q1
  subst hP
  rw [p1] at z1
  cases z1
  have e1 := keys_unique p2 p3 p4 q2 q3 q4
  have e2 := keys_unique p2 p3 p4 z2 z3 z4
  subst e1
  subst e2
  obtain ⟨m, hm1, -⟩ := id hr
  obtain ⟨r0, o, g1, g2, g3⟩ := p7 r.uid _ hm1
  obtain rfl := describes_unique_raw g2 hr g1
  have g4 := ItemSvc.damaged_as_empty hw hbare hbad g3
  have key : ∀ i, i.uid = r0.uid → (i ∈ held s ↔ i ∈ held s') := by
    intro i hi
    rw [p6, q6, decodeItem_order C.env C'.order C.order]
    constructor
    · rintro ⟨x, a, b⟩
      obtain rfl := describes_unique_raw a hr ((ItemSvc.decodeItem_some b).2.1.symm.trans hi)
      rw [g3] at b
      exact ⟨_, hr', g4.trans b⟩
    · rintro ⟨x, a, b⟩
      obtain rfl := describes_unique_raw a hr' ((ItemSvc.decodeItem_some b).2.1.symm.trans hi)
      rw [g4] at b
      exact ⟨_, hr, g3.trans b⟩
  ext i
  rw [C34_lookup C.env s' q5, C34_lookup C.env s p5]
  constructor
  · rintro ⟨a, b, c⟩
    exact ⟨(key i b).1 a, b, c⟩
  · rintro ⟨a, b, c⟩
    exact ⟨(key i b).2 a, b, c⟩

/-- C142, as far as it holds: of an opened vault, whoever sees notes or a section of an item sees what authenticates;
likewise a title or an address. Missing: items of which nothing is seen (`C142_damaged_as_empty`, `C142_refuted`). -/
theorem C142_seen_is_intact_partial (C : Ctx) (v : Bytes) (w1 : World) (hs : w1.sess = Session.init) (s : Session)
    (h : Opened C v w1 s) (ms : List Members) (hm : Holds w1.disk v ms) (keys : Keys) (hk : s.keys = some keys) (i : Item)
    (hi : i ∈ held s) :
    ∃ r, r.uid = i.uid ∧ Describes C.env ms.flatten r ∧
      (i.title ≠ [] ∨ i.url ≠ [] → Authentic C.env keys.overviewMac (B64.decodeString r.overview).1.data) ∧
      (i.notes ≠ [] ∨ i.sections ≠ none → ∃ k m, Key.itemKeys C.env r.keys keys.masterKey = .ret (k, m) ∧
        Authentic C.env m (B64.decodeString r.details).1.data) := by
  obtain ⟨P, keys0, p1, p2, p3, p4, p5, p6, p7⟩ := opened_held hs h hm
  obtain ⟨P0, keys1, z0, z1, z2, z3, z4⟩ := opened_keys hs h
  rw [hk] at z0
  cases z0
  rw [p1] at z1
  cases z1
  have e2 := keys_unique p2 p3 p4 z2 z3 z4
  subst e2
  obtain ⟨r, h1, h2⟩ := (p6 i).1 hi
  refine ⟨r, (ItemSvc.decodeItem_some h2).2.1.symm, h1, ?_⟩
  unfold ItemSvc.decodeItem at h2
  split at h2
  · simp at h2
  · simp only [Out.bind_eq_ret, Out.pure_eq, Out.ret.injEq, Option.some.injEq] at h2
    obtain ⟨ov, hov, de, hde, secs, hsecs, title, ht, url, hurl, notes, hnotes, rfl⟩ := h2
    constructor
    · intro hne
      by_contra hna
      unfold ItemSvc.decodeOverview at hov
      simp only [Out.bind_eq_ret, Out.pure_eq, Out.ret.injEq] at hov
      obtain ⟨x, hx, rfl⟩ := hov
      rw [opdata_not_authentic (B64.decodeString_wf _) hna hx, unmarshalQuiet_error] at ht hurl
      simp only [ItemSvc.optStr, field_nil, notNil, Bool.false_eq_true, if_false, Out.pure_eq, Out.ret.injEq] at ht hurl
      rcases hne with h0 | h0
      · exact h0 ht.symm
      · exact h0 hurl.symm
    · intro hne
      unfold ItemSvc.decodeDetails at hde
      simp only [Out.bind_eq_ret, Out.pure_eq, Out.ret.injEq] at hde
      obtain ⟨⟨k, m⟩, hkm, x, hx, rfl⟩ := hde
      refine ⟨k, m, hkm, ?_⟩
      by_contra hna
      rw [opdata_not_authentic (B64.decodeString_wf _) hna hx, unmarshalQuiet_error] at hsecs hnotes
      have hb : Bare [] := fun j => by simp
      rw [ItemSvc.bare_sections hb] at hsecs
      rw [ItemSvc.bare_notes hb] at hnotes
      cases hsecs
      cases hnotes
      rcases hne with h0 | h0
      · exact h0 rfl
      · exact h0 rfl

/-! ### A damaged vault -/

namespace SilenceDemo

/-- One byte of the text changed: the first character, of the same alphabet. -/
def spoil : Json → Json
  | .str (_ :: t) => .str (90 :: t)
  | j => j

def textOf : Json → Bytes
  | .str t => t
  | _ => []

def entry (details : Json) : Json :=
  .obj [(b!"category", .str b!"001"), (b!"created", .num b!"5"), (b!"updated", .num b!"6"), (b!"hmac", .str []),
    (b!"o", Demo.blob Demo.overviewKey Demo.overviewMac (Json.render (.obj [(b!"title", .str b!"Mail")]))),
    (b!"k", .str (B64.encode (keyBlob Env.toy Demo.masterKey (List.replicate 16 8) (List.replicate 32 10) (List.replicate 32 11)
      (List.replicate 32 0)))),
    (b!"d", details)]

def sealed (doc : Members) : Json := Demo.blob (List.replicate 32 10) (List.replicate 32 11) (Json.render (.obj doc))

def contents : Members := [(b!"notesPlain", .str b!"the safe: 1234")]

/-- The item as it was, the same with one byte changed, and an item without contents. -/
def intact : List Members := [[(b!"M", entry (sealed contents))]]
def damaged : List Members := [[(b!"M", entry (spoil (sealed contents)))]]
def empty : List Members := [[(b!"M", entry (sealed []))]]

end SilenceDemo

open SilenceDemo

/-- C142. So `details` and `overview` print the same of it, in whole runs of the commands, and end well. -/
theorem C142_same_output (C C' : Ctx) (flag flag' v v' uid : Bytes) (trashed : Bool) (w w1 w' w1' : World)
    (hb : Begun C w w1) (hb' : Begun C' w' w1') (hv : Meaning w1.conf flag v) (hv' : Meaning w1'.conf flag' v')
    (henv : C'.env = C.env) (s s' : Session) (h : Opened C v w1 s) (h' : Opened C' v' w1' s')
    (hg : s.getItem uid trashed = s'.getItem uid trashed) (hide : Bool) :
    ∃ lines : List Bytes,
      command C (if hide then .overview flag uid trashed else .details flag uid trashed) w =
        (.ret (), after w1 s (lines.map (fun l => .out (l ++ [10])))) ∧
      command C' (if hide then .overview flag' uid trashed else .details flag' uid trashed) w' =
        (.ret (), after w1' s' (lines.map (fun l => .out (l ++ [10])))) := by
  have key : ∀ (D : Ctx) (f x : Bytes) (u u1 : World) (t : Session), Begun D u u1 → Meaning u1.conf f x → Opened D x u1 t →
      command D (if hide then .overview f uid trashed else .details f uid trashed) u = printItem D hide uid trashed (after u1 t []) := by
    intro D f x u u1 t k1 k2 k3
    have ho := (openVault_ret D f x u u1 _ k1 k2).2 ⟨t, k3, rfl⟩
    cases hide with
    | true =>
      show getItemOverview D f uid trashed u = _
      unfold getItemOverview
      rw [bind_run, ho]
    | false =>
      show getItemDetails D f uid trashed u = _
      unfold getItemDetails
      rw [bind_run, ho]
  rw [key C flag v w w1 s hb hv h, key C' flag' v' w' w1' s' hb' hv' h']
  cases hi : s.getItem uid trashed with
  | none =>
    refine ⟨[b!"Item with UID " ++ uid ++ b!" do not exist"], ?_, ?_⟩
    · rw [printItem_none C hide uid trashed (after w1 s []) hi]
      simp [after, List.append_assoc]
    · rw [printItem_none C' hide uid trashed (after w1' s' []) (hg.symm.trans hi)]
      simp [after, List.append_assoc]
  | some i =>
    refine ⟨itemLines C.env hide i, ?_, ?_⟩
    · rw [printItem_run C hide uid trashed (after w1 s []) i hi]
      simp [after, List.append_assoc]
    · rw [printItem_run C' hide uid trashed (after w1' s' []) i (hg.symm.trans hi), henv]
      simp [after, List.append_assoc]

/-- C142, the wish: of an item whose contents are damaged, `details` prints something else than of an item without any. -/
def C142_wish : Prop :=
  ∀ doc : Members, ¬ Authentic Env.toy (List.replicate 32 11) (B64.decodeString (textOf (spoil (sealed doc)))).1.data →
    Demo.runAt b!"a" [[(b!"M", entry (spoil (sealed doc)))]] (.details [] b!"M" false) ≠
      Demo.runAt b!"a" empty (.details [] b!"M" false)

set_option maxRecDepth 20000 in
/-- C142 is false: with one byte changed, the notes are gone, and the three commands succeed and print what they print of
an item without contents. -/
theorem C142_refuted : ¬ C142_wish ∧
    (Demo.runAt b!"a" damaged (.details [] b!"M" false)).1 = true ∧
    Demo.runAt b!"a" damaged (.overview [] b!"M" false) = Demo.runAt b!"a" empty (.overview [] b!"M" false) ∧
    Demo.runAt b!"a" damaged (.list [] [] [] false) = Demo.runAt b!"a" empty (.list [] [] [] false) ∧
    Demo.runAt b!"a" intact (.details [] b!"M" false) ≠ Demo.runAt b!"a" damaged (.details [] b!"M" false) := by
  refine ⟨fun h => ?_, by decide +kernel, by decide +kernel, by decide +kernel, by decide +kernel⟩
  exact h contents (by decide +kernel) (by decide +kernel)

/-- C142: the hypotheses on the entry without contents. -/
example : Bare [] ∧ Bare [(b!"password", .str b!"x")] := ⟨by simp [Bare], by simp [Bare]⟩

end Cli
end OnePass
