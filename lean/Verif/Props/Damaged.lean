/-
Vault files that are empty or damaged: C102, C103.
-/
import Verif.Props.Vault

set_option linter.unusedSimpArgs false

namespace OnePass

namespace Json

/-- Members followed by a comma and no further member. -/
theorem pMembers_stop {d : Nat} {t : Bytes} {m : Members} (h : MemsR d t m) (f : Nat) (w r : Bytes) (hw : WS w)
    (hr : NoWs r) (hq : r.head? ≠ some 34) (hf : t.length + 2 ≤ f) : pMembers f d (t ++ 44 :: (w ++ r)) = none := by
  have stop : ∀ f, pMembers f d r = none := by
    intro f
    cases f with
    | zero => rfl
    | succ f =>
      cases r with
      | nil => rfl
      | cons b r =>
        have : b ≠ 34 := fun e => hq (by rw [e]; rfl)
        unfold pMembers
        split
        · rename_i heq
          cases heq; exact absurd rfl this
        · rfl
  have key : ∀ n : Nat, ∀ t m, t.length ≤ n → MemsR d t m → ∀ f, t.length + 2 ≤ f → pMembers f d (t ++ 44 :: (w ++ r)) = none := by
    intro n
    induction n with
    | zero =>
      intro t m hl h
      obtain ⟨r, rfl⟩ := memsR_head h
      simp at hl
    | succ n IH =>
      intro t m hl h f hf
      obtain ⟨f, rfl⟩ : ∃ g, f = g + 1 := ⟨f - 1, by omega⟩
      cases h with
      | @one _ kt k w1 w2 t j w3 hk hw1 hw2 hv hw3 =>
        have ih := pValue_complete hv f (w3 ++ 44 :: (w ++ r)) (by simp only [List.length_append, List.length_cons, List.length_nil] at hf ⊢; omega) (ws_delim hw3 (delim_comma _))
        have hs := pStr_complete hk ((kt ++ 34 :: (w1 ++ 58 :: (w2 ++ (t ++ (w3 ++ 44 :: (w ++ r)))))).length + 1)
          (w1 ++ 58 :: (w2 ++ (t ++ (w3 ++ 44 :: (w ++ r))))) (by simp only [List.length_append, List.length_cons]; omega)
        obtain ⟨b, t', rfl, hb⟩ := valR_head hv
        simp only [List.append_assoc, List.cons_append, pMembers] at ih hs ⊢
        rw [hs]
        simp only []
        rw [skipWs_append hw1 (noWs_58 _)]
        simp only []
        rw [skipWs_append hw2 (noWs_of_start hb), ih]
        simp only []
        rw [skipWs_append hw3 (noWs_44 _)]
        simp only []
        rw [skipWs_append hw hr, stop]
        rfl
      | @cons _ kt k w1 w2 t j w3 w4 ts m hk hw1 hw2 hv hw3 hw4 hm =>
        have ih := pValue_complete hv f (w3 ++ 44 :: (w4 ++ (ts ++ 44 :: (w ++ r)))) (by simp only [List.length_append, List.length_cons, List.length_nil] at hf ⊢; omega)
          (ws_delim hw3 (delim_comma _))
        have ih2 := IH ts m (by simp at hl; omega) hm f (by simp only [List.length_append, List.length_cons, List.length_nil] at hf ⊢; omega)
        have hs := pStr_complete hk
          ((kt ++ 34 :: (w1 ++ 58 :: (w2 ++ (t ++ (w3 ++ 44 :: (w4 ++ (ts ++ 44 :: (w ++ r)))))))).length + 1)
          (w1 ++ 58 :: (w2 ++ (t ++ (w3 ++ 44 :: (w4 ++ (ts ++ 44 :: (w ++ r))))))) (by simp only [List.length_append, List.length_cons]; omega)
        obtain ⟨b, t', rfl, hb⟩ := valR_head hv
        obtain ⟨ts', rfl⟩ := memsR_head hm
        simp only [List.append_assoc, List.cons_append, pMembers] at ih ih2 hs ⊢
        rw [hs]
        simp only []
        rw [skipWs_append hw1 (noWs_58 _)]
        simp only []
        rw [skipWs_append hw2 (noWs_of_start hb), ih]
        simp only []
        rw [skipWs_append hw3 (noWs_44 _)]
        simp only []
        rw [skipWs_append hw4 (noWs_34 _), ih2]
        rfl
  exact key _ t m (Nat.le_refl _) h f hf

theorem pValue_obj (f d : Nat) (x r : Bytes) (b : UInt8) (h : skipWs x = b :: r) (hb : b ≠ 125) :
    pValue (f + 1) (d + 1) (123 :: x) = (pMembers f d (b :: r)).map (fun x => (.obj x.1, x.2)) := by
  rw [pValue, h]
  split
  · rename_i heq
    cases heq; exact absurd rfl hb
  · rfl

/-- An object that has white space where a member should be after a comma, or a comma before the first member. -/
theorem parse_gap {t w w0 r : Bytes} {m : Members} (hw0 : WS w0) (h : MemsR 9999 t m) (hw : WS w) (hr : NoWs r)
    (hq : r.head? ≠ some 34) : parse (123 :: w0 ++ t ++ 44 :: (w ++ r)) = none := by
  unfold parse
  have e : skipWs (123 :: w0 ++ t ++ 44 :: (w ++ r)) = 123 :: (w0 ++ (t ++ 44 :: (w ++ r))) := by
    simp [skipWs, isWs]
  have hstop := pMembers_stop h (123 :: w0 ++ t ++ 44 :: (w ++ r)).length w r hw hr hq
    (by simp only [List.length_append, List.length_cons]; omega)
  rw [e]
  obtain ⟨t', rfl⟩ := memsR_head h
  have hs : skipWs (w0 ++ (34 :: t' ++ 44 :: (w ++ r))) = 34 :: t' ++ 44 :: (w ++ r) := skipWs_append hw0 (noWs_34 _)
  have hv : pValue ((123 :: w0 ++ 34 :: t' ++ 44 :: (w ++ r)).length + 1) maxDepth (123 :: (w0 ++ (34 :: t' ++ 44 :: (w ++ r)))) = none := by
    rw [show maxDepth = 9999 + 1 from rfl, pValue_obj _ _ _ _ _ hs (by decide)]
    exact congrArg (Option.map _) hstop
  rw [hv]

theorem parse_comma {w r : Bytes} (hw : WS w) : parse (123 :: w ++ 44 :: r) = none := by
  unfold parse
  have e : skipWs (123 :: w ++ 44 :: r) = 123 :: (w ++ 44 :: r) := by simp [skipWs, isWs]
  rw [e]
  have hs : skipWs (w ++ 44 :: r) = 44 :: r := skipWs_append hw (noWs_44 _)
  have hv : pValue ((123 :: w ++ 44 :: r).length + 1) maxDepth (123 :: (w ++ 44 :: r)) = none := by
    rw [show maxDepth = 9999 + 1 from rfl, pValue_obj _ _ _ _ _ hs (by decide)]
    rw [show (123 :: w ++ 44 :: r).length = (w ++ 44 :: r).length + 1 from rfl]
    simp [pMembers]
  rw [hv]

end Json

open Spec ItemSvc
open Session hiding decodeItems

/-! ### C102 -/

/-- A band file without entries: four bytes (`ld({`), white space at most, three bytes (`});`). -/
def EmptyBand (d : Disk) (dir : List Bytes) (name : Bytes) : Prop :=
  ∃ pre w post x, d.at? (dir ++ [name]) = some (.file (pre ++ w ++ post) x) ∧ pre.length = 4 ∧ post.length = 3 ∧ Json.WS w

/-- The wish: a vault opens whether or not some of its bands have no entries. -/
def C102_wish (E : Env) : Prop :=
  ∀ (O : MapOrder) (d : Disk) (v : Bytes) (dir names : List Bytes) (ms : List Members), VaultDir d v dir → BandNames d dir names →
    List.Forall₂ (fun n m => BandFile d dir n m ∨ (m = [] ∧ EmptyBand d dir n)) names ms →
    (∀ uid x, LastEntry ms.flatten uid x → ∃ r, r.uid = uid ∧ Describes E ms.flatten r) →
    ∃ raw, Repo.loadItems E O d v = .ret raw ∧ ∀ r, r ∈ raw ↔ Describes E ms.flatten r

theorem bandDoc_eq : ∀ (bodies : List Bytes), bodies ≠ [] → Repo.bandDoc bodies = b!"{" ++ (b!",").intercalate bodies ++ b!"}"
  | [b], _ => by
    have : (123 :: (b ++ [44])).dropLast = 123 :: b := by
      rw [← List.cons_append, List.dropLast_concat]
    simp [Repo.bandDoc, List.intercalate, this]
  | b :: c :: r, _ => by
    have ih := bandDoc_eq (c :: r) (by simp)
    unfold Repo.bandDoc at ih ⊢
    have hx : (c :: r).flatMap (fun b => b ++ [44]) ≠ [] := by simp
    rw [List.dropLast_cons_of_ne_nil hx] at ih
    rw [List.dropLast_cons_of_ne_nil (by simp), List.flatMap_cons, List.dropLast_append_of_ne_nil hx]
    have ih' : ((c :: r).flatMap (fun b => b ++ [44])).dropLast = (b!",").intercalate (c :: r) := by
      have := List.append_inj_left' (s₁ := 123 :: ((c :: r).flatMap (fun b => b ++ [44])).dropLast) (t₁ := [125])
        (s₂ := b!"{" ++ (b!",").intercalate (c :: r)) (t₂ := b!"}") ih rfl
      simpa using this
    rw [ih']
    simp [List.intercalate, List.intersperse]

theorem inter_cons (b c : Bytes) (r : List Bytes) :
    (b!",").intercalate (b :: c :: r) = b ++ 44 :: (b!",").intercalate (c :: r) := by
  simp [List.intercalate, List.intersperse]

theorem inter_one (b : Bytes) : (b!",").intercalate [b] = b := by simp [List.intercalate]

theorem inter_append : ∀ (p : List Bytes) (e : Bytes) (r : List Bytes), p ≠ [] →
    (b!",").intercalate (p ++ e :: r) = (b!",").intercalate p ++ 44 :: (b!",").intercalate (e :: r)
  | [b], e, r, _ => by rw [inter_one]; exact inter_cons b e r
  | b :: c :: p, e, r, _ => by
    have ih := inter_append (c :: p) e r (by simp)
    rw [List.cons_append] at ih
    rw [List.cons_append, List.cons_append, inter_cons, inter_cons, ih]
    simp

theorem inter_body {bodies : List Bytes} (hne : bodies ≠ []) (h : ∀ b ∈ bodies, ∃ m, Body b m) :
    ∃ m, Body ((b!",").intercalate bodies) m := by
  induction bodies with
  | nil => exact absurd rfl hne
  | cons b bs ih =>
    obtain ⟨m, w, t, rfl, hw, hm⟩ := h b (by simp)
    cases bs with
    | nil => exact ⟨m, by rw [inter_one]; exact ⟨w, t, rfl, hw, hm⟩⟩
    | cons c r =>
      obtain ⟨m', w', t', he, hw', hm'⟩ := ih (by simp) fun b hb => h b (by simp [hb])
      refine ⟨m ++ m', w, t ++ 44 :: w' ++ t', ?_, hw, memsR_append hm hw' hm'⟩
      rw [inter_cons, he]
      simp

theorem first_ws {l : List Bytes} (h : ∃ b ∈ l, Json.WS b) : ∃ p e r, l = p ++ e :: r ∧ Json.WS e ∧ ∀ b ∈ p, ¬ Json.WS b := by
  induction l with
  | nil => obtain ⟨b, hb, -⟩ := h; cases hb
  | cons a l ih =>
    by_cases ha : Json.WS a
    · exact ⟨[], a, l, rfl, ha, by simp⟩
    · obtain ⟨b, hb, hw⟩ := h
      rcases List.mem_cons.1 hb with rfl | hb
      · exact absurd hw ha
      · obtain ⟨p, e, r, rfl, h1, h2⟩ := ih ⟨b, hb, hw⟩
        exact ⟨a :: p, e, r, rfl, h1, by simpa using ⟨ha, h2⟩⟩

/-- Joining bodies of which one is empty. -/
theorem bandDoc_gap {bodies : List Bytes} (hb : ∀ b ∈ bodies, (∃ m, Body b m) ∨ Json.WS b) (he : ∃ b ∈ bodies, Json.WS b)
    (hl : 2 ≤ bodies.length) : Json.parse (Repo.bandDoc bodies) = none := by
  obtain ⟨p, e, r, rfl, h1, h2⟩ := first_ws he
  rw [bandDoc_eq _ (by simp)]
  by_cases hp : p = []
  · subst hp
    cases r with
    | nil => simp at hl
    | cons c r =>
      rw [List.nil_append, inter_cons]
      have := Json.parse_comma (r := (b!",").intercalate (c :: r) ++ b!"}") h1
      simpa using this
  · obtain ⟨m, w, t, hj, hw, hm⟩ := inter_body hp fun b hx => (hb b (by simp [hx])).resolve_right (h2 b hx)
    rw [inter_append p e r hp, hj]
    have hr : ∃ q, (b!",").intercalate (e :: r) ++ b!"}" = e ++ q ∧ Json.NoWs q ∧ q.head? ≠ some 34 := by
      cases r with
      | nil => exact ⟨b!"}", by rw [inter_one], Json.noWs_125 _, by decide⟩
      | cons c r => exact ⟨44 :: ((b!",").intercalate (c :: r) ++ b!"}"), by rw [inter_cons]; simp, Json.noWs_44 _, by simp⟩
    obtain ⟨q, hq, hq1, hq2⟩ := hr
    have := Json.parse_gap hw hm h1 hq1 hq2
    rw [← hq] at this
    simpa using this

/-- Reading the band files, whatever is in them. -/
theorem bandBodies {d : Disk} {dir : List Bytes} {names paths : List Bytes}
    (hf : List.Forall₂ (fun n p => p ≠ [] ∧ Path.resolve d.cwd p = dir ++ [n]) names paths) {bodies : List Bytes}
    (hb : List.Forall₂ (fun n b => ∃ pre post x, d.at? (dir ++ [n]) = some (.file (pre ++ b ++ post) x) ∧ pre.length = 4 ∧ post.length = 3)
      names bodies) : Out.mapL (Repo.bandBody d) paths = .ret bodies := by
  induction hf generalizing bodies with
  | nil => cases hb; rfl
  | @cons n p ns ps h1 h2 ih =>
    cases hb with
    | @cons _ b _ bs hb1 hb2 =>
      obtain ⟨pre, post, x, hat, hl1, hl2⟩ := hb1
      have hread : d.readFile p = some (pre ++ b ++ post) := by
        unfold Disk.readFile Disk.stat
        rw [if_neg h1.1, h1.2, hat]
      have hsub : subBytes (pre ++ b ++ post) 4 (((pre ++ b ++ post).length : Int) - 3) = .ret b :=
        subBytes_mid pre b post 4 3 hl1 hl2
      simp only [Out.mapL, Repo.bandBody, hread]
      rw [hsub]
      simp [ih hb2]

/-- `LoadItems` on files that are long enough: what counts is the document put together from their middles. -/
theorem loadItems_bodies (E : Env) (O : MapOrder) {d : Disk} {v : Bytes} {dir : List Bytes} (hv : VaultDir d v dir)
    {names : List Bytes} (hn : BandNames d dir names) {bodies : List Bytes} (hne : names ≠ [])
    (hb : List.Forall₂ (fun n b => ∃ pre post x, d.at? (dir ++ [n]) = some (.file (pre ++ b ++ post) x) ∧ pre.length = 4 ∧ post.length = 3)
      names bodies) :
    Repo.loadItems E O d v = match Json.unmarshalMap (Repo.bandDoc bodies) with
      | (_, true) => .fatal
      | (m, false) => Out.mapL (Repo.rawItem E) (O.run (Json.entries (m.getD []))) := by
  obtain ⟨paths, hp, hf⟩ := bandFiles_eq hv hn
  have h1 := bandBodies hf hb
  unfold Repo.loadItems
  rw [hp]
  cases hf with
  | nil => exact absurd rfl hne
  | cons _ _ =>
    simp only [h1, Out.ret_bind]
    rfl

/-- C102. One band without entries among several: the program ends with a message when the items are loaded. The only
band of a vault may be without entries. -/
theorem C102_empty_band_partial (E : Env) (O : MapOrder) (d : Disk) (v : Bytes) (dir names : List Bytes) (hv : VaultDir d v dir)
    (hn : BandNames d dir names) (hb : ∀ n ∈ names, (∃ m, BandFile d dir n m) ∨ EmptyBand d dir n) :
    ((∃ n ∈ names, EmptyBand d dir n) → 2 ≤ names.length → Repo.loadItems E O d v = .fatal) ∧
    (∀ n, names = [n] → EmptyBand d dir n → Repo.loadItems E O d v = .ret []) := by
  constructor
  · rintro ⟨n, hmem, hem⟩ hl
    have : ∃ bodies, List.Forall₂ (fun n b => (∃ pre post x, d.at? (dir ++ [n]) = some (.file (pre ++ b ++ post) x) ∧ pre.length = 4 ∧ post.length = 3) ∧
        ((∃ m, Body b m) ∨ Json.WS b) ∧ (EmptyBand d dir n → Json.WS b)) names bodies := by
      clear hn hmem hem hl
      induction names with
      | nil => exact ⟨[], .nil⟩
      | cons n ns ih =>
        obtain ⟨bodies, hbs⟩ := ih fun n hn => hb n (by simp [hn])
        by_cases he : EmptyBand d dir n
        · obtain ⟨pre, w, post, x, h1, h2, h3, h4⟩ := he
          exact ⟨w :: bodies, .cons ⟨⟨pre, post, x, h1, h2, h3⟩, .inr h4, fun _ => h4⟩ hbs⟩
        · obtain ⟨m, data, x, hat, pre, w, t, post, rfl, h1, h2, hw, hm, -⟩ := (hb n (by simp)).resolve_right he
          refine ⟨(w ++ t) :: bodies, .cons ⟨⟨pre, post, x, by rw [hat]; simp, h1, h2⟩, .inl ⟨m, w, t, rfl, hw, hm⟩, fun h => absurd h he⟩ hbs⟩
    obtain ⟨bodies, hbs⟩ := this
    rw [loadItems_bodies E O hv hn (by rintro rfl; cases hmem) (hbs.imp fun _ _ h => h.1)]
    have hp : Json.parse (Repo.bandDoc bodies) = none := by
      refine bandDoc_gap (fun b hx => ?_) ?_ (by rw [← hbs.length_eq]; exact hl)
      · obtain ⟨n, -, h⟩ := forall₂_mem_right hbs hx
        exact h.2.1
      · obtain ⟨b, hx, h⟩ := forall₂_mem_left hbs hmem
        exact ⟨b, hx, h.2.2 hem⟩
    unfold Json.unmarshalMap
    rw [hp]
  · rintro n rfl ⟨pre, w, post, x, h1, h2, h3, h4⟩
    rw [loadItems_bodies E O hv hn (bodies := [w]) (by simp) (.cons ⟨pre, post, x, h1, h2, h3⟩ .nil)]
    have hd : Json.DocR (Repo.bandDoc [w]) (.obj []) := by
      refine ⟨[], 123 :: w ++ [125], [], Json.ws_nil, Json.ws_nil, Json.ValR.obj0 h4, ?_⟩
      rw [bandDoc_eq _ (by simp), inter_one]
      simp
    rw [Json.unmarshalMap_read ⟨hd, rfl⟩]
    have : O.run (Json.entries []) = [] := List.perm_nil.1 (O.perm [])
    simp [this, Out.mapL]

/-- C102, for the user: no password opens such a vault, in no session. -/
theorem C102_never_opens (E : Env) (O : MapOrder) (d : Disk) (v : Bytes) (dir names : List Bytes) (hv : VaultDir d v dir)
    (hn : BandNames d dir names) (hb : ∀ n ∈ names, (∃ m, BandFile d dir n m) ∨ EmptyBand d dir n)
    (he : ∃ n ∈ names, EmptyBand d dir n) (hl : 2 ≤ names.length) (s s' : Session) (p : Bytes) (r : Except Err Unit)
    (h : s.unlock E O d v p = .ret (r, s')) : r = .error .invalidPass ∧ s' = s := by
  rcases unlock_cases h with h | ⟨-, keys, raw, items, h, -⟩
  · exact h
  · rw [((C102_empty_band_partial E O d v dir names hv hn hb).1 he hl)] at h
    cases h

namespace EmptyDemo

/-- A vault with one item in its first band and none in the second. -/
def disk : Disk :=
  { cwd := []
    fs := [([b!"v"], .dir), ([b!"v", b!"default"], .dir),
           ([b!"v", b!"default", b!"band_0.js"], .file (LoadDemo.text LoadDemo.band1) false),
           ([b!"v", b!"default", b!"band_1.js"], .file b!"ld({});" false)] }

theorem vaultDir : VaultDir disk b!"/v" [b!"v", b!"default"] where
  nonempty := by decide
  noMeta := by decide +kernel
  names := by decide +kernel
  dir_eq := by decide +kernel
  exist := by rfl

theorem bandNames : BandNames disk [b!"v", b!"default"] [b!"band_0.js", b!"band_1.js"] := by
  refine ⟨by decide +kernel, fun n => ?_⟩
  have hlen : disk.fs.map (·.1) = [[b!"v"], [b!"v", b!"default"], [b!"v", b!"default", b!"band_0.js"],
    [b!"v", b!"default", b!"band_1.js"]] := rfl
  constructor
  · intro h
    simp only [List.mem_cons, List.not_mem_nil, or_false] at h
    rcases h with rfl | rfl
    · exact ⟨⟨b!"0", rfl⟩, by simp [Disk.at?, disk]⟩
    · exact ⟨⟨b!"1", rfl⟩, by simp [Disk.at?, disk]⟩
  · rintro ⟨⟨x, hx⟩, h2⟩
    obtain ⟨e, he, h3⟩ := at_ne_none.1 h2
    have : e.1 ∈ disk.fs.map (·.1) := List.mem_map.2 ⟨e, he, rfl⟩
    rw [hlen, h3] at this
    simpa using this

theorem band0 : BandFile disk [b!"v", b!"default"] b!"band_0.js" LoadDemo.band1 := by
  refine ⟨LoadDemo.text LoadDemo.band1, false, rfl, LoadDemo.bandText_of _ _ _ rfl ?_⟩
  simp only [LoadDemo.band1, Json.PlainM, LoadDemo.item_plain 9998 b!"003" (by decide)]; decide

theorem band1 : EmptyBand disk [b!"v", b!"default"] b!"band_1.js" :=
  ⟨b!"ld({", [], b!"});", false, rfl, rfl, rfl, Json.ws_nil⟩

end EmptyDemo

/-- C102: the wish fails for a vault of one item with a second band that has none. -/
theorem C102_refuted (E : Env) : ¬ C102_wish E := by
  intro h
  have hn := EmptyDemo.bandNames
  have hf := (C102_empty_band_partial E .doc EmptyDemo.disk b!"/v" _ _ EmptyDemo.vaultDir hn (by
    intro n hx
    simp only [List.mem_cons, List.not_mem_nil, or_false] at hx
    rcases hx with rfl | rfl
    · exact .inl ⟨_, EmptyDemo.band0⟩
    · exact .inr EmptyDemo.band1)).1 ⟨_, by simp, EmptyDemo.band1⟩ (by simp)
  have hall : ∀ uid x, LastEntry [LoadDemo.band1, []].flatten uid x →
      ∃ r, r.uid = uid ∧ Describes E [LoadDemo.band1, []].flatten r := by
    intro uid x hx
    have : uid = b!"B" := by
      obtain ⟨a, b, hab, -⟩ := hx
      have : (uid, x) ∈ LoadDemo.band1 := by
        have : (uid, x) ∈ [LoadDemo.band1, []].flatten := by rw [hab]; simp
        simpa using this
      simp only [LoadDemo.band1, List.mem_singleton, Prod.mk.injEq] at this
      exact this.1
    subst this
    refine ⟨⟨b!"003", E.flt.toInt b!"5", b!"ZA==", [], b!"aw==", b!"bw==", false, b!"B", E.flt.toInt b!"6"⟩, rfl, _, ⟨[], [], rfl, by simp⟩, ?_⟩
    have last : ∀ (m : Members) k v, Json.get m k = some v → LastEntry m k v := fun m k v h => lastEntry_iff.2 h
    exact ⟨last _ _ _ rfl, ⟨_, last _ _ _ rfl, rfl⟩, ⟨_, last _ _ _ rfl, rfl⟩, last _ _ _ rfl, last _ _ _ rfl, last _ _ _ rfl, last _ _ _ rfl,
      .inl (last _ _ _ rfl)⟩
  obtain ⟨raw, hr, -⟩ := h .doc EmptyDemo.disk b!"/v" _ _ [LoadDemo.band1, []] EmptyDemo.vaultDir hn
    (.cons (.inl EmptyDemo.band0) (.cons (.inr ⟨rfl, EmptyDemo.band1⟩) .nil)) hall
  rw [hf] at hr
  cases hr

/-- C102: the vault with the empty band, and the same without it. -/
example : Repo.loadItems Env.toy .doc EmptyDemo.disk b!"/v" = .fatal ∧
    (∃ i, Repo.loadItems Env.toy .doc { EmptyDemo.disk with fs := EmptyDemo.disk.fs.dropLast } b!"/v" = .ret [i]) := by
  refine ⟨by decide +kernel, ?_⟩
  have h : (match Repo.loadItems Env.toy .doc { EmptyDemo.disk with fs := EmptyDemo.disk.fs.dropLast } b!"/v" with
    | .ret [_] => true
    | _ => false) = true := by decide +kernel
  split at h
  · rename_i i hi; exact ⟨i, hi⟩
  · cases h

/-! ### C103 -/

/-- The wish: opening a vault never crashes, whatever is in its files; at worst it ends with a message. -/
def C103_wish (E : Env) : Prop :=
  ∀ (O : MapOrder) (d : Disk) (v p : Bytes), Session.init.validate d v ≠ .panic ∧
    ∀ s, Session.init.validate d v = .ret (.ok (), s) → s.unlock E O d v p ≠ .panic

/-- C103, the profile: what becomes of every file default/profile.js. Its first twelve bytes and its last one are not looked at. -/
theorem C103_profile_partial (d : Disk) (v c : Bytes) (x : Bool) (hv : v ≠ []) (hd : d.at? (Path.resolve d.cwd v) = some .dir)
    (hc : d.at? (Path.resolve d.cwd v ++ [b!"default", b!"profile.js"]) = some (.file c x)) (s : Session) (hs : s.profile = none) :
    (c.length < 13 → s.validate d v = .panic) ∧
    ∀ pre body last, c = pre ++ body ++ [last] → pre.length = 12 →
      (∀ m, Json.ReadR body (.obj m) → s.validate d v = .ret (.ok (), { s with profile := some m })) ∧
      (Json.DocR body .null → s.validate d v = .ret (.ok (), s)) ∧
      ((∀ m, ¬ Json.ReadR body (.obj m)) → ¬ Json.DocR body .null → s.validate d v = .fatal) := by
  have hst : d.stat v = some .dir := by unfold Disk.stat; rw [if_neg hv]; exact hd
  have hsp : d.stat (profilePath v) = some (.file c x) := (profile_stat d hv).trans hc
  have hrd : d.readFile (profilePath v) = some c := by unfold Disk.readFile; rw [hsp]
  constructor
  · intro hl
    have : subBytes c 12 ((c.length : Int) - 1) = .panic := by
      unfold subBytes
      rw [if_neg]
      omega
    simp [validate, Repo.validateVault, hst, hsp, hs, Repo.loadProfile, hrd, this]
  · rintro pre body last rfl hl
    have hsub : subBytes (pre ++ body ++ [last]) 12 (((pre ++ body ++ [last]).length : Int) - 1) = .ret body :=
      subBytes_mid pre body [last] 12 1 hl rfl
    have hval : s.validate d v = (match Json.unmarshalMap body with
        | (_, true) => .fatal
        | (m, false) => .ret (.ok (), { s with profile := m })) := by
      simp only [validate, Repo.validateVault, hst, hsp, hs, Repo.loadProfile, hrd]
      rw [hsub]
      simp only [Out.ret_bind]
      rcases Json.unmarshalMap body with ⟨m, b⟩
      cases b <;> simp
    rw [hval]
    refine ⟨fun m hm => ?_, fun hm => ?_, fun h1 h2 => ?_⟩
    · rw [Json.unmarshalMap_read hm]
    · rw [Json.unmarshalMap_null hm]
      show Out.ret (_, ({ s with profile := none } : Session)) = _
      rw [← hs]
    · have := (Json.unmarshalMap_error body).2 ⟨h1, fun h => h2 h.1⟩
      generalize Json.unmarshalMap body = u at this ⊢
      obtain ⟨m, b⟩ := u
      cases this
      rfl

/-- C103, a profile that lacks something: the first thing that is missing crashes the program. -/
theorem C103_fields_partial (E : Env) (O : MapOrder) (d : Disk) (v p : Bytes) (s : Session) :
    ((∀ t, s.profile.field b!"iterations" ≠ .num t) ∨ (∀ t, s.profile.field b!"salt" ≠ .str t) → s.unlock E O d v p = .panic) ∧
    (∀ k, Key.derivedKeys E s.profile p = .ret (.ok k) → (∀ t, s.profile.field b!"masterKey" ≠ .str t) → s.unlock E O d v p = .panic) := by
  constructor
  · intro h
    have : Key.derivedKeys E s.profile p = .panic := by
      rcases h with h | h
      · exact (C05_bad_profile E s.profile p).2.1 h
      · exact (C05_bad_profile E s.profile p).2.2 h
    unfold unlock
    rw [this]
    rfl
  · rintro ⟨dk, dm⟩ h1 h2
    have := (C04_master_and_overview_keys E s.profile dk dm).2.2.1 h2
    unfold unlock
    rw [h1]
    simp only [Out.ret_bind]
    rw [this]
    rfl

/-- C103, the bands: the first file that is no file ends the program, the first that is shorter than seven bytes crashes it; if
all are long enough, the document put together from their middles decides. -/
theorem C103_bands_partial (E : Env) (O : MapOrder) (d : Disk) (v : Bytes) (dir names : List Bytes) (hv : VaultDir d v dir)
    (hn : BandNames d dir names) :
    (∀ a n b, names = a ++ n :: b → (∀ n ∈ a, ∃ c x, d.at? (dir ++ [n]) = some (.file c x) ∧ 7 ≤ c.length) →
      (d.at? (dir ++ [n]) = some .dir → Repo.loadItems E O d v = .fatal) ∧
      (∀ c x, d.at? (dir ++ [n]) = some (.file c x) → c.length < 7 → Repo.loadItems E O d v = .panic)) ∧
    (∀ bodies, names ≠ [] → List.Forall₂ (fun n b => ∃ pre post x, d.at? (dir ++ [n]) = some (.file (pre ++ b ++ post) x) ∧
        pre.length = 4 ∧ post.length = 3) names bodies →
      ((∀ m, ¬ Json.ReadR (b!"{" ++ (b!",").intercalate bodies ++ b!"}") (.obj m)) → Repo.loadItems E O d v = .fatal) ∧
      ∀ m, Json.ReadR (b!"{" ++ (b!",").intercalate bodies ++ b!"}") (.obj m) →
        ((∀ uid j, LastEntry m uid j → ∃ r, r.uid = uid ∧ Describes E m r) → ∃ raw, Repo.loadItems E O d v = .ret raw) ∧
        (¬ (∀ uid j, LastEntry m uid j → ∃ r, r.uid = uid ∧ Describes E m r) → Repo.loadItems E O d v = .panic)) := by
  constructor
  · rintro a n b rfl ha
    obtain ⟨paths, hp, hf⟩ := bandFiles_eq hv hn
    have hm : (d.at? (dir ++ [n]) = some .dir → Out.mapL (Repo.bandBody d) paths = .fatal) ∧
        (∀ c x, d.at? (dir ++ [n]) = some (.file c x) → c.length < 7 → Out.mapL (Repo.bandBody d) paths = .panic) := by
      clear hp hn
      induction a generalizing paths with
      | nil =>
        cases hf with
        | @cons _ p _ ps h1 h2 =>
          have hst : d.stat p = d.at? (dir ++ [n]) := by unfold Disk.stat; rw [if_neg h1.1, h1.2]
          constructor
          · intro hd
            simp [Out.mapL, Repo.bandBody, Disk.readFile, hst, hd]
          · intro c x hd hl
            have : subBytes c 4 ((c.length : Int) - 3) = .panic := by
              unfold subBytes
              rw [if_neg]
              omega
            simp [Out.mapL, Repo.bandBody, Disk.readFile, hst, hd, this]
      | cons m a ih =>
        cases hf with
        | @cons _ p _ ps h1 h2 =>
          have ih := ih (fun n hn => ha n (by simp [hn])) ps h2
          obtain ⟨c, x, hc, hl⟩ := ha m (by simp)
          have hst : d.stat p = some (.file c x) := by unfold Disk.stat; rw [if_neg h1.1, h1.2, hc]
          have : ∃ b, subBytes c 4 ((c.length : Int) - 3) = .ret b := by
            unfold subBytes
            rw [if_pos (by omega)]
            exact ⟨_, rfl⟩
          obtain ⟨b, hb⟩ := this
          have hbb : Repo.bandBody d p = .ret b := by simp [Repo.bandBody, Disk.readFile, hst, hb]
          exact ⟨fun h => by simp [Out.mapL, hbb, ih.1 h], fun c x h1 h2 => by simp [Out.mapL, hbb, ih.2 c x h1 h2]⟩
    have hne : paths ≠ [] := by
      rintro rfl
      have := hf.length_eq
      simp at this
    obtain ⟨p, ps, rfl⟩ := List.exists_cons_of_ne_nil hne
    unfold Repo.loadItems
    rw [hp]
    exact ⟨fun h => by simp only [hm.1 h, Out.fatal_bind], fun c x h1 h2 => by simp only [hm.2 c x h1 h2, Out.panic_bind]⟩
  · intro bodies hne hb
    have hbe : bodies ≠ [] := by
      rintro rfl
      cases hb
      exact hne rfl
    rw [loadItems_bodies E O hv hn hne hb, bandDoc_eq _ hbe]
    have hnull : ¬ Json.DocR (b!"{" ++ (b!",").intercalate bodies ++ b!"}") .null := by
      rintro ⟨w1, t, w2, h1, h2, h3, h4⟩
      cases h3
      cases w1 with
      | nil => simp at h4
      | cons b w1 =>
        have := h1 b (by simp)
        simp only [List.cons_append, List.cons.injEq] at h4
        rw [← h4.1] at this
        exact absurd this (by decide)
    generalize b!"{" ++ (b!",").intercalate bodies ++ b!"}" = text at hnull
    constructor
    · intro h
      have := (Json.unmarshalMap_error text).2 ⟨h, fun h => hnull h.1⟩
      generalize Json.unmarshalMap text = u at this ⊢
      obtain ⟨m, b⟩ := u
      cases this
      rfl
    · intro m hm
      rw [Json.unmarshalMap_read hm]
      have hmem : ∀ e, e ∈ O.run (Json.entries m) ↔ LastEntry m e.1 e.2 := fun e => by
        rw [(O.perm _).mem_iff]; exact entries_of_last
      show (_ → ∃ raw, Out.mapL (Repo.rawItem E) (O.run (Json.entries m)) = .ret raw) ∧
        (_ → Out.mapL (Repo.rawItem E) (O.run (Json.entries m)) = .panic)
      refine ⟨fun hall => ?_, fun hnot => ?_⟩
      · have : ∀ e ∈ O.run (Json.entries m), ∃ r, Repo.rawItem E e = .ret r := by
          intro e he
          have hl := (hmem e).1 he
          obtain ⟨r, hu, m, h1, h2⟩ := hall e.1 e.2 hl
          refine ⟨r, rawItem_ret.2 ⟨hu, m, ?_, h2⟩⟩
          rw [hu] at h1
          have := (lastEntry_iff.1 hl).symm.trans (lastEntry_iff.1 h1)
          simpa using this
        have key : ∀ l : List (Bytes × Json), (∀ e ∈ l, ∃ r, Repo.rawItem E e = .ret r) →
            ∃ raw, Out.mapL (Repo.rawItem E) l = .ret raw := by
          intro l
          induction l with
          | nil => intro _; exact ⟨[], rfl⟩
          | cons e l ih =>
            intro h
            obtain ⟨r, hr⟩ := h e (by simp)
            obtain ⟨rs, hrs⟩ := ih (fun x hx => h x (by simp [hx]))
            exact ⟨r :: rs, by simp [Out.mapL, hr, hrs]⟩
        exact key _ this
      · push Not at hnot
        obtain ⟨uid, x, h1, h2⟩ := hnot
        refine mapL_panic (fun e _ => rawItem_nf E e) ⟨(uid, x), (hmem _).2 h1, fun r hr => ?_⟩
        obtain ⟨hu, m, hx, hd⟩ := rawItem_ret.1 hr
        refine h2 r hu ⟨m, ?_, hd⟩
        have hx : x = .obj m := hx
        have hu : r.uid = uid := hu
        rw [hu, ← hx]
        exact h1

namespace DamagedDemo

/-- A vault with the given profile and band. -/
def disk (profile band : Bytes) : Disk :=
  { cwd := []
    fs := [([b!"v"], .dir), ([b!"v", b!"default"], .dir), ([b!"v", b!"default", b!"profile.js"], .file profile false),
           ([b!"v", b!"default", b!"band_0.js"], .file band false)] }

/-- The outcome of `Validate` in a fresh process. -/
def outcome (profile : Bytes) : Nat :=
  match Session.init.validate (disk profile []) b!"/v" with
  | .ret (.ok (), _) => 0
  | .ret (.error _, _) => 1
  | .panic => 2
  | .fatal => 3

/-- The outcome of `LoadItems`. -/
def loading (band : Bytes) : Nat :=
  match Repo.loadItems Env.toy .doc (disk [] band) b!"/v" with
  | .ret _ => 0
  | .panic => 2
  | .fatal => 3

end DamagedDemo

/-- C103: the wish fails, for instance for an empty file default/profile.js. -/
theorem C103_refuted (E : Env) : ¬ C103_wish E := fun h =>
  (h .doc (DamagedDemo.disk [] []) b!"/v" []).1
    ((C103_profile_partial (DamagedDemo.disk [] []) b!"/v" [] false (by decide) rfl rfl Session.init rfl).1 (by decide))

/-- C103: profiles that are accepted (whatever stands before the document), that end the program, that crash it; the same for bands:
one without items, one that is cut off, one that is empty, one with an item without attributes. -/
example : DamagedDemo.outcome b!"var profile={\"salt\":\"\"};" = 0 ∧ DamagedDemo.outcome b!"xxxxxxxxxxxx{}y" = 0 ∧ DamagedDemo.outcome b!"var profile={;" = 3 ∧
    DamagedDemo.outcome b!"var profile" = 2 ∧ DamagedDemo.loading b!"ld({});" = 0 ∧ DamagedDemo.loading b!"ld({\"A\":{});" = 3 ∧
    DamagedDemo.loading b!"" = 2 ∧ DamagedDemo.loading b!"ld({\"A\":{}});" = 2 := by decide +kernel

end OnePass
