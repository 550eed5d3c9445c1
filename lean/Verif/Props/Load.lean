/-
Loading and decoding the items of a vault: C18, C19, C20, C22, C24, C77, C79.
-/
import Verif.Go.JsonSound
import Verif.Model.ItemFacts
import Verif.Props.Session
import Verif.Spec.Render

set_option linter.unusedSimpArgs false

namespace OnePass
open Spec ItemSvc
open Session hiding decodeItems

/-! ### C77 -/

/-- C77. Whatever text a document is written as, by the JSON grammar, parsing gives that document. -/
theorem C77_read_as_written (t : Bytes) (j : Json) (h : Json.DocR t j) : Json.parse t = some j :=
  Json.parse_complete h

/-- No text is a rendering of two documents. -/
theorem C77_unambiguous (t : Bytes) (j j' : Json) (h : Json.DocR t j) (h' : Json.DocR t j') : j = j' := by
  have := (Json.parse_complete h).symm.trans (Json.parse_complete h')
  simpa using this

/-- Nothing else is read: a text is accepted exactly if it is a document of the grammar (RFC 8259, plus the
three things Go tolerates inside strings), and then gives the document it is a rendering of. -/
theorem C77_accepts_exactly (t : Bytes) (j : Json) : Json.parse t = some j ↔ Json.DocR t j := Json.parse_iff t j

/-- Reading into a map reports an error exactly for texts that are neither `null` nor an object without a number beyond
the range of float64. -/
theorem C77_error_iff (t : Bytes) :
    (Json.unmarshalMap t).2 = true ↔ (∀ m, ¬ Json.ReadR t (.obj m)) ∧ ¬ Json.ReadR t .null := Json.unmarshalMap_error t

/-- A document cut short, one with something behind it and one with a trailing comma are no documents; a byte
that is not UTF-8 and half a surrogate pair are tolerated. -/
example : ¬ Json.DocR b!"{\"a\": 1" (.obj [(b!"a", .num b!"1")]) ∧ (∀ j, ¬ Json.DocR b!"{} {}" j) ∧
    (∀ j, ¬ Json.DocR b!"{\"a\": 1,}" j) ∧
    Json.DocR (b!"\"a" ++ [255] ++ b!"\\ud800\"") (.str (97 :: Json.replacement ++ Json.replacement)) := by
  have none_of : ∀ {t : Bytes}, Json.parse t = none → ∀ j, ¬ Json.DocR t j := by
    intro t h j hj
    rw [Json.parse_complete hj] at h; cases h
  refine ⟨none_of rfl _, none_of rfl, none_of rfl, Json.parse_sound rfl⟩

/-- C77, band files: the bodies, joined by commas and put in braces, parse to all their members. -/
theorem C77_bands_joined (bodies : List Bytes) (ms : List Members) (hne : bodies ≠ [])
    (h : List.Forall₂ (fun b m => ∃ w t, b = w ++ t ∧ Json.WS w ∧ Json.MemsR 9999 t m) bodies ms) :
    Json.parse (Repo.bandDoc bodies) = some (.obj ms.flatten) :=
  Json.parse_complete (bandDoc_doc h hne)

example : Json.parse (Repo.bandDoc [b!" \"A\" : null", b!"\"B\":[1,\"\\u0041\\n\"]"]) =
    some (.obj [(b!"A", .null), (b!"B", .arr [.num b!"1", .str b!"A\n"])]) := by rfl

/-! ### C18 -/

theorem entries_of_last {m : Members} {k : Bytes} {v : Json} : (k, v) ∈ Json.entries m ↔ LastEntry m k v := by
  rw [Json.mem_entries, lastEntry_iff]

theorem rawItem_nf (E : Env) (e : Bytes × Json) : Repo.rawItem E e ≠ .fatal := by
  have hs : ∀ j, asStr j ≠ .fatal := asStr_nf
  have ho : ∀ j, asObj j ≠ .fatal := asObj_nf
  have hi : ∀ j, Repo.asInt E j ≠ .fatal := by intro j; cases j <;> simp [Repo.asInt]
  have ht : ∀ j, Repo.asTrashed j ≠ .fatal := by intro j; cases j <;> simp [Repo.asTrashed]
  unfold Repo.rawItem
  simp [Out.bind_eq_fatal, hs, ho, hi, ht]

theorem mapL_panic {α β : Type} {f : α → Out β} {l : List α} (hnf : ∀ x ∈ l, f x ≠ .fatal)
    (h : ∃ x ∈ l, ∀ y, f x ≠ .ret y) : Out.mapL f l = .panic := by
  induction l with
  | nil => obtain ⟨x, hx, _⟩ := h; cases hx
  | cons x xs ih =>
    unfold Out.mapL
    cases hf : f x with
    | fatal => exact absurd hf (hnf x (by simp))
    | panic => rfl
    | ret y =>
      obtain ⟨z, hz, hz'⟩ := h
      rcases List.mem_cons.1 hz with rfl | hz
      · exact absurd hf (hz' y)
      · simp [ih (fun x hx => hnf x (by simp [hx])) ⟨z, hz, hz'⟩]

/-- The raw item an entry of the bands describes. -/
def Describes (E : Env) (all : Members) (r : RawItem) : Prop :=
  ∃ m, LastEntry all r.uid (.obj m) ∧ ItemDoc E.flt m r

theorem itemDoc_unique {F : Flt} {m : Members} {r r' : RawItem} (h : ItemDoc F m r) (h' : ItemDoc F m r')
    (hu : r.uid = r'.uid) : r = r' := by
  have E : Env := { Env.toy with flt := F }
  have h1 : Repo.rawItem { Env.toy with flt := F } (r.uid, .obj m) = .ret r := rawItem_ret.2 ⟨rfl, m, rfl, h⟩
  have h2 : Repo.rawItem { Env.toy with flt := F } (r.uid, .obj m) = .ret r' := rawItem_ret.2 ⟨hu.symm, m, rfl, h'⟩
  simpa using h1.symm.trans h2

/-- C18. For a vault whose band files, in the order of their names, hold the members `ms`: what is loaded
has each UID once, and consists of exactly the raw items described by the last entry for their UID. Every
UID in any band is there. -/
theorem C18_items_loaded (E : Env) (O : MapOrder) {d : Disk} {v : Bytes} {dir : List Bytes} (hv : VaultDir d v dir)
    {names : List Bytes} (hn : BandNames d dir names) {ms : List Members}
    (hm : List.Forall₂ (BandFile d dir) names ms) (raw : List RawItem) (h : Repo.loadItems E O d v = .ret raw) :
    (raw.map (·.uid)).Nodup ∧ (∀ r, r ∈ raw ↔ Describes E ms.flatten r) ∧
    (∀ uid, uid ∈ raw.map (·.uid) ↔ ∃ m ∈ ms, ∃ x ∈ m, x.1 = uid) := by
  refine ⟨Repo.loadItems_nodup h, ?_⟩
  rw [loadItems_bands E O hv hn hm] at h
  have hf : List.Forall₂ (fun e r => Repo.rawItem E e = .ret r) (O.run (Json.entries ms.flatten)) raw := by
    split at h
    · rename_i h0
      subst h0
      cases hm
      cases h
      have : O.run (Json.entries ([] : List Members).flatten) = [] := by
        have := O.perm (Json.entries ([] : List Members).flatten)
        exact List.perm_nil.1 this
      rw [this]
      exact .nil
    · exact Out.mapL_eq_ret.1 h
  have hmem : ∀ e, e ∈ O.run (Json.entries ms.flatten) ↔ LastEntry ms.flatten e.1 e.2 := fun e => by
    rw [(O.perm _).mem_iff]; exact entries_of_last
  have fwd : ∀ r ∈ raw, ∃ e ∈ O.run (Json.entries ms.flatten), Repo.rawItem E e = .ret r := by
    intro r hr
    obtain ⟨i, hi, rfl⟩ := List.getElem_of_mem hr
    have hl := hf.length_eq
    exact ⟨_, List.getElem_mem (by omega), (List.forall₂_iff_get.1 hf).2 i (by omega) hi⟩
  have bwd : ∀ e ∈ O.run (Json.entries ms.flatten), ∃ r ∈ raw, Repo.rawItem E e = .ret r := by
    intro e he
    obtain ⟨i, hi, rfl⟩ := List.getElem_of_mem he
    have hl := hf.length_eq
    exact ⟨_, List.getElem_mem (by omega), (List.forall₂_iff_get.1 hf).2 i hi (by omega)⟩
  constructor
  · intro r
    constructor
    · intro hr
      obtain ⟨e, he, h1⟩ := fwd r hr
      obtain ⟨hu, m, h2, h3⟩ := rawItem_ret.1 h1
      refine ⟨m, ?_, h3⟩
      rw [hu, ← h2]
      exact (hmem e).1 he
    · rintro ⟨m, h1, h2⟩
      obtain ⟨r', hr', h3⟩ := bwd (r.uid, .obj m) ((hmem _).2 h1)
      have h4 : Repo.rawItem E (r.uid, .obj m) = .ret r := rawItem_ret.2 ⟨rfl, m, rfl, h2⟩
      rw [h3] at h4
      simp only [Out.ret.injEq] at h4
      exact h4 ▸ hr'
  · intro uid
    have h1 : uid ∈ raw.map (·.uid) ↔ ∃ v, LastEntry ms.flatten uid v := by
      constructor
      · intro hu
        obtain ⟨r, hr, rfl⟩ := List.mem_map.1 hu
        obtain ⟨e, he, h1⟩ := fwd r hr
        rw [(rawItem_ret.1 h1).1]
        exact ⟨_, (hmem e).1 he⟩
      · rintro ⟨v, hv⟩
        obtain ⟨r, hr, h1⟩ := bwd (uid, v) ((hmem _).2 hv)
        exact List.mem_map.2 ⟨r, hr, (rawItem_ret.1 h1).1⟩
    rw [h1]
    constructor
    · rintro ⟨v, a, b, h2, -⟩
      have h3 : (uid, v) ∈ ms.flatten := by rw [h2]; simp
      obtain ⟨m, h4, h5⟩ := List.mem_flatten.1 h3
      exact ⟨m, h4, _, h5, rfl⟩
    · rintro ⟨m, h4, x, h5, rfl⟩
      cases hg : Json.get ms.flatten x.1 with
      | some v => exact ⟨v, lastEntry_iff.2 hg⟩
      | none => exact absurd rfl (noEntry_iff.2 hg x (List.mem_flatten.2 ⟨m, h4, h5⟩))

/-- C18. Loading returns iff the last entry for each UID describes an item; otherwise the program crashes.
No band file means no items. -/
theorem C18_loading_returns (E : Env) (O : MapOrder) {d : Disk} {v : Bytes} {dir : List Bytes} (hv : VaultDir d v dir)
    {names : List Bytes} (hn : BandNames d dir names) {ms : List Members}
    (hm : List.Forall₂ (BandFile d dir) names ms) :
    ((∀ uid x, LastEntry ms.flatten uid x → ∃ r, r.uid = uid ∧ Describes E ms.flatten r) →
      ∃ raw, Repo.loadItems E O d v = .ret raw) ∧
    (¬ (∀ uid x, LastEntry ms.flatten uid x → ∃ r, r.uid = uid ∧ Describes E ms.flatten r) →
      Repo.loadItems E O d v = .panic) ∧
    (names = [] → Repo.loadItems E O d v = .ret []) := by
  rw [loadItems_bands E O hv hn hm]
  have hmem : ∀ e, e ∈ O.run (Json.entries ms.flatten) ↔ LastEntry ms.flatten e.1 e.2 := fun e => by
    rw [(O.perm _).mem_iff]; exact entries_of_last
  refine ⟨fun hall => ?_, fun hnot => ?_, fun h0 => by simp [h0]⟩
  · split
    · exact ⟨_, rfl⟩
    · have : ∀ e ∈ O.run (Json.entries ms.flatten), ∃ r, Repo.rawItem E e = .ret r := by
        intro e he
        have hl := (hmem e).1 he
        obtain ⟨r, hu, m, h1, h2⟩ := hall e.1 e.2 hl
        refine ⟨r, rawItem_ret.2 ⟨hu, m, ?_, h2⟩⟩
        rw [hu] at h1
        have := (lastEntry_iff.1 hl).symm.trans (lastEntry_iff.1 h1)
        simpa using this
      have key : ∀ l : List (Bytes × Json), (∀ e ∈ l, ∃ r, Repo.rawItem E e = .ret r) →
          ∃ raw, Out.mapL (Repo.rawItem E) l = .ret raw := by
        intro l
        induction l with
        | nil => intro _; exact ⟨[], rfl⟩
        | cons e l ih =>
          intro h
          obtain ⟨r, hr⟩ := h e (by simp)
          obtain ⟨rs, hrs⟩ := ih (fun x hx => h x (by simp [hx]))
          exact ⟨r :: rs, by simp [Out.mapL, hr, hrs]⟩
      exact key _ this
  · push Not at hnot
    obtain ⟨uid, x, h1, h2⟩ := hnot
    have hne : names ≠ [] := by
      rintro rfl
      cases hm
      obtain ⟨a, b, h, _⟩ := h1
      simp at h
    rw [if_neg hne]
    refine mapL_panic (fun e _ => rawItem_nf E e) ⟨(uid, x), (hmem _).2 h1, fun r hr => ?_⟩
    obtain ⟨hu, m, hx, hd⟩ := rawItem_ret.1 hr
    refine h2 r hu ⟨m, ?_, hd⟩
    have hx : x = .obj m := hx
    have hu : r.uid = uid := hu
    rw [hu, ← hx]
    exact h1

/-! An example: two band files, the second repeating a UID of the first. -/

namespace LoadDemo

/-- An item document. -/
def item (category : Bytes) (trashed : Option Bool) : Json :=
  .obj ([(b!"category", .str category), (b!"created", .num b!"5"), (b!"updated", .num b!"6"), (b!"d", .str b!"ZA=="),
    (b!"hmac", .str []), (b!"k", .str b!"aw=="), (b!"o", .str b!"bw==")] ++
    (trashed.map (fun b => (b!"trashed", Json.bool b))).toList)

def band0 : Members := [(b!"A", item b!"001" none), (b!"B", item b!"002" (some true))]
def band1 : Members := [(b!"B", item b!"003" (some false))]

/-- A band file. -/
def text (m : Members) : Bytes := b!"ld({" ++ Json.renderM m ++ b!"});"

def disk : Disk :=
  { cwd := []
    fs := [([b!"v"], .dir), ([b!"v", b!"default"], .dir),
           ([b!"v", b!"default", b!"band_1.js"], .file (text band1) false),
           ([b!"v", b!"default", b!"profile.js"], .file [] false),
           ([b!"v", b!"default", b!"band_0.js"], .file (text band0) false)] }

theorem item_plain (d : Nat) (c : Bytes) (hc : Str.isAscii c = true) (t : Option Bool) : Json.Plain (d + 1) (item c t) := by
  have n5 := Json.numR_digit 53 (by decide)
  have n6 := Json.numR_digit 54 (by decide)
  have hc' := Str.isAscii_iff.1 hc
  cases t <;> simpa [item, Json.Plain, Json.PlainM, hc, n5, n6, Str.isAscii] using hc'

theorem bandText_of (m : Members) (e : Bytes × Json) (r : Members) (hm : m = e :: r) (h : Json.PlainM 9999 m) :
    BandText (text m) m := by
  subst hm
  exact ⟨b!"ld({", [], _, b!"});", by simp [text], rfl, rfl, Json.ws_nil, Json.renderM_mems e r h,
    Json.plainM_finite _ h⟩

theorem vaultDir : VaultDir disk b!"/v" [b!"v", b!"default"] where
  nonempty := by decide
  noMeta := by decide +kernel
  names := by decide +kernel
  dir_eq := by decide +kernel
  exist := by rfl

theorem bandNames : BandNames disk [b!"v", b!"default"] [b!"band_0.js", b!"band_1.js"] := by
  refine ⟨by decide +kernel, fun n => ?_⟩
  have hlen : disk.fs.map (·.1) = [[b!"v"], [b!"v", b!"default"], [b!"v", b!"default", b!"band_1.js"],
    [b!"v", b!"default", b!"profile.js"], [b!"v", b!"default", b!"band_0.js"]] := rfl
  constructor
  · intro h
    simp only [List.mem_cons, List.not_mem_nil, or_false] at h
    rcases h with rfl | rfl
    · exact ⟨⟨b!"0", rfl⟩, by simp [Disk.at?, disk]⟩
    · exact ⟨⟨b!"1", rfl⟩, by simp [Disk.at?, disk]⟩
  · rintro ⟨⟨x, hx⟩, h2⟩
    obtain ⟨e, he, h3⟩ := at_ne_none.1 h2
    have : e.1 ∈ disk.fs.map (·.1) := List.mem_map.2 ⟨e, he, rfl⟩
    rw [hlen, h3] at this
    simp at this
    rcases this with rfl | rfl | rfl
    · simp
    · simp at hx
    · simp

theorem bandFiles : List.Forall₂ (BandFile disk [b!"v", b!"default"]) [b!"band_0.js", b!"band_1.js"] [band0, band1] := by
  refine .cons ⟨text band0, false, rfl, bandText_of _ _ _ rfl ?_⟩ (.cons ⟨text band1, false, rfl, bandText_of _ _ _ rfl ?_⟩ .nil)
  · simp only [band0, Json.PlainM, item_plain 9998 b!"001" (by decide), item_plain 9998 b!"002" (by decide)]; decide
  · simp only [band1, Json.PlainM, item_plain 9998 b!"003" (by decide)]; decide

/-- `B` is the one of the second band: category 003 and not trashed. -/
example : Repo.loadItems Env.toy .doc disk b!"/v" =
    .ret [⟨b!"001", 5, b!"ZA==", [], b!"aw==", b!"bw==", false, b!"A", 6⟩,
          ⟨b!"003", 5, b!"ZA==", [], b!"aw==", b!"bw==", false, b!"B", 6⟩] ∧
    Describes Env.toy [band0, band1].flatten ⟨b!"003", 5, b!"ZA==", [], b!"aw==", b!"bw==", false, b!"B", 6⟩ := by
  have h : Repo.loadItems Env.toy .doc disk b!"/v" =
    .ret [⟨b!"001", 5, b!"ZA==", [], b!"aw==", b!"bw==", false, b!"A", 6⟩,
          ⟨b!"003", 5, b!"ZA==", [], b!"aw==", b!"bw==", false, b!"B", 6⟩] := by decide +kernel
  exact ⟨h, ((C18_items_loaded Env.toy .doc vaultDir bandNames bandFiles _ h).2.1 _).1 (by simp)⟩

end LoadDemo

/-! ### C19, C20 -/

/-- The category code is one of the eighteen known ones. -/
def Known (r : RawItem) : Prop := ∃ e ∈ Spec.categories, e.1 = r.category

instance (r : RawItem) : Decidable (Known r) := by unfold Known; infer_instance

theorem fromCode_known {reg : List Cat} (hreg : reg.Perm Cat.values) (r : RawItem) :
    (Known r → ∃ c, Cat.fromCode reg r.category = .ok c ∧ c.code = r.category ∧ (c.code, c.name) ∈ Spec.categories) ∧
    (¬ Known r → Cat.fromCode reg r.category = .error .unknownItemCat) := by
  obtain ⟨l1, l2, -, -⟩ := C38_lookup Text.toy reg hreg
  have hmem : ∀ e, e ∈ Spec.categories ↔ ∃ c ∈ Cat.values, (c.code, c.name) = e := fun e => by
    rw [← C38_categories.mem_iff, List.mem_map]
  constructor
  · rintro ⟨e, he, hc⟩
    obtain ⟨c, h1, rfl⟩ := (hmem e).1 he
    exact ⟨c, (l1 _ c).2 ⟨h1, hc⟩, hc, he⟩
  · intro hk
    refine (l2 _).1 (fun c hc he => hk ?_)
    exact ⟨(c.code, c.name), (hmem _).2 ⟨c, hc, rfl⟩, he⟩

/-- Decoding is item by item, skipping unknown categories. -/
theorem decodeItems_ret {E : Env} {O : MapOrder} {reg : List Cat} (hreg : reg.Perm Cat.values) {keys : Keys}
    {raw : List RawItem} {items : List Item} :
    decodeItems E O reg keys raw = .ret items ↔
      List.Forall₂ (fun r i => decodeItem E O reg keys r = .ret (some i)) (raw.filter (fun r => decide (Known r))) items := by
  have hk : ∀ r, Known r → decodeItem E O reg keys r ≠ .ret none := by
    intro r h1 h2
    have := decodeItem_none h2
    obtain ⟨c, hc, _⟩ := (fromCode_known hreg r).1 h1
    rw [hc] at this; cases this
  have hu : ∀ r, ¬ Known r → decodeItem E O reg keys r = .ret none := by
    intro r h1
    unfold decodeItem
    rw [(fromCode_known hreg r).2 h1]
    rfl
  unfold decodeItems keepSome
  simp only [Out.bind_eq_ret, Out.pure_eq, Out.ret.injEq]
  induction raw generalizing items with
  | nil =>
    constructor
    · rintro ⟨os, h1, rfl⟩; cases h1; exact .nil
    · intro h; cases h; exact ⟨[], rfl, rfl⟩
  | cons r raw ih =>
    by_cases h : Known r
    · rw [List.filter_cons_of_pos (by simpa using h)]
      constructor
      · rintro ⟨os, h1, rfl⟩
        cases Out.mapL_eq_ret.1 h1 with
        | @cons _ o _ os h2 h3 =>
          cases o with
          | none => exact absurd h2 (hk r h)
          | some i => exact .cons h2 (ih.1 ⟨os, Out.mapL_eq_ret.2 h3, rfl⟩)
      · intro h1
        cases h1 with
        | cons h2 h3 =>
          obtain ⟨os, h4, rfl⟩ := ih.2 h3
          exact ⟨some _ :: os, Out.mapL_eq_ret.2 (.cons h2 (Out.mapL_eq_ret.1 h4)), rfl⟩
    · rw [List.filter_cons_of_neg (by simpa using h)]
      constructor
      · rintro ⟨os, h1, rfl⟩
        cases Out.mapL_eq_ret.1 h1 with
        | @cons _ o _ os h2 h3 =>
          rw [hu r h] at h2
          cases h2
          exact ih.1 ⟨os, Out.mapL_eq_ret.2 h3, rfl⟩
      · intro h1
        obtain ⟨os, h4, rfl⟩ := ih.2 h1
        exact ⟨none :: os, Out.mapL_eq_ret.2 (.cons (hu r h) (Out.mapL_eq_ret.1 h4)), rfl⟩

/-- C19. The decoded items are, one for one and in the same order, the raw items of a known category. -/
theorem C19_none_lost_none_invented (E : Env) (O : MapOrder) (reg : List Cat) (hreg : reg.Perm Cat.values) (keys : Keys)
    (raw : List RawItem) (items : List Item) (h : decodeItems E O reg keys raw = .ret items) :
    items.map (·.uid) = (raw.filter (fun r => decide (Known r))).map (·.uid) := by
  have hf := (decodeItems_ret hreg).1 h
  clear h
  generalize raw.filter (fun r => decide (Known r)) = l at hf
  induction hf with
  | nil => rfl
  | cons h1 _ ih => simp [ih, (decodeItem_some h1).2.1]

/-- C20. Each decoded item has the attributes of its raw item, and its category is the one the format gives
to the raw item's code. -/
theorem C20_attributes (E : Env) (O : MapOrder) (reg : List Cat) (hreg : reg.Perm Cat.values) (keys : Keys)
    (raw : List RawItem) (items : List Item) (h : decodeItems E O reg keys raw = .ret items) :
    List.Forall₂ (fun r i => i.uid = r.uid ∧ i.trashed = r.trashed ∧ i.created = r.created ∧ i.updated = r.updated ∧
      i.category.code = r.category ∧ (i.category.code, i.category.name) ∈ Spec.categories)
      (raw.filter (fun r => decide (Known r))) items := by
  have hf := (decodeItems_ret hreg).1 h
  clear h
  have hk : ∀ r ∈ raw.filter (fun r => decide (Known r)), Known r := by
    intro r hr; simpa using (List.mem_filter.1 hr).2
  generalize raw.filter (fun r => decide (Known r)) = l at hf hk
  induction hf with
  | nil => exact .nil
  | cons h1 _ ih =>
    refine .cons ?_ (ih (fun r hr => hk r (by simp [hr])))
    obtain ⟨h2, h3, h4, h5, h6⟩ := decodeItem_some h1
    obtain ⟨c, hc, hcode, hmem⟩ := (fromCode_known hreg _).1 (hk _ List.mem_cons_self)
    rw [hc] at h2
    cases h2
    exact ⟨h3, h4, h5, h6, hcode, hmem⟩

/-- Three raw items, the second of an unknown category. -/
example : [(⟨b!"001", 5, [], [], [], [], true, b!"A", 6⟩ : RawItem), ⟨b!"xyz", 5, [], [], [], [], true, b!"B", 6⟩,
    ⟨b!"099", 5, [], [], [], [], true, b!"C", 6⟩].filter (fun r => decide (Known r)) =
    [⟨b!"001", 5, [], [], [], [], true, b!"A", 6⟩, ⟨b!"099", 5, [], [], [], [], true, b!"C", 6⟩] := by decide +kernel

/-! ### C22 -/

theorem opdata_not_authentic {E : Env} {s : Slice} (hw : s.WF) {key mac : Bytes} (h : ¬ Authentic E mac s.data)
    {r : Except Err Bytes} (hr : Key.opdata E s key mac = .ret r) : r = .error .invalidHmac := by
  obtain ⟨c1, c2, -⟩ := C03_outcome_determined E s hw key mac
  by_cases hl : s.data.length < 32
  · rw [c1 hl] at hr; cases hr
  · rw [c2 (by omega) h] at hr
    simpa using hr.symm

theorem unmarshalQuiet_error (e : Err) : unmarshalQuiet (.error e) = [] := by
  show (Json.unmarshalMap []).1.getD [] = []
  decide +kernel

/-- Nothing is found in an empty document. -/
theorem field_nil (k : Bytes) : Json.field [] k = .null := rfl

/-- C22. An overview blob that does not authenticate gives no title and no URL; a details blob that does not
authenticate under the keys the item carries gives no notes and no sections. -/
theorem C22_no_unauthenticated_content (E : Env) (O : MapOrder) (reg : List Cat) (hreg : reg.Perm Cat.values)
    (keys : Keys) (raw : List RawItem) (items : List Item) (h : decodeItems E O reg keys raw = .ret items) :
    List.Forall₂ (fun r i =>
      (¬ Authentic E keys.overviewMac (B64.decodeString r.overview).1.data → i.title = [] ∧ i.url = []) ∧
      (∀ itemKey itemMac, Key.itemKeys E r.keys keys.masterKey = .ret (itemKey, itemMac) →
        ¬ Authentic E itemMac (B64.decodeString r.details).1.data → i.notes = [] ∧ i.sections = none))
      (raw.filter (fun r => decide (Known r))) items := by
  refine ((decodeItems_ret hreg).1 h).imp ?_
  intro r i hi
  unfold decodeItem at hi
  split at hi
  · simp at hi
  · simp only [Out.bind_eq_ret, Out.pure_eq, Out.ret.injEq, Option.some.injEq] at hi
    obtain ⟨ov, hov, de, hde, secs, hsecs, title, ht, url, hurl, notes, hnotes, rfl⟩ := hi
    constructor
    · intro hna
      unfold decodeOverview at hov
      simp only [Out.bind_eq_ret, Out.pure_eq, Out.ret.injEq] at hov
      obtain ⟨x, hx, rfl⟩ := hov
      rw [opdata_not_authentic (B64.decodeString_wf _) hna hx, unmarshalQuiet_error] at ht hurl
      simp only [optStr, field_nil, notNil, Bool.false_eq_true, if_false, Out.pure_eq, Out.ret.injEq] at ht hurl
      exact ⟨ht.symm, hurl.symm⟩
    · intro ik im hk hna
      unfold decodeDetails at hde
      simp only [hk, Out.ret_bind, Out.bind_eq_ret, Out.pure_eq, Out.ret.injEq] at hde
      obtain ⟨x, hx, rfl⟩ := hde
      rw [opdata_not_authentic (B64.decodeString_wf _) hna hx, unmarshalQuiet_error] at hsecs hnotes
      simp only [optStr, parseSections, field_nil, notNil, Bool.false_eq_true, if_false, Out.pure_eq,
        Out.ret.injEq] at hnotes hsecs
      subst hsecs
      exact ⟨hnotes.symm, rfl⟩

/-! ### C24 -/

theorem parseAddress_order (O O' : MapOrder) (m : Members) :
    DataType.parseAddress O m = DataType.parseAddress O' m := by
  have h := sorted_keys.1 (rfl : sortStrings ((O'.run (Json.entries m)).map (·.1)) = _)
  unfold DataType.parseAddress
  rw [(sorted_keys (O := O)).2 h]

theorem parseItemField_order (E : Env) (O O' : MapOrder) : parseItemField E O = parseItemField E O' := by
  funext b m
  unfold parseItemField parseSectionField sectionValue DataType.parseValue
  simp only [parseAddress_order O O']

theorem parseSections_order (E : Env) (O O' : MapOrder) : parseSections E O = parseSections E O' := by
  have h : parseFields E O = parseFields E O' := by
    funext b docs; unfold parseFields; rw [parseItemField_order E O O']
  funext m
  unfold parseSections parseItemSection
  simp only [h]

/-- Decoding an item does not depend on the map order at all. -/
theorem decodeItem_order (E : Env) (O O' : MapOrder) : decodeItem E O = decodeItem E O' := by
  funext reg keys r
  unfold decodeItem
  rw [parseSections_order E O O']

theorem decodeItems_perm (E : Env) (O O' : MapOrder) (reg : List Cat) (keys : Keys) {raw raw' : List RawItem}
    {items : List Item} (hp : raw.Perm raw') (h : decodeItems E O reg keys raw = .ret items) :
    ∃ items', decodeItems E O' reg keys raw' = .ret items' ∧ items.Perm items' := by
  unfold decodeItems at h ⊢
  simp only [Out.bind_eq_ret, Out.pure_eq, Out.ret.injEq] at h
  obtain ⟨os, h1, rfl⟩ := h
  rw [decodeItem_order E O O'] at h1
  obtain ⟨os', h2, h3⟩ := Out.mapL_perm hp h1
  exact ⟨keepSome os', by simp [h2], h3.filterMap _⟩

/-- Loading in another map order gives the same raw items, in some order. -/
theorem loadItems_perm (E : Env) (O O' : MapOrder) (d : Disk) (v : Bytes) {raw : List RawItem}
    (h : Repo.loadItems E O d v = .ret raw) : ∃ raw', Repo.loadItems E O' d v = .ret raw' ∧ raw.Perm raw' := by
  unfold Repo.loadItems at h ⊢
  split at h
  · cases h
  · rename_i hb
    cases h
    exact ⟨[], by simp, .refl _⟩
  · rename_i hne hb
    simp only [Out.bind_eq_ret] at h ⊢
    obtain ⟨bodies, h1, h⟩ := h
    rw [h1]
    simp only [Out.ret.injEq, exists_eq_left']
    split at h
    · cases h
    · exact Out.mapL_perm ((O.perm _).trans (O'.perm _).symm) h

theorem reachable_unlock {E : Env} {O : MapOrder} {d : Disk} {v p : Bytes} {s s1 : Session} {r : Except Err Unit}
    (hr : Reachable E s) (h : unlock E O d v p s = .ret (r, s1)) : Reachable E s1 := by
  obtain ⟨d0, ops, as, d', hrun⟩ := hr
  refine ⟨d0, ops ++ [.disk d, .unlock O v p], as ++ [.none, answerErr r], d,
    run_append.2 ⟨as, _, _, hrun, ?_, rfl⟩⟩
  refine run_cons.2 ⟨.none, ⟨d, s⟩, [answerErr r], rfl, run_cons.2 ⟨answerErr r, ⟨d, s1⟩, [], ?_, rfl, rfl⟩, rfl⟩
  simp [step, h]

/-- C24. The same `Unlock` with map iterations in another order: it succeeds as well, and then every count,
every lookup and every list (up to the order among equals) is the same. -/
theorem C24_order_does_not_matter (E : Env) (O O' : MapOrder) (d : Disk) (vault password : Bytes) (s s1 : Session)
    (hr : Reachable E s) (h : unlock E O d vault password s = .ret (.ok (), s1)) :
    ∃ s2, unlock E O' d vault password s = .ret (.ok (), s2) ∧
      s2.keys = s1.keys ∧ s2.profile = s1.profile ∧ s2.reg = s1.reg ∧
      (∀ cat trashed, s2.countItems cat trashed = s1.countItems cat trashed) ∧
      (∀ uid trashed, s2.getItem uid trashed = s1.getItem uid trashed) ∧
      (∀ S S' cat title trashed,
        (getItems E.text S' s2 cat title trashed).Perm (getItems E.text S s1 cat title trashed)) := by
  -- the items of the other order
  have key : ∃ s2, unlock E O' d vault password s = .ret (.ok (), s2) ∧ s2.keys = s1.keys ∧ s2.profile = s1.profile ∧
      s2.reg = s1.reg ∧ (held s2).Perm (held s1) := by
    unfold unlock at h ⊢
    simp only [Out.bind_eq_ret] at h
    obtain ⟨r1, h1, h⟩ := h
    simp only [h1, Out.ret_bind]
    split at h
    · simp at h
    · simp only [Out.bind_eq_ret] at h
      obtain ⟨r2, h2, h⟩ := h
      simp only [h2, Out.ret_bind]
      split at h
      · simp at h
      · simp only [Out.bind_eq_ret] at h
        obtain ⟨r3, h3, h⟩ := h
        simp only [h3, Out.ret_bind]
        split at h
        · simp at h
        · unfold Session.decodeItems at h ⊢
          simp only [Out.bind_eq_ret, Out.pure_eq, Out.ret.injEq, Prod.mk.injEq, true_and] at h
          obtain ⟨s', ⟨raw, hraw, items, hitems, rfl⟩, rfl⟩ := h
          obtain ⟨raw', hraw', hp⟩ := loadItems_perm E O O' d vault hraw
          obtain ⟨items', hitems', hp'⟩ := decodeItems_perm E O O' _ _ hp hitems
          simp only [hraw', hitems', Out.ret_bind, Out.pure_eq, Out.ret.injEq, Prod.mk.injEq, true_and, exists_eq_left']
          unfold held Repo.storeItems
          cases s.items with
          | none => exact hp'.symm
          | some l => exact .refl _
  obtain ⟨s2, hs2, hk, hpr, hreg, hp⟩ := key
  have hr1 := reachable_unlock hr h
  have hr2 := reachable_unlock hr hs2
  have hlist : ∀ S S' cat title trashed,
      (getItems E.text S' s2 cat title trashed).Perm (getItems E.text S s1 cat title trashed) := by
    intro S S' cat title trashed
    refine (C32_list_is_filter E.text S' s2 cat title trashed).trans (.trans ?_
      (C32_list_is_filter E.text S s1 cat title trashed).symm)
    exact (hp.filter _).map _
  refine ⟨s2, hs2, hk, hpr, hreg, ?_, ?_, hlist⟩
  · intro cat trashed
    rw [C35_count_is_length E.text Sorter.ins s2, C35_count_is_length E.text Sorter.ins s1]
    exact (hlist Sorter.ins Sorter.ins cat [] trashed).length_eq
  · intro uid trashed
    apply Option.ext
    intro i
    rw [C34_lookup E s2 hr2, C34_lookup E s1 hr1, hp.mem_iff]

/-- The demo vault of Props/Session.lean, opened in two map orders (one item each). -/
example : heldAfter Demo.disk' [.validate b!"/a", .unlock .doc b!"/a" Demo.pa] = some (some 1) ∧
    heldAfter Demo.disk' [.validate b!"/a", .unlock .rev b!"/a" Demo.pa] = some (some 1) := by decide +kernel

/-! ### C79 -/

/-- The names of the band files that are read for a vault, as locations on the disk. -/
def bandLocations (d : Disk) (v : Bytes) : Option (List (List Bytes)) :=
  (Repo.bandFiles d v).map (·.map (Path.resolve d.cwd))

/-- A vault directory, whatever characters are in its path. -/
structure AnyVaultDir (d : Disk) (v : Bytes) (dir : List Bytes) : Prop where
  nonempty : v ≠ []
  names : ∀ e ∈ d.fs, ∀ c ∈ e.1, (47 : UInt8) ∉ c
  dir_eq : dir = Path.resolve d.cwd v ++ [b!"default"]
  exist : d.at? dir = some .dir

/-- The wish: the band files read are those in the directory that was named. -/
def C79_wish : Prop := ∀ d v dir names, AnyVaultDir d v dir → BandNames d dir names →
  bandLocations d v = some (names.map (fun n => dir ++ [n]))

/-- C79 holds for paths without the special characters `*?[\\` of patterns. -/
theorem C79_literal_path_partial (d : Disk) (v : Bytes) (dir names : List Bytes) (hv : VaultDir d v dir)
    (hn : BandNames d dir names) : bandLocations d v = some (names.map (fun n => dir ++ [n])) := by
  obtain ⟨paths, h1, h2⟩ := bandFiles_eq hv hn
  unfold bandLocations
  rw [h1, Option.map_some, Option.some.injEq]
  clear h1 hn
  induction h2 with
  | nil => rfl
  | cons h _ ih => simp [ih, h.2]

namespace GlobDemo

/-- Vaults /v[1] and /v1; the first has no items, the second one band. -/
def disk : Disk :=
  { cwd := []
    fs := [([], .dir), ([b!"v[1]"], .dir), ([b!"v[1]", b!"default"], .dir),
           ([b!"v[1]", b!"default", b!"profile.js"], .file (Demo.profileText Demo.pa) false),
           ([b!"v1"], .dir), ([b!"v1", b!"default"], .dir),
           ([b!"v1", b!"default", b!"band_0.js"], .file Demo.bandText false)] }

end GlobDemo

/-- C79 fails: opening /v[1] reads the band files of /v1. -/
theorem C79_refuted : ¬ C79_wish := by
  intro h
  have h1 := h GlobDemo.disk b!"/v[1]" [b!"v[1]", b!"default"] []
    ⟨by decide, by decide +kernel, by decide +kernel, rfl⟩ ?_
  · have h2 : bandLocations GlobDemo.disk b!"/v[1]" = some [[b!"v1", b!"default", b!"band_0.js"]] := by decide +kernel
    rw [h2] at h1
    cases h1
  · refine ⟨.nil, fun n => ⟨by simp, ?_⟩⟩
    rintro ⟨⟨x, hx⟩, h2⟩
    obtain ⟨e, he, h3⟩ := at_ne_none.1 h2
    have hlen : GlobDemo.disk.fs.map (·.1) = [[], [b!"v[1]"], [b!"v[1]", b!"default"],
      [b!"v[1]", b!"default", b!"profile.js"], [b!"v1"], [b!"v1", b!"default"],
      [b!"v1", b!"default", b!"band_0.js"]] := rfl
    have : e.1 ∈ GlobDemo.disk.fs.map (·.1) := List.mem_map.2 ⟨e, he, rfl⟩
    rw [hlen, h3] at this
    simp at this
    subst this
    simp at hx

/-- And the whole program does: the vault /v[1] opens with its own password and shows the item of /v1. -/
example : heldAfter GlobDemo.disk [.validate b!"/v[1]", .unlock .doc b!"/v[1]" Demo.pa] = some (some 1) := by
  decide +kernel

end OnePass
