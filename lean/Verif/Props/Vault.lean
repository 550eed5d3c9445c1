/-
C88: from the vault a writer made to what the commands print.
-/
import Verif.Props.Commands

set_option linter.unusedSimpArgs false

namespace OnePass
namespace Spec

/-- An item as its owner entered it. -/
structure Record where
  uid : Bytes
  category : Bytes
  created : Int
  updated : Int
  trashed : Bool
  overview : Members
  details : Members

/-- The two keys a key blob stands for: the halves of the hash of its contents. -/
def halves (E : Env) (base : Bytes) : Bytes × Bytes := ((E.crypto.sha512 base).take 32, (E.crypto.sha512 base).drop 32)

/-- A vault as a conforming writer leaves it on a disk: directory, profile with the two key blobs packed under the keys of the
password, band files with one document for each item, its blobs packed under the keys of the profile. Any white space, escapes,
line breaks, initialisation vectors, padding, distribution of the items over bands and superseded entries are allowed. -/
structure VaultOn (E : Env) (d : Disk) (v password : Bytes) (entries : List Record) : Prop where
  written : ∃ (dir : List Bytes) (profile : Members) (pre text : Bytes) (last : UInt8) (x : Bool) (saltText salt : Bytes) (n : Int)
      (masterText masterTag masterIv masterPad master : Bytes)
      (overText overTag overIv overPad over : Bytes) (names : List Bytes) (ms : List Members),
    VaultDir d v dir ∧ d.at? (Path.resolve d.cwd v) = some .dir ∧
    d.at? (dir ++ [b!"profile.js"]) = some (.file (pre ++ text ++ [last]) x) ∧ pre.length = 12 ∧ Json.ReadR text (.obj profile) ∧
    LastEntry profile b!"salt" (.str saltText) ∧ IsBase64 saltText salt ∧
    LastEntry profile b!"iterations" (.num (Num.intDec n)) ∧ 0 ≤ n ∧ n ≤ 9007199254740992 ∧
    (let derived := E.crypto.pbkdf2 password salt n 64
     LastEntry profile b!"masterKey" (.str masterText) ∧ Packable (derived.take 32) masterTag masterIv masterPad master ∧
     IsBase64 masterText (pack E (derived.take 32) (derived.drop 32) masterTag masterIv masterPad master) ∧
     LastEntry profile b!"overviewKey" (.str overText) ∧ Packable (derived.take 32) overTag overIv overPad over ∧
     IsBase64 overText (pack E (derived.take 32) (derived.drop 32) overTag overIv overPad over) ∧
     BandNames d dir names ∧ List.Forall₂ (BandFile d dir) names ms ∧
     (∀ uid, (∃ j, LastEntry ms.flatten uid j) ↔ ∃ e ∈ entries, e.uid = uid) ∧
     ∀ e ∈ entries, ∃ r : RawItem, Describes E ms.flatten r ∧ r.uid = e.uid ∧ r.category = e.category ∧ r.created = e.created ∧
       r.updated = e.updated ∧ r.trashed = e.trashed ∧
       Written E ⟨derived.take 32, derived.drop 32, (halves E master).1, (halves E master).2, (halves E over).1, (halves E over).2⟩
         r e.overview e.details)
  uids : (entries.map (·.uid)).Nodup
  types : ∀ e ∈ entries, Conforms E e.overview e.details

/-- `i` is the entry `e` as it is to be shown. -/
structure ShowsRecord (E : Env) (e : Record) (i : Item) : Prop where
  uid : i.uid = e.uid
  trashed : i.trashed = e.trashed
  created : i.created = e.created
  updated : i.updated = e.updated
  category : (e.category, i.category.name) ∈ Spec.categories ∧ i.category.code = e.category
  title : OptText e.overview b!"title" i.title
  url : OptText e.overview b!"url" i.url
  notes : OptText e.details b!"notesPlain" i.notes
  sections : ∃ l, ShownSections E e.details l ∧ i.sections = if l = [] then none else some l

end Spec

open Spec Session

/-- The entries with a known category. -/
def KnownRecord (e : Record) : Prop := ∃ c ∈ Spec.categories, c.1 = e.category

theorem known_of {r : RawItem} {e : Record} (h : r.category = e.category) : Known r ↔ KnownRecord e := by
  unfold Known KnownRecord; rw [h]

theorem shows_iff {E : Env} {r : RawItem} {e : Record} {i : Item} (h1 : r.uid = e.uid) (h2 : r.category = e.category)
    (h3 : r.created = e.created) (h4 : r.updated = e.updated) (h5 : r.trashed = e.trashed) :
    Shows E e.overview e.details r i ↔ ShowsRecord E e i := by
  constructor
  · intro h
    exact ⟨h.uid.trans h1, h.trashed.trans h5, h.created.trans h3, h.updated.trans h4,
      ⟨by rw [← h2, ← h.category.1]; exact h.category.2, h.category.1.trans h2⟩, h.title, h.url, h.notes, h.sections⟩
  · intro h
    exact ⟨h.uid.trans h1.symm, h.trashed.trans h5.symm, h.created.trans h3.symm, h.updated.trans h4.symm,
      ⟨h.category.2.trans h2.symm, by rw [h.category.2]; exact h.category.1⟩, h.title, h.url, h.notes, h.sections⟩

/-- Validating loads the profile that is in the file. -/
theorem validate_written {d : Disk} {v pre text : Bytes} {last : UInt8} {x : Bool} {m : Members} {s : Session}
    (hv : v ≠ []) (hd : d.at? (Path.resolve d.cwd v) = some .dir)
    (hf : d.at? (Path.resolve d.cwd v ++ [b!"default", b!"profile.js"]) = some (.file (pre ++ text ++ [last]) x))
    (hl : pre.length = 12) (ht : Json.ReadR text (.obj m)) (hs : s.profile = none) :
    s.validate d v = .ret (.ok (), { s with profile := some m }) := by
  have h1 : d.stat v = some .dir := by unfold Disk.stat; rw [if_neg hv, hd]
  have h2 : d.stat (profilePath v) = some (.file (pre ++ text ++ [last]) x) := by rw [profile_stat d hv, hf]
  have h3 : subBytes (pre ++ text ++ [last]) 12 (((pre ++ text ++ [last]).length : Int) - 1) = .ret text := by
    unfold subBytes
    rw [if_pos (by simp only [List.length_append, List.length_singleton]; omega)]
    congr 1
    have e : ((((pre ++ text ++ [last]).length : Int) - 1)).toNat = (pre ++ text).length := by
      simp only [List.length_append, List.length_singleton]; omega
    rw [e, List.take_left' rfl]
    exact List.drop_left' (by simpa using hl)
  have h4 : Repo.loadProfile d v s.profile = .ret (some m) := by
    unfold Repo.loadProfile
    rw [hs]
    simp only [Disk.readFile, h2]
    rw [h3]
    simp [Json.unmarshalMap_read ht]
  unfold validate Repo.validateVault
  simp only [h1, h2, h4, Out.ret_bind, Out.pure_eq]

/-- C88. A vault that a conforming writer made opens with its password, in a process that has opened none before, and what is held
then is exactly what the writer put in: one item for each entry of a known category. -/
theorem C88_opens (E : Env) (O : MapOrder) (d : Disk) (v password : Bytes) (entries : List Record)
    (h : VaultOn E d v password entries) (s : Session) (hp : s.profile = none) (hi : s.items = none)
    (hreg : s.reg.Perm Cat.values) :
    ∃ s1 s2 items, s.validate d v = .ret (.ok (), s1) ∧ s1.unlock E O d v password = .ret (.ok (), s2) ∧
      s2.items = some items ∧ (items.map (·.uid)).Nodup ∧
      ∀ i, i ∈ items ↔ ∃ e ∈ entries, KnownRecord e ∧ ShowsRecord E e i := by
  obtain ⟨dir, profile, pre, text, last, x, saltText, salt, n, mt, mtag, miv, mpad, master, ot, otag, oiv, opad, over, names, ms,
    hv, hd, hf, hl, ht, hsalt, hsalt', hit, hn, hn', hmk, hmp, hmb, hok, hop, hob, hnames, hbands, huids, hent⟩ := h.written
  have hf' : d.at? (Path.resolve d.cwd v ++ [b!"default", b!"profile.js"]) = some (.file (pre ++ text ++ [last]) x) := by
    rw [← hf, hv.dir_eq, List.append_assoc]; rfl
  have hval := validate_written (s := s) hv.nonempty hd hf' hl ht hp
  let derived := E.crypto.pbkdf2 password salt n 64
  let keys : Keys := ⟨derived.take 32, derived.drop 32, (halves E master).1, (halves E master).2, (halves E over).1, (halves E over).2⟩
  let s1 : Session := { s with profile := some profile }
  have hdk : Key.derivedKeys E s1.profile password = .ret (.ok (derived.take 32, derived.drop 32)) :=
    C05_derived_keys E (some profile) password saltText salt n hn hn' (field_of_last hit) (field_of_last hsalt) hsalt'
  have hmk' : Key.masterKeys E s1.profile (derived.take 32) (derived.drop 32) = .ret (.ok (halves E master)) :=
    (C04_written_keys E (some profile) _ _ mt mtag miv mpad master hmp hmb).1 (field_of_last hmk)
  have hok' : Key.overviewKeys E s1.profile (derived.take 32) (derived.drop 32) = .ret (.ok (halves E over)) :=
    (C04_written_keys E (some profile) _ _ ot otag oiv opad over hop hob).2 (field_of_last hok)
  -- the raw items
  have hdesc : ∀ uid j, LastEntry ms.flatten uid j → ∃ r, r.uid = uid ∧ Describes E ms.flatten r := by
    intro uid j hj
    obtain ⟨e, he, rfl⟩ := (huids uid).1 ⟨j, hj⟩
    obtain ⟨r, h1, h2, -⟩ := hent e he
    exact ⟨r, h2, h1⟩
  obtain ⟨raw, hraw⟩ := (C18_loading_returns E O hv hnames hbands).1 hdesc
  obtain ⟨hnd, hmem, -⟩ := C18_items_loaded E O hv hnames hbands raw hraw
  -- the entry of a raw item
  have hentry : ∀ r ∈ raw, ∃ e ∈ entries, r.uid = e.uid ∧ r.category = e.category ∧ r.created = e.created ∧
      r.updated = e.updated ∧ r.trashed = e.trashed ∧ Written E keys r e.overview e.details := by
    intro r hr
    have hr' := (hmem r).1 hr
    obtain ⟨m, hm, -⟩ := hr'
    obtain ⟨e, he, hu⟩ := (huids r.uid).1 ⟨_, hm⟩
    obtain ⟨r', h1, h2, h3⟩ := hent e he
    have : r' = r := by
      have hr'' : r' ∈ raw := (hmem r').2 h1
      exact List.inj_on_of_nodup_map hnd hr'' hr (h2.trans hu)
    subst this
    exact ⟨e, he, h2, h3⟩
  classical
  let docs : RawItem → Members × Members := fun r =>
    if hr : r ∈ raw then ((hentry r hr).choose.overview, (hentry r hr).choose.details) else ([], [])
  have hdocs : ∀ r ∈ raw, ∃ e ∈ entries, r.uid = e.uid ∧ r.category = e.category ∧ r.created = e.created ∧
      r.updated = e.updated ∧ r.trashed = e.trashed ∧ Written E keys r e.overview e.details ∧
      docs r = (e.overview, e.details) := by
    intro r hr
    have hc := (hentry r hr).choose_spec
    refine ⟨(hentry r hr).choose, hc.1, hc.2.1, hc.2.2.1, hc.2.2.2.1, hc.2.2.2.2.1, hc.2.2.2.2.2.1, hc.2.2.2.2.2.2, ?_⟩
    simp only [docs, dif_pos hr]
  have hw : ∀ r ∈ raw, Known r → Written E keys r (docs r).1 (docs r).2 ∧ Conforms E (docs r).1 (docs r).2 := by
    intro r hr _
    obtain ⟨e, he, -, -, -, -, -, h1, h2⟩ := hdocs r hr
    rw [h2]
    exact ⟨h1, h.types e he⟩
  obtain ⟨items, hitems, -⟩ := C28_conforming_decodes_partial E O s.reg hreg keys raw docs hw
  have hall := (C21_written_vault E O s.reg hreg keys raw docs (fun r h1 h2 => (hw r h1 h2).1) items).1 hitems
  have hun : s1.unlock E O d v password = .ret (.ok (), { s1 with keys := some keys, items := some items }) := by
    unfold unlock
    simp only [hdk, Out.ret_bind, hmk', hok']
    unfold Session.decodeItems
    have hit' : ItemSvc.decodeItems E O s.reg keys raw = .ret items := hitems
    simp only [hraw, Out.ret_bind]
    change (ItemSvc.decodeItems E O s.reg keys raw >>= _) >>= _ = _
    rw [hit']
    simp only [Out.ret_bind, Out.pure_eq, s1, hi, Repo.storeItems]
    rfl
  refine ⟨s1, _, items, hval, hun, rfl, ?_, ?_⟩
  · rw [C19_none_lost_none_invented E O s.reg hreg keys raw items hitems]
    exact hnd.sublist ((List.filter_sublist).map _)
  · intro i
    constructor
    · intro hmi
      obtain ⟨r, hr, hs⟩ := forall₂_mem_right hall hmi
      obtain ⟨hr1, hr2⟩ := List.mem_filter.1 hr
      obtain ⟨e, he, h1, h2, h3, h4, h5, h6, h7⟩ := hdocs r hr1
      rw [h7] at hs
      exact ⟨e, he, (known_of h2).1 (by simpa using hr2), (shows_iff h1 h2 h3 h4 h5).1 hs⟩
    · rintro ⟨e, he, hk, hs⟩
      obtain ⟨r, h0, h1, h2, h3, h4, h5, h6⟩ := hent e he
      have hr : r ∈ raw := (hmem r).2 h0
      have hk' := (known_of h2).2 hk
      have hr' : r ∈ raw.filter (fun r => decide (Known r)) := List.mem_filter.2 ⟨hr, by simpa using hk'⟩
      obtain ⟨i', hi', hs'⟩ := forall₂_mem_left hall hr'
      have a := (C21_written_item E O s.reg hreg keys r _ _ (hw r hr hk').1 hk' i').2 hs'
      obtain ⟨e', he', g1, -, -, -, -, -, g7⟩ := hdocs r hr
      have hee : e' = e := List.inj_on_of_nodup_map h.uids he' he (g1.symm.trans h1)
      subst hee
      have b := (C21_written_item E O s.reg hreg keys r _ _ h6 hk' i).2 ((shows_iff h1 h2 h3 h4 h5).2 hs)
      rw [a] at b
      have : i' = i := by simpa using b
      exact this ▸ hi'

/-! An example: two items (one in the trash) and one of an unknown category in two bands, the second superseding an entry of the
first. -/

namespace VaultDemo
open Json ItemDemo

def password : Bytes := List.replicate 40 1
def salt : Bytes := b!"salt"
def derived : Bytes := Env.toy.crypto.pbkdf2 password salt 7 64
def master : Bytes := List.replicate 32 3
def over : Bytes := List.replicate 16 4
def keyText (base : Bytes) : Bytes :=
  B64.encode (pack Env.toy (derived.take 32) (derived.drop 32) b!"opdata01" (List.replicate 16 9) (padOf base.length) base)
def keys : Keys :=
  ⟨derived.take 32, derived.drop 32, (halves Env.toy master).1, (halves Env.toy master).2, (halves Env.toy over).1,
    (halves Env.toy over).2⟩

def profile : Members :=
  [(b!"salt", .str (B64.encode salt)), (b!"iterations", .num b!"7"), (b!"masterKey", .str (keyText master)),
   (b!"overviewKey", .str (keyText over))]

def ov2 : Members := [(b!"title", .str b!"Old card")]
def de2 : Members := []

/-- The raw item a writer makes of an entry. -/
def raw (e : Record) : RawItem :=
  { category := e.category, created := e.created, updated := e.updated, trashed := e.trashed, uid := e.uid, hmac := []
    overview := B64.encode (pack Env.toy keys.overviewKey keys.overviewMac b!"opdata01" (List.replicate 16 9)
      (padOf (render (.obj e.overview)).length) (render (.obj e.overview)))
    keys := B64.encode (keyBlob Env.toy keys.masterKey (List.replicate 16 8) (List.replicate 32 10) (List.replicate 32 11)
      (List.replicate 32 0))
    details := B64.encode (pack Env.toy (List.replicate 32 10) (List.replicate 32 11) b!"opdata01" (List.replicate 16 9)
      (padOf (render (.obj e.details)).length) (render (.obj e.details))) }

/-- Its document. -/
def doc (e : Record) : Members :=
  [(b!"category", .str e.category), (b!"created", .num (Num.intDec e.created)), (b!"updated", .num (Num.intDec e.updated)),
   (b!"d", .str (raw e).details), (b!"hmac", .str []), (b!"k", .str (raw e).keys), (b!"o", .str (raw e).overview),
   (b!"trashed", .bool e.trashed)]

def eA : Record := ⟨b!"A", b!"001", 5, 6, false, ov, de⟩
def eB : Record := ⟨b!"B", b!"002", 7, 8, true, ov2, de2⟩
def eC : Record := ⟨b!"C", b!"xyz", 5, 5, false, ov2, de2⟩

def band0 : Members := [(b!"A", .obj (doc eC)), (b!"B", .obj (doc eB))]
def band1 : Members := [(b!"A", .obj (doc eA)), (b!"C", .obj (doc eC))]

def disk : Disk :=
  { cwd := []
    fs := [([b!"v"], .dir), ([b!"v", b!"default"], .dir),
           ([b!"v", b!"default", b!"band_1.js"], .file (LoadDemo.text band1) false),
           ([b!"v", b!"default", b!"profile.js"], .file (b!"var profile=" ++ render (.obj profile) ++ b!";") false),
           ([b!"v", b!"default", b!"band_0.js"], .file (LoadDemo.text band0) false)] }

theorem vaultDir : VaultDir disk b!"/v" [b!"v", b!"default"] where
  nonempty := by decide
  noMeta := by decide +kernel
  names := by decide +kernel
  dir_eq := by decide +kernel
  exist := by rfl

theorem bandNames : BandNames disk [b!"v", b!"default"] [b!"band_0.js", b!"band_1.js"] := by
  refine ⟨by decide +kernel, fun n => ?_⟩
  have hlen : disk.fs.map (·.1) = [[b!"v"], [b!"v", b!"default"], [b!"v", b!"default", b!"band_1.js"],
    [b!"v", b!"default", b!"profile.js"], [b!"v", b!"default", b!"band_0.js"]] := rfl
  constructor
  · intro h
    simp only [List.mem_cons, List.not_mem_nil, or_false] at h
    rcases h with rfl | rfl
    · exact ⟨⟨b!"0", rfl⟩, by simp [Disk.at?, disk]⟩
    · exact ⟨⟨b!"1", rfl⟩, by simp [Disk.at?, disk]⟩
  · rintro ⟨⟨x, hx⟩, h2⟩
    obtain ⟨e, he, h3⟩ := at_ne_none.1 h2
    have : e.1 ∈ disk.fs.map (·.1) := List.mem_map.2 ⟨e, he, rfl⟩
    rw [hlen, h3] at this
    simp at this
    rcases this with rfl | rfl | rfl
    · simp
    · simp at hx
    · simp

theorem doc_plain (n : Nat) (e : Record) (h : e ∈ [eA, eB, eC]) : Plain (n + 1) (.obj (doc e)) := by
  have n5 := numR_digit 53 (by decide)
  have n6 := numR_digit 54 (by decide)
  have n7 := numR_digit 55 (by decide)
  have n8 := numR_digit 56 (by decide)
  have i5 : Num.intDec 5 = [53] := by decide
  have i6 : Num.intDec 6 = [54] := by decide
  have i7 : Num.intDec 7 = [55] := by decide
  have i8 : Num.intDec 8 = [56] := by decide
  have a : ∀ e ∈ [eA, eB, eC], Str.isAscii (raw e).details = true ∧ Str.isAscii (raw e).keys = true ∧
      Str.isAscii (raw e).overview = true ∧ Str.isAscii e.category = true := by decide +kernel
  obtain ⟨a1, a2, a3, a4⟩ := a e h
  have hc : (NumR (Num.intDec e.created) ∧ Num.tooBig (Num.intDec e.created) = false) ∧
      NumR (Num.intDec e.updated) ∧ Num.tooBig (Num.intDec e.updated) = false := by
    simp only [List.mem_cons, List.not_mem_nil, or_false] at h
    rcases h with rfl | rfl | rfl
    · exact ⟨by simpa only [eA, i5] using n5, by simpa only [eA, i6] using n6⟩
    · exact ⟨by simpa only [eB, i7] using n7, by simpa only [eB, i8] using n8⟩
    · exact ⟨by simpa only [eC, i5] using n5, by simpa only [eC, i5] using n5⟩
  simp only [doc, Plain, PlainM]
  simp only [a1, a2, a3, a4, hc.1.1, hc.1.2, hc.2.1, hc.2.2]
  exact ⟨Nat.succ_pos n, by decide⟩

theorem profile_plain : Plain maxDepth (.obj profile) := by
  have n7 := numR_digit 55 (by decide)
  have a : Str.isAscii (B64.encode salt) = true ∧ Str.isAscii (keyText master) = true ∧ Str.isAscii (keyText over) = true := by
    decide +kernel
  simp only [profile, Plain, PlainM, maxDepth]
  simp only [a.1, a.2.1, a.2.2, n7.1, n7.2]
  decide

theorem bandFiles : List.Forall₂ (BandFile disk [b!"v", b!"default"]) [b!"band_0.js", b!"band_1.js"] [band0, band1] := by
  refine .cons ⟨LoadDemo.text band0, false, rfl, LoadDemo.bandText_of _ _ _ rfl ?_⟩
    (.cons ⟨LoadDemo.text band1, false, rfl, LoadDemo.bandText_of _ _ _ rfl ?_⟩ .nil)
  · simp only [band0, PlainM, doc_plain 9998 eC (by simp), doc_plain 9998 eB (by simp)]; decide
  · simp only [band1, PlainM, doc_plain 9998 eA (by simp), doc_plain 9998 eC (by simp)]; decide

theorem ov2_plain : Plain maxDepth (.obj ov2) := by simp [ov2, Plain, PlainM, Str.isAscii, maxDepth]
theorem de2_plain : Plain maxDepth (.obj de2) := by simp [de2, Plain, PlainM, maxDepth]

theorem raw_written (e : Record) (ho : Plain maxDepth (.obj e.overview)) (hd : Plain maxDepth (.obj e.details))
    (lo : (render (.obj e.overview)).length < 9223372036854775808) (ld : (render (.obj e.details)).length < 9223372036854775808) :
    Written Env.toy keys (raw e) e.overview e.details where
  overview := ⟨_, _, _, _, render_doc ho, packable _ _ (by decide +kernel) lo, isBase64_encode _⟩
  details := ⟨List.replicate 32 10, List.replicate 32 11, List.replicate 16 8, List.replicate 32 0, _, _, _, _,
    by simp, by simp, by simp, by simp, by decide +kernel, isBase64_encode _, render_doc hd,
    packable _ _ (by simp) ld, isBase64_encode _⟩

theorem get_last {m : Members} {k : Bytes} {j : Json} (h : Json.get m k = some j) : LastEntry m k j := lastEntry_iff.2 h

theorem describes (e : Record) (h : LastEntry [band0, band1].flatten e.uid (.obj (doc e)))
    (h1 : -9007199254740992 ≤ e.created ∧ e.created ≤ 9007199254740992)
    (h2 : -9007199254740992 ≤ e.updated ∧ e.updated ≤ 9007199254740992) : Describes Env.toy [band0, band1].flatten (raw e) :=
  ⟨doc e, h,
    { category := get_last rfl
      created := ⟨_, get_last rfl, Env.toy.flt.toInt_dec _ h1.1 h1.2⟩
      updated := ⟨_, get_last rfl, Env.toy.flt.toInt_dec _ h2.1 h2.2⟩
      details := get_last rfl
      hmac := get_last rfl
      keys := get_last rfl
      overview := get_last rfl
      trashed := .inl (get_last rfl) }⟩

theorem login_shown : ShownSections Env.toy de [⟨[], some [⟨b!"Username", b!"joe"⟩, ⟨b!"Password", b!"pw"⟩]⟩] := by
  have h := (C21_written_item Env.toy .doc Cat.values (List.Perm.refl _) ItemDemo.keys (write Env.toy ov de) ov de (written Env.toy)
    ⟨(b!"001", b!"Login"), by decide, rfl⟩ shown).1 (by decide +kernel)
  obtain ⟨l, hl, he⟩ := h.sections
  have : l = [⟨[], some [⟨b!"Username", b!"joe"⟩, ⟨b!"Password", b!"pw"⟩]⟩] := by
    by_cases hn : l = []
    · rw [if_pos hn] at he; cases he
    · rw [if_neg hn] at he; exact (Option.some.inj he).symm
  rw [← this]; exact hl

theorem no_entry (k : Bytes) : Spec.Absent [] k := .inr (fun _ h => by cases h)

theorem vaultOn : VaultOn Env.toy disk b!"/v" password [eA, eB, eC] where
  written := by
    refine ⟨[b!"v", b!"default"], profile, b!"var profile=", render (.obj profile), 59, false, B64.encode salt, salt, 7,
      keyText master, b!"opdata01", List.replicate 16 9, padOf master.length, master,
      keyText over, b!"opdata01", List.replicate 16 9, padOf over.length, over, [b!"band_0.js", b!"band_1.js"], [band0, band1],
      vaultDir, by rfl, by rfl, by rfl, render_doc profile_plain, get_last rfl, isBase64_encode _, get_last rfl, by decide, by decide,
      get_last rfl, packable _ _ (by decide +kernel) (by decide), isBase64_encode _, get_last rfl,
      packable _ _ (by decide +kernel) (by decide), isBase64_encode _, bandNames, bandFiles, ?_, ?_⟩
    · intro uid
      constructor
      · rintro ⟨j, hj⟩
        obtain ⟨a, b, h, -⟩ := hj
        have : (uid, j) ∈ [band0, band1].flatten := by rw [h]; simp
        simp only [band0, band1, List.flatten_cons, List.flatten_nil, List.append_nil, List.mem_append, List.mem_cons,
          List.not_mem_nil, or_false, Prod.mk.injEq] at this
        rcases this with (⟨rfl, -⟩ | ⟨rfl, -⟩) | ⟨rfl, -⟩ | ⟨rfl, -⟩
        · exact ⟨eA, by simp, rfl⟩
        · exact ⟨eB, by simp, rfl⟩
        · exact ⟨eA, by simp, rfl⟩
        · exact ⟨eC, by simp, rfl⟩
      · rintro ⟨e, he, rfl⟩
        simp only [List.mem_cons, List.not_mem_nil, or_false] at he
        rcases he with rfl | rfl | rfl
        · exact ⟨_, get_last rfl⟩
        · exact ⟨_, get_last rfl⟩
        · exact ⟨_, get_last rfl⟩
    · intro e he
      simp only [List.mem_cons, List.not_mem_nil, or_false] at he
      rcases he with rfl | rfl | rfl
      · exact ⟨raw eA, describes _ (get_last rfl) (by decide) (by decide), rfl, rfl, rfl, rfl, rfl,
          raw_written _ ov_plain de_plain (by decide +kernel) (by decide +kernel)⟩
      · exact ⟨raw eB, describes _ (get_last rfl) (by decide) (by decide), rfl, rfl, rfl, rfl, rfl,
          raw_written _ ov2_plain de2_plain (by decide +kernel) (by decide +kernel)⟩
      · exact ⟨raw eC, describes _ (get_last rfl) (by decide) (by decide), rfl, rfl, rfl, rfl, rfl,
          raw_written _ ov2_plain de2_plain (by decide +kernel) (by decide +kernel)⟩
  uids := by decide +kernel
  types := by
    have h2 : Conforms Env.toy ov2 de2 :=
      ⟨⟨_, .inr (get_last rfl)⟩, ⟨[], .inl ⟨.inr (by unfold NoEntry; decide +kernel), rfl⟩⟩, ⟨[], .inl ⟨no_entry _, rfl⟩⟩,
        [], .none (no_entry _) (no_entry _)⟩
    intro e he
    simp only [List.mem_cons, List.not_mem_nil, or_false] at he
    rcases he with rfl | rfl | rfl
    · exact ⟨⟨_, .inr (get_last rfl)⟩, ⟨_, .inr (get_last rfl)⟩, ⟨_, .inr (get_last rfl)⟩, _, login_shown⟩
    · exact h2
    · exact h2

/-- What the owner sees: two items. -/
example : ∃ s1 s2 items, Session.init.validate disk b!"/v" = .ret (.ok (), s1) ∧
    s1.unlock Env.toy .doc disk b!"/v" password = .ret (.ok (), s2) ∧ s2.items = some items ∧
    { ItemDemo.shown with uid := b!"A", created := 5, updated := 6 } ∈ items ∧ ∀ i ∈ items, i.uid = b!"A" ∨ i.uid = b!"B" := by
  obtain ⟨s1, s2, items, h1, h2, h3, -, h5⟩ := C88_opens Env.toy .doc disk b!"/v" password _ vaultOn Session.init rfl rfl
    (List.Perm.refl _)
  refine ⟨s1, s2, items, h1, h2, h3, (h5 _).2 ⟨eA, by simp, ⟨(b!"001", b!"Login"), by decide, rfl⟩,
    ⟨rfl, rfl, rfl, rfl, ⟨by decide, rfl⟩, .inr (get_last rfl), .inr (get_last rfl), .inr (get_last rfl), _, login_shown, rfl⟩⟩, ?_⟩
  intro i hi
  obtain ⟨e, he, hk, hs⟩ := (h5 i).1 hi
  simp only [List.mem_cons, List.not_mem_nil, or_false] at he
  rcases he with rfl | rfl | rfl
  · exact .inl hs.uid
  · exact .inr hs.uid
  · exact absurd hk (by unfold KnownRecord; decide +kernel)

end VaultDemo

namespace Cli
open Prog

/-- C88, `details`: for every entry of a known category the command prints, in order, all there is to see of it, and nothing
else but ornaments. -/
theorem C88_details (C : Ctx) (flag vault : Bytes) (w w1 : World) (hb : Begun C w w1) (hv : Meaning w1.conf flag vault)
    (hs : w.sess = Session.init) (entries : List Record)
    (h : VaultOn C.env w1.disk vault (C.sys.password w1.tick) entries) (e : Record) (he : e ∈ entries) (hk : KnownRecord e) :
    ∃ i s lines, ShowsRecord C.env e i ∧
      command C (.details flag e.uid e.trashed) w = (.ret (), after w1 s (lines.map (fun l => .out (l ++ [10])))) ∧
      List.Sublist (facts C.env i) lines ∧ ∀ l ∈ lines, l ∈ facts C.env i ∨ l ∈ ornament := by
  have hs1 : w1.sess = Session.init := (begun_session hb).trans hs
  obtain ⟨s1, s2, items, h1, h2, h3, h4, h5⟩ := C88_opens C.env C.order w1.disk vault _ entries h w1.sess
    (by rw [hs1]; rfl) (by rw [hs1]; rfl) (by rw [hs1]; exact List.Perm.refl _)
  -- the entry's item is the one found
  have hx : ∃ i ∈ items, ShowsRecord C.env e i := by
    obtain ⟨⟨t, ht⟩, ⟨u, hu⟩, ⟨n, hn⟩, l, hl⟩ := h.types e he
    obtain ⟨c, hc, hcode⟩ := hk
    have : ShowsRecord C.env e ⟨⟨e.category, c.2⟩, e.created, n, t, e.trashed, if l = [] then none else some l, e.uid, u, e.updated⟩ :=
      ⟨rfl, rfl, rfl, rfl, ⟨by rw [← hcode]; exact hc, rfl⟩, ht, hu, hn, l, hl, rfl⟩
    exact ⟨_, (h5 _).2 ⟨e, he, ⟨c, hc, hcode⟩, this⟩, this⟩
  obtain ⟨i, hi, hsh⟩ := hx
  have hfind : s2.getItem e.uid e.trashed = some i := by
    unfold Session.getItem Repo.findFirst
    rw [h3]
    show items.find? _ = some i
    cases hfi : items.find? (fun item => item.uid == e.uid && item.trashed == e.trashed) with
    | none =>
      have := List.find?_eq_none.1 hfi i hi
      simp [hsh.uid, hsh.trashed] at this
    | some j =>
      have hj := List.mem_of_find?_eq_some hfi
      have hp := List.find?_some hfi
      have hju : j.uid = i.uid := by
        rw [hsh.uid]
        simp only [Bool.and_eq_true, beq_iff_eq] at hp
        exact hp.1
      rw [List.inj_on_of_nodup_map h4 hj hi hju]
  obtain ⟨lines, hl1, hl2, hl3⟩ := C62_whole_command C flag vault e.uid e.trashed w w1 hb hv s1 s2 h1 h2 i hfind
  exact ⟨i, s2, lines, hsh, hl1, hl2, hl3⟩

/-- C88, `list`: the command prints, sorted, exactly the wanted ones among the entries of a known category. -/
theorem C88_list (C : Ctx) (flag vault category title : Bytes) (trashed : Bool) (w w1 : World)
    (hb : Begun C w w1) (hv : Meaning w1.conf flag vault) (hs : w.sess = Session.init) (entries : List Record)
    (h : VaultOn C.env w1.disk vault (C.sys.password w1.tick) entries) (cat : Option Cat)
    (hcat : Filter C.env.text category cat) :
    ∃ (s : Session) (shown : List Item) (items : List SimpleItem),
      (∀ i, i ∈ shown ↔ ∃ e ∈ entries, KnownRecord e ∧ ShowsRecord C.env e i) ∧ (shown.map (·.uid)).Nodup ∧
      items.Perm ((shown.filter (fun i => decide (Wanted C.env.text cat (Str.trimSpace title) trashed i))).map summary) ∧
      items.Pairwise (fun a b => a.category.code < b.category.code ∨ (a.category.code = b.category.code ∧ a.title ≤ b.title)) ∧
      (items ≠ [] → ∃ rows, Rows items rows ∧
        command C (.list flag category title trashed) w = (.ret (), after w1 s [.table [b!"lp.", b!"uid", b!"category", b!"title"] rows])) ∧
      (items = [] → command C (.list flag category title trashed) w = (.ret (), after w1 s
          [.out (b!"No results for search (category: " ++ Str.trimSpace category ++ b!", name: " ++
              Str.trimSpace title ++ b!", trashed: " ++ (if trashed then b!"true" else b!"false") ++ b!")\n")])) := by
  have hs1 : w1.sess = Session.init := (begun_session hb).trans hs
  obtain ⟨s1, s2, shown, h1, h2, h3, h4, h5⟩ := C88_opens C.env C.order w1.disk vault _ entries h w1.sess
    (by rw [hs1]; rfl) (by rw [hs1]; rfl) (by rw [hs1]; exact List.Perm.refl _)
  obtain ⟨items, g⟩ := C65_list C flag vault category title trashed w w1 hb hv s1 s2 h1 h2
    (by rw [hs]; exact List.Perm.refl _) cat hcat
  have hh : held s2 = shown := by unfold held; rw [h3]; rfl
  rw [hh] at g
  exact ⟨s2, shown, items, h5, h4, g⟩

end Cli

end OnePass
