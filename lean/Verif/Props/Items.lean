/-
What is shown of an item: C21, C23, C25-C31.
-/
import Verif.Props.Load
import Mathlib.Data.List.TakeWhile

set_option linter.unusedSimpArgs false

namespace OnePass
open Spec ItemSvc

/-! ### C25 -/

/-- C25. A login field whose value and name are strings or missing is shown iff both are there and not
empty; then the name is title-cased and the value verbatim. Other documents crash the program. -/
theorem C25_login_fields (E : Env) (O : MapOrder) (m : Members) :
    (∀ o, parseItemField E O false m = .ret o ↔ ShownLogin E.text m o) ∧
    ((∀ o, ¬ ShownLogin E.text m o) → parseItemField E O false m = .panic) := by
  have h : ∀ o, parseItemField E O false m = .ret o ↔ ShownLogin E.text m o := fun o => parseLoginField_ret
  refine ⟨h, fun hn => ?_⟩
  cases hp : parseItemField E O false m with
  | ret o => exact absurd ((h o).1 hp) (hn o)
  | panic => rfl
  | fatal =>
    exfalso
    unfold parseItemField parseLoginField at hp
    simp only [Bool.not_false, if_true] at hp
    split at hp
    · simp only [Out.bind_eq_fatal, asStr_nf, false_or] at hp
      obtain ⟨_, _, _, _, hp⟩ := hp
      split at hp <;> cases hp
    · cases hp

/-- C25, read off: value `v` and name `n`. -/
theorem C25_value_and_name (E : Env) (O : MapOrder) (m : Members) (v n : Bytes)
    (hv : LastEntry m b!"value" (.str v)) (hn : LastEntry m b!"name" (.str n)) :
    (v ≠ [] → n ≠ [] → parseItemField E O false m = .ret (some ⟨Str.title E.text n, v⟩)) ∧
    (v = [] ∨ n = [] → parseItemField E O false m = .ret none) :=
  ⟨fun h1 h2 => ((C25_login_fields E O m).1 _).2 (.some hv hn h1 h2),
   fun h => ((C25_login_fields E O m).1 _).2 (.empty hv hn h)⟩

/-- A letter, digit or underscore. -/
def wordByte (b : UInt8) : Bool :=
  (65 ≤ b && b ≤ 90) || (97 ≤ b && b ≤ 122) || (48 ≤ b && b ≤ 57) || b == 95

theorem titleFrom_get (prev : UInt8) (s : Bytes) (i : Nat) (hi : i < s.length) :
    (Str.titleFrom prev s)[i]? = some (
      let before := if i = 0 then prev else s.getD (i - 1) 0
      let b := s[i]
      if wordByte before = false ∧ 97 ≤ b ∧ b ≤ 122 then b - 32 else b) := by
  induction s generalizing prev i with
  | nil => simp at hi
  | cons a s ih =>
    have hsep : ∀ x, Str.isSepA x = !wordByte x := fun _ => rfl
    cases i with
    | zero =>
      simp only [Str.titleFrom, hsep, Str.upperByte, Str.isLowerA]
      by_cases h1 : wordByte prev = true
      · simp [h1]
      · simp [h1]
    | succ i =>
      have := ih a i (by simpa using hi)
      simp only [Str.titleFrom, List.getElem?_cons_succ, this, List.getElem_cons_succ]
      cases i with
      | zero => simp
      | succ i => simp

/-- C25, title-casing of ASCII text: exactly the small letters at the beginning or after a byte that is no
letter, digit or underscore become capitals; all other bytes stay. -/
theorem C25_title_case (T : Text) (s : Bytes) (h : Str.isAscii s = true) :
    (Str.title T s).length = s.length ∧
    ∀ i (hi : i < s.length), (Str.title T s)[i]? = some (
      if (i = 0 ∨ wordByte (s.getD (i - 1) 0) = false) ∧ 97 ≤ s[i] ∧ s[i] ≤ 122 then s[i] - 32 else s[i]) := by
  unfold Str.title
  rw [if_pos h]
  have hlen : ∀ (p : UInt8) (s : Bytes), (Str.titleFrom p s).length = s.length := by
    intro p s
    induction s generalizing p with
    | nil => rfl
    | cons a s ih => simp [Str.titleFrom, ih]
  refine ⟨hlen _ _, fun i hi => ?_⟩
  rw [titleFrom_get 32 s i hi]
  by_cases h0 : i = 0
  · subst h0; simp [wordByte]
  · simp [h0]

/-- Title-casing twice (as section titles are) is title-casing once. -/
theorem C25_title_idempotent (T : Text) (s : Bytes) (h : Str.isAscii s = true) :
    Str.title T (Str.title T s) = Str.title T s := by
  have h1 : ∀ (p q : UInt8) (s : Bytes), Str.isSepA p = Str.isSepA q →
      Str.titleFrom p (Str.titleFrom q s) = Str.titleFrom q s := by
    intro p q s
    induction s generalizing p q with
    | nil => intro _; rfl
    | cons a s ih =>
      intro hpq
      simp only [Str.titleFrom, hpq]
      by_cases hs : Str.isSepA q = true
      · simp only [hs, if_true, Str.upperByte_idem]
        rw [ih _ _ (Str.isSepA_upperByte a)]
      · simp only [hs, Bool.false_eq_true, if_false]
        rw [ih _ _ rfl]
  have ha : Str.isAscii (Str.titleFrom 32 s) = true := by
    rw [Str.isAscii_iff] at h ⊢
    have : ∀ (p : UInt8) (s : Bytes), (∀ b ∈ s, b < 128) → ∀ b ∈ Str.titleFrom p s, b < 128 := by
      intro p s
      induction s generalizing p with
      | nil => intro _ b hb; cases hb
      | cons a s ih =>
        intro hs b hb
        rcases List.mem_cons.1 hb with rfl | hb
        · split
          · exact Str.upperByte_ascii a (hs a (by simp))
          · exact hs a (by simp)
        · exact ih a (fun x hx => hs x (by simp [hx])) b hb
    exact this 32 s h
  unfold Str.title
  rw [if_pos h, if_pos ha]
  exact h1 32 32 s rfl

example : parseItemField Env.toy .doc false [(b!"value", .str b!"s3cret"), (b!"name", .str b!"user name")] =
    .ret (some ⟨b!"User Name", b!"s3cret"⟩) := by rfl
example : parseItemField Env.toy .doc false [(b!"value", .str []), (b!"name", .str b!"user name")] = .ret none := by rfl

/-! ### C26 -/

/-- C26. A section field is shown iff it has a value, and then as `ShownValue` says: unknown kinds verbatim,
the known kinds (in any letter case) formatted. -/
theorem C26_section_fields (E : Env) (O : MapOrder) (m : Members) (o : Option Field) :
    parseItemField E O true m = .ret o ↔ ShownField E m o := parseSectionField_ret

/-- C26, read off: a value of kind `k` with label `t`. -/
theorem C26_kinds (E : Env) (O : MapOrder) (m : Members) (k t : Bytes) (v : Json) (hv : LastEntry m b!"v" v)
    (hne : v ≠ .null) (hk : LastEntry m b!"k" (.str k)) (ht : LastEntry m b!"t" (.str t)) :
    (SameLetters E.text b!"date" k →
      parseItemField E O true m = .ret (some ⟨Str.title E.text t, DataType.parseDate E (Fmt.sprint E.flt v)⟩)) ∧
    (SameLetters E.text b!"monthYear" k →
      parseItemField E O true m = .ret (some ⟨Str.title E.text t, DataType.parseMonthYear (Fmt.sprint E.flt v)⟩)) ∧
    (∀ a out, SameLetters E.text b!"address" k → v = .obj a → AddressText a out →
      parseItemField E O true m = .ret (some ⟨Str.title E.text t, out⟩)) ∧
    (∀ s, ¬ SameLetters E.text b!"address" k → ¬ SameLetters E.text b!"date" k → ¬ SameLetters E.text b!"monthYear" k →
      v = .str s → parseItemField E O true m = .ret (some ⟨Str.title E.text t, s⟩)) := by
  refine ⟨fun h => ?_, fun h => ?_, fun a out h1 h2 h3 => ?_, fun s h1 h2 h3 h4 => ?_⟩ <;> rw [C26_section_fields]
  · exact .some hv hne hk (.date h) ht
  · exact .some hv hne hk (.monthYear h) ht
  · subst h2; exact .some hv hne hk (.address h1 h3) ht
  · subst h4; exact .some hv hne hk (.other h1 h2 h3) ht

/-- A field without value is not shown, whatever else it has. -/
theorem C26_no_value (E : Env) (O : MapOrder) (m : Members) (h : Absent m b!"v") :
    parseItemField E O true m = .ret none := (C26_section_fields E O m none).2 (.none h)

example : parseItemField Env.toy .doc true [(b!"k", .str b!"string"), (b!"t", .str b!"my label"), (b!"v", .str b!"x")] =
    .ret (some ⟨b!"My Label", b!"x"⟩) ∧
    parseItemField Env.toy .doc true [(b!"k", .str b!"MonthYear"), (b!"t", .str b!"expiry"), (b!"v", .num b!"201411")] =
    .ret (some ⟨b!"Expiry", b!"2014-11"⟩) := by constructor <;> decide +kernel

/-! ### C27 -/

/-- C27. The sections shown are those of `ShownSections`: the documents' sections in order without those that
have neither title nor shown field, the fields of each in order; without sections, the login fields. -/
theorem C27_sections (E : Env) (O : MapOrder) (m : Members) (l : List Section) :
    parseSections E O m = .ret l ↔ ShownSections E m l := parseSections_ret

/-- C27, read off: a section is dropped iff it has neither a title nor a shown field. -/
theorem C27_dropped_iff (E : Env) (m : Members) (o : Option Section) (h : ShownSection E m o) (fs : List Field)
    (hf : (Absent m b!"fields" ∧ fs = []) ∨ ∃ docs, LastEntry m b!"fields" (.arr docs) ∧ ShownList (ShownField E) docs fs)
    (t : Bytes) (ht : OptText m b!"title" t) (htitle : Str.title E.text t = [] ↔ t = []) :
    o = none ↔ fs = [] ∧ t = [] := by
  have huniq : ∀ docs fs fs', ShownList (ShownField E) docs fs → ShownList (ShownField E) docs fs' → fs = fs' := by
    intro docs fs fs' h1 h2
    have a := (parseFields_ret (E := E) (O := .doc) (fromSection := true)).2 h1
    have b := (parseFields_ret (E := E) (O := .doc) (fromSection := true)).2 h2
    simpa using a.symm.trans b
  obtain ⟨fs', t', h1, h2, h3⟩ := h
  have efs : fs' = fs := by
    rcases h1 with ⟨a, rfl⟩ | ⟨docs, a, b⟩
    · rcases hf with ⟨_, rfl⟩ | ⟨docs', a', _⟩
      · rfl
      · rw [absent_iff, field_of_last a'] at a; cases a
    · rcases hf with ⟨a', rfl⟩ | ⟨docs', a', b'⟩
      · rw [absent_iff, field_of_last a] at a'; cases a'
      · have := (field_of_last a).symm.trans (field_of_last a')
        cases this
        exact huniq _ _ _ b b'
  have et : t' = [] ↔ t = [] := by
    rcases h2 with ⟨a, rfl⟩ | ⟨t0, a, rfl⟩
    · rcases ht with ⟨_, rfl⟩ | a'
      · simp
      · rw [absent_iff, field_of_last a'] at a; cases a
    · rcases ht with ⟨a', rfl⟩ | a'
      · rw [absent_iff, field_of_last a] at a'; cases a'
      · have := (field_of_last a).symm.trans (field_of_last a')
        cases this
        exact htitle
  subst efs
  rcases h3 with ⟨h4, h5, rfl⟩ | ⟨h4, h5, rfl⟩ | ⟨h4, rfl⟩
  · simp [h4, et.1 h5]
  · simp [h4, mt et.2 h5]
  · simp [h4]

/-- The last hypothesis holds for all ASCII titles. -/
theorem title_nil_iff (T : Text) (t : Bytes) (h : Str.isAscii t = true) : Str.title T t = [] ↔ t = [] := by
  have := (C25_title_case T t h).1
  rw [← List.length_eq_zero_iff, this, List.length_eq_zero_iff]

example : parseSections Env.toy .doc [(b!"sections", .arr [
      .obj [(b!"title", .str []), (b!"fields", .arr [.obj [(b!"t", .str b!"no value")]])],
      .obj [(b!"title", .str b!"empty but titled")],
      .obj [(b!"fields", .arr [.obj [(b!"t", .str b!"a"), (b!"k", .str b!"string"), (b!"v", .str b!"1")],
        .obj [(b!"t", .str b!"b"), (b!"k", .str b!"string"), (b!"v", .str b!"2")]])]])] =
    .ret [⟨b!"Empty But Titled", none⟩, ⟨[], some [⟨b!"A", b!"1"⟩, ⟨b!"B", b!"2"⟩]⟩] := by decide +kernel

/-! ### C21, C28 -/

/-- A raw item as a vault writer makes it: overview and details documents, written down as texts (in the way `R` says),
packed and encoded. -/
structure WrittenAs (R : Bytes → Json → Prop) (E : Env) (keys : Keys) (r : RawItem) (overview details : Members) : Prop where
  overview : ∃ t tag iv pad, R t (.obj overview) ∧ Packable keys.overviewKey tag iv pad t ∧
    IsBase64 r.overview (pack E keys.overviewKey keys.overviewMac tag iv pad t)
  details : ∃ itemKey itemMac iv mac t tag iv' pad,
    itemKey.length = 32 ∧ itemMac.length = 32 ∧ iv.length = 16 ∧ mac.length = 32 ∧
    (keys.masterKey.length = 16 ∨ keys.masterKey.length = 24 ∨ keys.masterKey.length = 32) ∧
    IsBase64 r.keys (keyBlob E keys.masterKey iv itemKey itemMac mac) ∧
    R t (.obj details) ∧ Packable itemKey tag iv' pad t ∧
    IsBase64 r.details (pack E itemKey itemMac tag iv' pad t)

/-- A raw item as a conforming vault writer makes it: the texts are JSON, without a number beyond the range of float64. -/
abbrev Written : Env → Keys → RawItem → Members → Members → Prop := WrittenAs Json.ReadR

/-- `i` shows what was written into `r`. -/
structure Shows (E : Env) (overview details : Members) (r : RawItem) (i : Item) : Prop where
  uid : i.uid = r.uid
  trashed : i.trashed = r.trashed
  created : i.created = r.created
  updated : i.updated = r.updated
  category : i.category.code = r.category ∧ (i.category.code, i.category.name) ∈ Spec.categories
  title : OptText overview b!"title" i.title
  url : OptText overview b!"url" i.url
  notes : OptText details b!"notesPlain" i.notes
  sections : ∃ l, ShownSections E details l ∧ i.sections = if l = [] then none else some l

theorem unmarshalQuiet_doc {t : Bytes} {m : Members} (h : Json.ReadR t (.obj m)) : unmarshalQuiet (.ok t) = m := by
  simp [unmarshalQuiet, Json.unmarshalMap_read h]

/-- Of a document with numbers beyond the range of float64, the rest is kept. -/
theorem unmarshalQuiet_clip {t : Bytes} {m : Members} (h : Json.DocR t (.obj m)) : unmarshalQuiet (.ok t) = Json.clipM m := by
  simp [unmarshalQuiet, Json.unmarshalMap, Json.parse_complete h]

theorem overview_as {R : Bytes → Json → Prop} {f : Members → Members}
    (hR : ∀ t m, R t (.obj m) → unmarshalQuiet (.ok t) = f m) {E : Env} {keys : Keys} {r : RawItem} {ov de : Members}
    (h : WrittenAs R E keys r ov de) : decodeOverview E r keys = .ret (f ov) := by
  obtain ⟨t, tag, iv, pad, h1, h2, h3⟩ := h.overview
  have hd := decodeString_of h3
  unfold decodeOverview
  simp only [C01_opdata_round_trip E _ (B64.decodeString_wf _) _ _ tag iv pad t h2 hd.1, Out.ret_bind,
    hR _ _ h1, Out.pure_eq]

theorem details_as {R : Bytes → Json → Prop} {f : Members → Members}
    (hR : ∀ t m, R t (.obj m) → unmarshalQuiet (.ok t) = f m) {E : Env} {keys : Keys} {r : RawItem} {ov de : Members}
    (h : WrittenAs R E keys r ov de) : decodeDetails E r keys = .ret (f de) := by
  obtain ⟨ik, im, iv, mac, t, tag, iv', pad, l1, l2, l3, l4, l5, hk, h1, h2, h3⟩ := h.details
  have hd := decodeString_of h3
  unfold decodeDetails
  simp only [C06_item_keys_round_trip E _ iv ik im mac _ l5 l3 l1 l2 l4 hk, Out.ret_bind,
    C01_opdata_round_trip E _ (B64.decodeString_wf _) _ _ tag iv' pad t h2 hd.1,
    hR _ _ h1, Out.pure_eq]

theorem written_overview {E : Env} {keys : Keys} {r : RawItem} {ov de : Members} (h : Written E keys r ov de) :
    decodeOverview E r keys = .ret ov := overview_as (f := id) (fun _ _ => unmarshalQuiet_doc) h

theorem written_details {E : Env} {keys : Keys} {r : RawItem} {ov de : Members} (h : Written E keys r ov de) :
    decodeDetails E r keys = .ret de := details_as (f := id) (fun _ _ => unmarshalQuiet_doc) h

theorem nilIfEmpty_eq {α : Type} [DecidableEq (List α)] (l : List α) : nilIfEmpty l = if l = [] then none else some l := by
  cases l <;> simp [nilIfEmpty]

/-- Decoding an item with these documents inside. -/
theorem decodeItem_docs {E : Env} {O : MapOrder} {reg : List Cat} (hreg : reg.Perm Cat.values) {keys : Keys}
    {r : RawItem} {ov de : Members} (ho : decodeOverview E r keys = .ret ov) (hd : decodeDetails E r keys = .ret de)
    (hk : Known r) (i : Item) : decodeItem E O reg keys r = .ret (some i) ↔ Shows E ov de r i := by
  obtain ⟨c, hc, hcode, hmem⟩ := (fromCode_known hreg r).1 hk
  unfold decodeItem
  simp only [hc, ho, hd, Out.ret_bind, Out.bind_eq_ret, parseSections_ret,
    optStr_ret, Out.pure_eq, Out.ret.injEq, Option.some.injEq]
  constructor
  · rintro ⟨secs, h1, title, h2, url, h3, notes, h4, rfl⟩
    exact ⟨rfl, rfl, rfl, rfl, ⟨hcode, hmem⟩, h2, h3, h4, secs, h1, nilIfEmpty_eq secs⟩
  · intro h
    obtain ⟨secs, h1, h2⟩ := h.sections
    refine ⟨secs, h1, i.title, h.title, i.url, h.url, i.notes, h.notes, ?_⟩
    have hcat : i.category = c := by
      obtain ⟨h3, h4⟩ := h.category
      obtain ⟨l1, -⟩ := C38_lookup E.text reg hreg
      have h5 : i.category ∈ Cat.values := by
        rw [← C38_categories.mem_iff, List.mem_map] at h4
        obtain ⟨c', h6, h7⟩ := h4
        have : c' = i.category := by
          cases c'; cases hi : i.category; simp_all
        exact this ▸ h6
      have := (l1 r.category i.category).2 ⟨h5, h3⟩
      rw [hc] at this
      simpa using this.symm
    cases i
    simp_all [h.uid, h.trashed, h.created, h.updated, nilIfEmpty_eq]
    exact ⟨h.created.symm, h.trashed.symm, h.uid.symm, h.updated.symm⟩

/-- C21. For a written item of known category: what is decoded is what was written, and nothing else. -/
theorem C21_written_item (E : Env) (O : MapOrder) (reg : List Cat) (hreg : reg.Perm Cat.values) (keys : Keys)
    (r : RawItem) (ov de : Members) (hw : Written E keys r ov de) (hk : Known r) (i : Item) :
    decodeItem E O reg keys r = .ret (some i) ↔ Shows E ov de r i :=
  decodeItem_docs hreg (written_overview hw) (written_details hw) hk i

/-- C21 for a whole vault of written items: the items shown are, in order, those of a known category. -/
theorem C21_written_vault (E : Env) (O : MapOrder) (reg : List Cat) (hreg : reg.Perm Cat.values) (keys : Keys)
    (raw : List RawItem) (docs : RawItem → Members × Members)
    (hw : ∀ r ∈ raw, Known r → Written E keys r (docs r).1 (docs r).2) (items : List Item) :
    decodeItems E O reg keys raw = .ret items ↔
      List.Forall₂ (fun r i => Shows E (docs r).1 (docs r).2 r i) (raw.filter (fun r => decide (Known r))) items := by
  rw [decodeItems_ret hreg]
  have hk : ∀ r ∈ raw.filter (fun r => decide (Known r)), r ∈ raw ∧ Known r := by
    intro r hr; simpa using List.mem_filter.1 hr
  generalize raw.filter (fun r => decide (Known r)) = l at hk
  induction l generalizing items with
  | nil => constructor <;> (intro h; cases h; exact .nil)
  | cons r l ih =>
    have hr := hk r (by simp)
    have h1 := fun i => C21_written_item E O reg hreg keys r _ _ (hw r hr.1 hr.2) hr.2 i
    have h2 := fun items => ih items (fun x hx => hk x (by simp [hx]))
    constructor
    · intro h; cases h with
      | cons a b => exact .cons ((h1 _).1 a) ((h2 _).1 b)
    · intro h; cases h with
      | cons a b => exact .cons ((h1 _).2 a) ((h2 _).2 b)

/-- The documents have values of the expected types. -/
def Conforms (E : Env) (overview details : Members) : Prop :=
  (∃ s, OptText overview b!"title" s) ∧ (∃ s, OptText overview b!"url" s) ∧ (∃ s, OptText details b!"notesPlain" s) ∧
  ∃ l, ShownSections E details l

/-- C28, the part that holds: items written with documents of the expected types are all decoded. -/
theorem C28_conforming_decodes_partial (E : Env) (O : MapOrder) (reg : List Cat) (hreg : reg.Perm Cat.values)
    (keys : Keys) (raw : List RawItem) (docs : RawItem → Members × Members)
    (hw : ∀ r ∈ raw, Known r → Written E keys r (docs r).1 (docs r).2 ∧ Conforms E (docs r).1 (docs r).2) :
    ∃ items, decodeItems E O reg keys raw = .ret items ∧
      items.length = (raw.filter (fun r => decide (Known r))).length := by
  have hk : ∀ r ∈ raw.filter (fun r => decide (Known r)), r ∈ raw ∧ Known r := by
    intro r hr; simpa using List.mem_filter.1 hr
  have : ∃ items, List.Forall₂ (fun r i => Shows E (docs r).1 (docs r).2 r i)
      (raw.filter (fun r => decide (Known r))) items := by
    generalize raw.filter (fun r => decide (Known r)) = l at hk
    induction l with
    | nil => exact ⟨[], .nil⟩
    | cons r l ih =>
      obtain ⟨items, hi⟩ := ih (fun x hx => hk x (by simp [hx]))
      obtain ⟨h1, h2⟩ := hk r (by simp)
      obtain ⟨-, ⟨t, ht⟩, ⟨u, hu⟩, ⟨n, hn⟩, secs, hs⟩ := hw r h1 h2
      obtain ⟨c, hc, hcode, hmem⟩ := (fromCode_known hreg r).1 h2
      refine ⟨⟨c, r.created, n, t, r.trashed, if secs = [] then none else some secs, r.uid, u, r.updated⟩ :: items,
        .cons ⟨rfl, rfl, rfl, rfl, ⟨hcode, hmem⟩, ht, hu, hn, secs, hs, rfl⟩ hi⟩
  obtain ⟨items, hi⟩ := this
  exact ⟨items, (C21_written_vault E O reg hreg keys raw docs (fun r h1 h2 => (hw r h1 h2).1) items).2 hi,
    hi.length_eq.symm⟩

/-- C28, exactly when it fails: a written item whose documents do not have the expected types crashes the
program as soon as it is opened. -/
theorem C28_crash_iff (E : Env) (O : MapOrder) (reg : List Cat) (hreg : reg.Perm Cat.values) (keys : Keys)
    (r : RawItem) (ov de : Members) (hw : Written E keys r ov de) (hk : Known r) :
    (∃ x, decodeItem E O reg keys r = .ret x) ↔ Conforms E ov de := by
  obtain ⟨c, hc, hcode, hmem⟩ := (fromCode_known hreg r).1 hk
  constructor
  · rintro ⟨x, hx⟩
    cases x with
    | none => have := decodeItem_none hx; rw [hc] at this; cases this
    | some i =>
      have h := (C21_written_item E O reg hreg keys r ov de hw hk i).1 hx
      obtain ⟨l, hl, -⟩ := h.sections
      exact ⟨⟨_, h.title⟩, ⟨_, h.url⟩, ⟨_, h.notes⟩, l, hl⟩
  · rintro ⟨⟨t, ht⟩, ⟨u, hu⟩, ⟨n, hn⟩, secs, hs⟩
    exact ⟨some ⟨c, r.created, n, t, r.trashed, if secs = [] then none else some secs, r.uid, u, r.updated⟩,
      (C21_written_item E O reg hreg keys r ov de hw hk _).2
        ⟨rfl, rfl, rfl, rfl, ⟨hcode, hmem⟩, ht, hu, hn, secs, hs, rfl⟩⟩

namespace ItemDemo
open Json

def keys : Keys := ⟨List.replicate 32 1, List.replicate 32 2, List.replicate 32 3, List.replicate 32 4,
  List.replicate 32 5, List.replicate 32 6⟩

/-- Padding in front that fills up a block. -/
def padOf (n : Nat) : Bytes := List.replicate ((16 - n % 16) % 16) 7

/-- A raw item written with the given documents, for any primitives. -/
def write (E : Env) (ov de : Members) : RawItem :=
  { category := b!"001", created := 1, updated := 2, trashed := false, uid := b!"U", hmac := []
    overview := B64.encode (pack E keys.overviewKey keys.overviewMac b!"opdata01" (List.replicate 16 9)
      (padOf (render (.obj ov)).length) (render (.obj ov)))
    keys := B64.encode (keyBlob E keys.masterKey (List.replicate 16 8) (List.replicate 32 10) (List.replicate 32 11)
      (List.replicate 32 0))
    details := B64.encode (pack E (List.replicate 32 10) (List.replicate 32 11) b!"opdata01" (List.replicate 16 9)
      (padOf (render (.obj de)).length) (render (.obj de))) }

theorem packable (key p : Bytes) (hk : key.length = 32) (hp : p.length < 9223372036854775808) :
    Packable key b!"opdata01" (List.replicate 16 9) (padOf p.length) p where
  key_size := .inr (.inr hk)
  tag_len := rfl
  iv_len := by simp
  blocks := by simp [padOf]; omega
  fits := hp

theorem write_written (E : Env) (ov de : Members) (ho : Plain maxDepth (.obj ov)) (hd : Plain maxDepth (.obj de))
    (lo : (render (.obj ov)).length < 9223372036854775808) (ld : (render (.obj de)).length < 9223372036854775808) :
    Written E keys (write E ov de) ov de where
  overview := ⟨_, _, _, _, render_doc ho, packable _ _ (by simp [keys]) lo, isBase64_encode _⟩
  details := ⟨List.replicate 32 10, List.replicate 32 11, List.replicate 16 8, List.replicate 32 0, _, _, _, _,
    by simp, by simp, by simp, by simp, by simp [keys], isBase64_encode _, render_doc hd,
    packable _ _ (by simp) ld, isBase64_encode _⟩

def ov : Members := [(b!"title", .str b!"My \"bank\""), (b!"url", .str b!"http://b/")]
def de : Members := [(b!"notesPlain", .str b!"line 1\nline 2"),
  (b!"fields", .arr [.obj [(b!"name", .str b!"username"), (b!"value", .str b!"joe")],
    .obj [(b!"name", .str b!"password"), (b!"value", .str b!"pw")]])]
/-- A number where a string is expected. -/
def odd : Members := [(b!"fields", .arr [.obj [(b!"name", .str b!"pin"), (b!"value", .num b!"4")]])]

theorem ov_plain : Plain maxDepth (.obj ov) := by
  simp [ov, Plain, PlainM, Str.isAscii, maxDepth]
theorem de_plain : Plain maxDepth (.obj de) := by
  simp [de, Plain, PlainM, PlainL, Str.isAscii, maxDepth]
theorem odd_plain : Plain maxDepth (.obj odd) := by
  have := numR_digit 52 (by decide)
  simp [odd, Plain, PlainM, PlainL, Str.isAscii, maxDepth, this]

theorem written (E : Env) : Written E keys (write E ov de) ov de :=
  write_written E ov de ov_plain de_plain (by decide +kernel) (by decide +kernel)

theorem writtenOdd (E : Env) : Written E keys (write E ov odd) ov odd :=
  write_written E ov odd ov_plain odd_plain (by decide +kernel) (by decide +kernel)

/-- What the user sees of the demo item. -/
def shown : Item :=
  { category := .login, created := 1, updated := 2, trashed := false, uid := b!"U"
    title := b!"My \"bank\"", url := b!"http://b/", notes := b!"line 1\nline 2"
    sections := some [⟨[], some [⟨b!"Username", b!"joe"⟩, ⟨b!"Password", b!"pw"⟩]⟩] }

example : decodeItem Env.toy .doc Cat.values keys (write Env.toy ov de) = .ret (some shown) := by decide +kernel

theorem odd_crashes (E : Env) (O : MapOrder) : parseSections E O odd = .panic := by rfl

end ItemDemo

/-- The wish: opening items never crashes. -/
def C28_wish (E : Env) : Prop := ∀ O keys raw ov de, (∀ r ∈ raw, Written E keys r ov de) →
  ∃ items, decodeItems E O Cat.values keys raw = .ret items

/-- C28 fails, whatever the primitives: a numeric value in a login field crashes the program. -/
theorem C28_refuted (E : Env) : ¬ C28_wish E := by
  intro h
  obtain ⟨items, hi⟩ := h .doc ItemDemo.keys [ItemDemo.write E ItemDemo.ov ItemDemo.odd] ItemDemo.ov ItemDemo.odd
    (by intro r hr; rw [List.mem_singleton] at hr; subst hr; exact ItemDemo.writtenOdd E)
  have hk : Known (ItemDemo.write E ItemDemo.ov ItemDemo.odd) := ⟨_, List.mem_cons_self, rfl⟩
  have hw := ItemDemo.writtenOdd E
  rw [decodeItems_ret (.refl _), List.filter_cons_of_pos (by simpa using hk)] at hi
  cases hi with
  | cons h1 _ =>
    obtain ⟨-, -, -, l, hl⟩ := (C28_crash_iff E .doc Cat.values (.refl _) _ _ _ _ hw hk).1 ⟨_, h1⟩
    have := (parseSections_ret (O := .doc)).2 hl
    rw [ItemDemo.odd_crashes] at this
    cases this

/-! ### C23 -/

/-- C23 fails in general: whatever is put into the attributes of an item, and whatever its hmac, the altered
copy is decoded, with the altered attributes and the same contents. -/
theorem C23_not_detected (E : Env) (O : MapOrder) (reg : List Cat) (hreg : reg.Perm Cat.values) (keys : Keys)
    (r r' : RawItem) (i : Item) (h : decodeItem E O reg keys r = .ret (some i))
    (ho : r'.overview = r.overview) (hd : r'.details = r.details) (hk : r'.keys = r.keys) (hc : Known r') :
    ∃ i', decodeItem E O reg keys r' = .ret (some i') ∧ i'.title = i.title ∧ i'.url = i.url ∧ i'.notes = i.notes ∧
      i'.sections = i.sections ∧ i'.trashed = r'.trashed ∧ i'.created = r'.created ∧ i'.updated = r'.updated ∧
      i'.uid = r'.uid ∧ i'.category.code = r'.category := by
  obtain ⟨c', hc', hcode', -⟩ := (fromCode_known hreg r').1 hc
  unfold decodeItem at h ⊢
  have e1 : decodeOverview E r' keys = decodeOverview E r keys := by simp [decodeOverview, ho]
  have e2 : decodeDetails E r' keys = decodeDetails E r keys := by simp [decodeDetails, hd, hk]
  split at h
  · simp at h
  · simp only [Out.bind_eq_ret, Out.pure_eq, Out.ret.injEq, Option.some.injEq] at h
    obtain ⟨ov, h1, de, h2, secs, h3, t, h4, u, h5, n, h6, rfl⟩ := h
    simp only [hc', e1, e2, h1, h2, h3, h4, h5, h6, Out.ret_bind, Out.pure_eq, Out.ret.injEq, Option.some.injEq,
      exists_eq_left']
    exact ⟨trivial, trivial, trivial, trivial, trivial, trivial, trivial, trivial, hcode'⟩

/-- C23, blobs: the details (with their keys) of any item can be put under the overview of any other. -/
theorem C23_swapped_blobs (E : Env) (O : MapOrder) (reg : List Cat) (keys : Keys) (r s : RawItem) (i j : Item)
    (hr : decodeItem E O reg keys r = .ret (some i)) (hs : decodeItem E O reg keys s = .ret (some j)) :
    decodeItem E O reg keys { r with details := s.details, keys := s.keys } =
      .ret (some { i with notes := j.notes, sections := j.sections }) := by
  unfold decodeItem at hr hs ⊢
  split at hr
  · simp at hr
  · split at hs
    · simp at hs
    · rename_i c1 hc1 _ c2 hc2
      simp only [Out.bind_eq_ret, Out.pure_eq, Out.ret.injEq, Option.some.injEq] at hr hs
      obtain ⟨ov, h1, de, h2, secs, h3, t, h4, u, h5, n, h6, rfl⟩ := hr
      obtain ⟨ov', h1', de', h2', secs', h3', t', h4', u', h5', n', h6', rfl⟩ := hs
      have e1 : decodeOverview E { r with details := s.details, keys := s.keys } keys = .ret ov := h1
      have e2 : decodeDetails E { r with details := s.details, keys := s.keys } keys = .ret de' := h2'
      simp only [hc1, e1, e2, h3', h4, h5, h6', Out.ret_bind, Out.pure_eq]

/-- The wish: of two raw items with the same UID and the same hmac that are both accepted, the attributes agree. -/
def C23_wish (E : Env) : Prop := ∀ O keys r r' i i', r.uid = r'.uid → r.hmac = r'.hmac →
  decodeItem E O Cat.values keys r = .ret (some i) → decodeItem E O Cat.values keys r' = .ret (some i') →
  i.trashed = i'.trashed ∧ i.category = i'.category ∧ i.created = i'.created ∧ i.updated = i'.updated

/-- C23 fails, whatever the primitives. -/
theorem C23_refuted (E : Env) : ¬ C23_wish E := by
  intro h
  have hk : Known (ItemDemo.write E ItemDemo.ov ItemDemo.de) := ⟨_, List.mem_cons_self, rfl⟩
  have hconf : Conforms E ItemDemo.ov ItemDemo.de := by
    refine ⟨⟨_, optStr_ret.1 rfl⟩, ⟨_, optStr_ret.1 rfl⟩, ⟨_, optStr_ret.1 rfl⟩, ?_⟩
    exact ⟨_, (parseSections_ret (O := .doc)).1 rfl⟩
  obtain ⟨x, hx⟩ := (C28_crash_iff E .doc Cat.values (.refl _) _ _ _ _ (ItemDemo.written E) hk).2 hconf
  cases x with
  | none =>
    have := decodeItem_none hx
    obtain ⟨c, hc, -⟩ := (fromCode_known (.refl _) _).1 hk
    rw [hc] at this; cases this
  | some i =>
    obtain ⟨i', h1, -, -, -, -, h2, -⟩ := C23_not_detected E .doc Cat.values (.refl _) _ _
      { ItemDemo.write E ItemDemo.ov ItemDemo.de with trashed := true } i hx rfl rfl rfl hk
    have h3 := (h .doc _ (ItemDemo.write E ItemDemo.ov ItemDemo.de)
      { ItemDemo.write E ItemDemo.ov ItemDemo.de with trashed := true } i i' rfl rfl hx h1).1
    rw [h2, (decodeItem_some hx).2.2.1] at h3
    cases h3

/-- C23, the part that holds: the contents shown are authenticated (see C22), the attributes are merely copied. -/
theorem C23_contents_authenticated_partial (E : Env) (O : MapOrder) (reg : List Cat) (hreg : reg.Perm Cat.values)
    (keys : Keys) (r : RawItem) (i : Item) (hk : Known r) (h : decodeItem E O reg keys r = .ret (some i)) :
    (i.title ≠ [] ∨ i.url ≠ [] → Authentic E keys.overviewMac (B64.decodeString r.overview).1.data) ∧
    (i.notes ≠ [] ∨ i.sections ≠ none → ∃ itemKey itemMac, Key.itemKeys E r.keys keys.masterKey = .ret (itemKey, itemMac) ∧
      Authentic E itemMac (B64.decodeString r.details).1.data) := by
  have h0 : decodeItems E O reg keys [r] = .ret [i] := by simp [decodeItems, Out.mapL, h, keepSome]
  have hf := C22_no_unauthenticated_content E O reg hreg keys [r] [i] h0
  rw [List.filter_cons_of_pos (by simpa using hk)] at hf
  cases hf with
  | cons hc _ =>
    refine ⟨fun hne => ?_, fun hne => ?_⟩
    · by_contra hna
      obtain ⟨h1, h2⟩ := hc.1 hna
      simp [h1, h2] at hne
    · have hik : ∃ k, Key.itemKeys E r.keys keys.masterKey = .ret k := by
        unfold decodeItem decodeDetails at h
        split at h
        · simp at h
        · simp only [Out.bind_eq_ret] at h
          obtain ⟨_, _, _, ⟨k, hk, _⟩, _⟩ := h
          exact ⟨k, hk⟩
      obtain ⟨⟨ik, im⟩, hk'⟩ := hik
      refine ⟨ik, im, hk', ?_⟩
      by_contra hna
      obtain ⟨h1, h2⟩ := hc.2 ik im hk' hna
      simp [h1, h2] at hne

/-! ### C29 -/

/-- C29. An address of string entries is shown as one line per key, keys ascending, values trimmed and on one
line, in every map order; an entry that is no string crashes the program. -/
theorem C29_address (O : MapOrder) (a : Members) :
    (∀ out, DataType.parseAddress O a = .ret out ↔ AddressText a out) ∧
    ((∀ k v, LastEntry a k v → ∃ s, v = .str s) → ∃ out, DataType.parseAddress O a = .ret out) ∧
    (∀ k v, LastEntry a k v → (∀ s, v ≠ .str s) → DataType.parseAddress O a = .panic) := by
  refine ⟨fun out => parseAddress_ret, fun hs => ?_, fun k v hk hv => ?_⟩
  · obtain ⟨hk1, hk2⟩ := (sorted_keys (O := O) (m := a)).1 rfl
    generalize hks : sortStrings ((O.run (Json.entries a)).map (·.1)) = ks at hk1 hk2
    have : ∃ kvs : List (Bytes × Bytes), kvs.map (·.1) = ks ∧ ∀ kv ∈ kvs, LastEntry a kv.1 (.str kv.2) := by
      have hall : ∀ k ∈ ks, ∃ v, LastEntry a k v := fun k hk => (hk2 k).1 hk
      clear hks hk1 hk2
      induction ks with
      | nil => exact ⟨[], rfl, by simp⟩
      | cons k ks ih =>
        obtain ⟨kvs, h1, h2⟩ := ih (fun x hx => hall x (by simp [hx]))
        obtain ⟨v, hv⟩ := hall k (by simp)
        obtain ⟨s, rfl⟩ := hs k v hv
        refine ⟨(k, s) :: kvs, by simp [h1], ?_⟩
        intro kv hkv
        rcases List.mem_cons.1 hkv with rfl | hkv
        · exact hv
        · exact h2 kv hkv
    obtain ⟨kvs, h1, h2⟩ := this
    exact ⟨_, parseAddress_ret.2 ⟨kvs, h1 ▸ hk1, by rw [h1]; exact hk2, h2, rfl⟩⟩
  · unfold DataType.parseAddress
    have hm : k ∈ sortStrings ((O.run (Json.entries a)).map (·.1)) := by
      rw [(sorted_keys (O := O) (m := a)).1 rfl |>.2 k]; exact ⟨v, hk⟩
    have hnf : ∀ x, DataType.addressLine a x ≠ .fatal := by
      intro x; unfold DataType.addressLine; split <;> simp
    simp only [mapL_panic (fun x _ => hnf x) ⟨k, hm, fun y hy => by
      unfold DataType.addressLine at hy
      rw [field_of_last hk] at hy
      cases v with
      | str s => exact hv s rfl
      | _ => cases hy⟩, Out.panic_bind]

example : DataType.parseAddress .rev [(b!"zip", .str b!" 12345 "), (b!"city", .str b!"New\nYork")] =
    .ret b!"\n  city: New York\n  zip: 12345" := by decide +kernel

/-! ### C30 -/

/-- The date shown for a Unix time in the local zone. -/
def DateText (E : Env) (t : Int) (out : Bytes) : Prop :=
  ∃ d : Time.Date, ValidDate d ∧ dayNumber d = (t + E.zone t) / 86400 ∧ out = Time.formatDate d

/-- The times for which the calendar of package `time` is not overrun. -/
def InCalendar (E : Env) (t : Int) : Prop :=
  -9223372028715321600 ≤ t + E.zone t ∧ t + E.zone t < 9223372036854775808

theorem formatUnix_date (E : Env) (t : Int) (h : InCalendar E t) : DateText E t (Time.formatUnix t (E.zone t)) := by
  obtain ⟨h1, h2⟩ := Time.absDate_spec (Time.absSec t (E.zone t))
  refine ⟨_, h1, ?_, rfl⟩
  rw [h2, Time.absSec_div t _ h.1 h.2]

/-- There is one date only. -/
theorem DateText.unique {E : Env} {t : Int} {a b : Bytes} (ha : DateText E t a) (hb : DateText E t b) : a = b := by
  obtain ⟨d, h1, h2, rfl⟩ := ha
  obtain ⟨d', h1', h2', rfl⟩ := hb
  rw [Time.dayNumber_inj d d' h1 h1' (h2.trans h2'.symm)]

/-- C30, the part that holds: a decimal string, and a JSON number of at most six digits, show the calendar
date of that time. -/
theorem C30_date_partial (E : Env) (t : Int) (hlo : -9223372036854775808 ≤ t) (hhi : t < 9223372036854775808)
    (hc : InCalendar E t) (k : Bytes) (hk : SameLetters E.text b!"date" k) (out : Bytes) :
    (ShownValue E k (.str (Num.intDec t)) out ↔ DateText E t out) ∧
    (-1000000 < t → t < 1000000 → (ShownValue E k (.num (Num.intDec t)) out ↔ DateText E t out)) := by
  obtain ⟨d1, d2, d3, -⟩ := C39_data_types E.text k
  have na : ¬ SameLetters E.text b!"address" k := fun h => by rw [d1.2 h] at d2; have := d2.2 hk; cases this
  have nm : ¬ SameLetters E.text b!"monthYear" k := fun h => by rw [d3.2 h] at d2; have := d2.2 hk; cases this
  have hval : DateText E t (Time.formatUnix t (E.zone t)) := formatUnix_date E t hc
  have main : ∀ v, Fmt.sprint E.flt v = Num.intDec t → (ShownValue E k v out ↔ DateText E t out) := by
    intro v hv
    have hp : DataType.parseDate E (Fmt.sprint E.flt v) = Time.formatUnix t (E.zone t) := by
      unfold DataType.parseDate
      rw [hv, Num.parseInt_intDec t hlo hhi]
    constructor
    · intro h
      cases h with
      | address h _ => exact absurd h na
      | date _ => rw [hp]; exact hval
      | monthYear h => exact absurd h nm
      | other _ h _ => exact absurd hk h
    · intro h
      rw [h.unique hval, ← hp]
      exact .date hk
  refine ⟨main _ rfl, fun h1 h2 => main _ ?_⟩
  show E.flt.sprint (Num.intDec t) = _
  rw [E.flt.sprint_dec t (by omega) (by omega)]
  unfold Num.sprintFloatInt Num.intDec
  have hl : (Num.natDec t.natAbs).length ≤ 6 := by
    have : ∀ (j n : Nat), n < 10 ^ (j + 1) → (Num.natDec n).length ≤ j + 1 := by
      intro j
      induction j with
      | zero => intro n hn; rw [Num.natDec_lt (by simpa using hn)]; simp
      | succ j ih =>
        intro n hn
        by_cases h10 : n < 10
        · rw [Num.natDec_lt h10]; simp
        · rw [Num.natDec_ge (by omega)]
          have := ih (n / 10) (by rw [Nat.div_lt_iff_lt_mul (by omega)]; rw [Nat.pow_succ] at hn; omega)
          simp; omega
    exact this 5 _ (by simp; omega)
  simp [hl]

/-- The wish: a JSON number shows its date too. -/
def C30_wish (E : Env) : Prop := ∀ t : Int, 0 ≤ t → t < 9007199254740992 → InCalendar E t →
  ∀ out, ShownValue E b!"date" (.num (Num.intDec t)) out → DateText E t out

theorem natDec_length_ge (j n : Nat) (h : 10 ^ j ≤ n) : j + 1 ≤ (Num.natDec n).length := by
  induction j generalizing n with
  | zero => have := Num.natDec_ne_nil n; have := List.length_pos_iff.2 this; omega
  | succ j ih =>
    have h10 : 10 ≤ n := by
      have := Nat.one_le_two_pow (n := j)
      have h1 : 1 ≤ 10 ^ j := Nat.one_le_pow _ _ (by omega)
      rw [Nat.pow_succ] at h; omega
    rw [Num.natDec_ge h10]
    have := ih (n / 10) (by rw [Nat.le_div_iff_mul_le (by omega)]; rw [Nat.pow_succ] at h; omega)
    simp; omega

/-- A digit string with a byte that is no digit within the first two places is no number. -/
theorem parseDigits_second (d x : UInt8) (r : Bytes) (hd : Str.isDigitA d = true) (hx : Str.isDigitA x = false) :
    Num.parseDigits 0 (d :: x :: r) = .syntaxErr := by
  have h : (d.toNat - 48) ≤ Num.maxUint64 := by
    have := d.toNat_lt
    simp [Num.maxUint64]; omega
  have h' : ¬ Num.maxUint64 < d.toNat - 48 := by omega
  simp [Num.parseDigits, hd, hx, h']

/-- A JSON number of seven or more digits is not read as a number. -/
theorem parseInt_sprint (n : Int) (h : 1000000 ≤ n) : (Num.parseInt (Num.sprintFloatInt n)).1 = 0 := by
  have hl := natDec_length_ge 6 n.natAbs (by simp; omega)
  have hdig := Num.natDec_digits n.natAbs
  have hn : ¬ n < 0 := by omega
  -- the mantissa digits
  obtain ⟨d, rest, hm⟩ : ∃ d rest, Num.trimZeros (Num.natDec n.natAbs) = d :: rest ∧ Str.isDigitA d = true := by
    have hz : ∀ m : Nat, 0 < m → ∃ x ∈ Num.natDec m, x ≠ 48 := by
      intro m
      induction m using Nat.strongRecOn with
      | _ m ih =>
        intro hm
        by_cases h10 : m < 10
        · rw [Num.natDec_lt h10]
          refine ⟨_, List.mem_singleton_self _, ?_⟩
          intro he
          have := Num.digit_toNat h10
          rw [he] at this
          simp at this; omega
        · rw [Num.natDec_ge (by omega)]
          obtain ⟨x, hx, hne⟩ := ih (m / 10) (by omega) (by omega)
          exact ⟨x, by simp [hx], hne⟩
    obtain ⟨x, hx, hne⟩ := hz n.natAbs (by omega)
    have hne' : Num.trimZeros (Num.natDec n.natAbs) ≠ [] := by
      unfold Num.trimZeros
      intro he
      rw [List.reverse_eq_nil_iff, List.dropWhile_eq_nil_iff] at he
      have := he x (by simpa using hx)
      simp at this; exact hne this
    cases ht : Num.trimZeros (Num.natDec n.natAbs) with
    | nil => exact absurd ht hne'
    | cons d rest =>
      refine ⟨d, rest, rfl, hdig d ?_⟩
      have : d ∈ Num.trimZeros (Num.natDec n.natAbs) := by rw [ht]; simp
      unfold Num.trimZeros at this
      rw [List.mem_reverse] at this
      have := (List.dropWhile_sublist _).subset this
      simpa using this
  obtain ⟨hm, hd⟩ := hm
  have hd48 : d ≠ 43 ∧ d ≠ 45 := by
    constructor <;> (rintro rfl; revert hd; decide)
  have key : ∃ x r, Num.sprintFloatInt n = d :: x :: r ∧ Str.isDigitA x = false := by
    unfold Num.sprintFloatInt
    rw [if_neg hn, if_neg (by omega), hm]
    cases rest with
    | nil => exact ⟨101, 43 :: Num.expDec ((Num.natDec n.natAbs).length - 1), rfl, by decide⟩
    | cons a rest => exact ⟨46, _, rfl, by decide⟩
  obtain ⟨x, r, he, hx⟩ := key
  rw [he]
  unfold Num.parseInt
  split
  rename_i neg body hmatch
  have hb : neg = false ∧ body = d :: x :: r := by
    split at hmatch
    · rename_i h0; cases h0; exact absurd rfl hd48.1
    · rename_i h0; cases h0; exact absurd rfl hd48.2
    · cases hmatch; exact ⟨rfl, rfl⟩
  obtain ⟨rfl, rfl⟩ := hb
  simp [Num.parseUint, parseDigits_second d x r hd hx]

/-- C30, what happens to a JSON number of seven or more digits: the date of the Unix time 0 is shown. -/
theorem C30_large_numbers (E : Env) (t : Int) (h1 : 1000000 ≤ t) (h2 : t ≤ 9007199254740992) (out : Bytes) :
    ShownValue E b!"date" (.num (Num.intDec t)) out ↔ out = Time.formatUnix 0 (E.zone 0) := by
  have hs : Fmt.sprint E.flt (.num (Num.intDec t)) = Num.sprintFloatInt t := by
    rw [Fmt.sprint]; exact E.flt.sprint_dec t (by omega) h2
  have hp : DataType.parseDate E (Fmt.sprint E.flt (.num (Num.intDec t))) = Time.formatUnix 0 (E.zone 0) := by
    unfold DataType.parseDate; rw [hs, parseInt_sprint t h1]
  obtain ⟨d1, d2, d3, -⟩ := C39_data_types E.text b!"date"
  have hd := d2.2 rfl
  constructor
  · intro h
    cases h with
    | date _ => exact hp
    | monthYear h => have := d3.2 h; rw [hd] at this; cases this
  · rintro rfl
    rw [← hp]
    exact .date rfl

/-- The number a string of digits stands for. -/
def decVal (l : Bytes) : Nat := l.foldl (fun a b => 10 * a + (b.toNat - 48)) 0

theorem decVal_natDec (n : Nat) : decVal (Num.natDec n) = n := by
  induction n using Nat.strongRecOn with
  | _ n ih =>
    by_cases h : n < 10
    · rw [Num.natDec_lt h]
      simp [decVal, Num.digit_toNat h]
    · rw [Num.natDec_ge (by omega)]
      have := ih (n / 10) (by omega)
      unfold decVal at this ⊢
      rw [List.foldl_append, this]
      simp only [List.foldl_cons, List.foldl_nil, Num.digit_toNat (show n % 10 < 10 by omega)]
      omega

theorem decVal_zeros (k : Nat) (l : Bytes) : decVal (List.replicate k 48 ++ l) = decVal l := by
  induction k with
  | zero => rfl
  | succ k ih => rw [List.replicate_succ, List.cons_append]; exact ih

theorem appendInt_inj (w : Nat) (x y : Int) (h : Time.appendInt x w = Time.appendInt y w) : x = y := by
  have hz : ∀ (k : Nat) (n : Nat) (l : Bytes), List.replicate k (48 : UInt8) ++ Num.natDec n ≠ 45 :: l := by
    intro k n l h0
    have : (45 : UInt8) ∈ List.replicate k (48 : UInt8) ++ Num.natDec n := by rw [h0]; simp
    rcases List.mem_append.1 this with h1 | h1
    · simp at h1
    · have := Num.natDec_digits n _ h1
      revert this; decide
  unfold Time.appendInt at h
  simp only at h
  split at h <;> split at h
  · rw [List.cons_append, List.cons_append, List.cons.injEq] at h
    have := congrArg decVal h.2
    rw [decVal_zeros, decVal_zeros, decVal_natDec, decVal_natDec] at this
    omega
  · exact absurd h.symm (hz _ _ _)
  · exact absurd h (hz _ _ _)
  · have := congrArg decVal h
    rw [decVal_zeros, decVal_zeros, decVal_natDec, decVal_natDec] at this
    omega

/-- Written out, small numbers with two places take two bytes. -/
theorem appendInt_two (x : Nat) (h : x < 100) : Time.appendInt x 2 = [Num.digit (x / 10), Num.digit (x % 10)] := by
  unfold Time.appendInt
  by_cases h10 : x < 10
  · have e : Num.digit (x / 10) = 48 := by rw [Nat.div_eq_of_lt h10]; rfl
    simp only [Int.natAbs_natCast, Num.natDec_lt h10, e, Nat.mod_eq_of_lt h10]
    simp
  · simp only [Int.natAbs_natCast]
    rw [Num.natDec_ge (by omega), Num.natDec_lt (by omega)]
    simp

/-- The printed date tells the date. -/
theorem formatDate_inj (d d' : Time.Date) (h : ValidDate d) (h' : ValidDate d')
    (e : Time.formatDate d = Time.formatDate d') : d = d' := by
  have hdays : ∀ (y : Int) (m : Nat), daysIn y m ≤ 31 := by
    intro y m
    unfold daysIn
    split <;> (try split) <;> omega
  have two : ∀ x : Nat, x < 100 → (Time.appendInt x 2).length = 2 := fun x hx => by rw [appendInt_two x hx]; rfl
  have l1 := hdays d.year d.month
  have l2 := hdays d'.year d'.month
  obtain ⟨m1, m2, a1, a2⟩ := h
  obtain ⟨m1', m2', a1', a2'⟩ := h'
  unfold Time.formatDate at e
  obtain ⟨e, e3⟩ := List.append_inj' e (by rw [two _ (by omega), two _ (by omega)])
  obtain ⟨e, -⟩ := List.append_inj' e rfl
  obtain ⟨e, e2⟩ := List.append_inj' e (by rw [two _ (by omega), two _ (by omega)])
  obtain ⟨e1, -⟩ := List.append_inj' e rfl
  have e1 := appendInt_inj _ _ _ e1
  have e2 := appendInt_inj _ _ _ e2
  have e3 := appendInt_inj _ _ _ e3
  cases d; cases d'
  simp only [Time.Date.mk.injEq]
  exact ⟨e1, by exact_mod_cast e2, by exact_mod_cast e3⟩

/-- C30 fails in every zone: 2000-01-01 as a JSON number shows as the epoch. -/
theorem C30_refuted (E : Env) (hz : ∀ t, -86400 ≤ E.zone t ∧ E.zone t ≤ 86400) : ¬ C30_wish E := by
  intro h
  have z1 := hz 946684800
  have z0 := hz 0
  have hcal : InCalendar E 946684800 := ⟨by omega, by omega⟩
  have h1 := h 946684800 (by omega) (by omega) hcal _ ((C30_large_numbers E 946684800 (by omega) (by omega) _).2 rfl)
  have h0 : DateText E 0 (Time.formatUnix 0 (E.zone 0)) := formatUnix_date E 0 ⟨by omega, by omega⟩
  obtain ⟨d, v, n, e⟩ := h1
  obtain ⟨d', v', n', e'⟩ := h0
  rw [e] at e'
  have hd : d = d' := formatDate_inj d d' v v' e'
  subst hd
  rw [n] at n'
  omega

example : DataType.parseDate Env.toy (Fmt.sprint Env.toy.flt (.str b!"1394020800")) = b!"2014-03-05" ∧
    DataType.parseDate Env.toy (Fmt.sprint Env.toy.flt (.num b!"86400")) = b!"1970-01-02" ∧
    DataType.parseDate Env.toy (Fmt.sprint Env.toy.flt (.num b!"1394020800")) = b!"1970-01-01" := by decide +kernel

/-! ### C31 -/

/-- C31. A value of more than four bytes shows as its first four bytes, a dash and the rest; any other value
shows as it is. -/
theorem C31_month_year (E : Env) (k : Bytes) (hk : SameLetters E.text b!"monthYear" k) (v : Json) (out : Bytes) :
    ShownValue E k v out ↔
      (∃ a b, Fmt.sprint E.flt v = a ++ b ∧ a.length = 4 ∧ b ≠ [] ∧ out = a ++ b!"-" ++ b) ∨
      ((Fmt.sprint E.flt v).length ≤ 4 ∧ out = Fmt.sprint E.flt v) := by
  obtain ⟨d1, d2, d3, -⟩ := C39_data_types E.text k
  have hm := d3.2 hk
  have h1 : ShownValue E k v out ↔ out = DataType.parseMonthYear (Fmt.sprint E.flt v) := by
    constructor
    · intro h
      cases h with
      | address h _ => have := d1.2 h; rw [hm] at this; cases this
      | date h => have := d2.2 h; rw [hm] at this; cases this
      | monthYear _ => rfl
      | other _ _ h => exact absurd hk h
    · rintro rfl; exact .monthYear hk
  rw [h1]
  generalize Fmt.sprint E.flt v = s
  unfold DataType.parseMonthYear
  by_cases hl : s.length > 4
  · rw [if_pos hl]
    constructor
    · rintro rfl
      refine .inl ⟨s.take 4, s.drop 4, (List.take_append_drop 4 s).symm, by simp; omega, ?_, rfl⟩
      intro h0
      have := congrArg List.length h0
      simp at this; omega
    · rintro (⟨a, b, rfl, ha, hb, rfl⟩ | ⟨h, _⟩)
      · have e1 : (a ++ b).take 4 = a := by rw [← ha]; simp
        have e2 : (a ++ b).drop 4 = b := by rw [← ha]; simp
        rw [e1, e2]
      · omega
  · rw [if_neg hl]
    constructor
    · rintro rfl; exact .inr ⟨by omega, rfl⟩
    · rintro (⟨a, b, rfl, ha, hb, rfl⟩ | ⟨_, h⟩)
      · have := List.length_pos_iff.2 hb
        simp at hl; omega
      · exact h

/-- C31, JSON numbers: YYYYMM as a six-digit number. -/
theorem C31_number (E : Env) (k : Bytes) (hk : SameLetters E.text b!"monthYear" k) (y m : Nat) (h1 : 1000 ≤ y)
    (h2 : y ≤ 9999) (h3 : 1 ≤ m) (h4 : m ≤ 12) (out : Bytes) :
    ShownValue E k (.num (Num.intDec (100 * y + m : Nat))) out ↔
      out = Num.natDec y ++ b!"-" ++ [Num.digit (m / 10), Num.digit (m % 10)] := by
  have hs : Fmt.sprint E.flt (.num (Num.intDec (100 * y + m : Nat))) =
      Num.natDec y ++ [Num.digit (m / 10), Num.digit (m % 10)] := by
    rw [Fmt.sprint, E.flt.sprint_dec _ (by omega) (by omega)]
    have e : Num.natDec (100 * y + m) = Num.natDec y ++ [Num.digit (m / 10), Num.digit (m % 10)] := by
      rw [Num.natDec_ge (by omega), Num.natDec_ge (by omega)]
      have a1 : (100 * y + m) / 10 / 10 = y := by omega
      have a2 : (100 * y + m) / 10 % 10 = m / 10 := by omega
      have a3 : (100 * y + m) % 10 = m % 10 := by omega
      rw [a1, a2, a3]; simp
    have hy : (Num.natDec y).length = 4 := by
      rw [Num.natDec_ge (by omega), Num.natDec_ge (by omega), Num.natDec_ge (by omega), Num.natDec_lt (by omega)]
      simp
    unfold Num.sprintFloatInt
    rw [if_neg (by omega), Int.natAbs_natCast, e, if_pos (by simp [hy])]
  have hy : (Num.natDec y).length = 4 := by
    rw [Num.natDec_ge (by omega), Num.natDec_ge (by omega), Num.natDec_ge (by omega), Num.natDec_lt (by omega)]
    simp
  rw [C31_month_year E k hk, hs]
  constructor
  · rintro (⟨a, b, h, ha, -, rfl⟩ | ⟨h, _⟩)
    · obtain ⟨rfl, rfl⟩ := List.append_inj h (by rw [hy, ha])
      rfl
    · simp [hy] at h
  · rintro rfl
    exact .inl ⟨_, _, rfl, hy, by simp, rfl⟩

example : DataType.parseMonthYear (Fmt.sprint Env.toy.flt (.num b!"201411")) = b!"2014-11" ∧
    DataType.parseMonthYear (Fmt.sprint Env.toy.flt (.str b!"2014")) = b!"2014" := by decide +kernel

end OnePass
