/-
What the owner of an item entered and what the program shows of it, C138.
-/
import Verif.Props.Vault

namespace OnePass
namespace Spec

/-- A text that the owner of an item entered, by the places the vault format has for it: the notes, the password of a password item,
the value of a field of a login form, the value of a field of a section (of a kind other than address, date and month, which are
shown in a form of their own: C26, C29–C31). -/
inductive Entered (T : Text) (de : Members) (v : Bytes) : Prop
  | notes : LastEntry de b!"notesPlain" (.str v) → Entered T de v
  | password : LastEntry de b!"password" (.str v) → Entered T de v
  | login {docs m} : LastEntry de b!"fields" (.arr docs) → .obj m ∈ docs → LastEntry m b!"value" (.str v) → Entered T de v
  | section {docs s fs f k} : LastEntry de b!"sections" (.arr docs) → .obj s ∈ docs → LastEntry s b!"fields" (.arr fs) → .obj f ∈ fs →
      LastEntry f b!"k" (.str k) → ¬ SameLetters T b!"address" k → ¬ SameLetters T b!"date" k → ¬ SameLetters T b!"monthYear" k →
      LastEntry f b!"v" (.str v) → Entered T de v

/-- Those of them in places the program looks at. -/
inductive Reached (T : Text) (de : Members) (v : Bytes) : Prop
  | notes : LastEntry de b!"notesPlain" (.str v) → Reached T de v
  | login {docs m n} : Absent de b!"sections" → LastEntry de b!"fields" (.arr docs) → .obj m ∈ docs → LastEntry m b!"name" (.str n) →
      n ≠ [] → LastEntry m b!"value" (.str v) → Reached T de v
  | section {docs s fs f k} : LastEntry de b!"sections" (.arr docs) → .obj s ∈ docs → LastEntry s b!"fields" (.arr fs) → .obj f ∈ fs →
      LastEntry f b!"k" (.str k) → ¬ SameLetters T b!"address" k → ¬ SameLetters T b!"date" k → ¬ SameLetters T b!"monthYear" k →
      LastEntry f b!"v" (.str v) → Reached T de v

end Spec

open Spec ItemSvc

theorem lastEntry_same {m : Members} {k : Bytes} {v v' : Json} (h : LastEntry m k v) (h' : LastEntry m k v') : v = v' :=
  (field_of_last h).symm.trans (field_of_last h')

theorem not_absent {m : Members} {k : Bytes} {v : Json} (h : LastEntry m k v) (hv : v ≠ .null) : ¬ Absent m k :=
  fun ha => hv ((field_of_last h).symm.trans (absent_iff.1 ha))

/-- What one document of a list shows is in the list shown. -/
theorem shownList_mem {α : Type} {R : Members → Option α → Prop} {docs : List Json} {l : List α} (h : ShownList R docs l)
    {m : Members} (hm : .obj m ∈ docs) : ∃ o, R m o ∧ ∀ x, o = some x → x ∈ l := by
  obtain ⟨os, h1, rfl⟩ := h
  induction h1 with
  | nil => cases hm
  | @cons j o docs os hj _ ih =>
    rcases List.mem_cons.1 hm with rfl | hm
    · obtain ⟨m', he, hr⟩ := hj
      cases he
      exact ⟨o, hr, fun x hx => by simp [hx]⟩
    · obtain ⟨o', hr, hx⟩ := ih hm
      refine ⟨o', hr, fun x hxo => ?_⟩
      have := hx x hxo
      cases o with
      | none => simpa using this
      | some y => simpa using Or.inr this

namespace Cli
open Prog

/-- C138 as one would wish it: every text that was entered for an item is in some line that `details` prints of it. -/
def C138_wish : Prop := ∀ (E : Env) (O : MapOrder) (keys : Keys) (r : RawItem) (ov de : Members) (i : Item) (v : Bytes),
  Written E keys r ov de → Known r → decodeItem E O Cat.values keys r = .ret (some i) → Entered E.text de v →
  ∃ l ∈ facts E i, v <:+: l

/-- A field of a section shown is a line. -/
theorem field_fact {E : Env} {i : Item} {ss : List Section} {s : Section} {fs : List Field} {f : Field} (hi : i.sections = some ss)
    (hs : s ∈ ss) (hfs : s.fields = some fs) (hf : f ∈ fs) : f.name ++ b!": " ++ f.value ∈ facts E i := by
  have : f.name ++ b!": " ++ f.value ∈ (i.sections.getD []).flatMap (fun s =>
      (if s.title = [] then [] else [s.title]) ++ (s.fields.getD []).map (fun f => f.name ++ b!": " ++ f.value)) := by
    rw [List.mem_flatMap]
    refine ⟨s, by rw [hi]; exact hs, List.mem_append_right _ ?_⟩
    rw [hfs]
    exact List.mem_map.2 ⟨f, hf, rfl⟩
  unfold facts
  exact List.mem_append_left _ (List.mem_append_right _ this)

theorem reached_fact (E : Env) (e : Record) (i : Item) (h : ShowsRecord E e i) (v : Bytes) (hv : Reached E.text e.details v) :
    ∃ l ∈ facts E i, v <:+: l := by
  by_cases hne : v = []
  · exact ⟨i.category.name, by simp [facts], by rw [hne]; exact List.nil_infix⟩
  obtain ⟨ss, hss, hi⟩ := h.sections
  have value : ∀ (n : Bytes), v <:+: n ++ b!": " ++ v := fun n => (List.suffix_append _ _).isInfix
  have some_of : ∀ s, s ∈ ss → i.sections = some ss := fun s hs => by
    rw [hi, if_neg (by rintro rfl; cases hs)]
  cases hv with
  | notes h1 =>
    have hn : i.notes = v := by
      rcases h.notes with ⟨ha, -⟩ | h2
      · exact absurd ha (not_absent h1 (by simp))
      · have := lastEntry_same h2 h1
        simpa using this
    refine ⟨v, ?_, List.infix_rfl⟩
    unfold facts
    rw [hn, if_neg hne]
    exact List.mem_append_right _ (List.mem_singleton_self _)
  | @login docs m n h1 h2 h3 h4 h5 h6 =>
    have key : ∀ fs, ShownList (ShownLogin E.text) docs fs → ⟨Str.title E.text n, v⟩ ∈ fs := by
      intro fs hfs
      obtain ⟨o, ho, hx⟩ := shownList_mem hfs h3
      apply hx
      cases ho with
      | noValue ha => exact absurd ha (not_absent h6 (by simp))
      | noName ha => exact absurd ha (not_absent h4 (by simp))
      | empty g1 g2 g3 =>
        have e1 := lastEntry_same g1 h6
        have e2 := lastEntry_same g2 h4
        cases e1; cases e2
        rcases g3 with rfl | rfl
        · exact absurd rfl hne
        · exact absurd rfl h5
      | some g1 g2 _ _ =>
        have e1 := lastEntry_same g1 h6
        have e2 := lastEntry_same g2 h4
        cases e1; cases e2
        rfl
    cases hss with
    | sections g1 _ => exact absurd h1 (not_absent g1 (by simp))
    | @login docs' fs g1 g2 g3 g4 =>
      have e := lastEntry_same g2 h2
      cases e
      refine ⟨_, field_fact (some_of ⟨[], some fs⟩ (by simp)) (s := ⟨[], some fs⟩) (by simp) rfl (key fs g3), value _⟩
    | noLogin g1 g2 g3 =>
      have e := lastEntry_same g2 h2
      cases e
      exact absurd (key _ g3) (by simp)
    | none _ g2 => exact absurd g2 (not_absent h2 (by simp))
  | @«section» docs s fs f k h1 h2 h3 h4 h5 h6 h7 h8 h9 =>
    cases hss with
    | @sections docs' l g1 g2 =>
      have e := lastEntry_same g1 h1
      cases e
      obtain ⟨o, ⟨fs', t, q1, -, q3⟩, hx⟩ := shownList_mem g2 h2
      rcases q1 with ⟨ha, -⟩ | ⟨docs2, q1, q2⟩
      · exact absurd ha (not_absent h3 (by simp))
      · have e := lastEntry_same q1 h3
        cases e
        obtain ⟨o2, ho2, hx2⟩ := shownList_mem q2 h4
        cases ho2 with
        | none ha => exact absurd ha (not_absent h9 (by simp))
        | @some v' k' t' out p1 p2 p3 p4 p5 =>
          have e1 := lastEntry_same p1 h9
          have e2 := lastEntry_same p3 h5
          cases e1; cases e2
          have hout : out = v := by
            cases p4 with
            | date hk => exact absurd hk h7
            | monthYear hk => exact absurd hk h8
            | other _ _ _ => rfl
          subst hout
          have hin := hx2 _ rfl
          rcases q3 with ⟨rfl, -⟩ | ⟨rfl, -⟩ | ⟨-, ho⟩
          · cases hin
          · cases hin
          · have hs := hx _ ho
            exact ⟨_, field_fact (some_of _ hs) hs rfl hin, value _⟩
    | login g1 _ _ _ => exact absurd g1 (not_absent h1 (by simp))
    | noLogin g1 _ _ => exact absurd g1 (not_absent h1 (by simp))
    | none g1 _ => exact absurd g1 (not_absent h1 (by simp))

/-- C138, what holds: from a vault that a conforming writer made, `details` prints the notes, every text in a field of a section, and,
if the item has no list of sections, every value of a login form that has a name. Missing: the password of a password item, the login
form of an item with a list of sections (even an empty one), values of fields without a name (`C138_refuted`, `C138_ignored`,
`C138_unnamed`). -/
theorem C138_details_partial (C : Ctx) (flag vault : Bytes) (w w1 : World) (hb : Begun C w w1) (hv : Meaning w1.conf flag vault)
    (hs : w.sess = Session.init) (entries : List Record)
    (h : VaultOn C.env w1.disk vault (C.sys.password w1.tick) entries) (e : Record) (he : e ∈ entries) (hk : KnownRecord e)
    (v : Bytes) (hr : Reached C.env.text e.details v) :
    ∃ (s : Session) (lines : List Bytes), command C (.details flag e.uid e.trashed) w = (.ret (), after w1 s (lines.map (fun l => .out (l ++ [10])))) ∧
      ∃ l ∈ lines, v <:+: l := by
  obtain ⟨i, s, lines, h1, h2, h3, -⟩ := C88_details C flag vault w w1 hb hv hs entries h e he hk
  obtain ⟨l, h4, h5⟩ := reached_fact C.env e i h1 v hr
  exact ⟨s, lines, h2, l, h3.subset h4, h5⟩

/-- C138: of an item with a list of sections nothing but this list and the notes is looked at in its details: items that differ in the
login form, in the password or elsewhere are shown alike. Without a list of sections, nothing but the login form and the notes. -/
theorem C138_ignored (E : Env) (e e' : Record) (h : e' = { e with details := e'.details })
    (hn : Json.field e'.details b!"notesPlain" = Json.field e.details b!"notesPlain")
    (hs : Json.field e'.details b!"sections" = Json.field e.details b!"sections")
    (hf : Absent e.details b!"sections" → Json.field e'.details b!"fields" = Json.field e.details b!"fields") (i : Item) :
    ShowsRecord E e i ↔ ShowsRecord E e' i := by
  have hp : parseSections E .doc e'.details = parseSections E .doc e.details := by
    unfold parseSections
    rw [hs]
    split
    · rfl
    · rename_i hnil
      rw [hf (absent_iff.2 (by cases hx : Json.field e.details b!"sections" <;> simp [hx, notNil] at hnil ⊢))]
  have ho : ∀ s, OptText e'.details b!"notesPlain" s ↔ OptText e.details b!"notesPlain" s := fun s => by
    rw [← optStr_ret, ← optStr_ret]
    unfold optStr
    rw [hn]
  have hq : ∀ l, ShownSections E e'.details l ↔ ShownSections E e.details l := fun l => by
    rw [← parseSections_ret (O := .doc), ← parseSections_ret (O := .doc), hp]
  rw [h]
  constructor
  · rintro ⟨a1, a2, a3, a4, a5, a6, a7, a8, l, a9, a10⟩
    exact ⟨a1, a2, a3, a4, a5, a6, a7, (ho _).2 a8, l, (hq l).2 a9, a10⟩
  · rintro ⟨a1, a2, a3, a4, a5, a6, a7, a8, l, a9, a10⟩
    exact ⟨a1, a2, a3, a4, a5, a6, a7, (ho _).1 a8, l, (hq l).1 a9, a10⟩

/-- C138: a field of a login form without a name is as good as not there. -/
theorem C138_unnamed (T : Text) (m : Members) (hm : Absent m b!"name" ∨ LastEntry m b!"name" (.str []))
    (o : Option Field) (h : ShownLogin T m o) : o = none := by
  cases h with
  | noValue _ => rfl
  | noName _ => rfl
  | empty _ _ _ => rfl
  | some h1 h2 _ h4 =>
    rcases hm with hm | hm
    · exact absurd hm (not_absent h2 (by simp))
    · have := lastEntry_same h2 hm
      simp at this
      exact absurd this h4

/-- A login with a list of sections that is empty: the user name and the password are in the form. -/
def formDoc : Members := [(b!"sections", .arr []),
  (b!"fields", .arr [.obj [(b!"name", .str b!"username"), (b!"value", .str b!"joe")],
    .obj [(b!"name", .str b!"password"), (b!"value", .str b!"s3cret")]])]

theorem formDoc_written (E : Env) : Written E ItemDemo.keys (ItemDemo.write E ItemDemo.ov formDoc) ItemDemo.ov formDoc :=
  ItemDemo.write_written E _ _ ItemDemo.ov_plain
    (by simp [formDoc, Json.Plain, Json.PlainM, Json.PlainL, Str.isAscii, Json.maxDepth]) (by decide +kernel) (by decide +kernel)

/-- What is shown of it. -/
def formItem : Item := { ItemDemo.shown with notes := [], sections := none }

theorem formItem_shown : decodeItem Env.toy .doc Cat.values ItemDemo.keys (ItemDemo.write Env.toy ItemDemo.ov formDoc) =
    .ret (some formItem) := by decide +kernel

/-- C138 is false: the password of the login is in no line. -/
theorem C138_refuted : ¬ C138_wish := by
  intro h
  obtain ⟨l, h1, h2⟩ := h Env.toy .doc _ _ _ _ _ b!"s3cret" (formDoc_written Env.toy) ⟨_, List.mem_cons_self, rfl⟩ formItem_shown
    (.login (docs := [.obj [(b!"name", .str b!"username"), (b!"value", .str b!"joe")],
      .obj [(b!"name", .str b!"password"), (b!"value", .str b!"s3cret")]])
      (m := [(b!"name", .str b!"password"), (b!"value", .str b!"s3cret")])
      (lastEntry_iff.2 rfl) (by simp) (lastEntry_iff.2 rfl))
  have : ∀ l ∈ facts Env.toy formItem, ¬ b!"s3cret" <:+: l := by decide +kernel
  exact this l h1 h2

namespace EnteredDemo

/-- The demo vault with other details in its item M, of the category given. -/
def stored (category : Bytes) (details : Members) : Json :=
  .obj [(b!"category", .str category), (b!"created", .num b!"5"), (b!"updated", .num b!"6"), (b!"hmac", .str []),
    (b!"o", Demo.blob Demo.overviewKey Demo.overviewMac (Json.render (.obj [(b!"title", .str b!"Mail")]))),
    (b!"k", .str (B64.encode (keyBlob Env.toy Demo.masterKey (List.replicate 16 8) (List.replicate 32 10) (List.replicate 32 11)
      (List.replicate 32 0)))),
    (b!"d", Demo.blob (List.replicate 32 10) (List.replicate 32 11) (Json.render (.obj details)))]

def disk (category : Bytes) (details : Members) : Disk :=
  { Demo.disk [] [] with fs := (Demo.disk [] []).fs.dropLast ++
      [([b!"a", b!"default", b!"band_0.js"], .file (b!"ld({" ++ Json.renderM [(b!"M", stored category details)] ++ b!"});") false)] }

/-- What details prints after the times. -/
def tell (category : Bytes) (details : Members) : List Ev :=
  (main (Demo.ctx OnePass.Demo.pa) (.details [] b!"M" false) (Toy.world (disk category details) [])).2.log.drop 8

def named (k n v : Bytes) : Json := .obj [(k, .str n), (b!"value", .str v)]

end EnteredDemo

set_option maxRecDepth 20000 in
/-- C138: a login form, with its values; the same with an empty list of sections, without; a field without a name; a section; a
password item. -/
example :
    let form := [(b!"fields", Json.arr [EnteredDemo.named b!"name" b!"user" b!"joe", EnteredDemo.named b!"name" [] b!"s3cret"])]
    EnteredDemo.tell b!"001" form = [.out b!"\n", .out b!"------------------------------\n", .out b!"User: joe\n", .out b!"\n"] ∧
    EnteredDemo.tell b!"001" ((b!"sections", .arr []) :: form) = [] ∧
    EnteredDemo.tell b!"001" ((b!"sections", .arr [.obj [(b!"title", .str b!"more"), (b!"fields", .arr [.obj [(b!"k", .str b!"concealed"),
      (b!"t", .str b!"pin"), (b!"v", .str b!"1234")]])]]) :: form) =
      [.out b!"\n", .out b!"More\n", .out b!"------------------------------\n", .out b!"Pin: 1234\n", .out b!"\n"] ∧
    EnteredDemo.tell b!"005" [(b!"password", .str b!"s3cret")] = [] := by decide +kernel

end Cli
end OnePass
