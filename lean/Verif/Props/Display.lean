/-
What `details` and `overview` print: items told apart (C97), control characters (C98).
-/
import Verif.Props.Clock

set_option linter.unusedSimpArgs false

namespace OnePass
namespace Cli
open Spec

/-! ### C97 -/

/-- The text on the terminal. -/
def printed : List Ev → Bytes
  | [] => []
  | .out b :: es => b ++ printed es
  | _ :: es => printed es

/-- Lines with their ends. -/
def stream (ls : List Bytes) : Bytes := ls.flatMap (· ++ [10])

theorem printed_lines (ls : List Bytes) : printed (ls.map (fun l => .out (l ++ [10]))) = stream ls := by
  induction ls with
  | nil => rfl
  | cons l ls ih => simp only [List.map_cons, printed, ih]; rfl

theorem stream_cons (l : Bytes) (ls : List Bytes) : stream (l :: ls) = l ++ 10 :: stream ls := by
  simp [stream]

theorem stream_append (ls ms : List Bytes) : stream (ls ++ ms) = stream ls ++ stream ms := by simp [stream]

/-- Without line breaks. -/
def OneLine (b : Bytes) : Prop := (10 : UInt8) ∉ b

instance (b : Bytes) : Decidable (OneLine b) := inferInstanceAs (Decidable ((10 : UInt8) ∉ b))

/-- Everything up to the first `c` is determined. -/
theorem cut_unique {c : UInt8} : ∀ {a b x y : Bytes}, c ∉ a → c ∉ b → a ++ c :: x = b ++ c :: y → a = b ∧ x = y
  | [], [], _, _, _, _, h => ⟨rfl, (List.cons.inj h).2⟩
  | [], e :: b, _, _, _, hb, h => absurd (List.cons.inj h).1 fun e => hb (by rw [← e]; simp)
  | e :: a, [], _, _, ha, _, h => absurd (List.cons.inj h).1 fun e => ha (by rw [e]; simp)
  | e :: a, f :: b, _, _, ha, hb, h => by
    obtain ⟨h1, h2⟩ := List.cons.inj h
    obtain ⟨h3, h4⟩ := cut_unique (fun h => ha (by simp [h])) (fun h => hb (by simp [h])) h2
    exact ⟨by rw [h1, h3], h4⟩

theorem stream_inj {a b : Bytes} {ls ms : List Bytes} (ha : OneLine a) (hb : OneLine b) (h : stream (a :: ls) = stream (b :: ms)) :
    a = b ∧ stream ls = stream ms := by
  rw [stream_cons, stream_cons] at h
  exact cut_unique ha hb h

theorem stream_ne_nil (a : Bytes) (ls : List Bytes) : stream (a :: ls) ≠ [] := by
  rw [stream_cons]
  simp

/-- A field that takes one line, with a name in which no colon occurs. -/
structure TidyField (f : Field) : Prop where
  name : OneLine f.name
  colon : (58 : UInt8) ∉ f.name
  value : OneLine f.value

/-- A section with a title of one line other than `Notes`, and tidy fields. -/
structure TidySection (s : Section) : Prop where
  title : OneLine s.title
  notes : s.title ≠ b!"Notes"
  fields : ∀ fs, s.fields = some fs → fs ≠ [] ∧ ∀ f ∈ fs, TidyField f

/-- An item of a known category, in the years 0 to 9999, with tidy sections, and title and address of one line. The notes can be anything. -/
structure TidyItem (E : Env) (i : Item) : Prop where
  category : i.category ∈ Cat.values
  updated : InFourDigits E i.updated
  created : InFourDigits E i.created
  title : OneLine i.title
  url : OneLine i.url
  sections : ∀ ss, i.sections = some ss → ss ≠ [] ∧ ∀ s ∈ ss, TidySection s

/-- A field as `details` prints it. -/
def fieldLine (f : Field) : Bytes := f.name ++ b!": " ++ f.value

/-- A section as `details` prints it. -/
def sectionLines (s : Section) : List Bytes :=
  [[]] ++ (if s.title ≠ [] then [s.title] else []) ++ [rule] ++ (s.fields.getD []).map fieldLine

/-- The notes, as printed. -/
def notesLines (n : Bytes) : List Bytes := if n ≠ [] then [b!"Notes", rule, n, []] else []

theorem rule_line : OneLine rule := by decide
theorem notes_line : OneLine b!"Notes" := by decide
theorem nil_line : OneLine [] := by simp [OneLine]

theorem oneLine_append {a b : Bytes} (ha : OneLine a) (hb : OneLine b) : OneLine (a ++ b) := by
  unfold OneLine at *
  simp [ha, hb]

theorem fieldLine_line {f : Field} (h : TidyField f) : OneLine (fieldLine f) :=
  oneLine_append (oneLine_append h.name (by decide)) h.value

theorem colon_mem (f : Field) : (58 : UInt8) ∈ fieldLine f := by
  unfold fieldLine
  rw [show b!": " = [58, 32] by decide]
  simp

theorem fieldLine_inj {f g : Field} (hf : TidyField f) (hg : TidyField g) (h : fieldLine f = fieldLine g) : f = g := by
  unfold fieldLine at h
  rw [show b!": " = [58, 32] by decide, List.append_assoc, List.append_assoc] at h
  obtain ⟨h1, h2⟩ := cut_unique hf.colon hg.colon h
  have h3 : f.value = g.value := (List.cons.inj h2).2
  cases f
  cases g
  simp only at h1 h3
  rw [h1, h3]

/-- The fields are determined, if an empty line follows. -/
theorem fields_inj {R R' : List Bytes} : ∀ {fs gs : List Field}, (∀ f ∈ fs, TidyField f) → (∀ f ∈ gs, TidyField f) →
    stream (fs.map fieldLine ++ [] :: R) = stream (gs.map fieldLine ++ [] :: R') → fs = gs ∧ stream R = stream R'
  | [], [], _, _, h => ⟨rfl, (stream_inj nil_line nil_line h).2⟩
  | [], g :: gs, _, hg, h => by
    have := (stream_inj nil_line (fieldLine_line (hg g (by simp))) h).1
    exact absurd (colon_mem g) (by rw [← this]; simp)
  | f :: fs, [], hf, _, h => by
    have := (stream_inj (fieldLine_line (hf f (by simp))) nil_line h).1
    exact absurd (colon_mem f) (by rw [this]; simp)
  | f :: fs, g :: gs, hf, hg, h => by
    obtain ⟨h1, h2⟩ := stream_inj (fieldLine_line (hf f (by simp))) (fieldLine_line (hg g (by simp))) h
    obtain ⟨h3, h4⟩ := fields_inj (fun x hx => hf x (by simp [hx])) (fun x hx => hg x (by simp [hx])) h2
    exact ⟨by rw [fieldLine_inj (hf f (by simp)) (hg g (by simp)) h1, h3], h4⟩

theorem TidySection.list {s : Section} (h : TidySection s) : ∀ f ∈ s.fields.getD [], TidyField f := by
  cases hs : s.fields with
  | none => simp
  | some fs => exact (h.fields fs hs).2

theorem TidySection.ext {s t : Section} (hs : TidySection s) (ht : TidySection t) (h1 : s.title = t.title)
    (h2 : s.fields.getD [] = t.fields.getD []) : s = t := by
  cases s with
  | mk a fs =>
    cases t with
    | mk c gs =>
      simp only at h1 h2
      subst h1
      cases fs with
      | none =>
        cases gs with
        | none => rfl
        | some gs => exact absurd h2.symm (ht.fields gs rfl).1
      | some fs =>
        cases gs with
        | none => exact absurd h2 (hs.fields fs rfl).1
        | some gs => exact congrArg _ (congrArg some h2)

/-- What follows an untitled heading is no second rule. -/
theorem after_heading {fs : List Field} (hf : ∀ f ∈ fs, TidyField f) {R ls : List Bytes} :
    stream (fs.map fieldLine ++ [] :: R) ≠ stream (rule :: ls) := by
  intro h
  cases fs with
  | nil => exact absurd (stream_inj nil_line rule_line h).1 (by decide)
  | cons f fs =>
    have := (stream_inj (fieldLine_line (hf f (by simp))) rule_line h).1
    exact absurd (colon_mem f) (by rw [this]; decide)

/-- A section is determined, if an empty line follows. -/
theorem section_inj {s t : Section} (hs : TidySection s) (ht : TidySection t) {R R' : List Bytes}
    (h : stream (sectionLines s ++ [] :: R) = stream (sectionLines t ++ [] :: R')) : s = t ∧ stream R = stream R' := by
  unfold sectionLines at h
  have h := (stream_inj nil_line nil_line h).2
  by_cases h1 : s.title = [] <;> by_cases h2 : t.title = []
  · rw [if_neg (by simpa using h1), if_neg (by simpa using h2)] at h
    obtain ⟨h3, h4⟩ := fields_inj hs.list ht.list (stream_inj rule_line rule_line h).2
    exact ⟨hs.ext ht (by rw [h1, h2]) h3, h4⟩
  · rw [if_neg (by simpa using h1), if_pos h2] at h
    exact absurd (stream_inj rule_line ht.title h).2 (after_heading hs.list)
  · rw [if_pos h1, if_neg (by simpa using h2)] at h
    exact absurd (stream_inj hs.title rule_line h).2.symm (after_heading ht.list)
  · rw [if_pos h1, if_pos h2] at h
    obtain ⟨h3, h4⟩ := stream_inj hs.title ht.title h
    obtain ⟨h5, h6⟩ := fields_inj hs.list ht.list (stream_inj rule_line rule_line h4).2
    exact ⟨hs.ext ht h3 h5, h6⟩

theorem notes_inj {n m : Bytes} (h : stream (notesLines n) = stream (notesLines m)) : n = m := by
  unfold notesLines at h
  by_cases hn : n = [] <;> by_cases hm : m = []
  · rw [hn, hm]
  · rw [if_neg (by simpa using hn), if_pos hm] at h
    exact absurd h.symm (stream_ne_nil _ _)
  · rw [if_pos hn, if_neg (by simpa using hm)] at h
    exact absurd h (stream_ne_nil _ _)
  · rw [if_pos hn, if_pos hm] at h
    have h := (stream_inj rule_line rule_line (stream_inj notes_line notes_line h).2).2
    simpa [stream] using h

/-- Notes do not begin like a section. -/
theorem notes_section {n : Bytes} {s : Section} (hs : TidySection s) {ls : List Bytes} :
    stream ([] :: notesLines n) ≠ stream (sectionLines s ++ ls) := by
  intro h
  unfold sectionLines at h
  have h := (stream_inj nil_line nil_line h).2
  have hne : stream (notesLines n) ≠ [] := by
    rw [h]
    by_cases h1 : s.title = []
    · rw [if_neg (by simpa using h1)]; exact stream_ne_nil _ _
    · rw [if_pos h1]; exact stream_ne_nil _ _
  unfold notesLines at h hne
  by_cases hn : n = []
  · rw [if_neg (by simpa using hn)] at hne
    exact hne rfl
  · rw [if_pos hn] at h
    by_cases h1 : s.title = []
    · rw [if_neg (by simpa using h1)] at h
      exact absurd (stream_inj notes_line rule_line h).1 (by decide)
    · rw [if_pos h1] at h
      exact hs.notes (stream_inj notes_line hs.title h).1.symm

theorem section_head (s : Section) : ∃ ls, sectionLines s = [] :: ls := by
  unfold sectionLines
  exact ⟨_, rfl⟩

theorem tail_head (ss : List Section) (n : Bytes) : ∃ R, ss.flatMap sectionLines ++ [] :: notesLines n = [] :: R := by
  cases ss with
  | nil => exact ⟨_, rfl⟩
  | cons s ss =>
    obtain ⟨ls, h⟩ := section_head s
    rw [List.flatMap_cons, h]
    exact ⟨_, rfl⟩

/-- Sections and notes are determined. -/
theorem sections_inj {n m : Bytes} : ∀ {ss ts : List Section}, (∀ s ∈ ss, TidySection s) → (∀ s ∈ ts, TidySection s) →
    stream (ss.flatMap sectionLines ++ [] :: notesLines n) = stream (ts.flatMap sectionLines ++ [] :: notesLines m) → ss = ts ∧ n = m
  | [], [], _, _, h => ⟨rfl, notes_inj (stream_inj nil_line nil_line h).2⟩
  | [], t :: ts, _, ht, h => by
    rw [List.flatMap_cons, List.append_assoc] at h
    exact absurd h (notes_section (ht t (by simp)))
  | s :: ss, [], hs, _, h => by
    rw [List.flatMap_cons, List.append_assoc] at h
    exact absurd h.symm (notes_section (hs s (by simp)))
  | s :: ss, t :: ts, hs, ht, h => by
    rw [List.flatMap_cons, List.flatMap_cons, List.append_assoc, List.append_assoc] at h
    obtain ⟨R, hR⟩ := tail_head ss n
    obtain ⟨R', hR'⟩ := tail_head ts m
    rw [hR, hR'] at h
    obtain ⟨h1, h2⟩ := section_inj (hs s (by simp)) (ht t (by simp)) h
    have h3 : stream (ss.flatMap sectionLines ++ [] :: notesLines n) = stream (ts.flatMap sectionLines ++ [] :: notesLines m) := by
      rw [hR, hR', stream_cons, stream_cons, h2]
    obtain ⟨h4, h5⟩ := sections_inj (fun x hx => hs x (by simp [hx])) (fun x hx => ht x (by simp [hx])) h3
    exact ⟨by rw [h1, h4], h5⟩

/-- What comes after the dates and the address. -/
def bodyLines (i : Item) : List Bytes :=
  match i.sections with
  | none => if i.notes ≠ [] then [] :: notesLines i.notes else []
  | some ss => ss.flatMap sectionLines ++ [] :: notesLines i.notes

theorem body_inj {E : Env} {i j : Item} (hi : TidyItem E i) (hj : TidyItem E j) (h : stream (bodyLines i) = stream (bodyLines j)) :
    i.sections = j.sections ∧ i.notes = j.notes := by
  have key : ∀ {a c : Item}, TidyItem E c → a.sections = none → ∀ ss, c.sections = some ss → stream (bodyLines a) ≠ stream (bodyLines c) := by
    intro a c hc ha ss hs h
    obtain ⟨h1, h2⟩ := hc.sections ss hs
    unfold bodyLines at h
    rw [ha, hs] at h
    cases ss with
    | nil => exact h1 rfl
    | cons s ss =>
      simp only [List.flatMap_cons, List.append_assoc] at h
      by_cases hn : a.notes = []
      · rw [if_neg (by simpa using hn)] at h
        obtain ⟨ls, hl⟩ := section_head s
        rw [hl] at h
        exact stream_ne_nil _ _ h.symm
      · rw [if_pos hn] at h
        exact notes_section (h2 s (by simp)) h
  cases h1 : i.sections with
  | none =>
    cases h2 : j.sections with
    | some ts => exact absurd h (key hj h1 ts h2)
    | none =>
      refine ⟨rfl, ?_⟩
      unfold bodyLines at h
      rw [h1, h2] at h
      by_cases hn : i.notes = [] <;> by_cases hm : j.notes = []
      · rw [hn, hm]
      · rw [if_neg (by simpa using hn), if_pos hm] at h
        exact absurd h.symm (stream_ne_nil _ _)
      · rw [if_pos hn, if_neg (by simpa using hm)] at h
        exact absurd h (stream_ne_nil _ _)
      · rw [if_pos hn, if_pos hm] at h
        exact notes_inj (stream_inj nil_line nil_line h).2
  | some ss =>
    cases h2 : j.sections with
    | none => exact absurd h.symm (key hi h2 ss h1)
    | some ts =>
      unfold bodyLines at h
      rw [h1, h2] at h
      obtain ⟨h3, h4⟩ := sections_inj (hi.sections ss h1).2 (hj.sections ts h2).2 h
      exact ⟨by rw [h3], h4⟩

/-- The lines of the address. -/
def urlLines (u : Bytes) : List Bytes := if u ≠ [] then [b!"URL: " ++ u] else []

theorem body_head (i : Item) : bodyLines i = [] ∨ ∃ ls, bodyLines i = [] :: ls := by
  unfold bodyLines
  cases i.sections with
  | none =>
    by_cases h : i.notes = []
    · exact .inl (if_neg (by simpa using h))
    · exact .inr ⟨_, if_pos h⟩
  | some ss => exact .inr (tail_head ss i.notes)

theorem url_inj {i j : Item} (hi : OneLine i.url) (hj : OneLine j.url)
    (h : stream (urlLines i.url ++ bodyLines i) = stream (urlLines j.url ++ bodyLines j)) :
    i.url = j.url ∧ stream (bodyLines i) = stream (bodyLines j) := by
  have key : ∀ {u : Bytes} {ls : List Bytes} (a : Item), OneLine u → stream (bodyLines a) ≠ stream ((b!"URL: " ++ u) :: ls) := by
    intro u ls a hu h
    rcases body_head a with e | ⟨ms, e⟩ <;> rw [e] at h
    · exact stream_ne_nil _ _ h.symm
    · exact absurd (stream_inj nil_line (oneLine_append (by decide) hu) h).1 (by simp)
  unfold urlLines at h
  by_cases h1 : i.url = [] <;> by_cases h2 : j.url = []
  · rw [if_neg (by simpa using h1), if_neg (by simpa using h2)] at h
    exact ⟨by rw [h1, h2], h⟩
  · rw [if_neg (by simpa using h1), if_pos h2] at h
    exact absurd h (key i hj)
  · rw [if_pos h1, if_neg (by simpa using h2)] at h
    exact absurd h.symm (key j hi)
  · rw [if_pos h1, if_pos h2] at h
    obtain ⟨h3, h4⟩ := stream_inj (oneLine_append (by decide) hi) (oneLine_append (by decide) hj) h
    exact ⟨List.append_cancel_left h3, h4⟩

/-- All the lines. -/
theorem lines_eq (E : Env) (i : Item) : stream (itemLines E false i) =
    stream ([[], i.category.name, rule, i.title, [], b!"Updated: " ++ Time.formatStamp i.updated (E.zone i.updated),
      b!"Created: " ++ Time.formatStamp i.created (E.zone i.created), b!"Trashed: " ++ boolText i.trashed] ++
      (urlLines i.url ++ bodyLines i)) := by
  have e : itemLines E false i = [[], i.category.name, rule, i.title, [],
      b!"Updated: " ++ Time.formatStamp i.updated (E.zone i.updated) ++ b!"\nCreated: " ++
      Time.formatStamp i.created (E.zone i.created) ++ b!"\nTrashed: " ++ boolText i.trashed] ++ (urlLines i.url ++ bodyLines i) := by
    unfold itemLines bodyLines urlLines notesLines sectionLines
    rw [List.append_assoc, List.append_assoc]
    congr 2
    cases i.sections with
    | none =>
      by_cases h : i.notes = []
      · simp [h]
      · simp [h]
    | some ss =>
      dsimp only
      rw [List.append_assoc]
      congr 1
      · refine List.flatMap_congr fun s _ => ?_
        congr 1
        cases s.fields with
        | none => rfl
        | some fs => exact List.map_congr_left fun f _ => by rw [if_neg (by decide)]; rfl
  rw [e]
  simp only [List.cons_append, List.nil_append, stream_cons, List.append_assoc]

theorem appendInt_bytes (x : Int) (n : Nat) : ∀ c ∈ Time.appendInt x n, 45 ≤ c ∧ c ≤ 57 := by
  have hd : ∀ c ∈ Num.natDec x.natAbs, (45 : UInt8) ≤ c ∧ c ≤ 57 := by
    intro c hc
    have := Num.natDec_digits _ c hc
    unfold Str.isDigitA at this
    simp only [Bool.and_eq_true, decide_eq_true_eq] at this
    simp only [UInt8.le_iff_toNat_le] at *
    have e1 : (48 : UInt8).toNat = 48 := rfl
    have e2 : (57 : UInt8).toNat = 57 := rfl
    have e3 : (45 : UInt8).toNat = 45 := rfl
    omega
  intro c hc
  unfold Time.appendInt at hc
  simp only at hc
  split at hc
  · simp only [List.cons_append, List.mem_cons, List.mem_append, List.mem_replicate] at hc
    rcases hc with rfl | ⟨-, rfl⟩ | hc
    · decide
    · decide
    · exact hd c hc
  · simp only [List.mem_append, List.mem_replicate] at hc
    rcases hc with ⟨-, rfl⟩ | hc
    · decide
    · exact hd c hc

/-- Digits, dashes, colons and blanks. -/
theorem stamp_bytes (t o : Int) : ∀ c ∈ Time.formatStamp t o, 32 ≤ c ∧ c ≤ 58 := by
  have up : ∀ {c : UInt8}, 45 ≤ c ∧ c ≤ 57 → 32 ≤ c ∧ c ≤ 58 := by
    intro c h
    simp only [UInt8.le_iff_toNat_le] at *
    have e1 : (45 : UInt8).toNat = 45 := rfl
    have e2 : (57 : UInt8).toNat = 57 := rfl
    have e3 : (32 : UInt8).toNat = 32 := rfl
    have e4 : (58 : UInt8).toNat = 58 := rfl
    omega
  intro c hc
  unfold Time.formatStamp Time.formatDate at hc
  simp only [List.mem_append, List.mem_cons, List.not_mem_nil, or_false, or_assoc] at hc
  rcases hc with h | rfl | h | rfl | h | rfl | h | rfl | h | rfl | h
  all_goals first | exact up (appendInt_bytes _ _ _ h) | decide

theorem stamp_line (t o : Int) : OneLine (Time.formatStamp t o) := by
  intro h
  have := (stamp_bytes t o 10 h).1
  exact absurd this (by decide)

theorem stamp_inj {E : Env} {t u : Int} (ht : InFourDigits E t) (hu : InFourDigits E u)
    (h : Time.formatStamp t (E.zone t) = Time.formatStamp u (E.zone u)) : t + E.zone t = u + E.zone u := by
  obtain ⟨c, hc, h1⟩ := C94_every_time E t ht
  obtain ⟨d, hd, h2⟩ := C94_every_time E u hu
  rw [C94_shown E t c hc h1, C94_shown E u d hd h2] at h
  rw [← h1, ← h2, C94_faithful c d hc hd h]

theorem cat_name_inj : ∀ c ∈ Cat.values, ∀ d ∈ Cat.values, c.name = d.name → c = d := by decide +kernel
theorem cat_name_line : ∀ c ∈ Cat.values, OneLine c.name := by decide +kernel

/-- C97. Two items (tidy ones, see above) of which `details` prints the same text are the same, the UID aside: category, title,
address, sections, fields, notes and flag; and the times as the local clock shows them.
(Not so in general, see `C97_refuted`.) -/
theorem C97_told_apart_partial (C : Ctx) (uid uid' : Bytes) (trashed trashed' : Bool) (w w' : World) (i j : Item)
    (hi : w.sess.getItem uid trashed = some i) (hj : w'.sess.getItem uid' trashed' = some j) (ti : TidyItem C.env i)
    (tj : TidyItem C.env j) (es es' : List Ev)
    (hes : (printItem C false uid trashed w).2.log = w.log ++ es) (hes' : (printItem C false uid' trashed' w').2.log = w'.log ++ es')
    (h : printed es = printed es') :
    j = { i with uid := j.uid, updated := j.updated, created := j.created } ∧
      i.updated + C.env.zone i.updated = j.updated + C.env.zone j.updated ∧
      i.created + C.env.zone i.created = j.created + C.env.zone j.created := by
  rw [printItem_run C false uid trashed w i hi] at hes
  rw [printItem_run C false uid' trashed' w' j hj] at hes'
  rw [← List.append_cancel_left hes, ← List.append_cancel_left hes', printed_lines, printed_lines, lines_eq, lines_eq] at h
  have h := (stream_inj nil_line nil_line h).2
  obtain ⟨h1, h⟩ := stream_inj (cat_name_line _ ti.category) (cat_name_line _ tj.category) h
  have h := (stream_inj rule_line rule_line h).2
  obtain ⟨h2, h⟩ := stream_inj ti.title tj.title h
  have h := (stream_inj nil_line nil_line h).2
  obtain ⟨h3, h⟩ := stream_inj (oneLine_append (by decide) (stamp_line _ _)) (oneLine_append (by decide) (stamp_line _ _)) h
  obtain ⟨h4, h⟩ := stream_inj (oneLine_append (by decide) (stamp_line _ _)) (oneLine_append (by decide) (stamp_line _ _)) h
  have hb : ∀ b : Bool, OneLine (b!"Trashed: " ++ boolText b) := by decide
  obtain ⟨h5, h⟩ := stream_inj (hb _) (hb _) h
  obtain ⟨h6, h⟩ := url_inj ti.url tj.url h
  obtain ⟨h7, h8⟩ := body_inj ti tj h
  refine ⟨?_, stamp_inj ti.updated tj.updated (List.append_cancel_left h3), stamp_inj ti.created tj.created (List.append_cancel_left h4)⟩
  have g1 := cat_name_inj _ ti.category _ tj.category h1
  have g5 : i.trashed = j.trashed := by
    have := List.append_cancel_left h5
    generalize i.trashed = a at this
    generalize j.trashed = c at this
    revert a c
    decide
  clear h1 h5 h hi hj ti tj h3 h4 hes hes'
  cases i
  cases j
  simp only at g1 h2 g5 h6 h7 h8
  subst g1 h2 g5 h6 h7 h8
  rfl

set_option maxRecDepth 20000 in
/-- C97 is false in general: a value of several lines can look like the end of its section and notes. The item of one vault has a
PIN and a note, that of the other has no note; `details` prints the same. -/
theorem C97_refuted : ∃ (C : Ctx) (a b : World) (cmd : Cmd) (i j : Item),
    cmd = .details [] b!"M" false ∧ (main C cmd a).1 = .ret () ∧ (main C cmd b).1 = .ret () ∧
    (main C cmd a).2.sess.getItem b!"M" false = some i ∧ (main C cmd b).2.sess.getItem b!"M" false = some j ∧
    i.notes ≠ j.notes ∧ i.sections ≠ j.sections ∧ printed (main C cmd a).2.log = printed (main C cmd b).2.log := by
  refine ⟨Demo.ctx OnePass.Demo.pa, Toy.world (Demo.disk b!"1" b!"2") [],
    Toy.world (Demo.disk b!"1\n\nNotes\n------------------------------\n2" []) [], .details [] b!"M" false,
    ⟨Cat.login, 5, b!"2", b!"Mail", false, some [⟨[], some [⟨b!"Pin", b!"1"⟩]⟩], b!"M", [], 6⟩,
    ⟨Cat.login, 5, [], b!"Mail", false, some [⟨[], some [⟨b!"Pin", b!"1\n\nNotes\n------------------------------\n2"⟩]⟩], b!"M", [], 6⟩,
    rfl, by decide +kernel, by decide +kernel, by decide +kernel, by decide +kernel, by decide, by decide, by decide +kernel⟩

/-- A tidy item. -/
example (E : Env) (h5 : InFourDigits E 5) (h6 : InFourDigits E 6) :
    TidyItem E ⟨Cat.login, 5, b!"a\nb: c", b!"Mail", false, some [⟨b!"Codes", some [⟨b!"Pin", b!"1: 2"⟩]⟩, ⟨[], some [⟨b!"Pin", b!"1"⟩]⟩], b!"M", [], 6⟩ := by
  refine ⟨by decide +kernel, h6, h5, by decide, by decide, ?_⟩
  rintro ss ⟨⟩
  refine ⟨by simp, ?_⟩
  simp only [List.mem_cons, List.not_mem_nil, or_false, forall_eq_or_imp, forall_eq]
  refine ⟨⟨by decide, by decide, ?_⟩, ⟨by decide, by decide, ?_⟩⟩ <;>
  · rintro fs ⟨⟩
    refine ⟨by simp, ?_⟩
    simp only [List.mem_cons, List.not_mem_nil, or_false, forall_eq]
    exact ⟨by decide, by decide, by decide⟩

/-! ### C98 -/

/-- Control characters, line breaks aside. -/
def Control (c : UInt8) : Prop := (c < 32 ∧ c ≠ 10) ∨ c = 127

instance (c : UInt8) : Decidable (Control c) := inferInstanceAs (Decidable ((c < 32 ∧ c ≠ 10) ∨ c = 127))

/-- Text that cannot steer a terminal. -/
def Tame (b : Bytes) : Prop := ∀ c ∈ b, ¬ Control c

instance (b : Bytes) : Decidable (Tame b) := inferInstanceAs (Decidable (∀ c ∈ b, ¬ Control c))

theorem tame_append {a b : Bytes} (ha : Tame a) (hb : Tame b) : Tame (a ++ b) := by
  intro c hc
  rcases List.mem_append.1 hc with h | h
  · exact ha c h
  · exact hb c h

theorem tame_stamp (t o : Int) : Tame (Time.formatStamp t o) := by
  intro c hc h
  obtain ⟨h1, h2⟩ := stamp_bytes t o c hc
  rcases h with ⟨h3, -⟩ | rfl
  · exact absurd h1 (UInt8.not_le.2 h3)
  · exact absurd h2 (by decide)

/-- An item whose texts, as far as they are printed, are tame. -/
structure TameItem (hide : Bool) (i : Item) : Prop where
  category : i.category ∈ Cat.values
  title : Tame i.title
  url : Tame i.url
  notes : hide = false → Tame i.notes
  sections : ∀ ss, i.sections = some ss → ∀ s ∈ ss, Tame s.title ∧
    ∀ fs, s.fields = some fs → ∀ f ∈ fs, Tame f.name ∧ (hide = false → Tame f.value)

theorem tame_lines (E : Env) (hide : Bool) (i : Item) (h : TameItem hide i) : ∀ l ∈ itemLines E hide i, Tame l := by
  have hn : Tame [] := by decide +kernel
  have hr : Tame rule := by decide +kernel
  have hm : Tame mask := by decide +kernel
  have hc : ∀ c ∈ Cat.values, Tame c.name := by decide +kernel
  have hbt : ∀ b, Tame (boolText b) := by decide +kernel
  have hv : ∀ v, (hide = false → Tame v) → Tame (if hide then mask else v) := by
    intro v h
    cases hide
    · exact h rfl
    · exact hm
  intro l hl
  unfold itemLines at hl
  simp only [List.mem_append] at hl
  rcases hl with ((hl | hl) | hl) | hl
  · simp only [List.mem_cons, List.not_mem_nil, or_false] at hl
    rcases hl with rfl | rfl | rfl | rfl | rfl | rfl
    · exact hn
    · exact hc _ h.category
    · exact hr
    · exact h.title
    · exact hn
    · exact tame_append (tame_append (tame_append (tame_append (tame_append (by decide +kernel) (tame_stamp _ _)) (by decide +kernel)) (tame_stamp _ _))
        (by decide +kernel)) (hbt _)
  · split at hl
    · simp only [List.mem_cons, List.not_mem_nil, or_false] at hl
      subst hl
      exact tame_append (by decide +kernel) h.url
    · cases hl
  · split at hl
    · cases hl
    · rename_i ss hs
      simp only [List.mem_append, List.mem_flatMap, List.mem_cons, List.not_mem_nil, or_false] at hl
      rcases hl with ⟨s, hss, hl⟩ | rfl
      · obtain ⟨h1, h2⟩ := h.sections ss hs s hss
        rcases hl with ((rfl | hl) | rfl) | hl
        · exact hn
        · split at hl
          · simp only [List.mem_cons, List.not_mem_nil, or_false] at hl
            subst hl
            exact h1
          · cases hl
        · exact hr
        · split at hl
          · cases hl
          · rename_i fs hf
            obtain ⟨f, hff, rfl⟩ := List.mem_map.1 hl
            obtain ⟨h3, h4⟩ := h2 fs hf f hff
            exact tame_append (tame_append h3 (by decide +kernel)) (hv _ h4)
      · exact hn
  · split at hl
    · simp only [List.mem_append, List.mem_cons, List.not_mem_nil, or_false] at hl
      rcases hl with hl | rfl | rfl | rfl | rfl
      · split at hl
        · simp only [List.mem_cons, List.not_mem_nil, or_false] at hl
          subst hl
          exact hn
        · cases hl
      · decide +kernel
      · exact hr
      · exact hv _ h.notes
      · exact hn
    · cases hl

theorem tame_stream {ls : List Bytes} (h : ∀ l ∈ ls, Tame l) : Tame (stream ls) := by
  intro c hc
  obtain ⟨l, hl, hc⟩ := List.mem_flatMap.1 hc
  exact tame_append (h l hl) (by decide +kernel) c hc

/-- C98. `details` (`hide` false) and `overview` (`hide` true) of an item without control characters print none. (Of other items they do, see `C98_refuted`.) -/
theorem C98_tame_partial (C : Ctx) (hide : Bool) (flag vault uid : Bytes) (trashed : Bool) (w w1 : World)
    (hb : Begun C w w1) (hv : Meaning w1.conf flag vault) (s s' : Session)
    (h : w1.sess.validate w1.disk vault = .ret (.ok (), s))
    (hu : s.unlock C.env C.order w1.disk vault (C.sys.password w1.tick) = .ret (.ok (), s')) (i : Item)
    (hi : s'.getItem uid trashed = some i) (ti : TameItem hide i) :
    ∃ es, (command C (if hide then .overview flag uid trashed else .details flag uid trashed) w).2.log = w1.log ++ es ∧
      Tame (printed es) := by
  refine ⟨.out b!"Password:\n" :: .password :: (itemLines C.env hide i).map (fun l => .out (l ++ [10])), ?_, ?_⟩
  · have e : command C (if hide then .overview flag uid trashed else .details flag uid trashed) w =
        (do openVault C flag; printItem C hide uid trashed : Prog Unit) w := by
      cases hide <;> rfl
    rw [e, Prog.bind_run, open_ok C flag vault w w1 hb hv s s' h hu]
    dsimp only
    rw [printItem_run C hide uid trashed _ i hi]
    simp [after]
  · simp only [printed, printed_lines]
    exact tame_append (by decide +kernel) (tame_stream (tame_lines C.env hide i ti))

namespace Demo

/-- A vault with one item of this title. -/
def titled (title : Bytes) : Disk :=
  { disk [] [] with fs := (disk [] []).fs.take 5 ++ [([b!"a", b!"default", b!"band_0.js"], .file (b!"ld({" ++ Json.renderM
      [(b!"M", stored b!"001" title b!"1" [] false)] ++ b!"});") false)] }

end Demo

set_option maxRecDepth 20000 in
/-- C98 is false in general: a title that clears the screen is printed as it is, by `overview` too. -/
theorem C98_refuted : ∃ (C : Ctx) (w : World) (i : Item),
    (main C (.overview [] b!"M" false) w).1 = .ret () ∧ (main C (.overview [] b!"M" false) w).2.sess.getItem b!"M" false = some i ∧
    i.title = [27, 91, 50, 74] ∧ ¬ Tame (printed (main C (.overview [] b!"M" false) w).2.log) := by
  refine ⟨Demo.ctx OnePass.Demo.pa, Toy.world (Demo.titled [27, 91, 50, 74]) [],
    ⟨Cat.login, 5, [], [27, 91, 50, 74], false, some [⟨[], some [⟨b!"Pin", b!"1"⟩]⟩], b!"M", [], 6⟩, ?_, ?_, rfl, ?_⟩
  · decide +kernel
  · decide +kernel
  · decide +kernel

set_option maxRecDepth 20000 in
/-- The same with a harmless title. -/
example : Tame (printed (main (Demo.ctx OnePass.Demo.pa) (.overview [] b!"M" false) (Toy.world (Demo.titled b!"Mail") [])).2.log) ∧
    (main (Demo.ctx OnePass.Demo.pa) (.overview [] b!"M" false) (Toy.world (Demo.titled b!"Mail") [])).1 = .ret () := by decide +kernel

end Cli
end OnePass
