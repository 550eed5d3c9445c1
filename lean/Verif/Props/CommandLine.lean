/-
C89, C90: what command lines lead to.
-/
import Verif.Props.GuiCheck
import Verif.Props.Config
import Verif.Spec.CommandLine

set_option linter.unusedSimpArgs false

namespace OnePass
namespace Args
open Spec

/-! ### The flags -/

/-- What the parser needs of the flags of a command. -/
structure Good (fs : List Flag) : Prop where
  longs : (fs.map (·.long)).Nodup
  shorts : (fs.map (·.short)).Nodup
  short : ∀ f ∈ fs, f.short ≠ 45 ∧ f.short ≠ 61 ∧ f.short ≠ 101 ∧ (f.short = 116 → f.bool = true)
  long : ∀ f ∈ fs, f.long ≠ [] ∧ 61 ∉ f.long ∧ f.long.head? ≠ some 45
  kind : ∀ f ∈ fs, f.bool = true ↔ f.slot = .trashed ∨ f.slot = .help

theorem good_flags (n : Name) : Good (flags n ++ [helpFlag]) := by
  cases n <;> exact ⟨by decide, by decide, by decide, by decide, by decide⟩

theorem find_long {fs : List Flag} (hg : Good fs) {f : Flag} (hf : f ∈ fs) :
    fs.find? (fun g => g.long = f.long) = some f := by
  have := hg.longs
  clear hg
  induction fs with
  | nil => cases hf
  | cons g fs ih =>
    simp only [List.map_cons, List.nodup_cons] at this
    rcases List.mem_cons.mp hf with rfl | hf
    · simp
    · have hne : g.long ≠ f.long := fun h => this.1 (h ▸ List.mem_map_of_mem hf)
      simp [List.find?_cons, hne, ih hf this.2]

theorem find_short {fs : List Flag} (hg : Good fs) {f : Flag} (hf : f ∈ fs) :
    fs.find? (fun g => g.short = f.short) = some f := by
  have := hg.shorts
  clear hg
  induction fs with
  | nil => cases hf
  | cons g fs ih =>
    simp only [List.map_cons, List.nodup_cons] at this
    rcases List.mem_cons.mp hf with rfl | hf
    · simp
    · have hne : g.short ≠ f.short := fun h => this.1 (h ▸ List.mem_map_of_mem hf)
      simp [List.find?_cons, hne, ih hf this.2]

/-! ### Values -/

theorem parseBool_yes {v : Bytes} (h : v ∈ yes) : parseBool v = some true := by
  simp only [yes, List.mem_cons, List.not_mem_nil, or_false] at h
  rcases h with rfl | rfl | rfl | rfl | rfl | rfl <;> rfl

theorem parseBool_no {v : Bytes} (h : v ∈ no) : parseBool v = some false := by
  simp only [no, List.mem_cons, List.not_mem_nil, or_false] at h
  rcases h with rfl | rfl | rfl | rfl | rfl | rfl <;> rfl

theorem parseBool_some {v : Bytes} {b : Bool} (h : parseBool v = some b) :
    (b = true ∧ v ∈ yes) ∨ (b = false ∧ v ∈ no) := by
  unfold parseBool at h
  split at h
  · rename_i hv
    cases h
    left
    refine ⟨rfl, ?_⟩
    simp only [yes, List.mem_cons, List.not_mem_nil, or_false]
    tauto
  · split at h
    · rename_i hv
      cases h
      right
      refine ⟨rfl, ?_⟩
      simp only [no, List.mem_cons, List.not_mem_nil, or_false]
      tauto
    · cases h

theorem yes_no {v : Bytes} (h : v ∈ yes) : v ∉ no := by
  intro h'
  have := (parseBool_yes h).symm.trans (parseBool_no h')
  cases this

/-- The values after some options. -/
def valsOf (os : List (Slot × Bytes)) : Vals :=
  { vault := textOf os .vault, category := textOf os .category, name := textOf os .name,
    trashed := isOn os .trashed, help := isOn os .help }

theorem lastValue_snoc (os : List (Slot × Bytes)) (s t : Slot) (x : Bytes) :
    lastValue (os ++ [(s, x)]) t = if s = t then some x else lastValue os t := by
  unfold lastValue
  rw [List.reverse_append]
  by_cases h : s = t <;> simp [h, List.find?_cons]

theorem valsOf_snoc (os : List (Slot × Bytes)) {f : Flag} {x : Bytes} (hk : f.bool = true ↔ f.slot = .trashed ∨ f.slot = .help)
    (hx : Fits f x) : assign f x (valsOf os) = .ok (valsOf (os ++ [(f.slot, x)])) := by
  have hb : f.slot = .trashed ∨ f.slot = .help → x ∈ yes ∨ x ∈ no := fun h => hx (hk.2 h)
  unfold assign
  cases hs : f.slot with
  | vault => simp [valsOf, textOf, isOn, lastValue_snoc]
  | category => simp [valsOf, textOf, isOn, lastValue_snoc]
  | name => simp [valsOf, textOf, isOn, lastValue_snoc]
  | trashed =>
    rcases hb (.inl hs) with h | h
    · simp [valsOf, textOf, isOn, lastValue_snoc, parseBool_yes h, h]
    · have : x ∉ yes := fun h' => yes_no h' h
      simp [valsOf, textOf, isOn, lastValue_snoc, parseBool_no h, this]
  | help =>
    rcases hb (.inr hs) with h | h
    · simp [valsOf, textOf, isOn, lastValue_snoc, parseBool_yes h, h]
    · have : x ∉ yes := fun h' => yes_no h' h
      simp [valsOf, textOf, isOn, lastValue_snoc, parseBool_no h, this]

theorem fits_true (f : Flag) : Fits f b!"true" := fun _ => .inl (by decide)

theorem fits_text {f : Flag} (h : f.bool = false) (x : Bytes) : Fits f x := fun h' => absurd h' (by simp [h])

/-! ### Long names -/

theorem splitEq_none {s : Bytes} (h : 61 ∉ s) : splitEq s = (s, none) := by
  induction s with
  | nil => rfl
  | cons c s ih =>
    simp only [List.mem_cons, not_or] at h
    simp [splitEq, ih h.2, Ne.symm h.1]

theorem splitEq_some {s v : Bytes} (h : 61 ∉ s) : splitEq (s ++ 61 :: v) = (s, some v) := by
  induction s with
  | nil => rfl
  | cons c s ih =>
    simp only [List.mem_cons, not_or] at h
    simp [splitEq, ih h.2, Ne.symm h.1]

theorem splitEq_inv (s : Bytes) : 61 ∉ (splitEq s).1 ∧
    s = (splitEq s).1 ++ (match (splitEq s).2 with | none => [] | some v => 61 :: v) := by
  induction s with
  | nil => exact ⟨by simp [splitEq], rfl⟩
  | cons c s ih =>
    simp only [splitEq]
    split
    · rename_i h; exact ⟨by simp, by simp [h]⟩
    · rename_i h
      refine ⟨?_, ?_⟩
      · simp only [List.mem_cons, not_or]; exact ⟨Ne.symm h, ih.1⟩
      · conv_lhs => rw [ih.2]
        rfl

theorem parseLong_ok {fs : List Flag} (hg : Good fs) {f : Flag} (hf : f ∈ fs) (s : Bytes) (hs : (splitEq s).1 = f.long)
    (args : List Bytes) (v : Vals) : parseLong fs s args v =
      match (splitEq s).2 with
      | some x => (assign f x v).map (fun v => (v, args))
      | none =>
        if f.bool then (assign f b!"true" v).map (fun v => (v, args))
        else
          match args with
          | [] => .error (.noValue s)
          | a :: args => (assign f a v).map (fun v => (v, args)) := by
  obtain ⟨h1, h2, h3⟩ := hg.long f hf
  have hsp := (splitEq_inv s).2
  rw [hs] at hsp
  unfold parseLong
  cases s with
  | nil =>
    exact absurd (by simpa using congrArg List.length hsp.symm) (by
      intro h; exact h1 (List.length_eq_zero_iff.mp (by
        have := congrArg List.length hsp
        simp only [List.length_nil, List.length_append] at this
        omega)))
  | cons c s =>
    have hc : f.long.head? = some c := by
      cases hl : f.long with
      | nil => exact absurd hl h1
      | cons d l => rw [hl] at hsp; simp only [List.cons_append, List.cons.injEq] at hsp; simp [hsp.1]
    have n45 : c ≠ 45 := by rintro rfl; exact h3 hc
    have n61 : c ≠ 61 := by rintro rfl; exact h2 (List.mem_of_mem_head? hc)
    simp only [n45, n61, or_self, if_false]
    rw [hs, find_long hg hf]
    rfl

/-! ### Letters -/

theorem test_prefix {c : UInt8} {r : Bytes} (h : b!"test." <+: c :: r) : c = 116 ∧ r.head? = some 101 := by
  obtain ⟨t, ht⟩ := h
  have : b!"test." ++ t = 116 :: 101 :: 115 :: 116 :: 46 :: t := rfl
  rw [this] at ht
  simp only [List.cons.injEq] at ht
  exact ⟨ht.1.symm, by rw [← ht.2]; rfl⟩

theorem parseShort_bools {fs : List Flag} (hg : Good fs) (bs : List Flag) (hb : ∀ b ∈ bs, b ∈ fs ∧ b.bool = true)
    (r : Bytes) (hr : r.head? ≠ some 61 ∧ r.head? ≠ some 101) (args : List Bytes) (os : List (Slot × Bytes)) :
    parseShort fs (bs.map (·.short) ++ r) args (valsOf os) =
      parseShort fs r args (valsOf (os ++ bs.map (fun b => (b.slot, b!"true")))) := by
  induction bs generalizing os with
  | nil => simp
  | cons b bs ih =>
    have hh : (bs.map (·.short) ++ r).head? ≠ some 61 ∧ (bs.map (·.short) ++ r).head? ≠ some 101 := by
      cases bs with
      | nil => simpa using hr
      | cons b' bs =>
        obtain ⟨-, h2, h3, -⟩ := hg.short b' (hb b' (by simp)).1
        simp [h2, h3]
    have hnt : ¬ b!"test." <+: b.short :: (bs.map (·.short) ++ r) := fun h => hh.2 (test_prefix h).2
    rw [List.map_cons, List.cons_append, parseShort, if_neg hnt, find_short hg (hb b (by simp)).1]
    simp only
    split
    · rename_i x y heq
      rw [heq] at hh
      exact absurd rfl hh.1
    · rw [if_pos (hb b (by simp)).2, valsOf_snoc os (hg.kind b (hb b (by simp)).1) (fits_true b)]
      simp only
      rw [ih (fun b' hb' => hb b' (by simp [hb']))]
      simp

theorem parseShort_equals {fs : List Flag} (hg : Good fs) {f : Flag} (hf : f ∈ fs) {v : Bytes} (hv : v ≠ [])
    (hx : Fits f v) (args : List Bytes) (os : List (Slot × Bytes)) :
    parseShort fs (f.short :: 61 :: v) args (valsOf os) = .ok (valsOf (os ++ [(f.slot, v)]), args) := by
  have hnt : ¬ b!"test." <+: f.short :: 61 :: v := fun h => by simpa using (test_prefix h).2
  rw [parseShort, if_neg hnt, find_short hg hf]
  cases v with
  | nil => exact absurd rfl hv
  | cons x y =>
    simp only
    rw [valsOf_snoc os (hg.kind f hf) hx]
    rfl

theorem parseShort_next {fs : List Flag} (hg : Good fs) {f : Flag} (hf : f ∈ fs) (hb : f.bool = false) (v : Bytes)
    (args : List Bytes) (os : List (Slot × Bytes)) :
    parseShort fs [f.short] (v :: args) (valsOf os) = .ok (valsOf (os ++ [(f.slot, v)]), args) := by
  have hnt : ¬ b!"test." <+: [f.short] := fun h => by simpa using (test_prefix h).2
  rw [parseShort, if_neg hnt, find_short hg hf]
  simp only [hb, Bool.false_eq_true, if_false, ne_eq, not_true_eq_false]
  rw [valsOf_snoc os (hg.kind f hf) (fits_text hb v)]
  rfl

theorem parseShort_joined {fs : List Flag} (hg : Good fs) {f : Flag} (hf : f ∈ fs) (hb : f.bool = false) {v : Bytes}
    (hv : v ≠ []) (hne : ∀ x y, v ≠ 61 :: x :: y) (args : List Bytes) (os : List (Slot × Bytes)) :
    parseShort fs (f.short :: v) args (valsOf os) = .ok (valsOf (os ++ [(f.slot, v)]), args) := by
  have hnt : ¬ b!"test." <+: f.short :: v := fun h => by
    have := (hg.short f hf).2.2.2 (test_prefix h).1
    rw [hb] at this; cases this
  rw [parseShort.eq_def]
  simp only
  rw [if_neg hnt, find_short hg hf]
  simp only [hb, Bool.false_eq_true, if_false]
  rw [if_pos hv, valsOf_snoc os (hg.kind f hf) (fits_text hb v)]
  rfl

/-! ### The whole command line -/

theorem parseArgs_word {fs : List Flag} {a : Bytes} (h : a = b!"-" ∨ a.head? ≠ some 45) (n : Nat) (args : List Bytes)
    (v : Vals) (ws : List Bytes) : parseArgs fs (n + 1) (a :: args) v ws = parseArgs fs n args v (ws ++ [a]) := by
  rcases h with rfl | h
  · rfl
  · rw [parseArgs.eq_def]
    simp only
    split
    · simp at h
    · simp at h
    · simp at h
    · rfl

theorem parseArgs_long {fs : List Flag} {s : Bytes} (h : s ≠ []) (n : Nat) (args : List Bytes) (v : Vals) (ws : List Bytes) :
    parseArgs fs (n + 1) ((45 :: 45 :: s) :: args) v ws =
      match parseLong fs s args v with
      | .error e => .error e
      | .ok (v, args) => parseArgs fs n args v ws := by
  cases s with
  | nil => exact absurd rfl h
  | cons c s => rfl

theorem parseArgs_short {fs : List Flag} {c : UInt8} {s : Bytes} (h : c ≠ 45) (n : Nat) (args : List Bytes) (v : Vals)
    (ws : List Bytes) : parseArgs fs (n + 1) ((45 :: c :: s) :: args) v ws =
      match parseShort fs (c :: s) args v with
      | .error e => .error e
      | .ok (v, args) => parseArgs fs n args v ws := by
  rw [parseArgs.eq_def]
  simp only
  split
  · rename_i heq; simp only [List.cons.injEq] at heq; exact absurd heq.2.1 h
  · rename_i heq; simp only [List.cons.injEq] at heq; exact absurd heq.2.1 h
  · rename_i heq
    simp only [List.cons.injEq, true_and] at heq
    obtain ⟨rfl, rfl⟩ := heq
    rfl
  · rename_i h3
    exact absurd rfl (h3 c s)

theorem parseArgs_piece {fs : List Flag} (hg : Good fs) {p : Piece} (hp : p.Ok fs) (n : Nat) (args : List Bytes)
    (os : List (Slot × Bytes)) (ws : List Bytes) :
    parseArgs fs (n + 1) (p.written ++ args) (valsOf os) ws =
      parseArgs fs n args (valsOf (os ++ p.options)) (ws ++ p.words) := by
  cases p with
  | word a => simpa [Piece.written, Piece.options, Piece.words] using parseArgs_word hp n args (valsOf os) ws
  | long f g =>
    obtain ⟨hf, hv⟩ := hp
    obtain ⟨l1, l2, -⟩ := hg.long f hf
    cases g with
    | none =>
      show parseArgs fs (n + 1) ((45 :: 45 :: f.long) :: args) _ _ = _
      rw [parseArgs_long l1, parseLong_ok hg hf _ (by rw [splitEq_none l2]), splitEq_none l2]
      simp only
      rw [if_pos hv, valsOf_snoc os (hg.kind f hf) (fits_true f)]
      simp [Piece.options, Piece.words, Except.map]
    | equals v =>
      have e : f.long ++ b!"=" ++ v = f.long ++ 61 :: v := by simp
      show parseArgs fs (n + 1) ((45 :: 45 :: (f.long ++ b!"=" ++ v)) :: args) _ _ = _
      rw [e, parseArgs_long (by simp), parseLong_ok hg hf _ (by rw [splitEq_some l2]), splitEq_some l2]
      simp only
      rw [valsOf_snoc os (hg.kind f hf) hv]
      simp [Piece.options, Piece.words, Except.map]
    | next v =>
      show parseArgs fs (n + 1) ((45 :: 45 :: f.long) :: v :: args) _ _ = _
      rw [parseArgs_long l1, parseLong_ok hg hf _ (by rw [splitEq_none l2]), splitEq_none l2]
      have hb : f.bool = false := hv
      simp only [hb, Bool.false_eq_true, if_false]
      rw [valsOf_snoc os (hg.kind f hf) (fits_text hb v)]
      simp [Piece.options, Piece.words, Except.map]
  | short bs l =>
    obtain ⟨hb, hl⟩ := hp
    -- the first letter is no dash
    have key : ∀ (r : Bytes) (extra rest : List Bytes) (os' : List (Slot × Bytes)),
        bs.map (·.short) ++ r ≠ [] → r.head? ≠ some 45 → r.head? ≠ some 61 → r.head? ≠ some 101 →
        parseShort fs r (extra ++ rest) (valsOf (os ++ bs.map (fun b => (b.slot, b!"true")))) =
          .ok (valsOf (os ++ (bs.map (fun b => (b.slot, b!"true")) ++ os')), rest) →
        parseArgs fs (n + 1) ((45 :: (bs.map (·.short) ++ r)) :: (extra ++ rest)) (valsOf os) ws =
          parseArgs fs n rest (valsOf (os ++ (bs.map (fun b => (b.slot, b!"true")) ++ os'))) ws := by
      intro r extra rest os' hne h45 h61 h101 hs
      have hd : ∃ c s, bs.map (·.short) ++ r = c :: s ∧ c ≠ 45 := by
        cases bs with
        | nil =>
          cases r with
          | nil => exact absurd rfl hne
          | cons c s => exact ⟨c, s, rfl, fun h => h45 (by rw [h]; rfl)⟩
        | cons b bs => exact ⟨b.short, bs.map (·.short) ++ r, rfl, (hg.short b (hb b (by simp)).1).1⟩
      obtain ⟨c, s, he, hc⟩ := hd
      rw [he, parseArgs_short hc, ← he, parseShort_bools hg bs hb r ⟨h61, h101⟩, hs]
    have hw : ws ++ (Piece.short bs l).words = ws := by simp [Piece.words]
    rw [hw]
    cases l with
    | none =>
      have := key [] [] args [] (by simpa using hl) (by simp) (by simp) (by simp) (by simp [parseShort])
      simpa [Piece.written, Piece.options] using this
    | equals f v =>
      obtain ⟨hf, hv, hx⟩ := hl
      obtain ⟨h1, h2, h3, -⟩ := hg.short f hf
      have := key (f.short :: 61 :: v) [] args [(f.slot, v)] (by simp) (by simpa using h1) (by simpa using h2)
        (by simpa using h3) (by rw [← List.append_assoc]; exact parseShort_equals hg hf hv hx _ _)
      simpa [Piece.written, Piece.options] using this
    | next f v =>
      obtain ⟨hf, hfb⟩ := hl
      obtain ⟨h1, h2, h3, -⟩ := hg.short f hf
      have := key [f.short] [v] args [(f.slot, v)] (by simp) (by simpa using h1) (by simpa using h2)
        (by simpa using h3) (by rw [← List.append_assoc]; exact parseShort_next hg hf hfb v _ _)
      simpa [Piece.written, Piece.options] using this
    | joined f v =>
      obtain ⟨hf, hfb, hv, hne⟩ := hl
      obtain ⟨h1, h2, h3, -⟩ := hg.short f hf
      have := key (f.short :: v) [] args [(f.slot, v)] (by simp) (by simpa using h1) (by simpa using h2)
        (by simpa using h3) (by rw [← List.append_assoc]; exact parseShort_joined hg hf hfb hv hne _ _)
      simpa [Piece.written, Piece.options] using this
    | test r =>
      have hp : b!"test." <+: 116 :: (b!"est." ++ r) := ⟨r, rfl⟩
      have := key (116 :: (b!"est." ++ r)) [] args [] (by simp) (by simp) (by simp) (by simp)
        (by rw [parseShort, if_pos hp]; simp)
      simpa [Piece.written, Piece.options] using this

theorem written_length {fs : List Flag} (p : Piece) (hp : p.Ok fs) : 1 ≤ p.written.length := by
  cases p with
  | word a => simp [Piece.written]
  | long f g => cases g <;> simp [Piece.written]
  | short bs l => cases l <;> simp [Piece.written]

theorem parseArgs_line {fs : List Flag} (hg : Good fs) (ps : List Piece) (hp : ∀ p ∈ ps, p.Ok fs) (d : Option (List Bytes))
    (n : Nat) (os : List (Slot × Bytes)) (ws : List Bytes) (hn : (Line.written ⟨ps, d⟩).length ≤ n) :
    parseArgs fs n (Line.written ⟨ps, d⟩) (valsOf os) ws =
      .ok (valsOf (os ++ ps.flatMap Piece.options), ws ++ (ps.flatMap Piece.words ++ d.getD [])) := by
  induction ps generalizing n os ws with
  | nil =>
    cases d with
    | none => cases n <;> simp [Line.written, parseArgs]
    | some l =>
      cases n with
      | zero => simp [Line.written] at hn
      | succ n => simp [Line.written, parseArgs]
  | cons p ps ih =>
    have h1 := written_length p (hp p (by simp))
    have e : Line.written ⟨p :: ps, d⟩ = p.written ++ Line.written ⟨ps, d⟩ := by simp [Line.written]
    rw [e] at hn ⊢
    simp only [List.length_append] at hn
    cases n with
    | zero => omega
    | succ n =>
      rw [parseArgs_piece hg (hp p (by simp)), ih (fun q hq => hp q (by simp [hq])) n _ _ (by omega)]
      simp

/-- Whatever is written in the usual conventions is understood. -/
theorem parse_line {fs : List Flag} (hg : Good fs) (l : Line) (h : l.Ok fs) :
    parse fs l.written = .ok (valsOf l.options, l.words) := by
  have := parseArgs_line hg l.pieces h l.dashes l.written.length [] [] (Nat.le_refl _)
  have e : valsOf [] = {} := rfl
  rw [e] at this
  simpa [Line.words, Line.options, parse] using this

/-! ### Nothing else is understood -/

theorem assign_ok {f : Flag} (hk : f.bool = true ↔ f.slot = .trashed ∨ f.slot = .help) {x : Bytes}
    {os : List (Slot × Bytes)} {v : Vals} (h : assign f x (valsOf os) = .ok v) :
    Fits f x ∧ v = valsOf (os ++ [(f.slot, x)]) := by
  have hx : Fits f x := by
    intro hb
    have hp : ∃ b, parseBool x = some b := by
      unfold assign at h
      rcases hk.1 hb with hs | hs <;> rw [hs] at h <;> simp only at h <;> split at h
      · exact ⟨_, ‹_›⟩
      · cases h
      · exact ⟨_, ‹_›⟩
      · cases h
    obtain ⟨b, hb⟩ := hp
    rcases parseBool_some hb with ⟨-, h⟩ | ⟨-, h⟩
    · exact .inl h
    · exact .inr h
  refine ⟨hx, ?_⟩
  rw [valsOf_snoc os hk hx] at h
  cases h; rfl

theorem map_ok {v v' : Vals} {r : Except Bad Vals} {args args' : List Bytes}
    (h : r.map (fun v => (v, args)) = .ok (v', args')) (hr : r = .ok v ∨ ∃ e, r = .error e) : v' = v ∧ args' = args := by
  rcases hr with rfl | ⟨e, rfl⟩
  · cases h; exact ⟨rfl, rfl⟩
  · cases h

theorem map_inv {v' : Vals} {r : Except Bad Vals} {args args' : List Bytes}
    (h : r.map (fun v => (v, args)) = .ok (v', args')) : r = .ok v' ∧ args' = args := by
  cases r with
  | error e => cases h
  | ok v => cases h; exact ⟨rfl, rfl⟩

theorem find_mem {fs : List Flag} {q : Flag → Bool} {f : Flag} (h : fs.find? q = some f) : f ∈ fs ∧ q f = true :=
  ⟨List.mem_of_find?_eq_some h, List.find?_some h⟩

theorem parseLong_sound {fs : List Flag} (hg : Good fs) {s : Bytes} {args args' : List Bytes} {os : List (Slot × Bytes)}
    {v : Vals} (h : parseLong fs s args (valsOf os) = .ok (v, args')) :
    ∃ p : Piece, p.Ok fs ∧ (45 :: 45 :: s) :: args = p.written ++ args' ∧ v = valsOf (os ++ p.options) ∧ p.words = [] := by
  unfold parseLong at h
  split at h
  · cases h
  · rename_i c s
    split at h
    · cases h
    · generalize hfull : c :: s = full at h ⊢
      obtain ⟨-, hsp⟩ := splitEq_inv full
      split at h
      · cases h
      · rename_i f hf
        obtain ⟨hf, hl⟩ := find_mem hf
        simp only [decide_eq_true_eq] at hl
        rw [← hl] at hsp
        split at h
        · rename_i x hx
          rw [hx] at hsp
          obtain ⟨ha, rfl⟩ := map_inv h
          obtain ⟨h1, h2⟩ := assign_ok (hg.kind f hf) ha
          exact ⟨.long f (.equals x), ⟨hf, h1⟩, by rw [hsp]; simp [Piece.written], h2, rfl⟩
        · rename_i hx
          rw [hx] at hsp
          simp only [List.append_nil] at hsp
          split at h
          · rename_i hb
            obtain ⟨ha, rfl⟩ := map_inv h
            obtain ⟨h1, h2⟩ := assign_ok (hg.kind f hf) ha
            exact ⟨.long f .none, ⟨hf, hb⟩, by rw [hsp]; simp [Piece.written], h2, rfl⟩
          · rename_i hb
            split at h
            · cases h
            · rename_i a args
              obtain ⟨ha, rfl⟩ := map_inv h
              obtain ⟨h1, h2⟩ := assign_ok (hg.kind f hf) ha
              exact ⟨.long f (.next a), ⟨hf, by simpa using hb⟩, by rw [hsp]; simp [Piece.written], h2, rfl⟩

/-- The letters and the next word of the end of a group of letters. -/
def chars : Last → Bytes
  | .none => []
  | .equals f v => f.short :: 61 :: v
  | .next f _ => [f.short]
  | .joined f v => f.short :: v
  | .test r => b!"test." ++ r

def nexts : Last → List Bytes
  | .next _ v => [v]
  | _ => []

def lasts : Last → List (Slot × Bytes)
  | .none => []
  | .equals f v => [(f.slot, v)]
  | .next f v => [(f.slot, v)]
  | .joined f v => [(f.slot, v)]
  | .test _ => []

def LastOk (fs : List Flag) : Last → Prop
  | .none => True
  | .equals f v => f ∈ fs ∧ v ≠ [] ∧ Fits f v
  | .next f _ => f ∈ fs ∧ f.bool = false
  | .joined f v => f ∈ fs ∧ f.bool = false ∧ v ≠ [] ∧ ∀ x y, v ≠ 61 :: x :: y
  | .test _ => True

theorem short_written (bs : List Flag) (l : Last) :
    (Piece.short bs l).written = (45 :: (bs.map (·.short) ++ chars l)) :: nexts l := by
  cases l <;> simp [Piece.written, chars, nexts]

theorem parseShort_sound {fs : List Flag} (hg : Good fs) : ∀ (s : Bytes) (args args' : List Bytes) (os : List (Slot × Bytes))
    (v : Vals), parseShort fs s args (valsOf os) = .ok (v, args') →
    ∃ (bs : List Flag) (l : Last), (∀ b ∈ bs, b ∈ fs ∧ b.bool = true) ∧ LastOk fs l ∧ s = bs.map (·.short) ++ chars l ∧ args = nexts l ++ args' ∧
      v = valsOf (os ++ (bs.map (fun b => (b.slot, b!"true")) ++ lasts l)) := by
  intro s
  induction s with
  | nil =>
    intro args args' os v h
    cases h
    exact ⟨[], .none, by simp, trivial, rfl, rfl, by simp [lasts]⟩
  | cons c r ih =>
    intro args args' os v h
    rw [parseShort.eq_def] at h
    simp only at h
    split at h
    · rename_i ht
      cases h
      obtain ⟨t, ht⟩ := ht
      exact ⟨[], .test t, by simp, trivial, by simp [chars, ← ht], rfl, by simp [lasts]⟩
    · split at h
      · cases h
      · rename_i f hq
        obtain ⟨hf, hc⟩ := find_mem hq
        simp only [decide_eq_true_eq] at hc
        subst hc
        clear hq
        split at h
        · rename_i x y _
          obtain ⟨ha, rfl⟩ := map_inv h
          obtain ⟨h1, h2⟩ := assign_ok (hg.kind f hf) ha
          exact ⟨[], .equals f (x :: y), by simp, ⟨hf, by simp, h1⟩, rfl, rfl, by simpa [lasts] using h2⟩
        · rename_i hne
          split at h
          · rename_i hb
            rw [valsOf_snoc os (hg.kind f hf) (fits_true f)] at h
            simp only at h
            obtain ⟨bs, l, h1, h2, h3, h4, h5⟩ := ih _ _ _ _ h
            refine ⟨f :: bs, l, ?_, h2, by simp [h3], h4, by simpa using h5⟩
            intro b hb'
            rcases List.mem_cons.mp hb' with rfl | hb'
            · exact ⟨hf, hb⟩
            · exact h1 b hb'
          · rename_i hb
            have hb : f.bool = false := by simpa using hb
            split at h
            · rename_i hr
              obtain ⟨ha, rfl⟩ := map_inv h
              obtain ⟨h1, h2⟩ := assign_ok (hg.kind f hf) ha
              exact ⟨[], .joined f r, by simp, ⟨hf, hb, hr, fun x y e => hne x y e⟩, rfl, rfl, by simpa [lasts] using h2⟩
            · rename_i hr
              have hr : r = [] := by simpa using hr
              subst hr
              split at h
              · cases h
              · rename_i a args
                obtain ⟨ha, rfl⟩ := map_inv h
                obtain ⟨h1, h2⟩ := assign_ok (hg.kind f hf) ha
                exact ⟨[], .next f a, by simp, ⟨hf, hb⟩, rfl, rfl, by simpa [lasts] using h2⟩

theorem parseArgs_sound {fs : List Flag} (hg : Good fs) : ∀ (n : Nat) (args : List Bytes) (os : List (Slot × Bytes))
    (ws : List Bytes) (v : Vals) (ws' : List Bytes), args.length ≤ n → parseArgs fs n args (valsOf os) ws = .ok (v, ws') →
    ∃ l : Line, l.Ok fs ∧ l.written = args ∧ v = valsOf (os ++ l.options) ∧ ws' = ws ++ l.words := by
  intro n
  induction n with
  | zero =>
    intro args os ws v ws' hn h
    obtain rfl : args = [] := List.length_eq_zero_iff.mp (by omega)
    cases h
    exact ⟨⟨[], none⟩, fun p hp => (by simp at hp), rfl, by simp [Line.options], by simp [Line.words]⟩
  | succ n ih =>
    intro args os ws v ws' hn h
    cases args with
    | nil =>
      cases h
      exact ⟨⟨[], none⟩, fun p hp => (by simp at hp), rfl, by simp [Line.options], by simp [Line.words]⟩
    | cons s args =>
      simp only [List.length_cons] at hn
      -- one piece, then the rest
      have step : ∀ (p : Piece) (rest : List Bytes), p.Ok fs → s :: args = p.written ++ rest →
          parseArgs fs n rest (valsOf (os ++ p.options)) (ws ++ p.words) = .ok (v, ws') →
          ∃ l : Line, l.Ok fs ∧ l.written = s :: args ∧ v = valsOf (os ++ l.options) ∧ ws' = ws ++ l.words := by
        intro p rest hp he h
        have hlen : rest.length ≤ n := by
          have h1 := written_length p hp
          have h2 := congrArg List.length he
          simp only [List.length_cons, List.length_append] at h2
          omega
        obtain ⟨l, h1, h2, h3, h4⟩ := ih _ _ _ _ _ hlen h
        refine ⟨⟨p :: l.pieces, l.dashes⟩, ?_, ?_, ?_, ?_⟩
        · intro q hq
          rcases List.mem_cons.mp hq with rfl | hq
          · exact hp
          · exact h1 q hq
        · rw [he, ← h2]; simp [Line.written]
        · rw [h3]; simp [Line.options]
        · rw [h4]; simp [Line.words]
      rw [parseArgs.eq_def] at h
      simp only at h
      split at h
      · cases h
        exact ⟨⟨[], some args⟩, fun p hp => (by simp at hp), rfl, by simp [Line.options], by simp [Line.words]⟩
      · rename_i r hr
        split at h
        · cases h
        · rename_i v1 args1 hl
          obtain ⟨p, h1, h2, h3, h4⟩ := parseLong_sound hg hl
          refine step p args1 h1 h2 ?_
          rw [← h3, h4, List.append_nil]; exact h
      · rename_i c r _ _
        split at h
        · cases h
        · rename_i v1 args1 hl
          obtain ⟨bs, l, h1, h2, h3, h4, h5⟩ := parseShort_sound hg _ _ _ _ _ hl
          refine step (.short bs l) args1 ⟨h1, ?_⟩ ?_ ?_
          · cases l with
            | none =>
              simp only
              rintro rfl
              simp [chars] at h3
            | equals f v => exact h2
            | next f v => exact h2
            | joined f v => exact h2
            | test r => exact h2
          · rw [short_written, ← h3, h4]; rfl
          · have e : (Piece.short bs l).options = bs.map (fun b => (b.slot, b!"true")) ++ lasts l := by
              cases l <;> simp [Piece.options, lasts]
            rw [e, ← h5]
            simpa [Piece.words] using h
      · rename_i h1 h2 h3
        refine step (.word s) args ?_ rfl (by simpa [Piece.options, Piece.words] using h)
        show s = b!"-" ∨ s.head? ≠ some 45
        match s with
        | [] => right; simp
        | [b] =>
          by_cases hb : b = 45
          · left; rw [hb]
          · right; simpa using hb
        | b :: c :: r =>
          right
          intro hb
          simp only [List.head?_cons, Option.some.injEq] at hb
          subst hb
          exact h3 c r rfl

/-- Only what is written in the usual conventions is understood. -/
theorem parse_iff {fs : List Flag} (hg : Good fs) (args : List Bytes) (v : Vals) (ws : List Bytes) :
    parse fs args = .ok (v, ws) ↔ ∃ l : Line, l.Ok fs ∧ l.written = args ∧ v = valsOf l.options ∧ ws = l.words := by
  constructor
  · intro h
    obtain ⟨l, h1, h2, h3, h4⟩ := parseArgs_sound hg args.length args [] [] v ws (Nat.le_refl _) h
    exact ⟨l, h1, h2, by simpa using h3, by simpa using h4⟩
  · rintro ⟨l, h1, rfl, rfl, rfl⟩
    exact parse_line hg l h1

/-! ### C89 -/

theorem strip_cons (fs : List Flag) (s : Bytes) (args : List Bytes) : strip fs (s :: args) =
    if s = b!"--" then []
    else if takesNext fs s then
      match args with
      | _ :: a :: args => strip fs (a :: args)
      | _ => []
    else
      match s with
      | [] => strip fs args
      | c :: _ => if c = 45 then strip fs args else s :: strip fs args := by
  rw [strip.eq_def]
  rfl

theorem takesNext_word {w : Bytes} (h : w.head? ≠ some 45) : takesNext (flags .root) w = false := by
  unfold takesNext
  split
  · simp at h
  · simp at h
  · simp

theorem find_word {w : Bytes} {n : Name} (hs : sub w = some n) (h : w.head? ≠ some 45) (hne : w ≠ []) (rest : List Bytes) :
    find (w :: rest) = .ok (n, rest) := by
  have h1 : w ≠ b!"--" := by rintro rfl; simp at h
  have h2 := takesNext_word h
  obtain ⟨c, r, rfl⟩ : ∃ c r, w = c :: r := by
    cases w with
    | nil => exact absurd rfl hne
    | cons c r => exact ⟨c, r, rfl⟩
  have hc : c ≠ 45 := by simpa using h
  have hst : strip (flags .root) ((c :: r) :: rest) = (c :: r) :: strip (flags .root) rest := by
    rw [strip_cons, if_neg h1, h2]
    simp only [Bool.false_eq_true, if_false, hc]
  unfold find
  rw [hst]
  simp only
  rw [hs]
  simp

theorem execute_run {n : Name} {rest : List Bytes} {c : Cli.Cmd} :
    execute n rest = .run c ↔ ∃ l : Line, l.Ok (flags n ++ [helpFlag]) ∧ l.written = rest ∧ isOn l.options .help = false ∧
      checkArgs n l.words = none ∧ runs n (valsOf l.options) l.words = .run c := by
  unfold execute
  constructor
  · intro h
    cases hp : parse (flags n ++ [helpFlag]) rest with
    | error e => rw [hp] at h; cases h
    | ok q =>
      obtain ⟨v, ws⟩ := q
      rw [hp] at h
      obtain ⟨l, h1, h2, rfl, rfl⟩ := (parse_iff (good_flags n) _ _ _).1 hp
      simp only at h
      split at h
      · cases h
      · rename_i hh
        split at h
        · cases h
        · rename_i hc
          exact ⟨l, h1, h2, by simpa [valsOf] using hh, hc, h⟩
  · rintro ⟨l, h1, h2, h3, h4, h5⟩
    rw [(parse_iff (good_flags n) rest _ _).2 ⟨l, h1, h2, rfl, rfl⟩]
    have h3 : (valsOf l.options).help = false := h3
    simp only [h3, Bool.false_eq_true, if_false, h4, h5]

theorem argv_word {w : Bytes} {n : Name} (hs : sub w = some n) (h : w.head? ≠ some 45) (hne : w ≠ []) (hn : n ≠ .complete)
    (rest : List Bytes) : argv (w :: rest) = execute n rest := by
  unfold argv
  rw [find_word hs h hne]
  cases n <;> first | rfl | exact absurd rfl hn

/-- C89. `1pass list …` lists with exactly the options given, wherever and however they are written, and does so only
if there is nothing but options. -/
theorem C89_list (rest : List Bytes) (c : Cli.Cmd) : argv (b!"list" :: rest) = .run c ↔
    ∃ l : Line, l.Ok listOptions ∧ l.written = rest ∧ isOn l.options .help = false ∧ l.words = [] ∧
      c = .list (textOf l.options .vault) (textOf l.options .category) (textOf l.options .name) (isOn l.options .trashed) := by
  rw [argv_word (n := .list) rfl (by decide) (by decide) (by decide), execute_run]
  refine exists_congr fun l => and_congr Iff.rfl (and_congr Iff.rfl (and_congr Iff.rfl (and_congr ?_ ?_)))
  · cases l.words <;> simp [checkArgs]
  · simp [runs, valsOf, eq_comm]

/-- C89. `1pass details UID …` -/
theorem C89_details (rest : List Bytes) (c : Cli.Cmd) : argv (b!"details" :: rest) = .run c ↔
    ∃ (l : Line) (uid : Bytes), l.Ok itemOptions ∧ l.written = rest ∧ isOn l.options .help = false ∧ l.words = [uid] ∧
      c = .details (textOf l.options .vault) uid (isOn l.options .trashed) := by
  rw [argv_word (n := .details) rfl (by decide) (by decide) (by decide), execute_run]
  refine exists_congr fun l => ?_
  constructor
  · rintro ⟨h1, h2, h3, h4, h5⟩
    obtain ⟨uid, hu⟩ : ∃ u, l.words = [u] := by
      simp only [checkArgs] at h4
      split at h4
      · exact List.length_eq_one_iff.mp ‹_›
      · cases h4
    refine ⟨uid, h1, h2, h3, hu, ?_⟩
    rw [hu] at h5
    simpa [runs, valsOf, eq_comm] using h5
  · rintro ⟨uid, h1, h2, h3, hu, rfl⟩
    exact ⟨h1, h2, h3, by simp [checkArgs, hu], by simp [runs, valsOf, hu]⟩

/-- C89. `1pass overview UID …` -/
theorem C89_overview (rest : List Bytes) (c : Cli.Cmd) : argv (b!"overview" :: rest) = .run c ↔
    ∃ (l : Line) (uid : Bytes), l.Ok itemOptions ∧ l.written = rest ∧ isOn l.options .help = false ∧ l.words = [uid] ∧
      c = .overview (textOf l.options .vault) uid (isOn l.options .trashed) := by
  rw [argv_word (n := .overview) rfl (by decide) (by decide) (by decide), execute_run]
  refine exists_congr fun l => ?_
  constructor
  · rintro ⟨h1, h2, h3, h4, h5⟩
    obtain ⟨uid, hu⟩ : ∃ u, l.words = [u] := by
      simp only [checkArgs] at h4
      split at h4
      · exact List.length_eq_one_iff.mp ‹_›
      · cases h4
    refine ⟨uid, h1, h2, h3, hu, ?_⟩
    rw [hu] at h5
    simpa [runs, valsOf, eq_comm] using h5
  · rintro ⟨uid, h1, h2, h3, hu, rfl⟩
    exact ⟨h1, h2, h3, by simp [checkArgs, hu], by simp [runs, valsOf, hu]⟩

/-- The commands without options. -/
def plain : List (Bytes × Cli.Cmd) :=
  [(b!"update", .update), (b!"configure", .configure), (b!"categories", .categories), (b!"version", .version)]

/-- C89. `1pass update`, `configure`, `categories` and `version` run whatever words follow, and with no option. -/
theorem C89_plain (w : Bytes) (c : Cli.Cmd) (h : (w, c) ∈ plain) (rest : List Bytes) (c' : Cli.Cmd) :
    argv (w :: rest) = .run c' ↔
    c' = c ∧ ∃ l : Line, l.Ok noOptions ∧ l.written = rest ∧ isOn l.options .help = false := by
  simp only [plain, List.mem_cons, Prod.mk.injEq, List.not_mem_nil, or_false] at h
  rcases h with ⟨rfl, rfl⟩ | ⟨rfl, rfl⟩ | ⟨rfl, rfl⟩ | ⟨rfl, rfl⟩
  · rw [argv_word (n := .update) rfl (by decide) (by decide) (by decide), execute_run]
    constructor
    · rintro ⟨l, h1, h2, h3, -, h5⟩; cases h5; exact ⟨rfl, l, h1, h2, h3⟩
    · rintro ⟨rfl, l, h1, h2, h3⟩; exact ⟨l, h1, h2, h3, rfl, rfl⟩
  · rw [argv_word (n := .configure) rfl (by decide) (by decide) (by decide), execute_run]
    constructor
    · rintro ⟨l, h1, h2, h3, -, h5⟩; cases h5; exact ⟨rfl, l, h1, h2, h3⟩
    · rintro ⟨rfl, l, h1, h2, h3⟩; exact ⟨l, h1, h2, h3, rfl, rfl⟩
  · rw [argv_word (n := .categories) rfl (by decide) (by decide) (by decide), execute_run]
    constructor
    · rintro ⟨l, h1, h2, h3, -, h5⟩; cases h5; exact ⟨rfl, l, h1, h2, h3⟩
    · rintro ⟨rfl, l, h1, h2, h3⟩; exact ⟨l, h1, h2, h3, rfl, rfl⟩
  · rw [argv_word (n := .version) rfl (by decide) (by decide) (by decide), execute_run]
    constructor
    · rintro ⟨l, h1, h2, h3, -, h5⟩; cases h5; exact ⟨rfl, l, h1, h2, h3⟩
    · rintro ⟨rfl, l, h1, h2, h3⟩; exact ⟨l, h1, h2, h3, rfl, rfl⟩

theorem strip_skip {s : Bytes} (h1 : s ≠ b!"--") (h2 : takesNext (flags .root) s = false) (h3 : s.head? = some 45)
    (args : List Bytes) : strip (flags .root) (s :: args) = strip (flags .root) args := by
  cases s with
  | nil => cases h3
  | cons c r =>
    have : c = 45 := by simpa using h3
    rw [strip_cons, if_neg h1, h2]
    simp [this]

theorem takesNext_eq {s : Bytes} (h : 61 ∈ s) : takesNext (flags .root) s = false := by
  unfold takesNext
  have : s.contains 61 = true := by simpa using h
  rw [this]; rfl

/-- Options of the vault alone leave nothing that looks like a command. -/
theorem strip_vault (ps : List Piece) (hp : ∀ p ∈ ps, p.Ok [vaultOption] ∧ p.words = [] ∧ ∀ r, p ≠ .short [] (.test r))
    (d : Option (List Bytes)) : strip (flags .root) (Line.written ⟨ps, d⟩) = [] := by
  induction ps with
  | nil =>
    cases d with
    | none => rfl
    | some ws => show strip (flags .root) (b!"--" :: ws) = []; rw [strip_cons, if_pos rfl]
  | cons p ps ih =>
    have ih := ih (fun q hq => hp q (by simp [hq]))
    obtain ⟨hok, hw, hnt⟩ := hp p (by simp)
    have e : Line.written ⟨p :: ps, d⟩ = p.written ++ Line.written ⟨ps, d⟩ := by simp [Line.written]
    rw [e]
    generalize Line.written ⟨ps, d⟩ = rest at ih ⊢
    -- `--vault x` and `-v x`
    have next : ∀ (s v : Bytes), s ≠ b!"--" → takesNext (flags .root) s = true → strip (flags .root) (s :: v :: rest) = [] := by
      intro s v h1 h2
      rw [strip_cons, if_neg h1, h2]
      cases rest with
      | nil => rfl
      | cons a r => exact ih
    cases p with
    | word a => cases hw
    | long f g =>
      obtain ⟨hf, hg⟩ := hok
      obtain rfl : f = vaultOption := by simpa using hf
      cases g with
      | none => cases hg
      | equals v => exact (strip_skip (by simp [vaultOption]) (takesNext_eq (by simp)) rfl rest).trans ih
      | next v => exact next _ v (by decide) (by decide)
    | short bs l =>
      obtain ⟨hb, hl⟩ := hok
      obtain rfl : bs = [] := by
        cases bs with
        | nil => rfl
        | cons b bs =>
          obtain ⟨h1, h2⟩ := hb b (by simp)
          obtain rfl : b = vaultOption := by simpa using h1
          cases h2
      cases l with
      | none => exact absurd rfl hl
      | equals f v =>
        obtain rfl : f = vaultOption := by simpa using hl.1
        exact (strip_skip (s := 45 :: 118 :: 61 :: v) (by simp) (takesNext_eq (by simp)) rfl rest).trans ih
      | next f v =>
        obtain rfl : f = vaultOption := by simpa using hl.1
        exact next _ v (by decide) (by decide)
      | joined f v =>
        obtain rfl : f = vaultOption := by simpa using hl.1
        have hv := hl.2.2.1
        have htn : takesNext (flags .root) (45 :: 118 :: v) = false := by
          cases v with
          | nil => exact absurd rfl hv
          | cons x y => simp [takesNext]
        exact (strip_skip (s := 45 :: 118 :: v) (by simp) htn rfl rest).trans ih
      | test r => exact absurd rfl (hnt r)

/-- C89. Without a command the GUI opens the vault given with `-v`. -/
theorem C89_gui (l : Line) (h : ∀ p ∈ l.pieces, p.Ok [vaultOption] ∧ p.words = [] ∧ ∀ r, p ≠ .short [] (.test r)) :
    argv l.written = .run (.gui (textOf l.options .vault)) := by
  have hf : find l.written = .ok (.root, l.written) := by
    unfold find
    rw [strip_vault l.pieces h l.dashes]
  unfold argv
  rw [hf]
  show execute .root l.written = _
  have hmono : ∀ p ∈ l.pieces, p.Ok (flags .root ++ [helpFlag]) := by
    have hm : ∀ f, f ∈ [vaultOption] → f ∈ flags .root ++ [helpFlag] := by intro f hf; simp at hf; subst hf; decide
    intro p hp
    have hk := (h p hp).1
    cases p with
    | word a => exact hk
    | long f g => exact ⟨hm f hk.1, hk.2⟩
    | short bs q =>
      refine ⟨fun b hb => ⟨hm b (hk.1 b hb).1, (hk.1 b hb).2⟩, ?_⟩
      have h2 := hk.2
      cases q with
      | none => exact h2
      | equals f v => exact ⟨hm f h2.1, h2.2⟩
      | next f v => exact ⟨hm f h2.1, h2.2⟩
      | joined f v => exact ⟨hm f h2.1, h2.2⟩
      | test r => exact h2
  have hnohelp : isOn l.options .help = false := by
    have : ∀ x ∈ l.options, x.1 = .vault := by
      intro x hx
      obtain ⟨p, hp, hx⟩ := List.mem_flatMap.mp hx
      have hk := (h p hp).1
      cases p with
      | word a => cases hx
      | long f g =>
        obtain rfl : f = vaultOption := by simpa using hk.1
        cases g <;> simp only [Piece.options, List.mem_singleton] at hx <;> subst hx <;> rfl
      | short bs q =>
        obtain ⟨hb, hl⟩ := hk
        obtain rfl : bs = [] := by
          cases bs with
          | nil => rfl
          | cons b bs =>
            obtain ⟨h1, h2⟩ := hb b (by simp)
            obtain rfl : b = vaultOption := by simpa using h1
            cases h2
        cases q with
        | none => exact absurd rfl hl
        | test r => simp [Piece.options] at hx
        | equals f v =>
          obtain rfl : f = vaultOption := by simpa using hl.1
          simp [Piece.options] at hx; subst hx; rfl
        | next f v =>
          obtain rfl : f = vaultOption := by simpa using hl.1
          simp [Piece.options] at hx; subst hx; rfl
        | joined f v =>
          obtain rfl : f = vaultOption := by simpa using hl.1
          simp [Piece.options] at hx; subst hx; rfl
    have hnone : lastValue l.options .help = none := by
      unfold lastValue
      rw [Option.map_eq_none_iff, List.find?_eq_none]
      intro x hx
      have := this x (List.mem_reverse.mp hx)
      simp [this]
    simp [isOn, hnone]
  exact execute_run.2 ⟨l, hmono, rfl, hnohelp, rfl, rfl⟩

/-- C89. An option of the vault before the command counts like one behind it. -/
theorem C89_before (w path : Bytes) (n : Name) (hs : sub w = some n) (rest : List Bytes) :
    argv (b!"-v" :: path :: w :: rest) = argv (w :: b!"-v" :: path :: rest) := by
  have hw : w.head? ≠ some 45 ∧ w ≠ [] := by
    constructor
    · intro h
      obtain ⟨r, rfl⟩ : ∃ r, w = 45 :: r := by
        cases w with
        | nil => cases h
        | cons c r => exact ⟨r, by simp at h; rw [h]⟩
      simp [sub] at hs
    · rintro rfl; simp [sub] at hs
  have hst : ∃ t, strip (flags .root) (b!"-v" :: path :: w :: rest) = w :: t := by
    obtain ⟨c, r, rfl⟩ : ∃ c r, w = c :: r := by
      cases w with
      | nil => exact absurd rfl hw.2
      | cons c r => exact ⟨c, r, rfl⟩
    have hc : c ≠ 45 := by simpa using hw.1
    have h1 : (c :: r) ≠ b!"--" := by rintro h; simp at h; exact hc h.1
    have h2 := takesNext_word hw.1
    refine ⟨strip (flags .root) rest, ?_⟩
    rw [strip_cons, if_neg (by decide), if_pos (by decide)]
    simp only
    rw [strip_cons, if_neg h1, h2]
    simp only [Bool.false_eq_true, if_false, hc]
  obtain ⟨t, ht⟩ := hst
  have hne : w ≠ b!"-v" := by rintro rfl; simp at hw
  have her : (b!"-v" :: path :: w :: rest).erase w = b!"-v" :: path :: rest := by
    rw [List.erase_cons_tail (by simpa using fun h => hne h.symm)]
    by_cases hp : path = w
    · subst hp; simp
    · rw [List.erase_cons_tail (by simpa using hp)]; simp
  unfold argv
  rw [find_word hs hw.1 hw.2]
  have : find (b!"-v" :: path :: w :: rest) = .ok (n, b!"-v" :: path :: rest) := by
    unfold find
    rw [ht]
    simp only
    rw [hs, her]
  rw [this]

example : argv [b!"list", b!"-tv", b!"/my vault", b!"--name=- x", b!"-cLogin"] =
    .run (.list b!"/my vault" b!"Login" b!"- x" true) := by decide
example : argv [b!"-v", b!"list", b!"list", b!"--trashed=F"] = .run (.list b!"list" [] [] false) := by decide
example : argv [b!"list", b!"-n", b!"-t"] = .run (.list [] [] b!"-t" false) := by decide
example : argv [b!"-t", b!"list"] = .refused .root (.unknownShort 116) := by decide
example : argv [b!"details", b!"--", b!"-x"] = .run (.details [] b!"-x" false) := by decide

/-! ### C90: the README -/

theorem ok_mono_word {fs : List Flag} {a : Bytes} (h : a.head? ≠ some 45) : Piece.Ok fs (.word a) := .inr h

/-- The options of a documented line. -/
def listPieces (c n : Option Bytes) (t : Bool) : List Piece :=
  (c.elim [] fun c => [.short [] (.next categoryOption c)]) ++ (n.elim [] fun n => [.short [] (.next nameOption n)]) ++
    (if t then [.short [trashedOption] .none] else [])

theorem listPieces_ok (c n : Option Bytes) (t : Bool) : ∀ p ∈ listPieces c n t, p.Ok listOptions := by
  have h1 : ∀ x, Piece.Ok listOptions (.short [] (.next categoryOption x)) := fun x => ⟨by simp, by decide, rfl⟩
  have h2 : ∀ x, Piece.Ok listOptions (.short [] (.next nameOption x)) := fun x => ⟨by simp, by decide, rfl⟩
  have h3 : Piece.Ok listOptions (.short [trashedOption] .none) := ⟨by decide, by simp⟩
  intro p hp
  cases c <;> cases n <;> cases t <;> simp [listPieces] at hp <;> (try rcases hp with rfl | rfl | rfl) <;>
    (try rcases hp with rfl | rfl) <;> (try subst hp) <;> first | exact h1 _ | exact h2 _ | exact h3

theorem listPieces_written (c n : Option Bytes) (t : Bool) : (listPieces c n t).flatMap Piece.written =
    (c.elim [] fun c => [b!"-c", c]) ++ (n.elim [] fun n => [b!"-n", n]) ++ (if t then [b!"-t"] else []) := by
  cases c <;> cases n <;> cases t <;> rfl

/-- What a line of options and one word leads to. -/
theorem execute_line {n : Name} (l : Line) (h : l.Ok (flags n ++ [helpFlag])) (hh : isOn l.options .help = false) :
    execute n l.written = match checkArgs n l.words with
      | some e => .refused n e
      | none => runs n (valsOf l.options) l.words := by
  unfold execute
  rw [parse_line (good_flags n) l h]
  have hh : (valsOf l.options).help = false := hh
  simp only [hh, Bool.false_eq_true, if_false]
  rfl

/-- C90. The command lines the README gives for `list`, `overview` and `details` are all refused: the path of the vault
is taken for a command or for a second argument. -/
theorem C90_all_refused (c n : Option Bytes) (t : Bool) (uid path : Bytes) (hu : uid.head? ≠ some 45)
    (hp : path.head? ≠ some 45) :
    argv ([b!"list"] ++ (c.elim [] fun c => [b!"-c", c]) ++ (n.elim [] fun n => [b!"-n", n]) ++
      (if t then [b!"-t"] else []) ++ [path]) = .refused .list (.unknownCommand path) ∧
    argv ([b!"overview"] ++ (if t then [b!"-t"] else []) ++ [uid, path]) = .refused .overview (.count 2) ∧
    argv ([b!"details"] ++ (if t then [b!"-t"] else []) ++ [uid, path]) = .refused .details (.count 2) := by
  refine ⟨?_, ?_, ?_⟩
  · have e : [b!"list"] ++ (c.elim [] fun c => [b!"-c", c]) ++ (n.elim [] fun n => [b!"-n", n]) ++
        (if t then [b!"-t"] else []) ++ [path] = b!"list" :: Line.written ⟨listPieces c n t ++ [.word path], none⟩ := by
      simp only [Line.written, List.flatMap_append, listPieces_written]
      simp [Piece.written]
    rw [e, argv_word (n := .list) rfl (by decide) (by decide) (by decide), execute_line]
    · have : Line.words ⟨listPieces c n t ++ [.word path], none⟩ = [path] := by
        cases c <;> cases n <;> cases t <;> rfl
      rw [this]; rfl
    · intro p hp'
      rcases List.mem_append.mp hp' with hp' | hp'
      · exact listPieces_ok c n t p hp'
      · rw [List.mem_singleton.mp hp']; exact ok_mono_word hp
    · cases c <;> cases n <;> cases t <;> rfl
  · have hw : Line.Ok (flags .overview ++ [helpFlag])
        ⟨(if t then [.short [trashedOption] .none] else []) ++ [.word uid, .word path], none⟩ := by
      have h3 : Piece.Ok (flags .overview ++ [helpFlag]) (.short [trashedOption] .none) := ⟨by decide, by simp⟩
      intro p hp'
      cases t <;> simp at hp'
      · rcases hp' with rfl | rfl
        · exact ok_mono_word hu
        · exact ok_mono_word hp
      · rcases hp' with rfl | rfl | rfl
        · exact h3
        · exact ok_mono_word hu
        · exact ok_mono_word hp
    have := execute_line _ hw (by cases t <;> rfl)
    rw [show [b!"overview"] ++ (if t then [b!"-t"] else []) ++ [uid, path] = b!"overview" ::
      Line.written ⟨(if t then [.short [trashedOption] .none] else []) ++ [.word uid, .word path], none⟩ by cases t <;> rfl,
      argv_word (n := .overview) rfl (by decide) (by decide) (by decide), this]
    cases t <;> rfl
  · have hw : Line.Ok (flags .details ++ [helpFlag])
        ⟨(if t then [.short [trashedOption] .none] else []) ++ [.word uid, .word path], none⟩ := by
      have h3 : Piece.Ok (flags .details ++ [helpFlag]) (.short [trashedOption] .none) := ⟨by decide, by simp⟩
      intro p hp'
      cases t <;> simp at hp'
      · rcases hp' with rfl | rfl
        · exact ok_mono_word hu
        · exact ok_mono_word hp
      · rcases hp' with rfl | rfl | rfl
        · exact h3
        · exact ok_mono_word hu
        · exact ok_mono_word hp
    have := execute_line _ hw (by cases t <;> rfl)
    rw [show [b!"details"] ++ (if t then [b!"-t"] else []) ++ [uid, path] = b!"details" ::
      Line.written ⟨(if t then [.short [trashedOption] .none] else []) ++ [.word uid, .word path], none⟩ by cases t <;> rfl,
      argv_word (n := .details) rfl (by decide) (by decide) (by decide), this]
    cases t <;> rfl

/-- C90 as stated is false. -/
theorem C90_refuted : ¬ ∀ line c, Readme line c → argv line = .run c := by
  intro h
  have := h _ _ (.details false b!"0123" b!"/vault")
  revert this
  decide

/-- C90, what holds: the documented lines without a path run as documented, and those with a path do if it is the
value of `-v`. -/
theorem C90_readme_partial :
    (∀ line c, Readme line c → (∀ v k t n, c ≠ .list v k t n) → (∀ v u t, c ≠ .overview v u t) →
      (∀ v u t, c ≠ .details v u t) → argv line = .run c) ∧
    (∀ line c, Working line c → argv line = .run c) := by
  constructor
  · intro line c h h1 h2 h3
    cases h with
    | gui => decide
    | configure => decide
    | categories => decide
    | update => decide
    | version => decide
    | list => exact absurd rfl (h1 _ _ _ _)
    | overview => exact absurd rfl (h2 _ _ _)
    | details => exact absurd rfl (h3 _ _ _)
  · intro line c h
    cases h with
    | gui path =>
      refine C89_gui ⟨[.short [] (.next vaultOption path)], none⟩ ?_
      intro p hp
      rw [List.mem_singleton.mp hp]
      exact ⟨⟨by simp, by decide, rfl⟩, rfl, fun r hr => by cases hr⟩
    | list c n t path =>
      have e : [b!"list"] ++ (c.elim [] fun c => [b!"-c", c]) ++ (n.elim [] fun n => [b!"-n", n]) ++
          (if t then [b!"-t"] else []) ++ [b!"-v", path] =
          b!"list" :: Line.written ⟨listPieces c n t ++ [.short [] (.next vaultOption path)], none⟩ := by
        simp only [Line.written, List.flatMap_append, listPieces_written]
        simp [Piece.written, vaultOption]
        rfl
      rw [e, C89_list]
      refine ⟨_, ?_, rfl, ?_, ?_, ?_⟩
      · intro p hp'
        rcases List.mem_append.mp hp' with hp' | hp'
        · exact listPieces_ok c n t p hp'
        · rw [List.mem_singleton.mp hp']; exact ⟨by simp, by decide, rfl⟩
      · cases c <;> cases n <;> cases t <;> rfl
      · cases c <;> cases n <;> cases t <;> rfl
      · cases c <;> cases n <;> cases t <;> rfl
    | overview t uid path hu =>
      rw [show [b!"overview"] ++ (if t then [b!"-t"] else []) ++ [uid, b!"-v", path] = b!"overview" ::
        Line.written ⟨(if t then [.short [trashedOption] .none] else []) ++ [.word uid, .short [] (.next vaultOption path)], none⟩
        by cases t <;> rfl, C89_overview]
      refine ⟨_, uid, ?_, rfl, by cases t <;> rfl, by cases t <;> rfl, by cases t <;> rfl⟩
      have h3 : Piece.Ok itemOptions (.short [trashedOption] .none) := ⟨by decide, by simp⟩
      have h4 : Piece.Ok itemOptions (.short [] (.next vaultOption path)) := ⟨by simp, by decide, rfl⟩
      intro p hp'
      cases t <;> simp at hp'
      · rcases hp' with rfl | rfl
        · exact ok_mono_word hu
        · exact h4
      · rcases hp' with rfl | rfl | rfl
        · exact h3
        · exact ok_mono_word hu
        · exact h4
    | details t uid path hu =>
      rw [show [b!"details"] ++ (if t then [b!"-t"] else []) ++ [uid, b!"-v", path] = b!"details" ::
        Line.written ⟨(if t then [.short [trashedOption] .none] else []) ++ [.word uid, .short [] (.next vaultOption path)], none⟩
        by cases t <;> rfl, C89_details]
      refine ⟨_, uid, ?_, rfl, by cases t <;> rfl, by cases t <;> rfl, by cases t <;> rfl⟩
      have h3 : Piece.Ok itemOptions (.short [trashedOption] .none) := ⟨by decide, by simp⟩
      have h4 : Piece.Ok itemOptions (.short [] (.next vaultOption path)) := ⟨by simp, by decide, rfl⟩
      intro p hp'
      cases t <;> simp at hp'
      · rcases hp' with rfl | rfl
        · exact ok_mono_word hu
        · exact h4
      · rcases hp' with rfl | rfl | rfl
        · exact h3
        · exact ok_mono_word hu
        · exact h4

example : argv [b!"details", b!"0123", b!"/vault"] = .refused .details (.count 2) ∧
    argv [b!"details", b!"0123", b!"-v", b!"/vault"] = .run (.details b!"/vault" b!"0123" false) := by decide

/-! ### C91: refused command lines -/

/-- Whether a command line is one the program runs. -/
def Refused (args : List Bytes) : Prop := ∃ n b, argv args = .refused n b

open Conf in
/-- C91, what holds: a refused command line changes nothing and asks nothing; a text is printed. -/
theorem C91_refused_partial (C : Ctx) (K : Gui.Kit) (text : Invoked → Bytes) (home : Bytes) (args : List Bytes) (x y : Nat)
    (es : List Gui.Event) (hq : C.sys.Quiet) (hh : home ≠ []) (hr : Refused args) (w : World)
    (m : Option YMap) (hl : loaded C.ext w.disk (Path.join [home, b!".config", b!"1pass"]) = some m) :
    (process C K text home args x y es w).2.disk = w.disk ∧
    ∃ t, (process C K text home args x y es w).2.log = w.log ++ [.out t] := by
  obtain ⟨n, b, hb⟩ := hr
  obtain ⟨k, hk⟩ := boot_run (X := C.ext) hq (Path.join [home, b!".config", b!"1pass"]) w
  rw [hl] at hk
  unfold process
  rw [if_neg hh]
  simp only [hb]
  unfold tell
  rw [Prog.bind_run, show boot (C.atHome home).sys (C.atHome home).ext (C.atHome home).dir w = _ from hk]
  exact ⟨rfl, _, rfl⟩

open Conf in
/-- C91 as stated, "a refused command line is visible in the exit status", is false: every refused command line ends with
status 0. -/
theorem C91_always_zero (C : Ctx) (K : Gui.Kit) (text : Invoked → Bytes) (home : Bytes) (args : List Bytes) (x y : Nat)
    (es : List Gui.Event) (hq : C.sys.Quiet) (hh : home ≠ []) (hr : Refused args) (w : World)
    (m : Option YMap) (hl : loaded C.ext w.disk (Path.join [home, b!".config", b!"1pass"]) = some m) :
    (process C K text home args x y es w).1 = .ret () := by
  obtain ⟨n, b, hb⟩ := hr
  obtain ⟨k, hk⟩ := boot_run (X := C.ext) hq (Path.join [home, b!".config", b!"1pass"]) w
  rw [hl] at hk
  unfold process
  rw [if_neg hh]
  simp only [hb]
  unfold tell
  rw [Prog.bind_run, show boot (C.atHome home).sys (C.atHome home).ext (C.atHome home).dir w = _ from hk]
  rfl

theorem C91_refuted : ¬ ∀ (C : Ctx) (K : Gui.Kit) (text : Invoked → Bytes) (home : Bytes) (args : List Bytes) (x y : Nat)
    (es : List Gui.Event) (w : World), Refused args → (process C K text home args x y es w).1 ≠ .ret () := by
  intro h
  have hr : Refused [b!"frobnicate"] := ⟨.root, .unknownCommand b!"frobnicate", by decide⟩
  have h1 := h Gui.Demo.newer Gui.Demo.kit (fun _ => b!"Error\n") b!"/h" [b!"frobnicate"] 80 24 [] (Toy.world Gui.Demo.home []) hr
  refine h1 ?_
  decide +kernel

end Args
end OnePass
