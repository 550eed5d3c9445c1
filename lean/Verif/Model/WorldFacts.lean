/-
Lemmas about the world: disks, programs and system calls.
-/
import Verif.Model.World
import Mathlib.Data.List.Infix

set_option linter.unusedSimpArgs false

namespace OnePass
namespace Disk

theorem at?_put (d : Disk) (l l' : List Bytes) (n : Node) : (d.put l n).at? l' = if l = l' then some n else d.at? l' := by
  unfold Disk.at? put
  by_cases h : l = l'
  · subst h; simp
  · simp only [List.find?_cons]
    have : (l == l') = false := by simpa using h
    simp only [this, h, if_false]
    congr 1
    induction d.fs with
    | nil => rfl
    | cons e r ih =>
      by_cases he : e.1 = l
      · have h1 : (e.1 != l) = false := by simp [he]
        have h2 : (e.1 == l') = false := by simpa [he] using h
        simp only [List.filter_cons, h1, List.find?_cons, h2]
        exact ih
      · have h1 : (e.1 != l) = true := by simpa using he
        simp only [List.filter_cons, h1, if_true, List.find?_cons]
        split
        · rfl
        · exact ih

theorem at?_del (d : Disk) (l l' : List Bytes) : (d.del l).at? l' = if l = l' then none else d.at? l' := by
  unfold Disk.at? del
  by_cases h : l = l'
  · subst h
    simp
  · simp only [h, if_false]
    congr 1
    induction d.fs with
    | nil => rfl
    | cons e r ih =>
      by_cases he : e.1 = l
      · have h1 : (e.1 != l) = false := by simp [he]
        have h2 : (e.1 == l') = false := by simpa [he] using h
        simp only [List.filter_cons, h1, List.find?_cons, h2]
        exact ih
      · have h1 : (e.1 != l) = true := by simpa using he
        simp only [List.filter_cons, h1, if_true, List.find?_cons]
        split
        · rfl
        · exact ih

@[simp] theorem cwd_put (d : Disk) (l : List Bytes) (n : Node) : (d.put l n).cwd = d.cwd := rfl
@[simp] theorem cwd_del (d : Disk) (l : List Bytes) : (d.del l).cwd = d.cwd := rfl

/-- What a series of puts leaves alone. -/
theorem puts_keep {d : Disk} {es : List (List Bytes × Node)} {loc : List Bytes} (h : ∀ e ∈ es, e.1 ≠ loc) :
    ∀ d' ∈ d.puts es, d'.at? loc = d.at? loc ∧ d'.cwd = d.cwd := by
  induction es generalizing d with
  | nil => simp [puts]
  | cons e es ih =>
    intro d' hd
    simp only [puts, List.mem_cons] at hd
    have h1 : (d.put e.1 e.2).at? loc = d.at? loc := by rw [at?_put, if_neg (h e (by simp))]
    rcases hd with rfl | hd
    · exact ⟨h1, rfl⟩
    · have := ih (fun x hx => h x (by simp [hx])) d' hd
      exact ⟨this.1.trans h1, this.2⟩

theorem dels_keep {d : Disk} {ls : List (List Bytes)} {loc : List Bytes} (h : ∀ l ∈ ls, l ≠ loc) :
    ∀ d' ∈ d.dels ls, d'.at? loc = d.at? loc ∧ d'.cwd = d.cwd := by
  induction ls generalizing d with
  | nil => simp [dels]
  | cons l ls ih =>
    intro d' hd
    simp only [dels, List.mem_cons] at hd
    have h1 : (d.del l).at? loc = d.at? loc := by rw [at?_del, if_neg (h l (by simp))]
    rcases hd with rfl | hd
    · exact ⟨h1, rfl⟩
    · have := ih (fun x hx => h x (by simp [hx])) d' hd
      exact ⟨this.1.trans h1, this.2⟩

/-- The last of a series of states. -/
def last (d : Disk) (ds : List Disk) : Disk := ds.getLast?.getD d

@[simp] theorem last_nil (d : Disk) : d.last [] = d := rfl
theorem last_cons (d d' : Disk) (ds : List Disk) : d.last (d' :: ds) = d'.last ds := by
  unfold last
  cases ds with
  | nil => rfl
  | cons a r => rw [List.getLast?_cons_cons]; cases h : (a :: r).getLast? <;> simp_all

theorem last_mem (d : Disk) (ds : List Disk) : d.last ds = d ∨ d.last ds ∈ ds := by
  unfold last
  cases h : ds.getLast? with
  | none => exact .inl rfl
  | some x => exact .inr (List.mem_of_getLast? h)

theorem dels_last (d : Disk) (ls : List (List Bytes)) (loc : List Bytes) :
    (d.last (d.dels ls)).at? loc = if loc ∈ ls then none else d.at? loc := by
  induction ls generalizing d with
  | nil => simp [dels]
  | cons l ls ih =>
    simp only [dels, last_cons, ih, at?_del, List.mem_cons]
    by_cases h1 : loc ∈ ls
    · simp [h1]
    · by_cases h2 : l = loc
      · simp [h2]
      · simp [h1, h2, Ne.symm h2]

theorem puts_dirs_last (d : Disk) (ls : List (List Bytes)) (loc : List Bytes) :
    (d.last (d.puts (ls.map (fun l => (l, Node.dir))))).at? loc = if loc ∈ ls then some .dir else d.at? loc := by
  induction ls generalizing d with
  | nil => simp [puts]
  | cons l ls ih =>
    simp only [List.map_cons, puts, last_cons, ih, at?_put, List.mem_cons]
    by_cases h1 : loc ∈ ls
    · simp [h1]
    · by_cases h2 : l = loc
      · simp [h2]
      · simp [h1, h2, Ne.symm h2]

/-- While a file is written: the states, and the last one. -/
theorem puts_file (d : Disk) (f : List Bytes) (x : Bool) (bs : List Bytes) (loc : List Bytes) :
    (d.last (d.puts (bs.map (fun b => (f, Node.file b x))))).at? loc =
      if loc = f then (match bs.getLast? with | some b => some (.file b x) | none => d.at? loc) else d.at? loc := by
  induction bs generalizing d with
  | nil => simp [puts]
  | cons b bs ih =>
    simp only [List.map_cons, puts, last_cons, ih, at?_put]
    by_cases h : loc = f
    · subst h
      simp only [if_true]
      cases bs with
      | nil => simp
      | cons c r => rw [List.getLast?_cons_cons]; cases h : (c :: r).getLast? <;> simp_all
    · simp [h, Ne.symm h]

theorem puts_file_states (d : Disk) (f : List Bytes) (x : Bool) (bs : List Bytes) :
    ∀ d' ∈ d.puts (bs.map (fun b => (f, Node.file b x))), ∃ b ∈ bs, d'.at? f = some (.file b x) := by
  induction bs generalizing d with
  | nil => simp [puts]
  | cons b bs ih =>
    intro d' hd
    simp only [List.map_cons, puts, List.mem_cons] at hd
    rcases hd with rfl | hd
    · exact ⟨b, by simp, by rw [at?_put]; simp⟩
    · obtain ⟨b', h1, h2⟩ := ih _ d' hd
      exact ⟨b', by simp [h1], h2⟩

theorem tree_mem {d : Disk} {loc l : List Bytes} : l ∈ d.tree loc ↔ loc <+: l ∧ (d.at? l).isSome := by
  unfold tree Disk.at?
  simp only [List.mem_filter, List.mem_map, List.isPrefixOf_iff_prefix, Option.isSome_map]
  constructor
  · rintro ⟨⟨e, he, rfl⟩, h⟩
    refine ⟨h, ?_⟩
    rw [List.find?_isSome]
    exact ⟨e, he, by simp⟩
  · rintro ⟨h, h2⟩
    rw [List.find?_isSome] at h2
    obtain ⟨e, he, h3⟩ := h2
    exact ⟨⟨e, he, by simpa using h3⟩, h⟩

end Disk

theorem inits_tail_last (data : Bytes) : data.inits.tail.getLast? = if data = [] then none else some data := by
  cases data with
  | nil => rfl
  | cons a r =>
    have : (a :: r).inits ≠ [] := by simp
    have h1 : (a :: r).inits.getLast? = some (a :: r) := by
      rw [List.getLast?_eq_getElem?]
      simp [List.length_inits, List.getElem?_eq_some_iff]
    simp only [reduceCtorEq, if_false]
    rw [List.inits_cons] at h1 ⊢
    simp only [List.tail_cons]
    cases h2 : List.map (fun t => a :: t) r.inits with
    | nil => have := congrArg List.length h2; simp at this
    | cons x y => rw [h2, List.getLast?_cons_cons] at h1; exact h1

namespace Prog

theorem pure_run {α : Type} (a : α) (w : World) : (Prog.pure a) w = (.ret a, w) := rfl
@[simp] theorem pure_eq {α : Type} (a : α) : (Pure.pure a : Prog α) = Prog.pure a := rfl

theorem bind_run {α β : Type} (m : Prog α) (f : α → Prog β) (w : World) :
    (m >>= f) w = match m w with
      | (.ret a, w') => f a w'
      | (.panic, w') => (.panic, w')
      | (.fatal, w') => (.fatal, w') := rfl

theorem andThen_run {α β : Type} (m : Prog (Except Err α)) (f : α → Prog (Except Err β)) (w : World) :
    andThen m f w = match m w with
      | (.ret (.ok a), w') => f a w'
      | (.ret (.error e), w') => (.ret (.error e), w')
      | (.panic, w') => (.panic, w')
      | (.fatal, w') => (.fatal, w') := by
  unfold andThen
  rw [bind_run]
  cases h : m w with
  | mk o w' =>
    cases o with
    | ret r => cases r <;> rfl
    | panic => rfl
    | fatal => rfl

theorem bind_assoc' {α β γ : Type} (m : Prog α) (f : α → Prog β) (g : β → Prog γ) :
    (m >>= f) >>= g = m >>= fun a => f a >>= g := by
  funext w
  simp only [bind_run]
  cases h : m w with
  | mk o w' => cases o <;> rfl

/-- What holds of the result if the program is run where `P` holds. -/
def Triple {α : Type} (P : World → Prop) (m : Prog α) (Q : Out α → World → Prop) : Prop := ∀ w, P w → Q (m w).1 (m w).2

theorem Triple.bind {α β : Type} {P : World → Prop} {m : Prog α} {f : α → Prog β} {Q : Out β → World → Prop}
    (R : α → World → Prop)
    (hm : Triple P m (fun o w => match o with | .ret a => R a w | .panic => Q .panic w | .fatal => Q .fatal w))
    (hf : ∀ a, Triple (R a) (f a) Q) : Triple P (m >>= f) Q := by
  intro w hw
  have := hm w hw
  rw [bind_run]
  cases h : m w with
  | mk o w' =>
    rw [h] at this
    cases o with
    | ret a => exact hf a w' this
    | panic => exact this
    | fatal => exact this

theorem Triple.andThen {α β : Type} {P : World → Prop} {m : Prog (Except Err α)} {f : α → Prog (Except Err β)}
    {Q : Out (Except Err β) → World → Prop} (R : α → World → Prop)
    (hm : Triple P m (fun o w => match o with
      | .ret (.ok a) => R a w | .ret (.error e) => Q (.ret (.error e)) w | .panic => Q .panic w | .fatal => Q .fatal w))
    (hf : ∀ a, Triple (R a) (f a) Q) : Triple P (andThen m f) Q := by
  intro w hw
  have := hm w hw
  rw [andThen_run]
  cases h : m w with
  | mk o w' =>
    rw [h] at this
    cases o with
    | ret r =>
      cases r with
      | ok a => exact hf a w' this
      | error e => exact this
    | panic => exact this
    | fatal => exact this

theorem Triple.mono {α : Type} {P P' : World → Prop} {m : Prog α} {Q Q' : Out α → World → Prop}
    (h : Triple P m Q) (hp : ∀ w, P' w → P w) (hq : ∀ o w, Q o w → Q' o w) : Triple P' m Q' :=
  fun w hw => hq _ _ (h w (hp w hw))

theorem Triple.pure {α : Type} {P : World → Prop} {a : α} {Q : Out α → World → Prop} (h : ∀ w, P w → Q (.ret a) w) :
    Triple P (Prog.pure a) Q := h

end Prog

namespace Os
open Prog

/-! ### The system calls, written out -/

variable (S : Sys)

theorem stat_run (p : Bytes) (w : World) :
    stat S p w = (.ret (if S.fault w.tick = none then w.disk.stat p else none), { w with tick := w.tick + 1 }) := by
  simp only [stat, bind_run, tick, Prog.get]
  cases h : S.fault w.tick <;> simp [Prog.pure]

theorem readFile_run (p : Bytes) (w : World) :
    readFile S p w = (.ret (if S.fault w.tick = none then
        (match w.disk.readFile p with | some b => .ok b | none => .error ioErr) else .error ioErr),
      { w with tick := w.tick + 1 }) := by
  simp only [readFile, bind_run, tick, Prog.get]
  cases h : S.fault w.tick <;> cases h2 : w.disk.readFile p <;> simp [Prog.pure]

/-- A world after the disk went through some states and a system call was counted. -/
def after (w : World) (ds : List Disk) : World :=
  { w with tick := w.tick + 1, disk := w.disk.last ds, log := w.log ++ ds.map Ev.disk }

theorem after_nil (w : World) : after w [] = { w with tick := w.tick + 1 } := by simp [after]

theorem mkdirAll_run (p : Bytes) (w : World) : ∃ (r : Except Err Unit) (ds : List Disk), mkdirAll S p w = (.ret r, after w ds) ∧
    (∃ (ls : List (List Bytes)) (k : Nat), ds = w.disk.puts ((ls.take k).map (fun l => (l, Node.dir))) ∧
      (∀ l ∈ ls, l <+: Path.resolve w.disk.cwd p ∧ w.disk.at? l = none ∧ l ≠ []) ∧
      (r = .ok () → k = ls.length ∧ ∀ l, l <+: Path.resolve w.disk.cwd p → l ≠ [] →
        w.disk.at? l = some .dir ∨ l ∈ ls)) := by
  simp only [mkdirAll, bind_run, tick, Prog.get]
  cases hm : w.disk.missing (Path.resolve w.disk.cwd p) with
  | none =>
    refine ⟨.error ioErr, [], by simp [Prog.pure, after_nil], [], 0, by simp [Disk.puts], by simp, by simp⟩
  | some ls =>
    simp only [Disk.missing] at hm
    split at hm
    · cases hm
    · rename_i hany
      have hls : ∀ l, l ∈ ls ↔ l <+: Path.resolve w.disk.cwd p ∧ l ≠ [] ∧ w.disk.at? l = none := by
        intro l
        have := Option.some.inj hm
        rw [← this]
        simp only [List.mem_filter, List.mem_inits, decide_eq_true_eq]
        tauto
      have hok : ∀ l, l <+: Path.resolve w.disk.cwd p → l ≠ [] → w.disk.at? l = some .dir ∨ l ∈ ls := by
        intro l h1 h2
        cases ha : w.disk.at? l with
        | none => exact .inr ((hls l).2 ⟨h1, h2, ha⟩)
        | some nd =>
          cases nd with
          | dir => exact .inl rfl
          | file b x =>
            exfalso
            apply hany
            rw [List.any_eq_true]
            exact ⟨l, by simp [List.mem_filter, List.mem_inits, h1, h2], by simp [ha]⟩
      cases hf : S.fault w.tick with
      | some k =>
        refine ⟨.error ioErr, w.disk.puts ((ls.take k).map (fun l => (l, Node.dir))), ?_, ls, k, rfl,
          fun l hl => ⟨((hls l).1 hl).1, ((hls l).1 hl).2.2, ((hls l).1 hl).2.1⟩, by simp⟩
        simp [bind_run, through, Prog.pure, after, Disk.last]
      | none =>
        refine ⟨.ok (), w.disk.puts ((ls.take ls.length).map (fun l => (l, Node.dir))), ?_, ls, ls.length, rfl,
          fun l hl => ⟨((hls l).1 hl).1, ((hls l).1 hl).2.2, ((hls l).1 hl).2.1⟩, fun _ => ⟨rfl, hok⟩⟩
        simp [bind_run, through, Prog.pure, after, Disk.last]

/-- `create`: an error that changes nothing, or an empty file. -/
theorem create_run (p : Bytes) (w : World) :
    (create S p w = (.ret (.error ioErr), after w []) ∧
      (S.fault w.tick ≠ none ∨ p = [] ∨ Path.resolve w.disk.cwd p = [] ∨
        w.disk.isDir (Path.resolve w.disk.cwd p).dropLast = false ∨
        w.disk.at? (Path.resolve w.disk.cwd p) = some .dir)) ∨
    (∃ x, create S p w = (.ret (.ok (Path.resolve w.disk.cwd p, x)),
        after w [w.disk.put (Path.resolve w.disk.cwd p) (.file [] x)]) ∧
      (w.disk.at? (Path.resolve w.disk.cwd p) = none ∧ x = false ∨
        ∃ old, w.disk.at? (Path.resolve w.disk.cwd p) = some (.file old x)) ∧
      S.fault w.tick = none ∧ p ≠ [] ∧ w.disk.isDir (Path.resolve w.disk.cwd p).dropLast = true) := by
  simp only [create, bind_run, tick, Prog.get]
  cases hf : S.fault w.tick with
  | some k => exact .inl ⟨by simp [Prog.pure, after_nil], .inl (by simp)⟩
  | none =>
    simp only
    split
    · rename_i h
      exact .inl ⟨by simp [Prog.pure, after_nil], .inr (by tauto)⟩
    · rename_i h
      push Not at h
      have h3 : w.disk.isDir (Path.resolve w.disk.cwd p).dropLast = true := by simpa using h.2.2
      cases ha : w.disk.at? (Path.resolve w.disk.cwd p) with
      | none =>
        exact .inr ⟨false, by simp [bind_run, through, Prog.pure, after, Disk.last], .inl ⟨rfl, rfl⟩, by simp, h.1, h3⟩
      | some nd =>
        cases nd with
        | dir => exact .inl ⟨by simp [Prog.pure, after_nil], by simp⟩
        | file old x =>
          exact .inr ⟨x, by simp [bind_run, through, Prog.pure, after, Disk.last], .inr ⟨old, rfl⟩, by simp, h.1, h3⟩

/-- The states while writing. -/
def writeStates (d : Disk) (f : List Bytes × Bool) (data : Bytes) (k : Nat) : List Disk :=
  d.puts ((data.take k).inits.tail.map (fun b => (f.1, .file b f.2)))

theorem write_run (f : List Bytes × Bool) (data : Bytes) (c : Bool) (w : World) :
    (∃ k, write S f data c w = (.ret (.error ioErr), after w (writeStates w.disk f data k)) ∧
      (S.fault w.tick = none → c = false ∧ k = data.length)) ∨
    (write S f data c w = (.ret (.ok ()), after w (writeStates w.disk f data data.length)) ∧
      c = true ∧ S.fault w.tick = none) := by
  simp only [write, bind_run, tick, Prog.get]
  cases hf : S.fault w.tick with
  | some k => exact .inl ⟨k, by simp [bind_run, through, Prog.pure, after, Disk.last, writeStates], by simp⟩
  | none =>
    cases c with
    | true => exact .inr ⟨by simp [bind_run, through, Prog.pure, after, Disk.last, writeStates], rfl, rfl⟩
    | false =>
      exact .inl ⟨data.length, by simp [bind_run, through, Prog.pure, after, Disk.last, writeStates], by simp⟩

theorem writeStates_file (d : Disk) (f : List Bytes × Bool) (data : Bytes) (k : Nat) :
    ∀ d' ∈ writeStates d f data k, ∃ b, b <+: data ∧ d'.at? f.1 = some (.file b f.2) := by
  intro d' hd
  obtain ⟨b, hb, h⟩ := Disk.puts_file_states d f.1 f.2 _ d' hd
  refine ⟨b, ?_, h⟩
  have := List.mem_of_mem_tail hb
  rw [List.mem_inits] at this
  exact this.trans (List.take_prefix _ _)

theorem writeStates_keep (d : Disk) (f : List Bytes × Bool) (data : Bytes) (k : Nat) (loc : List Bytes)
    (h : loc ≠ f.1) : ∀ d' ∈ writeStates d f data k, d'.at? loc = d.at? loc ∧ d'.cwd = d.cwd := by
  apply Disk.puts_keep
  intro e he
  obtain ⟨b, _, rfl⟩ := List.mem_map.1 he
  exact Ne.symm h

theorem writeStates_last (d : Disk) (f : List Bytes × Bool) (data : Bytes) (h : d.at? f.1 = some (.file [] f.2))
    (loc : List Bytes) :
    (d.last (writeStates d f data data.length)).at? loc = if loc = f.1 then some (.file data f.2) else d.at? loc := by
  unfold writeStates
  rw [Disk.puts_file, List.take_length, inits_tail_last]
  by_cases hl : loc = f.1
  · subst hl
    by_cases hd : data = []
    · subst hd; simp [h]
    · simp [hd]
  · simp [hl]

theorem rename_run (src dst : Bytes) (w : World) :
    (rename S src dst w = (.ret (.error ioErr), after w [])) ∨
    (∃ data x, w.disk.stat src = some (.file data x) ∧
      rename S src dst w = (.ret (.ok ()),
        after w [(w.disk.del (Path.resolve w.disk.cwd src)).put (Path.resolve w.disk.cwd dst) (.file data x)]) ∧
      S.fault w.tick = none ∧ dst ≠ [] ∧
      S.device (Path.resolve w.disk.cwd src) = S.device (Path.resolve w.disk.cwd dst)) := by
  simp only [rename, bind_run, tick, Prog.get]
  cases hf : S.fault w.tick with
  | some k => exact .inl (by simp [Prog.pure, after_nil])
  | none =>
    cases hs : w.disk.stat src with
    | none => exact .inl (by simp [Prog.pure, after_nil])
    | some nd =>
      cases nd with
      | dir => exact .inl (by simp [Prog.pure, after_nil])
      | file data x =>
        simp only
        split
        · exact .inl (by simp [Prog.pure, after_nil])
        · rename_i h
          push Not at h
          exact .inr ⟨data, x, rfl, by simp [bind_run, through, Prog.pure, after, Disk.last], by simp, h.1, h.2.2.2.2⟩

theorem removeAll_run (p : Bytes) (w : World) : ∃ (r : Except Err Unit) (ls : List (List Bytes)),
    removeAll S p w = (.ret r, after w (w.disk.dels ls)) ∧
    (∀ l ∈ ls, Path.resolve w.disk.cwd p <+: l) ∧
    (r = .ok () → ∀ l, Path.resolve w.disk.cwd p <+: l → (w.disk.last (w.disk.dels ls)).at? l = none) := by
  simp only [removeAll, bind_run, tick, Prog.get]
  have hmem : ∀ l, l ∈ S.order w.tick (w.disk.tree (Path.resolve w.disk.cwd p)) ↔
      l ∈ w.disk.tree (Path.resolve w.disk.cwd p) := fun l => (S.order_perm _ _).mem_iff
  cases hf : S.fault w.tick with
  | some k =>
    refine ⟨.error ioErr, (S.order w.tick (w.disk.tree (Path.resolve w.disk.cwd p))).take k,
      by simp [bind_run, through, Prog.pure, after, Disk.last], ?_, by simp⟩
    intro l hl
    exact (Disk.tree_mem.1 ((hmem l).1 (List.mem_of_mem_take hl))).1
  | none =>
    refine ⟨.ok (), S.order w.tick (w.disk.tree (Path.resolve w.disk.cwd p)),
      by simp [bind_run, through, Prog.pure, after, Disk.last], ?_, ?_⟩
    · intro l hl
      exact (Disk.tree_mem.1 ((hmem l).1 hl)).1
    · intro _ l hl
      rw [Disk.dels_last]
      split
      · rfl
      · rename_i hn
        rw [hmem, Disk.tree_mem] at hn
        cases ha : w.disk.at? l with
        | none => rfl
        | some nd => exact absurd ⟨hl, by simp [ha]⟩ hn

theorem httpGet_run (url : Bytes) (t : Int) (w : World) :
    httpGet S url t w = (.ret (S.answer w.tick url), { w with tick := w.tick + 1, log := w.log ++ [.request url t] }) := by
  simp [httpGet, bind_run, tick, emit, Prog.pure]

theorem now_run (w : World) : now S w = (.ret (S.now w.tick), { w with tick := w.tick + 1 }) := by
  simp [now, bind_run, tick, Prog.pure]

theorem readPassword_run (w : World) :
    readPassword S w = (.ret (S.password w.tick, (S.typed w.tick).isSome), { w with tick := w.tick + 1, log := w.log ++ [.password] }) := by
  simp [readPassword, bind_run, tick, emit, Prog.pure]

end Os
end OnePass
