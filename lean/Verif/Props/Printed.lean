/-
What `fmt.Sprint` makes of the values of date and month fields that are neither texts nor numbers (C31).
-/
import Verif.Props.Items

namespace OnePass
open Spec

theorem Fmt.spaced_eq : ∀ l : List Bytes, Fmt.spaced l = (b!" ").intercalate l
  | [] => rfl
  | [a] => by simp [Fmt.spaced, List.intercalate]
  | a :: b :: r => by
    have ih := Fmt.spaced_eq (b :: r)
    rw [Fmt.spaced, ih]
    · simp [List.intercalate, List.intersperse]
    · simp

theorem Fmt.sprintL_eq (F : Flt) : ∀ l : List Json, Fmt.sprintL F l = l.map (Fmt.sprint F)
  | [] => rfl
  | _ :: l => by rw [Fmt.sprintL, Fmt.sprintL_eq F l, List.map_cons]

theorem Fmt.mem_lastWins (F : Flt) : ∀ (m : Members) (e : Bytes × Bytes), e ∈ Fmt.lastWins (Fmt.sprintM F m) →
    ∃ v, LastEntry m e.1 v ∧ e.2 = Fmt.sprint F v
  | [], e, h => by simp [Fmt.sprintM, Fmt.lastWins] at h
  | (k, j) :: m, e, h => by
    rw [Fmt.sprintM, Fmt.lastWins] at h
    have up : ∀ v, LastEntry m e.1 v → LastEntry ((k, j) :: m) e.1 v := by
      rintro v ⟨a, b, rfl, hb⟩
      exact ⟨(k, j) :: a, b, rfl, hb⟩
    split at h
    · obtain ⟨v, h1, h2⟩ := Fmt.mem_lastWins F m e h
      exact ⟨v, up v h1, h2⟩
    · rename_i hn
      rcases List.mem_cons.1 h with rfl | h
      · refine ⟨j, ⟨[], m, rfl, fun x hx hk => hn ?_⟩, rfl⟩
        rw [List.any_eq_true]
        have : ∀ (m : Members) (x : Bytes × Json), x ∈ m → ∃ y ∈ Fmt.sprintM F m, y.1 = x.1 := by
          intro m
          induction m with
          | nil => intro x hx; cases hx
          | cons p m ih =>
            intro x hx
            obtain ⟨a, b⟩ := p
            rw [Fmt.sprintM]
            rcases List.mem_cons.1 hx with rfl | hx
            · exact ⟨_, List.mem_cons_self, rfl⟩
            · obtain ⟨y, h1, h2⟩ := ih x hx
              exact ⟨y, List.mem_cons_of_mem _ h1, h2⟩
        obtain ⟨y, h1, h2⟩ := this m x hx
        exact ⟨y, h1, by simp [h2, hk]⟩
      · obtain ⟨v, h1, h2⟩ := Fmt.mem_lastWins F m e h
        exact ⟨v, up v h1, h2⟩

theorem Fmt.keys_lastWins : ∀ (l : List (Bytes × Bytes)),
    ((Fmt.lastWins l).map (·.1)).Nodup ∧ ∀ k, k ∈ (Fmt.lastWins l).map (·.1) ↔ k ∈ l.map (·.1)
  | [] => ⟨by simp [Fmt.lastWins], fun k => Iff.rfl⟩
  | e :: r => by
    obtain ⟨h1, h2⟩ := Fmt.keys_lastWins r
    rw [Fmt.lastWins]
    split
    · rename_i hy
      rw [List.any_eq_true] at hy
      obtain ⟨x, hx, he⟩ := hy
      have he : x.1 = e.1 := by simpa using he
      refine ⟨h1, fun k => ?_⟩
      rw [h2, List.map_cons, List.mem_cons]
      constructor
      · exact .inr
      · rintro (rfl | h)
        · rw [← he]; exact List.mem_map_of_mem hx
        · exact h
    · rename_i hn
      refine ⟨?_, fun k => ?_⟩
      · rw [List.map_cons, List.nodup_cons]
        refine ⟨fun h => hn ?_, h1⟩
        rw [h2, List.mem_map] at h
        obtain ⟨x, hx, he⟩ := h
        rw [List.any_eq_true]
        exact ⟨x, hx, by simp [he]⟩
      · rw [List.map_cons, List.map_cons, List.mem_cons, List.mem_cons, h2]

theorem Fmt.keys_sprintM (F : Flt) : ∀ m : Members, (Fmt.sprintM F m).map (·.1) = m.map (·.1)
  | [] => rfl
  | (k, j) :: m => by rw [Fmt.sprintM, List.map_cons, List.map_cons, Fmt.keys_sprintM F m]

theorem lastEntry_mem_iff {m : Members} {k : Bytes} : k ∈ m.map (·.1) ↔ ∃ v, LastEntry m k v := by
  constructor
  · induction m with
    | nil => simp
    | cons e m ih =>
      intro h
      by_cases hm : k ∈ m.map (·.1)
      · obtain ⟨v, a, b, rfl, hb⟩ := ih hm
        exact ⟨v, e :: a, b, rfl, hb⟩
      · have hk : k = e.1 := by simpa [hm] using h
        exact ⟨e.2, [], m, by rw [hk]; rfl, fun x hx he => hm (he ▸ List.mem_map_of_mem hx)⟩
  · rintro ⟨v, a, b, rfl, -⟩
    simp

theorem list_of_each {α β : Type} {P : α → Prop} {f : α → β} : ∀ l : List β, (∀ e ∈ l, ∃ x, P x ∧ f x = e) →
    ∃ xs : List α, xs.map f = l ∧ ∀ x ∈ xs, P x
  | [], _ => ⟨[], rfl, by simp⟩
  | e :: l, h => by
    obtain ⟨x, h1, h2⟩ := h e (by simp)
    obtain ⟨xs, h3, h4⟩ := list_of_each l fun e he => h e (by simp [he])
    exact ⟨x :: xs, by rw [List.map_cons, h2, h3], by simpa using ⟨h1, h4⟩⟩

/-- C31 (and C30), values of any kind: the text that is formatted is the text itself, a boolean's name, the elements of a list
in brackets with blanks between them, the members of an object by ascending key. -/
theorem C31_printed (F : Flt) :
    (∀ s, Fmt.sprint F (.str s) = s) ∧ Fmt.sprint F (.bool true) = b!"true" ∧ Fmt.sprint F (.bool false) = b!"false" ∧
    Fmt.sprint F .null = b!"<nil>" ∧
    (∀ l, Fmt.sprint F (.arr l) = b!"[" ++ (b!" ").intercalate (l.map (Fmt.sprint F)) ++ b!"]") ∧
    ∀ m, ∃ kvs : Members, (kvs.map (·.1)).Pairwise (· < ·) ∧ (∀ k, k ∈ kvs.map (·.1) ↔ ∃ v, LastEntry m k v) ∧
      (∀ kv ∈ kvs, LastEntry m kv.1 kv.2) ∧
      Fmt.sprint F (.obj m) = b!"map[" ++ (b!" ").intercalate (kvs.map (fun kv => kv.1 ++ b!":" ++ Fmt.sprint F kv.2)) ++ b!"]" := by
  refine ⟨fun _ => by rw [Fmt.sprint], by rw [Fmt.sprint], by rw [Fmt.sprint], by rw [Fmt.sprint], fun l => ?_, fun m => ?_⟩
  · rw [Fmt.sprint, Fmt.spaced_eq, Fmt.sprintL_eq]
    rfl
  · rw [Fmt.sprint]
    generalize hL : Sorter.ins.run (fun a b => Str.lt a.1 b.1) (Fmt.lastWins (Fmt.sprintM F m)) = L
    have hp : L.Perm (Fmt.lastWins (Fmt.sprintM F m)) := hL ▸ Sorter.ins.perm _ _
    have hs : L.Pairwise (fun a b => Str.lt b.1 a.1 = false) := by
      rw [← hL]
      exact Sorter.ins.sorted _ _ ⟨fun a => strLt_strictWeak.irrefl _, fun a b c => strLt_strictWeak.trans _ _ _, fun a b c => strLt_strictWeak.incomp _ _ _⟩
    obtain ⟨kvs, h1, h2⟩ := list_of_each (f := fun kv : Bytes × Json => (kv.1, Fmt.sprint F kv.2)) (P := fun kv => LastEntry m kv.1 kv.2) L
      (fun e he => by
        obtain ⟨v, h1, h2⟩ := Fmt.mem_lastWins F m e (hp.mem_iff.1 he)
        exact ⟨(e.1, v), h1, by rw [← h2]⟩)
    have hk : kvs.map (·.1) = L.map (·.1) := by rw [← h1, List.map_map]; rfl
    obtain ⟨n1, n2⟩ := Fmt.keys_lastWins (Fmt.sprintM F m)
    refine ⟨kvs, ?_, fun k => ?_, h2, ?_⟩
    · rw [hk]
      have hn : (L.map (·.1)).Nodup := (hp.map _).nodup_iff.2 n1
      have hle : (L.map (·.1)).Pairwise (· ≤ ·) := List.pairwise_map.2 (hs.imp fun h => by simpa [Str.lt] using h)
      refine (hle.and hn).imp fun {a b} h => ?_
      by_contra hc
      exact h.2 (List.le_antisymm h.1 (List.not_lt.1 hc))
    · rw [hk, (hp.map _).mem_iff, n2, Fmt.keys_sprintM, lastEntry_mem_iff]
    · rw [← h1, Fmt.spaced_eq, List.map_map]
      congr 3
      exact List.map_congr_left fun _ _ => by simp

/-- C31: values of a month field that are neither texts nor numbers. -/
theorem C31_odd_values (E : Env) (k : Bytes) (hk : SameLetters E.text b!"monthYear" k) (out : Bytes) :
    (ShownValue E k (.bool true) out ↔ out = b!"true") ∧ (ShownValue E k (.bool false) out ↔ out = b!"fals-e") ∧
    (ShownValue E k (.arr [.str b!"07", .str b!"2014"]) out ↔ out = b!"[07 -2014]") := by
  have key : ∀ v o, DataType.parseMonthYear (Fmt.sprint E.flt v) = o → (ShownValue E k v out ↔ out = o) := by
    rintro v o rfl
    obtain ⟨d1, d2, d3, -⟩ := C39_data_types E.text k
    have hm := d3.2 hk
    constructor
    · intro h
      cases h with
      | address h _ => have := d1.2 h; rw [hm] at this; cases this
      | date h => have := d2.2 h; rw [hm] at this; cases this
      | monthYear _ => rfl
      | other _ _ h => exact absurd hk h
    · rintro rfl; exact .monthYear hk
  refine ⟨key _ _ ?_, key _ _ ?_, key _ _ ?_⟩
  · rw [Fmt.sprint]; decide
  · rw [Fmt.sprint]; decide
  · rw [Fmt.sprint, Fmt.sprintL, Fmt.sprintL, Fmt.sprintL, Fmt.sprint, Fmt.sprint]; decide

example : Fmt.sprint Env.toy.flt (.obj [(b!"b", .bool true), (b!"a", .null), (b!"b", .arr [.str b!"x", .str b!"y"])]) =
    b!"map[a:<nil> b:[x y]]" := by decide +kernel

end OnePass
