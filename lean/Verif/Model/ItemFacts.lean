/-
The item parser meets the specification of Spec/ItemDocs.lean, and nothing else.
-/
import Verif.Model.RepoFacts
import Verif.Spec.ItemDocs
import Verif.Props.Queries

set_option linter.unusedSimpArgs false

namespace OnePass
open Spec ItemSvc

theorem asStr_ret {j : Json} {s : Bytes} : asStr j = .ret s ↔ j = .str s := by cases j <;> simp [asStr]
theorem asArr_ret {j : Json} {l : List Json} : asArr j = .ret l ↔ j = .arr l := by cases j <;> simp [asArr]
theorem asObj_ret {j : Json} {m : Members} : asObj j = .ret m ↔ j = .obj m := by cases j <;> simp [asObj]

theorem notNil_false {j : Json} : notNil j = false ↔ j = .null := by cases j <;> simp [notNil]
theorem notNil_true {j : Json} : notNil j = true ↔ j ≠ .null := by cases j <;> simp [notNil]

theorem absent_iff {m : Members} {k : Bytes} : Absent m k ↔ Json.field m k = .null := field_null.symm

theorem last_iff {m : Members} {k : Bytes} {v : Json} (hv : v ≠ .null) : LastEntry m k v ↔ Json.field m k = v :=
  ⟨field_of_last, fun h => last_of_field h hv⟩

theorem str_ne (s : Bytes) : Json.str s ≠ .null := by intro h; cases h
theorem arr_ne (l : List Json) : Json.arr l ≠ .null := by intro h; cases h
theorem obj_ne (m : Members) : Json.obj m ≠ .null := by intro h; cases h

theorem parseLoginField_ret {E : Env} {m : Members} {o : Option Field} :
    parseLoginField E m = .ret o ↔ ShownLogin E.text m o := by
  unfold parseLoginField
  constructor
  · intro h
    split at h
    · rename_i hn
      rw [Bool.and_eq_true, notNil_true, notNil_true] at hn
      simp only [Out.bind_eq_ret, asStr_ret] at h
      obtain ⟨v, hv, n, hn', h⟩ := h
      split at h
      · rename_i hc
        simp only [Out.pure_eq, Out.ret.injEq] at h
        subst h
        exact .some (last_of_field hv (str_ne _)) (last_of_field hn' (str_ne _)) hc.1 hc.2
      · rename_i hc
        simp only [Out.pure_eq, Out.ret.injEq] at h
        subst h
        refine .empty (last_of_field hv (str_ne _)) (last_of_field hn' (str_ne _)) ?_
        by_cases h1 : v = []
        · exact .inl h1
        · exact .inr (by by_contra h2; exact hc ⟨h1, h2⟩)
    · rename_i hn
      simp only [Out.pure_eq, Out.ret.injEq] at h
      subst h
      by_cases h1 : Json.field m b!"value" = .null
      · exact .noValue (absent_iff.2 h1)
      · refine .noName (absent_iff.2 ?_)
        by_contra h2
        exact hn (by rw [Bool.and_eq_true, notNil_true, notNil_true]; exact ⟨h1, h2⟩)
  · intro h
    cases h with
    | noValue h => rw [absent_iff] at h; simp [h, notNil]
    | noName h => rw [absent_iff] at h; simp [h, notNil]
    | empty h1 h2 h3 =>
      rw [last_iff (str_ne _)] at h1 h2
      simp only [h1, h2, notNil, Bool.and_self, if_true, asStr, Out.ret_bind]
      rw [if_neg]
      · rfl
      · rintro ⟨a, b⟩; rcases h3 with h | h <;> contradiction
    | some h1 h2 h3 h4 =>
      rw [last_iff (str_ne _)] at h1 h2
      simp only [h1, h2, notNil, Bool.and_self, if_true, asStr, Out.ret_bind]
      rw [if_pos ⟨h3, h4⟩]
      rfl

theorem replace_nl (s : Bytes) : Str.replaceByte 10 [32] s = s.map (fun c => if c = 10 then 32 else c) := by
  unfold Str.replaceByte
  induction s with
  | nil => rfl
  | cons b s ih =>
    rw [List.flatMap_cons, ih, List.map_cons]
    split <;> rfl

theorem entries_keys {m : Members} {k : Bytes} : k ∈ (Json.entries m).map (·.1) ↔ ∃ v, LastEntry m k v := by
  rw [List.mem_map]
  constructor
  · rintro ⟨⟨k', v⟩, h1, rfl⟩
    exact ⟨v, lastEntry_iff.2 (Json.mem_entries.1 h1)⟩
  · rintro ⟨v, h⟩
    exact ⟨(k, v), Json.mem_entries.2 (lastEntry_iff.1 h), rfl⟩

/-- The sorted keys of a map do not depend on the map order. -/
theorem sorted_keys {O : MapOrder} {m : Members} {ks : List Bytes} :
    sortStrings ((O.run (Json.entries m)).map (·.1)) = ks ↔
      ks.Pairwise (· < ·) ∧ ∀ k, k ∈ ks ↔ ∃ v, LastEntry m k v := by
  have hp : (sortStrings ((O.run (Json.entries m)).map (·.1))).Perm ((Json.entries m).map (·.1)) :=
    (sortStrings_perm _).trans ((O.perm _).map _)
  have hs : (sortStrings ((O.run (Json.entries m)).map (·.1))).Pairwise (· < ·) := by
    have h1 := sortStrings_sorted ((O.run (Json.entries m)).map (·.1))
    have h2 : (sortStrings ((O.run (Json.entries m)).map (·.1))).Nodup := hp.nodup_iff.2 (Json.entries_nodup m)
    refine (h1.and h2).imp ?_
    rintro a b ⟨h, hne⟩
    exact (List.le_iff_lt_or_eq.1 h).resolve_right hne
  constructor
  · rintro rfl
    exact ⟨hs, fun k => by rw [hp.mem_iff, entries_keys]⟩
  · rintro ⟨h1, h2⟩
    exact sorted_lt_unique hs h1 (fun k => by rw [hp.mem_iff, entries_keys, h2])

theorem parseAddress_ret {O : MapOrder} {a : Members} {out : Bytes} :
    DataType.parseAddress O a = .ret out ↔ AddressText a out := by
  have hline : ∀ k l, DataType.addressLine a k = .ret l ↔
      ∃ v, LastEntry a k (.str v) ∧ l = Spec.addressLine k v := by
    intro k l
    unfold DataType.addressLine Spec.addressLine
    rw [show (∃ v, LastEntry a k (.str v) ∧ l = b!"\n  " ++ k ++ b!": " ++ (Str.trimSpace v).map (fun c => if c = 10 then 32 else c)) ↔
      ∃ v, Json.field a k = .str v ∧ l = b!"\n  " ++ k ++ b!": " ++ Str.replaceByte 10 [32] (Str.trimSpace v) from by
        simp only [last_iff (str_ne _), replace_nl]]
    cases hf : Json.field a k <;> simp [eq_comm]
  unfold DataType.parseAddress
  generalize hks : sortStrings ((O.run (Json.entries a)).map (·.1)) = ks
  have hks' := sorted_keys.1 hks
  simp only [Out.bind_eq_ret, Out.pure_eq, Out.ret.injEq]
  constructor
  · rintro ⟨lines, h1, rfl⟩
    have hf := Out.mapL_eq_ret.1 h1
    have : ∃ kvs : List (Bytes × Bytes), kvs.map (·.1) = ks ∧ (∀ kv ∈ kvs, LastEntry a kv.1 (.str kv.2)) ∧
        lines = kvs.map (fun kv => Spec.addressLine kv.1 kv.2) := by
      clear h1 hks hks'
      induction hf with
      | nil => exact ⟨[], rfl, by simp, rfl⟩
      | @cons k l ks ls h _ ih =>
        obtain ⟨kvs, rfl, h2, rfl⟩ := ih
        obtain ⟨v, hv, rfl⟩ := (hline k l).1 h
        exact ⟨(k, v) :: kvs, rfl, by simpa using ⟨hv, fun a b h => h2 (a, b) h⟩, rfl⟩
    obtain ⟨kvs, h2, h3, rfl⟩ := this
    exact ⟨kvs, h2 ▸ hks'.1, h2 ▸ hks'.2, h3, by rw [List.flatMap_def]⟩
  · rintro ⟨kvs, h1, h2, h3, rfl⟩
    have hk : ks = kvs.map (·.1) := sorted_lt_unique hks'.1 h1 (fun k => (hks'.2 k).trans (h2 k).symm)
    refine ⟨kvs.map (fun kv => Spec.addressLine kv.1 kv.2), ?_, by rw [List.flatMap_def]⟩
    rw [Out.mapL_eq_ret, hk]
    clear h1 h2 hk hks hks'
    induction kvs with
    | nil => exact .nil
    | cons kv kvs ih =>
      exact .cons ((hline _ _).2 ⟨kv.2, h3 kv (by simp), rfl⟩) (ih (fun x hx => h3 x (by simp [hx])))

theorem sectionValue_ret {E : Env} {O : MapOrder} {m : Members} {out : Bytes}
    (hv : Json.field m b!"v" ≠ .null) :
    sectionValue E O m = .ret out ↔
      ∃ k, LastEntry m b!"k" (.str k) ∧ ShownValue E k (Json.field m b!"v") out := by
  unfold sectionValue
  simp only [Out.bind_eq_ret, asStr_ret, last_iff (str_ne _)]
  refine exists_congr (fun k => and_congr_right (fun _ => ?_))
  obtain ⟨d1, d2, d3, d4⟩ := C39_data_types E.text k
  generalize Json.field m b!"v" = v at hv
  constructor
  · intro h
    split at h
    · rename_i e he
      have n1 : ¬ SameLetters E.text b!"address" k := fun h' => by rw [d1.2 h'] at he; cases he
      have n2 : ¬ SameLetters E.text b!"date" k := fun h' => by rw [d2.2 h'] at he; cases he
      have n3 : ¬ SameLetters E.text b!"monthYear" k := fun h' => by rw [d3.2 h'] at he; cases he
      rw [asStr_ret] at h
      subst h
      exact .other n1 n2 n3
    · rename_i he
      simp only [Out.bind_eq_ret, asObj_ret] at h
      obtain ⟨a, rfl, h⟩ := h
      exact .address (d1.1 he) (parseAddress_ret.1 h)
    · rename_i dt hne he
      cases dt with
      | address => exact absurd rfl hne
      | date =>
        simp only [DataType.parseValue, Out.ret.injEq] at h
        subst h; exact .date (d2.1 he)
      | monthYear =>
        simp only [DataType.parseValue, Out.ret.injEq] at h
        subst h; exact .monthYear (d3.1 he)
  · intro h
    cases h with
    | address h1 h2 =>
      rw [d1.2 h1]
      simp only [asObj, Out.ret_bind, DataType.parseValue]
      exact parseAddress_ret.2 h2
    | date h1 => rw [d2.2 h1]; rfl
    | monthYear h1 => rw [d3.2 h1]; rfl
    | other h1 h2 h3 => rw [d4 h1 h2 h3]; rfl

theorem parseSectionField_ret {E : Env} {O : MapOrder} {m : Members} {o : Option Field} :
    parseSectionField E O m = .ret o ↔ ShownField E m o := by
  unfold parseSectionField
  by_cases hv : Json.field m b!"v" = .null
  · rw [if_neg (by simp [hv, notNil])]
    simp only [Out.pure_eq, Out.ret.injEq]
    constructor
    · rintro rfl; exact .none (absent_iff.2 hv)
    · intro h
      cases h with
      | none _ => rfl
      | some h1 h2 _ _ _ => exact absurd ((field_of_last h1).symm.trans hv) h2
  · rw [if_pos (notNil_true.2 hv)]
    simp only [Out.bind_eq_ret, asStr_ret, Out.pure_eq, Out.ret.injEq, sectionValue_ret hv]
    constructor
    · rintro ⟨out, ⟨k, hk, hs⟩, t, ht, rfl⟩
      exact .some (last_of_field rfl hv) hv hk hs (last_of_field ht (str_ne _))
    · intro h
      cases h with
      | none h => exact absurd (absent_iff.1 h) hv
      | some h1 h2 h3 h4 h5 =>
        have := field_of_last h1
        subst this
        exact ⟨_, ⟨_, h3, h4⟩, _, field_of_last h5, rfl⟩

theorem mapL_objs {α : Type} {f : Members → Out (Option α)} {R : Members → Option α → Prop}
    (hR : ∀ m o, f m = .ret o ↔ R m o) {docs : List Json} {os : List (Option α)} :
    Out.mapL (fun j => do f (← asObj j)) docs = .ret os ↔
      List.Forall₂ (fun j o => ∃ m, j = .obj m ∧ R m o) docs os := by
  rw [Out.mapL_eq_ret]
  have : ∀ j o, ((do f (← asObj j) : Out (Option α)) = .ret o ↔ ∃ m, j = .obj m ∧ R m o) := by
    intro j o
    simp only [Out.bind_eq_ret, asObj_ret, hR]
  constructor <;> intro h <;> exact h.imp (fun j o h => by first | exact (this j o).1 h | exact (this j o).2 h)

theorem parseFields_ret {E : Env} {O : MapOrder} {fromSection : Bool} {docs : List Json} {fs : List Field} :
    parseFields E O fromSection docs = .ret fs ↔
      ShownList (if fromSection then ShownField E else ShownLogin E.text) docs fs := by
  have hR : ∀ m o, parseItemField E O fromSection m = .ret o ↔
      (if fromSection then ShownField E else ShownLogin E.text) m o := by
    intro m o
    cases fromSection
    · exact parseLoginField_ret
    · exact parseSectionField_ret
  unfold parseFields ShownList keepSome
  simp only [Out.bind_eq_ret, Out.pure_eq, Out.ret.injEq]
  constructor
  · rintro ⟨os, h1, rfl⟩
    exact ⟨os, (mapL_objs hR).1 h1, rfl⟩
  · rintro ⟨os, h1, rfl⟩
    exact ⟨os, (mapL_objs hR).2 h1, rfl⟩

theorem parseItemSection_eq (E : Env) (O : MapOrder) (m : Members) : parseItemSection E O m =
    (if notNil (Json.field m b!"fields") then do
      let docs ← asArr (Json.field m b!"fields")
      parseFields E O true docs
    else pure []) >>= fun fs => (if notNil (Json.field m b!"title") then do
      let t ← asStr (Json.field m b!"title")
      pure (Str.title E.text t)
    else pure []) >>= fun title =>
      if nilIfEmpty fs = none ∧ title = [] then pure none
      else pure (some ⟨Str.title E.text title, nilIfEmpty fs⟩) := by
  unfold parseItemSection
  by_cases h1 : notNil (Json.field m b!"fields") <;> by_cases h2 : notNil (Json.field m b!"title") <;>
    simp only [h1, h2, if_true, if_false, Bool.false_eq_true, Out.bind_assoc, Out.pure_eq, Out.ret_bind]

theorem parseItemSection_ret {E : Env} {O : MapOrder} {m : Members} {o : Option Section} :
    parseItemSection E O m = .ret o ↔ ShownSection E m o := by
  have hfields : ∀ fs, (if notNil (Json.field m b!"fields") then do
      let docs ← asArr (Json.field m b!"fields")
      parseFields E O true docs
    else pure []) = Out.ret fs ↔ ((Absent m b!"fields" ∧ fs = []) ∨
      ∃ docs, LastEntry m b!"fields" (.arr docs) ∧ ShownList (ShownField E) docs fs) := by
    intro fs
    by_cases hf : Json.field m b!"fields" = .null
    · rw [if_neg (by simp [hf, notNil])]
      simp only [Out.pure_eq, Out.ret.injEq, absent_iff, hf, true_and, last_iff (arr_ne _)]
      constructor
      · intro h; exact .inl h.symm
      · rintro (h | ⟨_, h, _⟩)
        · exact h.symm
        · cases h
    · rw [if_pos (notNil_true.2 hf)]
      simp only [Out.bind_eq_ret, asArr_ret, absent_iff, hf, false_and, false_or, last_iff (arr_ne _)]
      refine exists_congr (fun docs => and_congr_right (fun _ => ?_))
      rw [parseFields_ret]; rfl
  have htitle : ∀ t, (if notNil (Json.field m b!"title") then do
      let t ← asStr (Json.field m b!"title")
      pure (Str.title E.text t)
    else pure []) = Out.ret t ↔ ((Absent m b!"title" ∧ t = []) ∨
      ∃ t0, LastEntry m b!"title" (.str t0) ∧ t = Str.title E.text t0) := by
    intro t
    by_cases hf : Json.field m b!"title" = .null
    · rw [if_neg (by simp [hf, notNil])]
      simp only [Out.pure_eq, Out.ret.injEq, absent_iff, hf, true_and, last_iff (str_ne _)]
      constructor
      · intro h; exact .inl h.symm
      · rintro (h | ⟨_, h, _⟩)
        · exact h.symm
        · cases h
    · rw [if_pos (notNil_true.2 hf)]
      simp only [Out.bind_eq_ret, asStr_ret, absent_iff, hf, false_and, false_or, last_iff (str_ne _), Out.pure_eq,
        Out.ret.injEq]
      exact exists_congr (fun t0 => and_congr_right (fun _ => eq_comm))
  unfold ShownSection
  rw [parseItemSection_eq, Out.bind_eq_ret]
  refine exists_congr (fun fs => ?_)
  rw [hfields fs]
  constructor
  · rintro ⟨h1, h⟩
    rw [Out.bind_eq_ret] at h
    obtain ⟨t, ht, h⟩ := h
    rw [htitle] at ht
    refine ⟨t, h1, ht, ?_⟩
    cases fs with
    | nil =>
      by_cases h0 : t = []
      · simp [nilIfEmpty, h0] at h; exact .inl ⟨rfl, h0, h.symm⟩
      · simp [nilIfEmpty, h0] at h; exact .inr (.inl ⟨rfl, h0, h.symm⟩)
    | cons f fs => simp [nilIfEmpty] at h; exact .inr (.inr ⟨by simp, h.symm⟩)
  · rintro ⟨t, h1, ht, h⟩
    refine ⟨h1, ?_⟩
    rw [Out.bind_eq_ret]
    refine ⟨t, (htitle t).2 ht, ?_⟩
    rcases h with ⟨rfl, rfl, rfl⟩ | ⟨rfl, h0, rfl⟩ | ⟨hne, rfl⟩
    · simp [nilIfEmpty]
    · simp [nilIfEmpty, h0]
    · simp [nilIfEmpty, hne]

theorem parseSections_ret {E : Env} {O : MapOrder} {m : Members} {l : List Section} :
    parseSections E O m = .ret l ↔ ShownSections E m l := by
  unfold parseSections
  by_cases hs : Json.field m b!"sections" = .null
  · rw [if_neg (by simp [hs, notNil])]
    by_cases hf : Json.field m b!"fields" = .null
    · rw [if_neg (by simp [hf, notNil])]
      simp only [Out.pure_eq, Out.ret.injEq]
      constructor
      · rintro rfl; exact .none (absent_iff.2 hs) (absent_iff.2 hf)
      · intro h
        cases h with
        | sections h _ => rw [last_iff (arr_ne _), hs] at h; cases h
        | login _ h _ _ => rw [last_iff (arr_ne _), hf] at h; cases h
        | noLogin _ h _ => rfl
        | none _ _ => rfl
    · rw [if_pos (notNil_true.2 hf)]
      simp only [Out.bind_eq_ret, asArr_ret, parseFields_ret, Out.pure_eq, Out.ret.injEq, Bool.false_eq_true, if_false]
      constructor
      · rintro ⟨docs, h1, fs, h2, rfl⟩
        cases fs with
        | nil => exact .noLogin (absent_iff.2 hs) (last_of_field h1 (arr_ne _)) h2
        | cons f fs => exact .login (absent_iff.2 hs) (last_of_field h1 (arr_ne _)) h2 (by simp)
      · intro h
        cases h with
        | sections h _ => rw [last_iff (arr_ne _), hs] at h; cases h
        | login _ h1 h2 h3 => exact ⟨_, field_of_last h1, _, h2, by simp [h3]⟩
        | noLogin _ h1 h2 => exact ⟨_, field_of_last h1, _, h2, by simp⟩
        | none _ h => exact absurd (absent_iff.1 h) hf
  · rw [if_pos (notNil_true.2 hs)]
    simp only [Out.bind_eq_ret, asArr_ret, Out.pure_eq, Out.ret.injEq]
    constructor
    · rintro ⟨docs, h1, os, h2, rfl⟩
      rw [← Out.pure_eq] at h2
      exact .sections (last_of_field h1 (arr_ne _)) ⟨os, (mapL_objs (fun m o => parseItemSection_ret)).1 h2, rfl⟩
    · intro h
      cases h with
      | sections h1 h2 =>
        obtain ⟨os, h2, rfl⟩ := h2
        exact ⟨_, field_of_last h1, os, (mapL_objs (fun m o => parseItemSection_ret)).2 h2, rfl⟩
      | login h _ _ _ => exact absurd (absent_iff.1 h) hs
      | noLogin h _ _ => exact absurd (absent_iff.1 h) hs
      | none h _ => exact absurd (absent_iff.1 h) hs

theorem optStr_ret {m : Members} {k s : Bytes} : optStr m k = .ret s ↔ OptText m k s := by
  unfold optStr OptText
  by_cases hf : Json.field m k = .null
  · rw [if_neg (by simp [hf, notNil])]
    simp only [Out.pure_eq, Out.ret.injEq, absent_iff, hf, true_and, last_iff (str_ne _)]
    constructor
    · intro h; exact .inl h.symm
    · rintro (h | h)
      · exact h.symm
      · cases h
  · rw [if_pos (notNil_true.2 hf), asStr_ret]
    simp [absent_iff, hf, last_iff (str_ne _)]

/-! ### Nothing below ever exits the process -/

theorem asStr_nf (j : Json) : asStr j ≠ .fatal := by cases j <;> simp [asStr]
theorem asArr_nf (j : Json) : asArr j ≠ .fatal := by cases j <;> simp [asArr]
theorem asObj_nf (j : Json) : asObj j ≠ .fatal := by cases j <;> simp [asObj]

end OnePass
