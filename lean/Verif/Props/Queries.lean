/-
C32–C40: counting, listing, looking up; the registries.
-/
import Verif.Model.SessionFacts
import Verif.Spec.Registry

namespace OnePass
open Session Spec

/-! ### What a query asks for -/

/-- The items a session holds. -/
def held (s : Session) : List Item := s.items.getD []

/-- The item has the trashed flag asked for, the category if one is given, and a title that contains the given
one up to letter case (the empty title is contained in every title). -/
def Wanted (T : Text) (cat : Option Cat) (title : Bytes) (trashed : Bool) (i : Item) : Prop :=
  i.trashed = trashed ∧ (∀ c, cat = some c → i.category = c) ∧ Str.toLower T title <:+: Str.toLower T i.title

instance (T : Text) (cat : Option Cat) (title : Bytes) (trashed : Bool) (i : Item) :
    Decidable (Wanted T cat title trashed i) := by
  unfold Wanted
  have : Decidable (∀ c, cat = some c → i.category = c) := by
    cases cat with
    | none => exact .isTrue (by simp)
    | some c => exact decidable_of_iff (i.category = c) (by simp)
  infer_instance

/-- What a list shows of an item. -/
def summary (i : Item) : SimpleItem := ⟨i.category, i.title, i.trashed, i.uid⟩

theorem matches_iff (T : Text) (cat : Option Cat) (title : Bytes) (trashed : Bool) (i : Item) :
    Repo.matches? T cat (Str.toLower T title) trashed i = decide (Wanted T cat title trashed i) := by
  rw [Bool.eq_iff_iff, decide_eq_true_iff]
  unfold Repo.matches? Wanted
  by_cases ht : Str.toLower T title = []
  · cases cat <;> simp [ht, and_comm]
  · cases cat <;> simp [ht, Str.contains_iff, and_comm]

/-! ### C32 -/

/-- C32. A list is exactly the wanted items, each as often as it is held. -/
theorem C32_list_is_filter (T : Text) (S : Sorter) (s : Session) (cat : Option Cat) (title : Bytes) (trashed : Bool) :
    (getItems T S s cat title trashed).Perm
      (((held s).filter (fun i => decide (Wanted T cat title trashed i))).map summary) := by
  refine (S.perm _ _).trans ?_
  unfold Repo.findBy held
  rw [List.filter_congr (fun i _ => matches_iff T cat title trashed i)]
  exact .refl _

/-- C32, element by element. -/
theorem C32_listed_iff (T : Text) (S : Sorter) (s : Session) (cat : Option Cat) (title : Bytes) (trashed : Bool)
    (x : SimpleItem) :
    x ∈ getItems T S s cat title trashed ↔ ∃ i ∈ held s, Wanted T cat title trashed i ∧ x = summary i := by
  rw [(C32_list_is_filter T S s cat title trashed).mem_iff]
  simp only [List.mem_map, List.mem_filter, decide_eq_true_eq]
  constructor
  · rintro ⟨i, ⟨h1, h2⟩, rfl⟩; exact ⟨i, h1, h2, rfl⟩
  · rintro ⟨i, h1, h2, rfl⟩; exact ⟨i, ⟨h1, h2⟩, rfl⟩

/-! ### C33 -/

theorem lessItem_strictWeak : StrictWeak lessItem := by
  have hlt := strLt_strictWeak
  refine ⟨?_, ?_, ?_⟩
  · intro a; simp [lessItem, hlt.irrefl]
  · intro a b c h1 h2
    unfold lessItem at *
    split at h1 <;> split at h2
    · rename_i h3 h4
      have h5 := hlt.trans _ _ _ h1 h2
      rw [if_pos]
      · exact h5
      · intro h; rw [h, hlt.irrefl] at h5; cases h5
    · rename_i h3 h4
      simp only [ne_eq, not_not] at h4
      rw [if_pos (by rw [← h4]; exact h3), ← h4]; exact h1
    · rename_i h3 h4
      simp only [ne_eq, not_not] at h3
      rw [if_pos (by rw [h3]; exact h4), h3]; exact h2
    · rename_i h3 h4
      simp only [ne_eq, not_not] at h3 h4
      rw [if_neg (by simp [h3, h4])]
      exact hlt.trans _ _ _ h1 h2
  · intro a b c h1 h2 h3 h4
    have key : ∀ a b, lessItem a b = false → lessItem b a = false →
        a.category.code = b.category.code ∧ a.title = b.title := by
      intro a b h1 h2
      have tot : ∀ x y : Bytes, Str.lt x y = false → Str.lt y x = false → x = y := by
        intro x y h1 h2
        simp only [Str.lt, decide_eq_false_iff_not, List.not_lt] at h1 h2
        exact List.le_antisymm h2 h1
      unfold lessItem at h1 h2
      by_cases hc : a.category.code = b.category.code
      · simp only [hc, ne_eq, not_true_eq_false, if_false] at h1 h2
        exact ⟨hc, tot _ _ h1 h2⟩
      · rw [if_pos hc] at h1
        rw [if_pos (Ne.symm hc)] at h2
        exact ⟨tot _ _ h1 h2, absurd (tot _ _ h1 h2) hc⟩
    obtain ⟨e1, e2⟩ := key a b h1 h2
    obtain ⟨e3, e4⟩ := key b c h3 h4
    constructor <;> simp [lessItem, e1, e2, e3, e4, hlt.irrefl]

/-- C33. A list is sorted by category code, then title, in byte order. -/
theorem C33_sorted (T : Text) (S : Sorter) (s : Session) (cat : Option Cat) (title : Bytes) (trashed : Bool) :
    (getItems T S s cat title trashed).Pairwise (fun a b =>
      a.category.code < b.category.code ∨ (a.category.code = b.category.code ∧ a.title ≤ b.title)) := by
  refine (S.sorted lessItem _ lessItem_strictWeak).imp ?_
  intro a b h
  unfold lessItem at h
  by_cases hc : b.category.code = a.category.code
  · simp only [hc, ne_eq, not_true_eq_false, if_false, Str.lt, decide_eq_false_iff_not, List.not_lt] at h
    exact .inr ⟨hc.symm, h⟩
  · rw [if_pos hc] at h
    simp only [Str.lt, decide_eq_false_iff_not, List.not_lt] at h
    rcases List.le_iff_lt_or_eq.1 h with h | h
    · exact .inl h
    · exact absurd h.symm hc

/-- C33. In a reachable session no item is listed twice. -/
theorem C33_each_once (E : Env) (s : Session) (hr : Reachable E s) (S : Sorter) (cat : Option Cat) (title : Bytes)
    (trashed : Bool) : ((getItems E.text S s cat title trashed).map (·.uid)).Nodup := by
  have hp := (C32_list_is_filter E.text S s cat title trashed).map (·.uid)
  rw [hp.nodup_iff, List.map_map]
  have hn : ((held s).map (·.uid)).Nodup := by
    unfold held
    cases hi : s.items with
    | none => simp
    | some l => exact hr.inv.uids l hi
  exact hn.sublist ((List.filter_sublist (l := held s)).map _)

/-! ### C34 -/

theorem find_uid {l : List Item} (hn : (l.map (·.uid)).Nodup) {i : Item} (hi : i ∈ l) (trashed : Bool)
    (ht : i.trashed = trashed) : l.find? (fun x => x.uid == i.uid && x.trashed == trashed) = some i := by
  induction l with
  | nil => simp at hi
  | cons a l ih =>
    rw [List.map_cons, List.nodup_cons] at hn
    rcases List.mem_cons.1 hi with rfl | hi
    · simp [ht]
    · have : a.uid ≠ i.uid := fun h => hn.1 (List.mem_map.2 ⟨i, hi, h.symm⟩)
      rw [List.find?_cons_of_neg (by simp [this])]
      exact ih hn.2 hi

/-- C34. In a reachable session, opening a listed item by its UID and trashed flag gives an item with the listed
category, title, flag and UID. -/
theorem C34_listed_opens (E : Env) (s : Session) (hr : Reachable E s) (S : Sorter) (cat : Option Cat) (title : Bytes)
    (trashed : Bool) (x : SimpleItem) (hx : x ∈ getItems E.text S s cat title trashed) :
    ∃ i, s.getItem x.uid x.trashed = some i ∧ i.category = x.category ∧ i.title = x.title ∧ i.uid = x.uid ∧
      i.trashed = x.trashed ∧ x.trashed = trashed := by
  obtain ⟨i, hi, hw, rfl⟩ := (C32_listed_iff E.text S s cat title trashed x).1 hx
  refine ⟨i, ?_, rfl, rfl, rfl, rfl, hw.1⟩
  have hn : ((held s).map (·.uid)).Nodup := by
    unfold held
    cases hi : s.items with
    | none => simp
    | some l => exact hr.inv.uids l hi
  exact find_uid hn hi _ rfl

/-- Looking up in a reachable session: found iff held, with the flag asked for. -/
theorem C34_lookup (E : Env) (s : Session) (hr : Reachable E s) (uid : Bytes) (trashed : Bool) (i : Item) :
    s.getItem uid trashed = some i ↔ i ∈ held s ∧ i.uid = uid ∧ i.trashed = trashed := by
  have hn : ((held s).map (·.uid)).Nodup := by
    unfold held
    cases hi : s.items with
    | none => simp
    | some l => exact hr.inv.uids l hi
  constructor
  · intro h
    have h' : (held s).find? (fun x => x.uid == uid && x.trashed == trashed) = some i := h
    have h1 := List.mem_of_find?_eq_some h'
    have h2 := List.find?_some h'
    simp only [Bool.and_eq_true, beq_iff_eq] at h2
    exact ⟨h1, h2⟩
  · rintro ⟨h1, rfl, h3⟩
    exact find_uid hn h1 _ h3

/-! ### C35, C36 -/

/-- What `CountItems` counts. -/
theorem count_eq (items : Option (List Item)) (cat : Option Cat) (trashed : Bool) :
    Repo.count items cat trashed =
      ((items.getD []).filter (fun i => decide (i.trashed = trashed ∧ ∀ c, cat = some c → i.category = c))).length := by
  unfold Repo.count
  have key : ∀ (l : List Item) (n : Nat), l.foldl (fun n item =>
      match cat with
      | none => if item.trashed = trashed then n + 1 else n
      | some c => if item.category = c ∧ item.trashed = trashed then n + 1 else n) n =
      n + (l.filter (fun i => decide (i.trashed = trashed ∧ ∀ c, cat = some c → i.category = c))).length := by
    intro l
    induction l with
    | nil => intro n; rfl
    | cons a l ih =>
      intro n
      rw [List.foldl_cons, ih]
      cases cat with
      | none =>
        by_cases h : a.trashed = trashed
        · simp [h]; omega
        · simp [h]
      | some c =>
        by_cases h : a.trashed = trashed <;> by_cases h' : a.category = c <;> simp [h, h'] <;> omega
  have := key (items.getD []) 0
  rw [Nat.zero_add] at this
  exact this

/-- C35. The count of a category (or of all) is the length of the corresponding unfiltered list. -/
theorem C35_count_is_length (T : Text) (S : Sorter) (s : Session) (cat : Option Cat) (trashed : Bool) :
    s.countItems cat trashed = (getItems T S s cat [] trashed).length := by
  rw [(C32_list_is_filter T S s cat [] trashed).length_eq, List.length_map]
  unfold countItems held
  rw [count_eq]
  congr 1
  apply List.filter_congr
  intro i _
  simp [Wanted, Str.toLower, Str.isAscii]

/-- Sum of a list of numbers. -/
def total (l : List Nat) : Nat := l.foldr (· + ·) 0

theorem sum_categories (l : List Item) (p : Item → Bool) (cs : List Cat) (hc : cs.Nodup)
    (h : ∀ i ∈ l, i.category ∈ cs) :
    total (cs.map (fun c => (l.filter (fun i => p i && decide (i.category = c))).length)) = (l.filter p).length := by
  induction l with
  | nil =>
    have : ∀ cs : List Cat, total (cs.map (fun c => (([] : List Item).filter (fun i => p i && decide (i.category = c))).length)) = 0 := by
      intro cs; induction cs with
      | nil => rfl
      | cons c cs ih => simpa [total] using ih
    simpa using this cs
  | cons a l ih =>
    have ih := ih (fun i hi => h i (by simp [hi]))
    have ha := h a (by simp)
    have key : ∀ cs : List Cat, cs.Nodup →
        total (cs.map (fun c => ((a :: l).filter (fun i => p i && decide (i.category = c))).length)) =
        total (cs.map (fun c => (l.filter (fun i => p i && decide (i.category = c))).length)) +
          (if p a = true ∧ a.category ∈ cs then 1 else 0) := by
      intro cs hn
      induction cs with
      | nil => simp [total]
      | cons c cs ihc =>
        rw [List.nodup_cons] at hn
        have ihc := ihc hn.2
        simp only [List.map_cons, total, List.foldr_cons] at ihc ⊢
        rw [ihc]
        by_cases hp : p a = true
        · by_cases hac : a.category = c
          · have : a.category ∉ cs := hac ▸ hn.1
            simp [hp, hac, hac ▸ this]; omega
          · by_cases hm : a.category ∈ cs
            · simp [hp, hac, hm]; omega
            · simp [hp, hac, hm]
        · simp [hp]
    rw [key cs hc, ih]
    by_cases hp : p a = true
    · simp [hp, ha]
    · simp [hp]

theorem catValues_nodup : Cat.values.Nodup := by decide

/-- C36. In a reachable session the counts of the categories add up to the overall count, and active plus
trashed is the number of items held. -/
theorem C36_counts_add_up (E : Env) (s : Session) (hr : Reachable E s) :
    (∀ trashed, total (s.reg.map (fun c => s.countItems (some c) trashed)) = s.countItems none trashed) ∧
    s.countItems none false + s.countItems none true = (held s).length := by
  constructor
  · intro trashed
    have hcs : ∀ i ∈ held s, i.category ∈ s.reg := by
      intro i hi
      unfold held at hi
      cases hs : s.items with
      | none => simp [hs] at hi
      | some l =>
        rw [hs] at hi
        exact hr.inv.reg.mem_iff.2 (hr.inv.cats l hs i hi)
    have hnd : s.reg.Nodup := hr.inv.reg.nodup_iff.2 catValues_nodup
    have := sum_categories (held s) (fun i => decide (i.trashed = trashed)) s.reg hnd hcs
    unfold countItems
    simp only [count_eq]
    simpa [held] using this
  · unfold countItems held
    simp only [count_eq]
    generalize s.items.getD [] = l
    induction l with
    | nil => rfl
    | cons a l ih =>
      cases ha : a.trashed <;> simp [ha] at ih ⊢ <;> omega

/-! ### C37 -/

/-- C37. The letter case of the title asked for does not matter. -/
theorem C37_case_insensitive (T : Text) (S : Sorter) (s : Session) (cat : Option Cat) (t t' : Bytes) (trashed : Bool)
    (h : SameLetters T t t') : getItems T S s cat t trashed = getItems T S s cat t' trashed := by
  unfold SameLetters at h
  simp only [getItems, Repo.findBy, h]

/-- C37. The empty title means no filter: what is listed is what the trashed flag and the category say. -/
theorem C37_empty_title (T : Text) (S : Sorter) (s : Session) (cat : Option Cat) (trashed : Bool) (x : SimpleItem) :
    x ∈ getItems T S s cat [] trashed ↔
      ∃ i ∈ held s, i.trashed = trashed ∧ (∀ c, cat = some c → i.category = c) ∧ x = summary i := by
  rw [C32_listed_iff]
  simp [Wanted, Str.toLower, Str.isAscii, and_assoc]

/-! A session with items, for the examples: three items, one trashed. -/

def demoItems : List Item :=
  [⟨.login, 0, [], b!"Web mail", false, none, b!"1", [], 0⟩, ⟨.creditCard, 0, [], b!"Card", false, none, b!"2", [], 0⟩,
   ⟨.login, 0, [], b!"Bank", false, none, b!"3", [], 0⟩, ⟨.login, 0, [], b!"Old web", true, none, b!"4", [], 0⟩]

def demoSession : Session := { init with items := some demoItems, keys := some ⟨[], [], [], [], [], []⟩ }

example : (getItems .toy .ins demoSession none [] false).map (·.uid) = [b!"3", b!"1", b!"2"] ∧
    (getItems .toy .ins demoSession none b!"WEB" false).map (·.uid) = [b!"1"] ∧
    (getItems .toy .ins demoSession (some .login) [] true).map (·.uid) = [b!"4"] ∧
    demoSession.countItems none false = 3 ∧ demoSession.countItems (some .login) false = 2 ∧
    SameLetters .toy b!"WEB" b!"web" := by
  refine ⟨?_, ?_, ?_, ?_, ?_, ?_⟩ <;> decide +kernel

/-! ### C38 -/

/-- The categories of the program are those of the format. -/
theorem C38_categories : (Cat.values.map (fun c => (c.code, c.name))).Perm Spec.categories := by
  decide +kernel

/-- Codes are distinct, and so are names, even up to letter case. -/
theorem C38_distinct (T : Text) :
    (Cat.values.map (·.code)).Nodup ∧ (Cat.values.map (fun c => Str.toLower T c.name)).Nodup := by
  constructor
  · decide +kernel
  · have : ∀ c ∈ Cat.values, Str.toLower T c.name = c.name.map Str.lowerByte := by
      intro c hc
      unfold Str.toLower
      rw [if_pos]
      revert c
      decide +kernel
    rw [List.map_congr_left this]
    decide +kernel

theorem find_unique {α β : Type} [BEq β] [LawfulBEq β] (f : α → β) {l : List α} (hn : (l.map f).Nodup) (k : β) (a : α) :
    l.find? (fun c => f c == k) = some a ↔ a ∈ l ∧ f a = k := by
  induction l with
  | nil => simp
  | cons x l ih =>
    rw [List.map_cons, List.nodup_cons] at hn
    by_cases hx : f x = k
    · rw [List.find?_cons_of_pos (by simp [hx])]
      constructor
      · intro h; cases h; exact ⟨by simp, hx⟩
      · rintro ⟨h1, h2⟩
        rcases List.mem_cons.1 h1 with rfl | h1
        · rfl
        · exact absurd (List.mem_map.2 ⟨a, h1, h2.trans hx.symm⟩) hn.1
    · rw [List.find?_cons_of_neg (by simp [hx]), ih hn.2]
      constructor
      · rintro ⟨h1, h2⟩; exact ⟨by simp [h1], h2⟩
      · rintro ⟨h1, h2⟩
        rcases List.mem_cons.1 h1 with rfl | h1
        · exact absurd h2 hx
        · exact ⟨h1, h2⟩

/-- C38. Whatever order the shared list is in, looking up a code gives the category with that code, looking up a
name the category with that name up to letter case, and everything else is an error. -/
theorem C38_lookup (T : Text) (reg : List Cat) (hreg : reg.Perm Cat.values) :
    (∀ code c, Cat.fromCode reg code = .ok c ↔ c ∈ Cat.values ∧ c.code = code) ∧
    (∀ code, (∀ c ∈ Cat.values, c.code ≠ code) ↔ Cat.fromCode reg code = .error .unknownItemCat) ∧
    (∀ name c, Cat.fromName T reg name = .ok c ↔ c ∈ Cat.values ∧ SameLetters T c.name name) ∧
    (∀ name, (∀ c ∈ Cat.values, ¬ SameLetters T c.name name) ↔
      Cat.fromName T reg name = .error .unknownItemCat) := by
  obtain ⟨d1, d2⟩ := C38_distinct T
  have n1 : (reg.map (·.code)).Nodup := (hreg.map _).nodup_iff.2 d1
  have n2 : (reg.map (fun c => Str.toLower T c.name)).Nodup := (hreg.map _).nodup_iff.2 d2
  refine ⟨?_, ?_, ?_, ?_⟩
  · intro code c
    rw [← hreg.mem_iff, ← find_unique (fun c => c.code) n1 code c]
    unfold Cat.fromCode
    cases reg.find? (fun c => c.code == code) <;> simp
  · intro code
    unfold Cat.fromCode
    constructor
    · intro h
      rw [List.find?_eq_none.2 (fun c hc => by simp [h c (hreg.mem_iff.1 hc)])]
    · intro h c hc he
      rw [(find_unique (fun c => c.code) n1 code c).2 ⟨hreg.mem_iff.2 hc, he⟩] at h
      cases h
  · intro name c
    rw [← hreg.mem_iff]
    unfold SameLetters
    rw [← find_unique (fun c => Str.toLower T c.name) n2 (Str.toLower T name) c]
    unfold Cat.fromName
    cases reg.find? (fun c => Str.toLower T c.name == Str.toLower T name) <;> simp
  · intro name
    unfold Cat.fromName SameLetters
    constructor
    · intro h
      rw [List.find?_eq_none.2 (fun c hc => by simp [h c (hreg.mem_iff.1 hc)])]
    · intro h c hc he
      rw [(find_unique (fun c => Str.toLower T c.name) n2 (Str.toLower T name) c).2 ⟨hreg.mem_iff.2 hc, he⟩] at h
      cases h

/-- C38. In every reachable session the shared list is a rearrangement of the registry, so `C38_lookup` applies. -/
theorem C38_reachable (E : Env) (s : Session) (hr : Reachable E s) : s.reg.Perm Cat.values := hr.inv.reg

example : Cat.fromName .toy Cat.values.reverse b!"cReDiT cArD" = .ok .creditCard ∧
    Cat.values.reverse.Perm Cat.values ∧ SameLetters .toy Cat.creditCard.name b!"cReDiT cArD" :=
  ⟨by decide +kernel, List.reverse_perm _, by decide +kernel⟩

/-! ### C39 -/

theorem toLower_ascii_literal (T : Text) {s : Bytes} (h : Str.isAscii s = true) :
    Str.toLower T s = s.map Str.lowerByte := by unfold Str.toLower; rw [if_pos h]

/-- C39. The accepted data type names are address, date and monthYear, up to letter case. -/
theorem C39_data_types (T : Text) (n : Bytes) :
    (DataType.fromName T n = .ok .address ↔ SameLetters T b!"address" n) ∧
    (DataType.fromName T n = .ok .date ↔ SameLetters T b!"date" n) ∧
    (DataType.fromName T n = .ok .monthYear ↔ SameLetters T b!"monthYear" n) ∧
    (¬ SameLetters T b!"address" n → ¬ SameLetters T b!"date" n → ¬ SameLetters T b!"monthYear" n →
      DataType.fromName T n = .error .unknownDataType) := by
  have e1 : Str.toLower T DataType.address.name = b!"address" := toLower_ascii_literal T (by decide +kernel)
  have e2 : Str.toLower T DataType.date.name = b!"date" := toLower_ascii_literal T (by decide +kernel)
  have e3 : Str.toLower T DataType.monthYear.name = b!"monthyear" := toLower_ascii_literal T (by decide +kernel)
  have e1' : Str.toLower T b!"address" = b!"address" := toLower_ascii_literal T (by decide +kernel)
  have e2' : Str.toLower T b!"date" = b!"date" := toLower_ascii_literal T (by decide +kernel)
  have e3' : Str.toLower T b!"monthYear" = b!"monthyear" := toLower_ascii_literal T (by decide +kernel)
  unfold SameLetters DataType.fromName DataType.values
  simp only [e1', e2', e3', List.find?_cons, e1, e2, e3, List.find?_nil]
  generalize Str.toLower T n = m
  by_cases h1 : m = b!"address"
  · subst h1; simp
  by_cases h2 : m = b!"date"
  · subst h2; simp
  by_cases h3 : m = b!"monthyear"
  · subst h3; simp
  have g1 : (b!"address" == m) = false := by simpa using fun h => h1 h.symm
  have g2 : (b!"date" == m) = false := by simpa using fun h => h2 h.symm
  have g3 : (b!"monthyear" == m) = false := by simpa using fun h => h3 h.symm
  simp only [g1, g2, g3]
  refine ⟨?_, ?_, ?_, ?_⟩
  · constructor
    · intro h; cases h
    · intro h; exact absurd h.symm h1
  · constructor
    · intro h; cases h
    · intro h; exact absurd h.symm h2
  · constructor
    · intro h; cases h
    · intro h; exact absurd h.symm h3
  · intros; trivial

example : SameLetters .toy b!"monthYear" b!"MONTHyear" := by decide +kernel

/-! ### C40 -/

/-- C40. For every answer: `y`/`Y` is yes, `n`/`N` is no, and every other ASCII answer is an error. (For
non-ASCII answers the same up to `strings.ToLower`.) -/
theorem C40_answers (T : Text) (a : Bytes) :
    (SameLetters T b!"y" a → LogicVal.fromName T a = .ok ⟨b!"y", true⟩) ∧
    (SameLetters T b!"n" a → LogicVal.fromName T a = .ok ⟨b!"n", false⟩) ∧
    (¬ SameLetters T b!"y" a → ¬ SameLetters T b!"n" a → LogicVal.fromName T a = .error .unknownLogicVal) ∧
    (Str.isAscii a = true → (SameLetters T b!"y" a ↔ a = b!"y" ∨ a = b!"Y") ∧
      (SameLetters T b!"n" a ↔ a = b!"n" ∨ a = b!"N")) := by
  have e1 : Str.toLower T b!"y" = b!"y" := toLower_ascii_literal T (by decide +kernel)
  have e2 : Str.toLower T b!"n" = b!"n" := toLower_ascii_literal T (by decide +kernel)
  have asc : ∀ c : UInt8, ∀ a : Bytes, [c] = a.map Str.lowerByte ↔ ∃ d, a = [d] ∧ c = Str.lowerByte d := by
    intro c a
    cases a with
    | nil => simp
    | cons x a => cases a <;> simp
  unfold SameLetters
  rw [e1, e2]
  refine ⟨?_, ?_, ?_, ?_⟩
  · intro h
    unfold LogicVal.fromName LogicVal.values LogicVal.no LogicVal.yes
    simp only [List.find?_cons, e1, e2, ← h]
    rfl
  · intro h
    unfold LogicVal.fromName LogicVal.values LogicVal.no LogicVal.yes
    simp only [List.find?_cons, e2, ← h]
    rfl
  · intro h1 h2
    unfold LogicVal.fromName LogicVal.values LogicVal.no LogicVal.yes
    have g1 : (b!"y" == Str.toLower T a) = false := by simpa using h1
    have g2 : (b!"n" == Str.toLower T a) = false := by simpa using h2
    simp only [List.find?_cons, e1, e2, g1, g2, List.find?_nil]
  · intro ha
    have f1 : ∀ d : UInt8, (121 = Str.lowerByte d ↔ d = 121 ∨ d = 89) ∧ (110 = Str.lowerByte d ↔ d = 110 ∨ d = 78) := by
      intro d; revert d; decide +kernel
    rw [toLower_ascii_literal T ha, asc, asc]
    constructor
    · constructor
      · rintro ⟨d, rfl, h⟩
        rcases (f1 d).1.1 h with rfl | rfl <;> simp
      · rintro (rfl | rfl)
        · exact ⟨_, rfl, by decide⟩
        · exact ⟨_, rfl, by decide⟩
    · constructor
      · rintro ⟨d, rfl, h⟩
        rcases (f1 d).2.1 h with rfl | rfl <;> simp
      · rintro (rfl | rfl)
        · exact ⟨_, rfl, by decide⟩
        · exact ⟨_, rfl, by decide⟩

/-- C40. `FromValue` inverts `GetValue`: for every truth value there is an answer with that value, and its name
is accepted as that answer. -/
theorem C40_inverse (T : Text) (v : Bool) :
    ∃ a, LogicVal.fromValue v = some a ∧ a.value = v ∧ LogicVal.fromName T a.name = .ok a := by
  cases v with
  | true => exact ⟨⟨b!"y", true⟩, by decide, rfl, (C40_answers T _).1 rfl⟩
  | false => exact ⟨⟨b!"n", false⟩, by decide, rfl, (C40_answers T _).2.1 rfl⟩

end OnePass
