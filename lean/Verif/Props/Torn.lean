/-
A vault that is opened while another program writes to it: C134.
-/
import Verif.Model.Torn
import Verif.Props.Stray
import Verif.Props.Printed

namespace OnePass
open Spec

/-! ### The disk put together from what was read -/

/-- The band files as they were when they were read. -/
def seen (reads : Nat → Disk) (dir : List Bytes) : Nat → List Bytes → FS
  | _, [] => []
  | i, n :: ns => (((reads i).at? (dir ++ [n])).map fun x => (dir ++ [n], x)).toList ++ seen reads dir (i + 1) ns

theorem seen_loc {reads : Nat → Disk} {dir : List Bytes} :
    ∀ {ns : List Bytes} {i : Nat} {e : List Bytes × Node}, e ∈ seen reads dir i ns → ∃ n ∈ ns, e.1 = dir ++ [n]
  | [], _, e, h => by cases h
  | n :: ns, i, e, h => by
    unfold seen at h
    rcases List.mem_append.1 h with h | h
    · simp only [Option.mem_toList, Option.map_eq_some_iff] at h
      obtain ⟨x, -, rfl⟩ := h
      exact ⟨n, by simp, rfl⟩
    · obtain ⟨m, hm, he⟩ := seen_loc h
      exact ⟨m, by simp [hm], he⟩

/-- That disk: elsewhere it is the disk on which the directory was listed. -/
def patched (listed : Disk) (reads : Nat → Disk) (dir names : List Bytes) : Disk :=
  { listed with fs := seen reads dir 0 names ++ listed.fs }

theorem patched_cwd (listed : Disk) (reads : Nat → Disk) (dir names : List Bytes) :
    (patched listed reads dir names).cwd = listed.cwd := rfl

theorem patched_else {listed : Disk} {reads : Nat → Disk} {dir names l : List Bytes} (h : ∀ n ∈ names, l ≠ dir ++ [n]) :
    (patched listed reads dir names).at? l = listed.at? l := by
  unfold patched Disk.at?
  rw [List.find?_append]
  have : (seen reads dir 0 names).find? (fun e => e.1 == l) = none := by
    rw [List.find?_eq_none]
    intro e he hl
    obtain ⟨n, hn, h1⟩ := seen_loc he
    exact h n hn (by rw [← h1]; exact (by simpa using hl : e.1 = l).symm)
  rw [this]
  rfl

theorem seen_find {reads : Nat → Disk} {dir : List Bytes} :
    ∀ {ns : List Bytes} {i : Nat}, ns.Nodup → ∀ (k : Nat) (hk : k < ns.length) (x : Node),
      (reads (i + k)).at? (dir ++ [ns[k]]) = some x →
      (seen reads dir i ns).find? (fun e => e.1 == dir ++ [ns[k]]) = some (dir ++ [ns[k]], x)
  | [], _, _, k, hk, _, _ => by simp at hk
  | n :: ns, i, hnd, 0, _, x, h => by
    have h' : (reads i).at? (dir ++ [n]) = some x := h
    simp [seen, h']
  | n :: ns, i, hnd, k + 1, hk, x, h => by
    have hnd' := List.nodup_cons.1 hnd
    have hk' : k < ns.length := by simpa using hk
    have h1 := seen_find (reads := reads) (dir := dir) (i := i + 1) hnd'.2 k hk' x
      (by simpa [Nat.add_assoc, Nat.add_comm 1 k] using h)
    unfold seen
    rw [List.find?_append]
    have h2 : (((reads i).at? (dir ++ [n])).map fun x => (dir ++ [n], x)).toList.find?
        (fun e => e.1 == dir ++ [(n :: ns)[k + 1]]) = none := by
      rw [List.find?_eq_none]
      intro e he hl
      simp only [Option.mem_toList, Option.map_eq_some_iff] at he
      obtain ⟨y, -, rfl⟩ := he
      have : n = ns[k] := by simpa using hl
      exact hnd'.1 (this ▸ List.getElem_mem hk')
    rw [h2]
    simpa using h1

theorem patched_band {listed : Disk} {reads : Nat → Disk} {dir names : List Bytes} (hn : names.Nodup) (k : Nat)
    (hk : k < names.length) (x : Node) (h : (reads k).at? (dir ++ [names[k]]) = some x) :
    (patched listed reads dir names).at? (dir ++ [names[k]]) = some x := by
  unfold patched Disk.at?
  rw [List.find?_append, seen_find (i := 0) hn k hk x (by simpa using h)]
  rfl

theorem bandNames_nodup {d : Disk} {dir names : List Bytes} (h : BandNames d dir names) : names.Nodup :=
  h.1.imp fun {a b} hab he => by subst he; exact List.lt_irrefl _ hab

section
variable {listed : Disk} {reads : Nat → Disk} {v : Bytes} {dir names : List Bytes}

theorem patched_names (hn : BandNames listed dir names)
    (hf : ∀ k (hk : k < names.length), ∃ x, (reads k).at? (dir ++ [names[k]]) = some x) (l : List Bytes) :
    (patched listed reads dir names).at? l ≠ none ↔ listed.at? l ≠ none := by
  by_cases h : ∀ n ∈ names, l ≠ dir ++ [n]
  · rw [patched_else h]
  · push Not at h
    obtain ⟨n, hmem, rfl⟩ := h
    obtain ⟨k, hk, rfl⟩ := List.getElem_of_mem hmem
    obtain ⟨x, hx⟩ := hf k hk
    rw [patched_band (bandNames_nodup hn) k hk x hx]
    simpa using ((hn.2 names[k]).1 hmem).2

theorem patched_files (hv : VaultDir listed v dir) (hn : BandNames listed dir names)
    (hf : ∀ k (hk : k < names.length), ∃ x, (reads k).at? (dir ++ [names[k]]) = some x) :
    Repo.bandFiles (patched listed reads dir names) v = Repo.bandFiles listed v := by
  obtain ⟨hne, hg⟩ := bandFiles_glob hv.nonempty hv.noMeta
  rw [(hg _).1, (hg _).1]
  have h1 : Path.resolve listed.cwd (Path.join [v, b!"default"]) = dir := by rw [(hg listed).2, hv.dir_eq]
  have h2 : (patched listed reads dir names).at? dir = listed.at? dir :=
    patched_else fun n _ h => by
      have := congrArg List.length h
      simp at this
  have h3 : (patched listed reads dir names).dirNames dir = listed.dirNames dir :=
    sorted_lt_unique (dirNames_sorted _ _) (dirNames_sorted _ _) fun n => by
      rw [mem_dirNames, mem_dirNames]; exact patched_names hn hf _
  unfold Path.globDir Disk.stat
  rw [if_neg hne, if_neg hne]
  simp only [patched_cwd]
  rw [h1, h2, h3]

theorem bodiesDuring_patched (hn : BandNames listed dir names)
    (hc : ∀ k, (reads k).cwd = listed.cwd)
    (hf : ∀ k (hk : k < names.length), ∃ x, (reads k).at? (dir ++ [names[k]]) = some x) :
    ∀ {ns ps : List Bytes} (_ : List.Forall₂ (fun n p => p ≠ [] ∧ Path.resolve listed.cwd p = dir ++ [n]) ns ps) (i : Nat),
      names = names.take i ++ ns →
      Repo.bodiesDuring reads i ps = Out.mapL (Repo.bandBody (patched listed reads dir names)) ps := by
  intro ns ps h
  induction h with
  | nil => intro i _; rfl
  | @cons n p ns ps h1 h2 ih =>
    intro i hi
    have hil : i < names.length := by
      by_contra hlt
      rw [List.take_of_length_le (by omega)] at hi
      have := congrArg List.length hi
      simp at this
    have hni : names[i] = n := by
      have h3 : (names.take i ++ n :: ns)[i]? = some n := by
        rw [List.getElem?_append_right (by simp)]
        simp [Nat.min_eq_left (Nat.le_of_lt hil)]
      rw [← hi] at h3
      simpa [List.getElem?_eq_getElem hil] using h3
    have hb : Repo.bandBody (reads i) p = Repo.bandBody (patched listed reads dir names) p := by
      obtain ⟨x, hx⟩ := hf i hil
      have h4 := patched_band (listed := listed) (bandNames_nodup hn) i hil x hx
      rw [hni] at hx h4
      unfold Repo.bandBody Disk.readFile Disk.stat
      rw [if_neg h1.1, if_neg h1.1, hc]
      rw [patched_cwd]
      rw [h1.2, hx, h4]
    simp only [Repo.bodiesDuring, Out.mapL]
    rw [hb, ih (i + 1) (by
      have : names.take (i + 1) = names.take i ++ [n] := by
        rw [List.take_succ_eq_append_getElem hil, hni]
      rw [this, List.append_assoc]
      exact hi)]

theorem loadItemsDuring_patched (E : Env) (O : MapOrder) (hv : VaultDir listed v dir) (hn : BandNames listed dir names)
    (hc : ∀ k, (reads k).cwd = listed.cwd)
    (hf : ∀ k (hk : k < names.length), ∃ x, (reads k).at? (dir ++ [names[k]]) = some x) :
    Repo.loadItemsDuring E O listed reads v = Repo.loadItems E O (patched listed reads dir names) v := by
  obtain ⟨paths, hp, hpf⟩ := bandFiles_eq hv hn
  have hb := bodiesDuring_patched hn hc hf hpf 0 (by simp)
  unfold Repo.loadItemsDuring Repo.loadItems
  rw [patched_files hv hn hf, hp]
  cases paths with
  | nil => rfl
  | cons p ps => simp only [hb]; rfl

theorem patched_dir (hv : VaultDir listed v dir) (hnames : ∀ c ∈ dir, (47 : UInt8) ∉ c) (hn : BandNames listed dir names) :
    VaultDir (patched listed reads dir names) v dir where
  nonempty := hv.nonempty
  noMeta := hv.noMeta
  names := by
    intro e he c hc
    rcases List.mem_append.1 he with he | he
    · obtain ⟨n, hmem, h1⟩ := seen_loc he
      rw [h1] at hc
      rcases List.mem_append.1 hc with hc | hc
      · exact hnames c hc
      · have hcn : c = n := by simpa using hc
        obtain ⟨e', he', hl⟩ := at_ne_none.1 ((hn.2 n).1 hmem).2
        exact hv.names e' he' c (by simp [hl, hcn])
    · exact hv.names e he c hc
  dir_eq := hv.dir_eq
  exist := by
    rw [patched_else]
    · exact hv.exist
    · intro n _ h
      have := congrArg List.length h
      simp at this

end

theorem lastEntry_flatten {k : Bytes} {j : Json} : ∀ {ms : List Members}, LastEntry ms.flatten k j →
    ∃ i, ∃ hi : i < ms.length, LastEntry ms[i] k j
  | [], h => by
    obtain ⟨a, b, h, -⟩ := h
    simp at h
  | m :: ms, h => by
    by_cases hk : ∃ e ∈ ms.flatten, e.1 = k
    · have h1 : LastEntry ms.flatten k j := by
        rw [lastEntry_iff] at h ⊢
        obtain ⟨j', h2⟩ := lastEntry_mem_iff.1 (by obtain ⟨e, he, rfl⟩ := hk; exact List.mem_map_of_mem he : k ∈ ms.flatten.map (·.1))
        obtain ⟨a, b, h3, h4⟩ := h2
        have h5 : LastEntry (m :: ms).flatten k j' := ⟨m ++ a, b, by simp [h3], h4⟩
        rw [lastEntry_iff] at h5
        rw [h5] at h
        cases h
        exact lastEntry_iff.1 ⟨a, b, h3, h4⟩
      obtain ⟨i, hi, h2⟩ := lastEntry_flatten h1
      exact ⟨i + 1, by simpa using hi, by simpa using h2⟩
    · push Not at hk
      refine ⟨0, by simp, ?_⟩
      have hm : k ∈ (m :: ms).flatten.map (·.1) := lastEntry_mem_iff.2 ⟨j, h⟩
      have hm' : k ∈ m.map (·.1) := by
        rw [List.flatten_cons, List.map_append, List.mem_append] at hm
        refine hm.resolve_right fun h0 => ?_
        obtain ⟨e, he, h1⟩ := List.mem_map.1 h0
        exact hk e he h1
      obtain ⟨j', a, b, h3, h4⟩ := lastEntry_mem_iff.1 hm'
      have h5 : LastEntry (m :: ms).flatten k j' :=
        ⟨a, b ++ ms.flatten, by simp [h3], fun e he => (List.mem_append.1 he).elim (h4 e) (hk e)⟩
      have : j' = j := by
        rw [lastEntry_iff] at h h5
        rw [h] at h5
        exact (Option.some.inj h5).symm
      subst this
      exact ⟨a, b, h3, h4⟩

theorem flatten_lastEntry {k : Bytes} {j : Json} {ms : List Members} {i : Nat} (hi : i < ms.length) (h : LastEntry ms[i] k j)
    (ho : ∀ n (hn : n < ms.length), n ≠ i → ∀ e ∈ ms[n], e.1 ≠ k) : LastEntry ms.flatten k j := by
  obtain ⟨a, b, h1, h2⟩ := h
  refine ⟨(ms.take i).flatten ++ a, b ++ (ms.drop (i + 1)).flatten, ?_, ?_⟩
  · conv_lhs => rw [← List.take_append_drop i ms, List.drop_eq_getElem_cons hi, h1]
    simp
  · intro e he
    rcases List.mem_append.1 he with he | he
    · exact h2 e he
    · obtain ⟨m, hm, hem⟩ := List.mem_flatten.1 he
      obtain ⟨n, hn, rfl⟩ := List.getElem_of_mem hm
      rw [List.getElem_drop] at hem
      exact ho (i + 1 + n) (by simp at hn; omega) (by omega) e hem

/-! ### C134 -/

/-- C134, what holds (1): if every band file that was listed is still there when its turn comes, opening the vault gives what it
gives on a disk that stands still, whatever the password. That disk has each band file as it was when it was read, and
everything else as it was when the directory was listed. Missing: that this disk ever existed (`C134_refuted`); files that
go (`C134_gone`). -/
theorem C134_some_disk_partial (E : Env) (O : MapOrder) (listed : Disk) (reads : Nat → Disk) (v : Bytes) (dir names : List Bytes)
    (hv : VaultDir listed v dir) (hn : BandNames listed dir names) (hc : ∀ k, (reads k).cwd = listed.cwd)
    (hf : ∀ k (hk : k < names.length), ∃ x, (reads k).at? (dir ++ [names[k]]) = some x) :
    ∃ d : Disk, (∀ k (hk : k < names.length), d.at? (dir ++ [names[k]]) = (reads k).at? (dir ++ [names[k]])) ∧
      (∀ l, (∀ n ∈ names, l ≠ dir ++ [n]) → d.at? l = listed.at? l) ∧
      ∀ (s : Session) (p : Bytes), s.unlockDuring E O listed reads v p = s.unlock E O d v p := by
  refine ⟨patched listed reads dir names, ?_, fun l h => patched_else h,
    fun s p => Session.unlockDuring_eq E O (loadItemsDuring_patched E O hv hn hc hf) p s⟩
  intro k hk
  obtain ⟨x, hx⟩ := hf k hk
  rw [hx]
  exact patched_band (bandNames_nodup hn) k hk x hx

/-- C134, what holds (2): no item is put together from two versions. Each that is loaded is described by one entry of one band
file as it was when it was read; and what such an entry describes is loaded, if its UID is in no other file. -/
theorem C134_whole_items_partial (E : Env) (O : MapOrder) (listed : Disk) (reads : Nat → Disk) (v : Bytes) (dir names : List Bytes)
    (hv : VaultDir listed v dir) (hnames : ∀ c ∈ dir, (47 : UInt8) ∉ c) (hn : BandNames listed dir names)
    (hc : ∀ k, (reads k).cwd = listed.cwd) (ms : List Members) (hl : ms.length = names.length)
    (hf : ∀ k (hk : k < names.length), BandFile (reads k) dir names[k] ms[k])
    (raw : List RawItem) (h : Repo.loadItemsDuring E O listed reads v = .ret raw) :
    (∀ r ∈ raw, ∃ k, ∃ hk : k < names.length, Describes E ms[k] r) ∧
    (∀ k (hk : k < names.length) (r : RawItem), Describes E ms[k] r →
      (∀ n (hn : n < names.length), n ≠ k → ∀ e ∈ ms[n], e.1 ≠ r.uid) → r ∈ raw) := by
  have hf' : ∀ k (hk : k < names.length), ∃ x, (reads k).at? (dir ++ [names[k]]) = some x := by
    intro k hk
    obtain ⟨c, x, hx, -⟩ := hf k hk
    exact ⟨_, hx⟩
  have hn' : BandNames (patched listed reads dir names) dir names :=
    ⟨hn.1, fun n => by rw [hn.2, ← patched_names hn hf']⟩
  have hm : List.Forall₂ (BandFile (patched listed reads dir names) dir) names ms := by
    rw [List.forall₂_iff_get]
    refine ⟨hl.symm, fun k h1 h2 => ?_⟩
    obtain ⟨c, x, hx, ht⟩ := hf k h1
    exact ⟨c, x, patched_band (bandNames_nodup hn) k h1 _ hx, ht⟩
  rw [loadItemsDuring_patched E O hv hn hc hf'] at h
  obtain ⟨-, h2, -⟩ := C18_items_loaded E O (patched_dir hv hnames hn) hn' hm raw h
  constructor
  · intro r hr
    obtain ⟨doc, h3, h4⟩ := (h2 r).1 hr
    obtain ⟨k, hk, h5⟩ := lastEntry_flatten h3
    exact ⟨k, by omega, doc, h5, h4⟩
  · rintro k hk r ⟨doc, h3, h4⟩ ho
    exact (h2 r).2 ⟨doc, flatten_lastEntry (by omega) h3 fun n hn' => ho n (by omega), h4⟩

theorem bodiesDuring_gone {reads : Nat → Disk} {cwd dir : List Bytes} (hc : ∀ k, (reads k).cwd = cwd) {n : Bytes} {b : List Bytes} :
    ∀ {a ps : List Bytes} (i : Nat),
      List.Forall₂ (fun n p => p ≠ [] ∧ Path.resolve cwd p = dir ++ [n]) (a ++ n :: b) ps →
      (∀ j (hj : j < a.length), ∃ c x, (reads (i + j)).at? (dir ++ [a[j]]) = some (.file c x) ∧ 7 ≤ c.length) →
      (∀ c x, (reads (i + a.length)).at? (dir ++ [n]) ≠ some (.file c x)) →
      Repo.bodiesDuring reads i ps = .fatal := by
  intro a
  induction a with
  | nil =>
    intro ps i hps _ hg
    cases hps with
    | @cons _ p _ ps h1 h2 =>
      have : Repo.bandBody (reads i) p = .fatal := by
        unfold Repo.bandBody Disk.readFile Disk.stat
        rw [if_neg h1.1, hc, h1.2]
        have hg' : ∀ c x, (reads i).at? (dir ++ [n]) ≠ some (.file c x) := hg
        cases h : (reads i).at? (dir ++ [n]) with
        | none => rfl
        | some y =>
          cases y with
          | dir => rfl
          | file c x => exact absurd h (hg' c x)
      simp only [Repo.bodiesDuring, this, Out.fatal_bind]
  | cons m a ih =>
    intro ps i hps ha hg
    cases hps with
    | @cons _ p _ ps h1 h2 =>
      obtain ⟨c, x, hx, hl⟩ := ha 0 (by simp)
      have hx' : (reads i).at? (dir ++ [m]) = some (.file c x) := hx
      have hb : ∃ body, Repo.bandBody (reads i) p = .ret body := by
        unfold Repo.bandBody Disk.readFile Disk.stat
        rw [if_neg h1.1, hc, h1.2, hx']
        simp only [subBytes]
        rw [if_pos ⟨by omega, by omega, by omega⟩]
        exact ⟨_, rfl⟩
      obtain ⟨body, hb⟩ := hb
      have h3 := ih (i + 1) h2
        (fun j hj => by
          have := ha (j + 1) (by simpa using hj)
          simpa [Nat.add_assoc, Nat.add_comm 1 j] using this)
        (by simpa [Nat.add_assoc, Nat.add_comm 1 a.length] using hg)
      simp only [Repo.bodiesDuring, hb, Out.ret_bind, h3, Out.fatal_bind]

/-- C134, a file that goes: if a band file has been listed and is no file any more when its turn comes, the program ends with a
message (`log.Fatalln`) as soon as the password is right; nothing is shown. -/
theorem C134_gone (E : Env) (O : MapOrder) (listed : Disk) (reads : Nat → Disk) (v : Bytes) (dir a b : List Bytes) (n : Bytes)
    (hv : VaultDir listed v dir) (hn : BandNames listed dir (a ++ n :: b)) (hc : ∀ k, (reads k).cwd = listed.cwd)
    (ha : ∀ j (hj : j < a.length), ∃ c x, (reads j).at? (dir ++ [a[j]]) = some (.file c x) ∧ 7 ≤ c.length)
    (hg : ∀ c x, (reads a.length).at? (dir ++ [n]) ≠ some (.file c x)) :
    Repo.loadItemsDuring E O listed reads v = .fatal ∧
    ∀ (s : Session) (p : Bytes) (d : Disk) (s' : Session), s.unlock E O d v p = .ret (.ok (), s') →
      s.unlockDuring E O listed reads v p = .fatal := by
  have hl : Repo.loadItemsDuring E O listed reads v = .fatal := by
    obtain ⟨paths, hp, hpf⟩ := bandFiles_eq hv hn
    have hb := bodiesDuring_gone hc 0 hpf (by simpa using ha) (by simpa using hg)
    unfold Repo.loadItemsDuring
    rw [hp]
    cases paths with
    | nil =>
      have := hpf.length_eq
      simp at this
    | cons p ps => simp only [hb]; rfl
  refine ⟨hl, fun s p d s' h => ?_⟩
  unfold Session.unlock at h
  unfold Session.unlockDuring
  simp only [Out.bind_eq_ret] at h
  obtain ⟨r1, h1, h⟩ := h
  rw [h1]
  cases r1 with
  | error e => simp at h
  | ok k1 =>
    simp only [Out.bind_eq_ret] at h
    obtain ⟨r2, h2, h⟩ := h
    simp only [Out.ret_bind]
    rw [h2]
    cases r2 with
    | error e => simp at h
    | ok k2 =>
      simp only [Out.bind_eq_ret] at h
      obtain ⟨r3, h3, h⟩ := h
      simp only [Out.ret_bind]
      rw [h3]
      cases r3 with
      | error e => simp at h
      | ok k3 =>
        simp only [Out.ret_bind]
        rw [hl]
        rfl

/-- C134, what holds (3): if all that happens meanwhile is that one file of the vault is replaced, what is opened is the vault
before that or the vault after it. -/
theorem C134_one_change_partial (E : Env) (O : MapOrder) (before after listed : Disk) (reads : Nat → Disk) (v : Bytes)
    (dir : List Bytes) (f : Bytes) (hv : VaultDir before v dir) (hv' : VaultDir after v dir) (hc : after.cwd = before.cwd)
    (hsame : ∀ l, l ≠ dir ++ [f] → after.at? l = before.at? l)
    (hex : before.at? (dir ++ [f]) ≠ none ∧ after.at? (dir ++ [f]) ≠ none)
    (hl : listed = before ∨ listed = after) (hr : ∀ k, reads k = before ∨ reads k = after) :
    (∀ (s : Session) (p : Bytes), s.unlockDuring E O listed reads v p = s.unlock E O before v p) ∨
    (∀ (s : Session) (p : Bytes), s.unlockDuring E O listed reads v p = s.unlock E O after v p) := by
  have hvl : VaultDir listed v dir := by rcases hl with rfl | rfl <;> assumption
  have hcl : listed.cwd = before.cwd := by rcases hl with rfl | rfl <;> simp [hc]
  have hcr : ∀ k, (reads k).cwd = listed.cwd := by
    intro k; rw [hcl]; rcases hr k with h | h <;> rw [h]; exact hc
  have agree : ∀ d, d = before ∨ d = after → ∀ l, l ≠ dir ++ [f] → d.at? l = before.at? l := by
    rintro d (rfl | rfl) l h
    · rfl
    · exact hsame l h
  have exist : ∀ d, d = before ∨ d = after → ∀ l, d.at? l ≠ none ↔ before.at? l ≠ none := by
    intro d hd l
    by_cases h : l = dir ++ [f]
    · subst h
      rcases hd with rfl | rfl
      · rfl
      · exact iff_of_true hex.2 hex.1
    · rw [agree d hd l h]
  classical
  generalize hN : (listed.dirNames dir).filter (fun n => decide (Path.IsBand n)) = names
  have hn : BandNames listed dir names := by
    subst hN
    exact ⟨(dirNames_sorted listed _).filter _, fun n => by rw [List.mem_filter, mem_dirNames, decide_eq_true_iff, and_comm]⟩
  have hf : ∀ k (hk : k < names.length), ∃ x, (reads k).at? (dir ++ [names[k]]) = some x := by
    intro k hk
    have h1 := ((hn.2 names[k]).1 (List.getElem_mem hk)).2
    rw [exist listed hl, ← exist (reads k) (hr k)] at h1
    exact Option.ne_none_iff_exists'.1 h1
  have key : ∃ d, (d = before ∨ d = after) ∧ ∀ l, dir <+: l → (patched listed reads dir names).at? l = d.at? l := by
    by_cases hm : f ∈ names
    · obtain ⟨k0, hk0, hf0⟩ := List.getElem_of_mem hm
      refine ⟨reads k0, hr k0, fun l _ => ?_⟩
      by_cases h : ∀ n ∈ names, l ≠ dir ++ [n]
      · rw [patched_else h]
        have hlf := h f hm
        rw [agree _ hl l hlf, agree _ (hr k0) l hlf]
      · push Not at h
        obtain ⟨n, hmem, rfl⟩ := h
        obtain ⟨k, hk, rfl⟩ := List.getElem_of_mem hmem
        obtain ⟨x, hx⟩ := hf k hk
        rw [patched_band (bandNames_nodup hn) k hk x hx, ← hx]
        by_cases hkf : names[k] = f
        · have : k = k0 := (bandNames_nodup hn).getElem_inj_iff.1 (hkf.trans hf0.symm)
          subst this
          rfl
        · have hlf : dir ++ [names[k]] ≠ dir ++ [f] := by simpa using hkf
          rw [agree _ (hr k) _ hlf, agree _ (hr k0) _ hlf]
    · refine ⟨listed, hl, fun l _ => ?_⟩
      by_cases h : ∀ n ∈ names, l ≠ dir ++ [n]
      · exact patched_else h
      · push Not at h
        obtain ⟨n, hmem, rfl⟩ := h
        obtain ⟨k, hk, rfl⟩ := List.getElem_of_mem hmem
        obtain ⟨x, hx⟩ := hf k hk
        have hlf : dir ++ [names[k]] ≠ dir ++ [f] := by
          intro h0
          exact hm (by simpa using (by simpa using h0 : names[k] = f) ▸ hmem)
        rw [patched_band (bandNames_nodup hn) k hk x hx, ← hx, agree _ (hr k) _ hlf, agree _ hl _ hlf]
  obtain ⟨d, hd, hat⟩ := key
  have hvd : VaultDir d v dir := by rcases hd with rfl | rfl <;> assumption
  have hload : Repo.loadItemsDuring E O listed reads v = Repo.loadItems E O d v := by
    rw [loadItemsDuring_patched E O hvl hn hcr hf]
    refine loadItems_congr E O hvd.nonempty hvd.noMeta hvd.names ?_ fun l h => hat l (by rw [hvd.dir_eq]; exact h)
    rw [patched_cwd, hcl]
    rcases hd with rfl | rfl <;> simp [hc]
  rcases hd with rfl | rfl
  · exact .inl fun s p => Session.unlockDuring_eq E O hload p s
  · exact .inr fun s p => Session.unlockDuring_eq E O hload p s

theorem profile_loc (cwd : List Bytes) {v : Bytes} (hv : v ≠ []) :
    Path.resolve cwd (profilePath v) = Path.resolve cwd v ++ [b!"default"] ++ [b!"profile.js"] := by
  have h : Path.resolve cwd (profilePath v) = Path.resolve cwd v ++ [profileDir, profileFile] :=
    Path.resolve_join cwd hv (by simp) (by decide +kernel)
  rw [h, List.append_assoc]
  rfl

theorem profilePath_ne {v : Bytes} (hv : v ≠ []) : profilePath v ≠ [] := by
  intro h
  have h1 := profile_loc [] hv
  rw [h] at h1
  have := congrArg List.length h1
  simp [show Path.resolve [] [] = [] from rfl] at this

theorem loadItems_profile (E : Env) (O : MapOrder) {d : Disk} {v : Bytes} {dir : List Bytes} (hv : VaultDir d v dir)
    (hnames : ∀ c ∈ dir, (47 : UInt8) ∉ c) (x : Node) :
    Repo.loadItems E O { d with fs := (dir ++ [b!"profile.js"], x) :: d.fs } v = Repo.loadItems E O d v := by
  have hat : ∀ l, l ≠ dir ++ [b!"profile.js"] →
      ({ d with fs := (dir ++ [b!"profile.js"], x) :: d.fs } : Disk).at? l = d.at? l := by
    intro l hl
    unfold Disk.at?
    rw [List.find?_cons_of_neg]
    simpa using fun h => hl h.symm
  have hv' : VaultDir { d with fs := (dir ++ [b!"profile.js"], x) :: d.fs } v dir :=
    { nonempty := hv.nonempty
      noMeta := hv.noMeta
      names := by
        intro e he c hc
        rcases List.mem_cons.1 he with rfl | he
        · rcases List.mem_append.1 hc with hc | hc
          · exact hnames c hc
          · have hc' : c = b!"profile.js" := by simpa using hc
            subst hc'
            decide
        · exact hv.names e he c hc
      dir_eq := hv.dir_eq
      exist := by
        rw [hat]
        · exact hv.exist
        · intro h
          have := congrArg List.length h
          simp at this }
  refine loadItems_profileless E O hv hv' fun n hn => hat _ fun h => ?_
  have : n = b!"profile.js" := by simpa using h
  subst this
  obtain ⟨m, hm⟩ := hn
  exact absurd (congrArg (fun l => l.take 1) hm) (by simp)

/-- C134, what holds (4), for all of it: looking for the vault, reading its profile, listing the directory and reading the bands, each
at a moment of its own. If what was found is still there when its turn comes, the process ends up with what it ends up with
on a disk that stands still – with the profile and each band as they were when they were read. -/
theorem C134_opening_partial (E : Env) (O : MapOrder) (d1 d2 d3 listed : Disk) (reads : Nat → Disk) (v : Bytes) (dir names : List Bytes)
    (hv : VaultDir listed v dir) (hnames : ∀ c ∈ dir, (47 : UInt8) ∉ c) (hn : BandNames listed dir names)
    (hc3 : d3.cwd = listed.cwd) (hc : ∀ k, (reads k).cwd = listed.cwd)
    (h1 : d1.stat v = some .dir) (h1' : listed.stat v = some .dir)
    (c2 : Bytes) (x2 : Bool) (h2 : d2.stat (profilePath v) = some (.file c2 x2))
    (c3 : Bytes) (x3 : Bool) (h3 : d3.at? (dir ++ [b!"profile.js"]) = some (.file c3 x3))
    (hf : ∀ k (hk : k < names.length), ∃ x, (reads k).at? (dir ++ [names[k]]) = some x) :
    ∃ d : Disk, d.at? (dir ++ [b!"profile.js"]) = d3.at? (dir ++ [b!"profile.js"]) ∧
      (∀ k (hk : k < names.length), d.at? (dir ++ [names[k]]) = (reads k).at? (dir ++ [names[k]])) ∧
      (∀ l, l ≠ dir ++ [b!"profile.js"] → (∀ n ∈ names, l ≠ dir ++ [n]) → d.at? l = listed.at? l) ∧
      (∀ s : Session, s.validateDuring d1 d2 d3 v = s.validate d v) ∧
      ∀ (s : Session) (p : Bytes), s.unlockDuring E O listed reads v p = s.unlock E O d v p := by
  have hb : ∀ n, Path.IsBand n → dir ++ [n] ≠ dir ++ [b!"profile.js"] := by
    intro n hn h
    have : n = b!"profile.js" := by simpa using h
    subst this
    obtain ⟨m, hm⟩ := hn
    exact absurd (congrArg (fun l => l.take 1) hm) (by simp)
  have hat : ∀ l, l ≠ dir ++ [b!"profile.js"] →
      ({ patched listed reads dir names with
        fs := (dir ++ [b!"profile.js"], .file c3 x3) :: (patched listed reads dir names).fs } : Disk).at? l =
          (patched listed reads dir names).at? l := by
    intro l hl
    unfold Disk.at?
    rw [List.find?_cons_of_neg]
    simpa using fun h => hl h.symm
  have hpr : ({ patched listed reads dir names with
        fs := (dir ++ [b!"profile.js"], .file c3 x3) :: (patched listed reads dir names).fs } : Disk).at? (dir ++ [b!"profile.js"]) =
      some (.file c3 x3) := by simp [Disk.at?]
  refine ⟨{ patched listed reads dir names with
    fs := (dir ++ [b!"profile.js"], .file c3 x3) :: (patched listed reads dir names).fs }, hpr.trans h3.symm, ?_, ?_, ?_, ?_⟩
  · intro k hk
    rw [hat _ (hb _ ((hn.2 _).1 (List.getElem_mem hk)).1)]
    obtain ⟨x, hx⟩ := hf k hk
    rw [hx]
    exact patched_band (bandNames_nodup hn) k hk x hx
  · intro l hl hl'
    rw [hat l hl]
    exact patched_else hl'
  · intro s
    generalize hD : ({ patched listed reads dir names with
      fs := (dir ++ [b!"profile.js"], .file c3 x3) :: (patched listed reads dir names).fs } : Disk) = D at hat hpr
    have hcwd : D.cwd = listed.cwd := by rw [← hD]; rfl
    have e1 : D.stat v = some .dir := by
      unfold Disk.stat at h1' ⊢
      rw [if_neg hv.nonempty] at h1' ⊢
      rw [hcwd]
      have hne : ∀ n, Path.resolve listed.cwd v ≠ dir ++ [n] := by
        intro n h
        rw [hv.dir_eq] at h
        have := congrArg List.length h
        simp at this
      rw [hat _ (hne _), patched_else fun n _ => hne n]
      exact h1'
    have hloc : ∀ E : Disk, E.cwd = listed.cwd → E.stat (profilePath v) = E.at? (dir ++ [b!"profile.js"]) := by
      intro E hE
      unfold Disk.stat
      rw [if_neg (profilePath_ne hv.nonempty), hE, profile_loc _ hv.nonempty, ← hv.dir_eq]
    have e2 : D.stat (profilePath v) = some (.file c3 x3) := (hloc D hcwd).trans hpr
    have e3 : d3.stat (profilePath v) = some (.file c3 x3) := (hloc d3 hc3).trans h3
    have e4 : Repo.loadProfile d3 v s.profile = Repo.loadProfile D v s.profile := by
      unfold Repo.loadProfile Disk.readFile
      rw [e2, e3]
    unfold Session.validateDuring Session.validate Repo.validateDuring Repo.validateVault
    rw [h1, h2, e1, e2, e4]
  · intro s p
    refine Session.unlockDuring_eq E O ?_ p s
    rw [loadItemsDuring_patched E O hv hn hc hf]
    exact (loadItems_profile E O (patched_dir hv hnames hn) hnames _).symm

/-- C134, a profile that goes: a vault whose profile has been found and cannot be read when its turn comes ends the program with
a message. -/
theorem C134_profile_gone (d1 d2 d3 : Disk) (v : Bytes) (s : Session) (hs : s.profile = none) (h1 : d1.stat v = some .dir)
    (c : Bytes) (x : Bool) (h2 : d2.stat (profilePath v) = some (.file c x)) (h3 : d3.readFile (profilePath v) = none) :
    s.validateDuring d1 d2 d3 v = .fatal := by
  simp [Session.validateDuring, Repo.validateDuring, h1, h2, Repo.loadProfile, hs, h3]

/-! ### A vault of two bands that is brought up to date -/

namespace Demo

/-- A band file with one item. -/
def version (uid updated : Bytes) : Bytes :=
  b!"ld({\"" ++ uid ++ b!"\":{\"category\":\"001\",\"created\":5,\"updated\":" ++ updated ++ b!",\"hmac\":\"\",\"d\":\"" ++
  B64.encode (List.replicate 33 255) ++ b!"\",\"o\":\"" ++ B64.encode (List.replicate 33 255) ++ b!"\",\"k\":\"" ++
  B64.encode (List.replicate 112 0) ++ b!"\"}});"

/-- The vault /a with an item in `band_0.js` and an item in `band_1.js`. -/
def bands (x y : Bytes) : Disk :=
  { disk with fs := ([b!"a", b!"default", b!"band_0.js"], .file (version b!"A0" x) false) ::
      ([b!"a", b!"default", b!"band_1.js"], .file (version b!"B1" y) false) :: disk.fs }

/-- When the items of the opened vault were changed. -/
def changed (r : Out (Except Err Unit × Session)) : Option (List (Bytes × Int)) :=
  match r with
  | .ret (.ok (), s) => s.items.map fun l => l.map fun i => (i.uid, i.updated)
  | _ => none

/-- A process that has looked at the vault and not yet opened it. -/
def ready : Session := { Session.init with profile := some (members pa) }

end Demo

/-- C134 is false of the code: first one item of a vault is changed, then another; every file is replaced as a whole. Whoever
opens the vault meanwhile can see the second change without the first, a state in which the vault never was. -/
theorem C134_refuted : ∃ (listed : Disk) (reads : Nat → Disk) (history : List Disk) (t : Nat → Nat),
    history[0]? = some listed ∧ (∀ i, history[t i]? = some (reads i)) ∧ Monotone t ∧
    ∀ d ∈ history, Demo.ready.unlockDuring Env.toy .doc listed reads b!"/a" Demo.pa ≠ Demo.ready.unlock Env.toy .doc d b!"/a" Demo.pa := by
  have h1 : Demo.changed (Demo.ready.unlockDuring Env.toy .doc (Demo.bands b!"6" b!"6")
      (fun i => if i = 0 then Demo.bands b!"6" b!"6" else Demo.bands b!"7" b!"8") b!"/a" Demo.pa) =
        some [(b!"A0", 6), (b!"B1", 8)] := by decide +kernel
  have h2 : [Demo.bands b!"6" b!"6", Demo.bands b!"7" b!"6", Demo.bands b!"7" b!"8"].map
      (fun d => Demo.changed (Demo.ready.unlock Env.toy .doc d b!"/a" Demo.pa)) =
        [some [(b!"A0", 6), (b!"B1", 6)], some [(b!"A0", 7), (b!"B1", 6)], some [(b!"A0", 7), (b!"B1", 8)]] := by decide +kernel
  refine ⟨Demo.bands b!"6" b!"6", fun i => if i = 0 then Demo.bands b!"6" b!"6" else Demo.bands b!"7" b!"8",
    [Demo.bands b!"6" b!"6", Demo.bands b!"7" b!"6", Demo.bands b!"7" b!"8"], fun i => if i = 0 then 0 else 2, rfl, ?_, ?_, ?_⟩
  · intro i
    cases i <;> rfl
  · intro i j h
    cases i with
    | zero => simp
    | succ i => cases j with
      | zero => omega
      | succ j => simp
  · intro d hd he
    rw [he] at h1
    have h3 := List.mem_map_of_mem (f := fun d => Demo.changed (Demo.ready.unlock Env.toy .doc d b!"/a" Demo.pa)) hd
    rw [h2] at h3
    simp only [h1] at h3
    exact absurd h3 (by decide)

theorem Demo.bands_dir (x y : Bytes) : VaultDir (Demo.bands x y) b!"/a" [b!"a", b!"default"] where
  nonempty := by decide
  noMeta := by decide +kernel
  names := by
    intro e he
    simp only [Demo.bands, Demo.disk, List.mem_cons, List.not_mem_nil, or_false] at he
    rcases he with rfl | rfl | rfl | rfl | rfl | rfl | rfl | rfl <;> (dsimp only; decide)
  dir_eq := by show _ = Path.resolve [] _ ++ _; decide +kernel
  exist := rfl

/-- C134, one change: whoever opens the vault while `band_1.js` is replaced has the old items or the new ones. -/
example (reads : Nat → Disk) (hr : ∀ k, reads k = Demo.bands b!"6" b!"6" ∨ reads k = Demo.bands b!"6" b!"7") :
    (∀ (s : Session) (p : Bytes), s.unlockDuring Env.toy .doc (Demo.bands b!"6" b!"6") reads b!"/a" p =
      s.unlock Env.toy .doc (Demo.bands b!"6" b!"6") b!"/a" p) ∨
    (∀ (s : Session) (p : Bytes), s.unlockDuring Env.toy .doc (Demo.bands b!"6" b!"6") reads b!"/a" p =
      s.unlock Env.toy .doc (Demo.bands b!"6" b!"7") b!"/a" p) := by
  refine C134_one_change_partial Env.toy .doc (Demo.bands b!"6" b!"6") (Demo.bands b!"6" b!"7") _ reads b!"/a"
    [b!"a", b!"default"] b!"band_1.js" (Demo.bands_dir _ _) (Demo.bands_dir _ _) rfl (fun l hl => ?_) ⟨by decide, by decide⟩ (.inl rfl) hr
  have : ∀ y : Bytes, (Demo.bands b!"6" y).at? l = (({ cwd := [], fs := ([b!"a", b!"default", b!"band_0.js"],
      .file (Demo.version b!"A0" b!"6") false) :: Demo.disk.fs } : Disk)).at? l := by
    intro y
    have hb : (([b!"a", b!"default", b!"band_1.js"] : List Bytes) == l) = false := by
      rw [beq_eq_false_iff_ne]; exact fun h => hl h.symm
    simp only [Demo.bands, Disk.at?, List.find?_cons, hb]
  rw [this, this]

/-- C134, a file that goes: `band_1.js` has been listed and is removed before it is read. -/
example : Demo.ready.unlockDuring Env.toy .doc (Demo.bands b!"6" b!"6")
    (fun i => if i = 0 then Demo.bands b!"6" b!"6" else Demo.disk) b!"/a" Demo.pa = .fatal := by
  have h : (match Demo.ready.unlockDuring Env.toy .doc (Demo.bands b!"6" b!"6")
      (fun i => if i = 0 then Demo.bands b!"6" b!"6" else Demo.disk) b!"/a" Demo.pa with
    | .fatal => true
    | _ => false) = true := by decide +kernel
  revert h
  cases Demo.ready.unlockDuring Env.toy .doc (Demo.bands b!"6" b!"6")
      (fun i => if i = 0 then Demo.bands b!"6" b!"6" else Demo.disk) b!"/a" Demo.pa <;> simp

/-- C134, a profile that goes: the vault is removed between the two looks at its profile. -/
example : Session.init.validateDuring Demo.disk Demo.disk { Demo.disk with fs := [] } b!"/a" = .fatal :=
  C134_profile_gone _ _ _ _ _ rfl (by decide +kernel) (Demo.profileText Demo.pa) false (by decide +kernel) (by decide +kernel)

end OnePass
