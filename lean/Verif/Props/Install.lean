/-
Installing an update: C48, C49, C50, C51, C54, C55.
-/
import Verif.Props.Release
import Verif.Model.SimFacts

set_option linter.unusedSimpArgs false

namespace OnePass
namespace Upd
open Prog Spec

/-- What is on offer at a moment: the release the server publishes is newer, and this is what is known of it. -/
def OfferedAs (S : Sys) (w : World) (i : UpdateInfo) : Prop :=
  ∃ body r, S.answer w.tick githubReleases = .body body true ∧ Publishes body r ∧ NewerTag r.tag ∧ Describes r i

/-- The archive a release points to has an entry that is unpacked to the location. -/
def Brings (S : Sys) (X : Ext) (i : UpdateInfo) (l : List Bytes) : Prop :=
  ∃ n a e, S.answer n i.archiveUrl = .body a true ∧ e ∈ (X.untar a).1 ∧ e.reg = true ∧ target e.name = l

/-- The bytes are the program of the release: from the archive, which arrived completely and is sound, the last entry that
is unpacked as `1pass`, complete; and its MD5 is the first word of the checksum file, which arrived completely. -/
def Genuine (S : Sys) (X : Ext) (i : UpdateInfo) (data : Bytes) : Prop :=
  ∃ n archive m sums before entry after, S.answer n i.archiveUrl = .body archive true ∧
    S.answer m i.checksumUrl = .body sums true ∧ X.untar archive = (before ++ entry :: after, true) ∧
    entry.reg = true ∧ target entry.name = binaryLoc ∧ entry.whole = true ∧ entry.data = data ∧
    (∀ e ∈ after, e.reg = true → target e.name ≠ binaryLoc) ∧
    FirstWord sums (hexText (X.md5 data))

theorem hits_last {es : List TarEntry} {l : List Bytes} {e : TarEntry} (h : (hits es l).getLast? = some e) :
    ∃ before after, es = before ++ e :: after ∧ e.reg = true ∧ target e.name = l ∧
      ∀ e' ∈ after, e'.reg = true → target e'.name ≠ l := by
  induction es with
  | nil => cases h
  | cons x es ih =>
    unfold hits at h ih
    by_cases hx : (x.reg && decide (target x.name = l)) = true
    · rw [List.filter_cons_of_pos (by exact hx)] at h
      cases hc : es.filter (fun e => e.reg && decide (target e.name = l)) with
      | nil =>
        rw [hc] at h
        cases h
        simp only [Bool.and_eq_true, decide_eq_true_eq] at hx
        refine ⟨[], es, rfl, hx.1, hx.2, fun e' he' hr ht => ?_⟩
        have : e' ∈ es.filter (fun e => e.reg && decide (target e.name = l)) := by
          rw [List.mem_filter]; exact ⟨he', by simp [hr, ht]⟩
        rw [hc] at this; cases this
      | cons a b =>
        rw [hc, List.getLast?_cons_cons] at h
        rw [hc] at ih
        obtain ⟨be, af, h1, h2⟩ := ih h
        exact ⟨x :: be, af, by rw [h1]; rfl, h2⟩
    · rw [List.filter_cons_of_neg (by exact hx)] at h
      obtain ⟨be, af, h1, h2⟩ := ih h
      exact ⟨x :: be, af, by rw [h1]; rfl, h2⟩

/-- Without an own checksum file in the archive, verified means verified against the one received. -/
theorem verified_genuine {S : Sys} {X : Ext} {i : UpdateInfo} {data : Bytes} (h : Verified S X i data)
    (hb : ¬ Brings S X i checksumLoc) : Genuine S X i data := by
  obtain ⟨n, archive, m, sums, entry, rest, h1, h2, h3, h4, h5, h6, h7⟩ := h
  obtain ⟨be, af, k1, k2, k3, k4⟩ := hits_last h4
  have hno : hits (X.untar archive).1 checksumLoc = [] := by
    cases hc : hits (X.untar archive).1 checksumLoc with
    | nil => rfl
    | cons e r =>
      have : e ∈ hits (X.untar archive).1 checksumLoc := by rw [hc]; simp
      unfold hits at this
      rw [List.mem_filter] at this
      simp only [Bool.and_eq_true, decide_eq_true_eq] at this
      exact absurd ⟨n, archive, e, h1, this.1, this.2.1, this.2.2⟩ hb
  rw [hno] at h7
  refine ⟨n, archive, m, sums, be, entry, af, h1, h2, ?_, k2, k3, h6, h5, k4, ?_⟩
  · rw [← k1, ← h3]
  · refine (fields_iff sums _).1 ?_
    rw [← hex_eq]
    simp only [List.getLast?_nil, Option.map_none, Option.getD_none] at h7
    rw [h7]; rfl

/-- Either nothing newer is on offer and the update does nothing, or it is the installation of what is on offer. -/
theorem update_cases (S : Sys) (X : Ext) (t : Int) (cb : Nat → Ev) (w : World) :
    ((update S X t cb w).2.disk = w.disk ∧ (update S X t cb w).2.log = w.log ++ [.request githubReleases t] ∧
      ∀ a, (update S X t cb w).1 ≠ .ret (.ok a)) ∨
    ∃ i, OfferedAs S w i ∧ update S X t cb w =
      install S X t cb i { w with tick := w.tick + 1, log := w.log ++ [.request githubReleases t] } := by
  by_cases h : Offered S w
  swap; · exact .inl (C47_touches_nothing S X t cb w h)
  obtain ⟨body, r, h1, h2, h3⟩ := h
  rcases releaseInfo_published body r h2 with ⟨i, h4, h5, -⟩ | ⟨h4, -⟩
  · refine .inr ⟨i, ⟨body, r, h1, h2, h3, h5⟩, ?_⟩
    unfold update
    rw [andThen_run, fetchInfo_run, h1]
    simp only [answered, h4, h5.newer.2 h3, if_true]
  · refine .inl ?_
    unfold update
    rw [andThen_run, fetchInfo_run, h1]
    simp only [answered, h4]
    simp

/-- The place of the program is apart from the cache and from the way to it. -/
def Apart (loc : List Bytes) : Prop := ¬ cacheLoc <+: loc ∧ ¬ loc <+: cacheLoc

/-- The program at a location is still the one of before, or the complete program of the release on offer. -/
def OldOrNew (S : Sys) (X : Ext) (w : World) (loc : List Bytes) (d : Disk) : Prop :=
  d.at? loc = w.disk.at? loc ∨ ∃ i data, OfferedAs S w i ∧ Genuine S X i data ∧ d.at? loc = some (.file data false)

theorem update_program (S : Sys) (X : Ext) (t : Int) (w : World) (e : Bytes) (he : S.exe = some e)
    (ha : Apart (Path.resolve w.disk.cwd e))
    (hb : ∀ i, OfferedAs S w i → ¬ Brings S X i (Path.resolve w.disk.cwd e) ∧ ¬ Brings S X i checksumLoc) :
    (∃ es, (update S X t .stage w).2.log = w.log ++ es ∧ ∀ d ∈ disks es, OldOrNew S X w (Path.resolve w.disk.cwd e) d) ∧
    OldOrNew S X w (Path.resolve w.disk.cwd e) (update S X t .stage w).2.disk ∧
    ((update S X t .stage w).1 = .ret (.ok ()) → ∃ i data, OfferedAs S w i ∧ Genuine S X i data ∧
      (update S X t .stage w).2.disk.at? (Path.resolve w.disk.cwd e) = some (.file data false)) := by
  rcases update_cases S X t .stage w with ⟨h1, h2, h3⟩ | ⟨i, hi, h1⟩
  · rw [h1, h2]
    exact ⟨⟨_, rfl, by simp [disks]⟩, .inl rfl, fun h => absurd h (h3 ())⟩
  · rw [h1]
    generalize hv : ({ w with tick := w.tick + 1, log := w.log ++ [.request githubReleases t] } : World) = v
    have hvd : v.disk = w.disk := by rw [← hv]
    have hvl : v.log = w.log ++ [.request githubReleases t] := by rw [← hv]
    obtain ⟨hb1, hb2⟩ := hb i hi
    generalize hloc : Path.resolve w.disk.cwd e = loc at *
    have hnt : ¬ Touched S X i loc := by
      rintro (h | h | h)
      · exact ha.1 h
      · exact ha.2 h
      · exact hb1 h
    have old : ∀ {v' : World} {k : Nat}, Upto S X i k v v' → v'.disk.at? loc = w.disk.at? loc ∧
        ∃ es, v'.log = w.log ++ es ∧ ∀ d ∈ disks es, d.at? loc = w.disk.at? loc := by
      intro v' k h
      obtain ⟨-, k2, es, k3, k4⟩ := h.1 rfl
      rw [hvd] at k2
      refine ⟨k2 loc hnt, .request githubReleases t :: es, by rw [k3, hvl, List.append_assoc]; rfl, ?_⟩
      intro d hd
      have hd' : d ∈ disks es := hd
      have := k4 _ (mem_disks.1 hd')
      exact (this.2 loc hnt).trans (by rw [hvd])
    rcases install_trace S X t i v with ⟨k, -, -, h4, h5⟩ | ⟨e', data, w1, w2, h⟩
    · obtain ⟨o1, es, o2, o3⟩ := old h4
      exact ⟨⟨es, o2, fun d hd => .inl (o3 d hd)⟩, .inl o1, fun h0 => absurd h0 (h5 ())⟩
    · have hee : e' = e := by have := h.exe; rw [he] at this; exact (Option.some.inj this).symm
      subst hee
      have hgen := verified_genuine h.verified hb2
      obtain ⟨o1, es, o2, o3⟩ := old h.before
      have hloc' : Path.resolve v.disk.cwd e' = loc := by rw [hvd]; exact hloc
      have hnew : w2.disk.at? loc = some (.file data false) := by
        rw [h.disk, hloc', Disk.at?_put, if_pos rfl]
      have hcw : w2.disk.cwd = v.disk.cwd := by
        rw [h.disk]
        exact h.before.cwd
      obtain ⟨-, a2, fs, a3, a4⟩ := h.after hcw
      have hfin : (install S X t .stage i v).2.disk.at? loc = some (.file data false) := (a2 loc ha.1).trans hnew
      refine ⟨⟨es ++ ([.disk w2.disk, .stage 7] ++ fs), ?_, ?_⟩, .inr ⟨i, data, hi, hgen, hfin⟩, fun _ => ⟨i, data, hi, hgen, hfin⟩⟩
      · rw [a3, h.log, o2]; simp [List.append_assoc]
      · intro d hd
        rw [disks_append, disks_append, List.mem_append, List.mem_append] at hd
        rcases hd with hd | hd | hd
        · exact .inl (o3 d hd)
        · have : d = w2.disk := by simpa [disks] using hd
          subst this
          exact .inr ⟨i, data, hi, hgen, hnew⟩
        · have := a4 _ (mem_disks.1 hd)
          exact .inr ⟨i, data, hi, hgen, (this.2 loc ha.1).trans hnew⟩

/-- C48, as far as it holds: after an update, successful or not, the program is the old one or the one of the release on
offer, checked against the checksum received; after a successful one it is the latter. Missing: archives that bring their
own `checksum.md5`, or an entry for the place of the program itself (`C48_refuted`, `C49_refuted`), and programs
installed in the cache directory. -/
theorem C48_verified_partial (S : Sys) (X : Ext) (t : Int) (cb : Nat → Ev) (hcb : ∀ n d, cb n ≠ .disk d) (w : World)
    (e : Bytes) (he : S.exe = some e) (ha : Apart (Path.resolve w.disk.cwd e))
    (hb : ∀ i, OfferedAs S w i → ¬ Brings S X i (Path.resolve w.disk.cwd e) ∧ ¬ Brings S X i checksumLoc) :
    OldOrNew S X w (Path.resolve w.disk.cwd e) (update S X t cb w).2.disk ∧
    ((update S X t cb w).1 = .ret (.ok ()) → ∃ i data, OfferedAs S w i ∧ Genuine S X i data ∧
      (update S X t cb w).2.disk.at? (Path.resolve w.disk.cwd e) = some (.file data false)) := by
  obtain ⟨s1, s2, -⟩ := update_any S X t cb hcb w
  rw [s1, s2]
  exact (update_program S X t w e he ha hb).2

/-- C49, as far as it holds: at every moment of an update the program is the old one or the complete checked new one.
The same is missing as in `C48_verified_partial`. -/
theorem C49_crash_partial (S : Sys) (X : Ext) (t : Int) (cb : Nat → Ev) (hcb : ∀ n d, cb n ≠ .disk d) (w : World)
    (e : Bytes) (he : S.exe = some e) (ha : Apart (Path.resolve w.disk.cwd e))
    (hb : ∀ i, OfferedAs S w i → ¬ Brings S X i (Path.resolve w.disk.cwd e) ∧ ¬ Brings S X i checksumLoc) :
    ∃ es, (update S X t cb w).2.log = w.log ++ es ∧ ∀ d, .disk d ∈ es → OldOrNew S X w (Path.resolve w.disk.cwd e) d := by
  obtain ⟨⟨es, h1, h2⟩, -⟩ := update_program S X t w e he ha hb
  obtain ⟨fs, h3, -⟩ := coh_update S X t cb hcb w
  obtain ⟨-, -, s3⟩ := update_any S X t cb hcb w
  rw [h1, h3, disks_append, disks_append] at s3
  have := List.append_cancel_left s3
  exact ⟨fs, h3, fun d hd => h2 d (by rw [← this]; exact mem_disks.2 hd)⟩

/-- Without knowing where the program is, an update replaces nothing outside the cache and what the archive brings. -/
theorem C49_unknown_program (S : Sys) (X : Ext) (t : Int) (w : World) (he : S.exe = none)
    (l : List Bytes) (ha : Apart l) (hb : ∀ i, OfferedAs S w i → ¬ Brings S X i l) :
    (update S X t .stage w).2.disk.at? l = w.disk.at? l ∧ ∀ a, (update S X t .stage w).1 ≠ .ret (.ok a) := by
  rcases update_cases S X t .stage w with ⟨h1, h2, h3⟩ | ⟨i, hi, h1⟩
  · rw [h1]; exact ⟨rfl, h3⟩
  · rw [h1]
    rcases install_trace S X t i _ with ⟨k, -, -, h4, h5⟩ | ⟨e', data, w1, w2, h⟩
    · refine ⟨(h4.1 rfl).2.1 l ?_, h5⟩
      rintro (h | h | h)
      · exact ha.1 h
      · exact ha.2 h
      · exact hb i hi h
    · have := h.exe; rw [he] at this; cases this

/-! ### C50 -/

/-- The program was replaced: some state of the disk has a file at its place that a rename from the cache put there. -/
def ReplacedBetween (S : Sys) (w : World) (before after : Disk) : Prop :=
  ∃ e data x, S.exe = some e ∧ before.at? binaryLoc = some (.file data x) ∧
    after = (before.del binaryLoc).put (Path.resolve w.disk.cwd e) (.file data x)

/-- C50. The stages reported are `1, 2, …, k` in this order, with `k ≤ 7`; no stage if nothing is on offer. -/
theorem C50_in_order (S : Sys) (X : Ext) (t : Int) (w : World) :
    ∃ k ≤ 7, stages (update S X t .stage w).2.log = stages w.log ++ List.range' 1 k ∧
      ((update S X t .stage w).1 = .ret (.ok ()) → k = 7) ∧ (¬ Offered S w → k = 0) := by
  rcases update_cases S X t .stage w with ⟨h1, h2, h3⟩ | ⟨i, hi, h1⟩
  · exact ⟨0, by omega, by rw [h2, stages_append]; rfl, fun h => absurd h (h3 ()), fun _ => rfl⟩
  · have hoff : Offered S w := by obtain ⟨b, r, g1, g2, g3, -⟩ := hi; exact ⟨b, r, g1, g2, g3⟩
    rw [h1]
    generalize hv : ({ w with tick := w.tick + 1, log := w.log ++ [.request githubReleases t] } : World) = v
    have hvl : stages v.log = stages w.log := by rw [← hv]; show stages (w.log ++ _) = _; rw [stages_append]; simp [stages]
    rcases install_trace S X t i v with ⟨k, k1, k2, h4, h5⟩ | ⟨e, data, w1, w2, h⟩
    · exact ⟨k, by omega, h4.2.1.trans (by rw [hvl]), fun h0 => absurd h0 (h5 ()), fun h0 => absurd hoff h0⟩
    · refine ⟨7, Nat.le_refl 7, ?_, fun _ => rfl, fun h0 => absurd hoff h0⟩
      have hcw : w2.disk.cwd = v.disk.cwd := by rw [h.disk]; exact h.before.cwd
      rw [stages_of_foot hcw h.after, h.log, stages_append, h.before.2.1, hvl, List.append_assoc]
      rfl

/-- C50. Stage 7 is reported iff the program is replaced, and then the replacement comes directly before the report of
stage 7 and after that of stage 6. -/
theorem C50_replacement (S : Sys) (X : Ext) (t : Int) (w : World) (hw : stages w.log = []) :
    .stage 7 ∈ (update S X t .stage w).2.log →
    ∃ es d fs, (update S X t .stage w).2.log = w.log ++ es ++ .disk d :: .stage 7 :: fs ∧ stages es = [1, 2, 3, 4, 5, 6] ∧
      ReplacedBetween S w (w.disk.last (disks es)) d := by
  intro h7
  have hmem : 7 ∈ stages (update S X t .stage w).2.log := by
    unfold stages; rw [List.mem_filterMap]; exact ⟨_, h7, rfl⟩
  rcases update_cases S X t .stage w with ⟨h1, h2, h3⟩ | ⟨i, hi, h1⟩
  · rw [h2, stages_append, hw] at hmem; simp [stages] at hmem
  · rw [h1] at hmem ⊢
    generalize hv : ({ w with tick := w.tick + 1, log := w.log ++ [.request githubReleases t] } : World) = v at hmem ⊢
    have hvl : v.log = w.log ++ [.request githubReleases t] := by rw [← hv]
    have hvd : v.disk = w.disk := by rw [← hv]
    have hvs : stages v.log = [] := by rw [hvl, stages_append, hw]; rfl
    rcases install_trace S X t i v with ⟨k, k1, k2, h4, h5⟩ | ⟨e, data, w1, w2, h⟩
    · rw [h4.2.1, hvs] at hmem
      simp only [List.nil_append, List.mem_range'_1] at hmem
      omega
    · have hcw : w2.disk.cwd = v.disk.cwd := by rw [h.disk]; exact h.before.cwd
      obtain ⟨-, a2, fs, a3, a4⟩ := h.after hcw
      obtain ⟨-, b2, es, b3, b4⟩ := h.before.1 rfl
      -- the log before the replacement ends in the disk before it
      obtain ⟨es', c1, c2⟩ := h.before.2.2
      have hes : es' = es := List.append_cancel_left (c1.symm.trans b3)
      subst hes
      refine ⟨.request githubReleases t :: es', w2.disk, fs, ?_, ?_, ?_⟩
      · rw [a3, h.log, b3, hvl]; simp [List.append_assoc]
      · have := h.before.2.1
        rw [b3, stages_append, hvs] at this
        rw [List.nil_append] at this
        exact this
      · refine ⟨e, data, false, h.exe, ?_, ?_⟩
        · have : disks (.request githubReleases t :: es') = disks es' := rfl
          rw [this, ← hvd, ← c2]; exact h.binary
        · have : disks (.request githubReleases t :: es') = disks es' := rfl
          rw [this, ← hvd, ← c2]; exact h.disk

/-- C50. Before that the program stays what it is, all the time; and if stage 7 is not reported, to the end. -/
theorem C50_not_before (S : Sys) (X : Ext) (t : Int) (w : World) (hw : stages w.log = []) (loc : List Bytes)
    (ha : Apart loc) (hb : ∀ i, OfferedAs S w i → ¬ Brings S X i loc) :
    ∃ es fs, (update S X t .stage w).2.log = w.log ++ es ++ fs ∧ (∀ d ∈ disks es, d.at? loc = w.disk.at? loc) ∧
      (fs = [] ∧ (update S X t .stage w).2.disk.at? loc = w.disk.at? loc ∧ .stage 7 ∉ es ∨
        stages es = [1, 2, 3, 4, 5, 6] ∧ ∃ d gs, fs = .disk d :: .stage 7 :: gs) := by
  rcases update_cases S X t .stage w with ⟨h1, h2, h3⟩ | ⟨i, hi, h1⟩
  · exact ⟨[.request githubReleases t], [], by rw [h2, List.append_nil], by simp [disks], .inl ⟨rfl, by rw [h1], by simp⟩⟩
  · rw [h1]
    generalize hv : ({ w with tick := w.tick + 1, log := w.log ++ [.request githubReleases t] } : World) = v
    have hvl : v.log = w.log ++ [.request githubReleases t] := by rw [← hv]
    have hvd : v.disk = w.disk := by rw [← hv]
    have hvs : stages v.log = [] := by rw [hvl, stages_append, hw]; rfl
    have hnt : ¬ Touched S X i loc := by
      rintro (h | h | h)
      · exact ha.1 h
      · exact ha.2 h
      · exact hb i hi h
    have old : ∀ {v' : World} {k : Nat}, Upto S X i k v v' → v'.disk.at? loc = w.disk.at? loc ∧
        ∃ es, v'.log = w.log ++ es ∧ (∀ d ∈ disks es, d.at? loc = w.disk.at? loc) ∧ stages es = List.range' 1 k := by
      intro v' k h
      obtain ⟨-, k2, es, k3, k4⟩ := h.1 rfl
      rw [hvd] at k2
      refine ⟨k2 loc hnt, .request githubReleases t :: es, by rw [k3, hvl, List.append_assoc]; rfl, ?_, ?_⟩
      · intro d hd
        have hd' : d ∈ disks es := hd
        have := k4 _ (mem_disks.1 hd')
        exact (this.2 loc hnt).trans (by rw [hvd])
      · have := h.2.1
        rw [k3, stages_append, hvs, List.nil_append] at this
        exact this
    rcases install_trace S X t i v with ⟨k, k1, k2, h4, h5⟩ | ⟨e, data, w1, w2, h⟩
    · obtain ⟨o1, es, o2, o3, o4⟩ := old h4
      refine ⟨es, [], by rw [o2, List.append_nil], o3, .inl ⟨rfl, o1, fun h7 => ?_⟩⟩
      have : 7 ∈ stages es := by unfold stages; rw [List.mem_filterMap]; exact ⟨_, h7, rfl⟩
      rw [o4, List.mem_range'_1] at this
      omega
    · obtain ⟨o1, es, o2, o3, o4⟩ := old h.before
      have hcw : w2.disk.cwd = v.disk.cwd := by rw [h.disk]; exact h.before.cwd
      obtain ⟨-, -, gs, a3, -⟩ := h.after hcw
      refine ⟨es, .disk w2.disk :: .stage 7 :: gs, ?_, o3, .inr ⟨o4, _, _, rfl⟩⟩
      rw [a3, h.log, o2]; simp [List.append_assoc]

/-! ### C51 -/

/-- C51. When stage 2 is reported, the cache is an empty directory – whatever was there before. -/
theorem C51_starts_empty (S : Sys) (X : Ext) (t : Int) (w : World) :
    (∃ k ≤ 1, stages (update S X t .stage w).2.log = stages w.log ++ List.range' 1 k) ∨
    ∃ es fs, (update S X t .stage w).2.log = w.log ++ es ++ .stage 2 :: fs ∧ stages es = [1] ∧
      (w.disk.last (disks es)).at? cacheLoc = some .dir ∧
      ∀ l, cacheLoc <+: l → l ≠ cacheLoc → (w.disk.last (disks es)).at? l = none := by
  rcases update_cases S X t .stage w with ⟨h1, h2, h3⟩ | ⟨i, hi, h1⟩
  · exact .inl ⟨0, by omega, by rw [h2, stages_append]; rfl⟩
  · rw [h1]
    generalize hv : ({ w with tick := w.tick + 1, log := w.log ++ [.request githubReleases t] } : World) = v
    have hvl : v.log = w.log ++ [.request githubReleases t] := by rw [← hv]
    have hvd : v.disk = w.disk := by rw [← hv]
    have hvs : stages v.log = stages w.log := by rw [hvl, stages_append]; simp [stages]
    rw [install_eq, emit_bind]
    generalize ha1 : ({ v with log := v.log ++ [.stage 1] } : World) = a1
    have ha1l : a1.log = v.log ++ [.stage 1] := by rw [← ha1]
    have ha1d : a1.disk = w.disk := by rw [← ha1]; exact hvd
    have hs1 : stages a1.log = stages w.log ++ [1] := by rw [ha1l, stages_append, hvs]; rfl
    have f1 := foot_removeAll w.disk.cwd (fun _ => True) Quietly S cacheDir (fun _ _ => trivial) a1
    have c1 := coh_removeAll S cacheDir a1
    rcases andThen_split (Os.removeAll S cacheDir) _ a1 with ⟨⟨⟩, a2, e1, e2⟩ | ⟨-, e1, e2, -⟩
    swap
    · refine .inl ⟨1, Nat.le_refl 1, ?_⟩
      rw [e1, stages_of_foot (by rw [ha1d]) f1, hs1]; rfl
    rw [e2]; clear e2
    rw [e1] at f1 c1
    have gone : ∀ l, cacheLoc <+: l → a2.disk.at? l = none := by
      obtain ⟨r, ls, h1, -, h3⟩ := Os.removeAll_run S cacheDir a1
      rw [h1] at e1
      have hr := congrArg Prod.fst e1
      have hd := congrArg Prod.snd e1
      rw [resolve_cache] at h3
      intro l hl
      have := h3 (by cases r <;> simp_all) l hl
      rw [show a2 = _ from hd.symm]; exact this
    have hcw2 : a2.disk.cwd = w.disk.cwd := (f1 (by rw [ha1d])).1
    have f2 := foot_mkdirAll w.disk.cwd (fun _ => True) Quietly S cacheDir (fun _ _ _ => trivial) a2
    have c2 := coh_mkdirAll S cacheDir a2
    have hs2 : stages a2.log = stages w.log ++ [1] := by rw [stages_of_foot (by rw [ha1d]) f1, hs1]
    rcases andThen_split (Os.mkdirAll S cacheDir) _ a2 with ⟨⟨⟩, a3, e3, e4⟩ | ⟨-, e3, e4, -⟩
    swap
    · refine .inl ⟨1, Nat.le_refl 1, ?_⟩
      rw [e3, stages_of_foot hcw2 f2, hs2]; rfl
    rw [e4]; clear e4
    rw [e3] at f2 c2
    have hs3 : stages a3.log = stages w.log ++ [1] := by rw [stages_of_foot hcw2 f2, hs2]
    have fresh : ∀ l, cacheLoc <+: l → l ≠ cacheLoc → a3.disk.at? l = none := by
      intro l hl hne
      have := (foot_mkdirAll w.disk.cwd (fun l => l <+: cacheLoc) Quietly S cacheDir
        (fun l hl _ => by rwa [resolve_cache] at hl) a2 hcw2).2.1 l
        (fun h0 => hne (h0.eq_of_length (Nat.le_antisymm h0.length_le hl.length_le)))
      rw [e3] at this
      rw [this]; exact gone l hl
    have isdir : a3.disk.at? cacheLoc = some .dir := by
      obtain ⟨r, ds, h1, ls, k, h2, h3, h4⟩ := Os.mkdirAll_run S cacheDir a2
      rw [h1] at e3
      have hr := congrArg Prod.fst e3
      have hd := congrArg Prod.snd e3
      rw [resolve_cache] at h4
      obtain ⟨h5, h6⟩ := h4 (by cases r <;> simp_all)
      rcases h6 cacheLoc List.prefix_rfl (by simp [cacheLoc]) with h6 | h6
      · rw [gone _ List.prefix_rfl] at h6; cases h6
      · rw [show a3 = _ from hd.symm]
        show (a2.disk.last ds).at? cacheLoc = _
        rw [h2, h5, List.take_length, Disk.puts_dirs_last, if_pos h6]
    obtain ⟨es, l3, d3⟩ := coh_chain.trans _ _ _ c1 c2
    rw [emit_bind]
    obtain ⟨fs, l4, d4⟩ := coh_finish S X t .stage (by intro n d; simp) i { a3 with log := a3.log ++ [.stage 2] }
    refine .inr ⟨[.request githubReleases t, .stage 1] ++ es, fs, ?_, ?_, ?_⟩
    · rw [l4]
      show a3.log ++ [.stage 2] ++ fs = _
      rw [l3, ha1l, hvl]; simp [List.append_assoc]
    · rw [l3, ha1l, stages_append, stages_append, hvs] at hs3
      have : stages es = [] := by
        simpa [stages] using hs3
      rw [stages_append, this]; rfl
    · have hd : w.disk.last (disks ([.request githubReleases t, .stage 1] ++ es)) = a3.disk := by
        rw [disks_append]
        show w.disk.last ([] ++ disks es) = _
        rw [List.nil_append, ← ha1d, d3]
      rw [hd]
      exact ⟨isdir, fresh⟩

/-- C51. After a successful update the cache is gone. -/
theorem C51_leaves_nothing (S : Sys) (X : Ext) (t : Int) (cb : Nat → Ev) (hcb : ∀ n d, cb n ≠ .disk d) (w : World)
    (h : (update S X t cb w).1 = .ret (.ok ())) (l : List Bytes) (hl : cacheLoc <+: l) :
    (update S X t cb w).2.disk.at? l = none := by
  obtain ⟨s1, s2, -⟩ := update_any S X t cb hcb w
  rw [s1] at h
  rw [s2]
  rcases update_cases S X t .stage w with ⟨-, -, h3⟩ | ⟨i, hi, h1⟩
  · exact absurd h (h3 ())
  · rw [h1] at h ⊢
    rcases install_trace S X t i _ with ⟨k, -, -, -, h5⟩ | ⟨e', data, w1, w2, h'⟩
    · exact absurd h (h5 ())
    · exact h'.clean h l hl

/-! ### C54 -/

/-- C54, as far as it holds: an entry without `..` in its name is unpacked below the cache. Missing: the others
(`C54_refuted`). -/
theorem C54_inside_partial (S : Sys) (X : Ext) (src : Bytes) (w : World)
    (h : ∀ a, ∀ e ∈ (X.untar a).1, e.reg = true → [46, 46] ∉ Path.split e.name) :
    Foot w.disk.cwd (fun l => cacheLoc <+: l) (fun _ => False) w (extractArchive S X src cacheDir w).2 := by
  refine Rel.andThen (foot_chain _ _ _) (foot_readFile _ _ _ S _) (fun data => ?_) w
  exact foot_extractEntries _ _ _ S _ _ (fun e he hr => target_below (h data e he hr))

/-- C54: all of an update, with such archives, stays in the cache, on the way to it, and at the place of the program. -/
theorem C54_update_partial (S : Sys) (X : Ext) (t : Int) (w : World)
    (h : ∀ a, ∀ e ∈ (X.untar a).1, e.reg = true → [46, 46] ∉ Path.split e.name) (l : List Bytes) (ha : Apart l)
    (he : ∀ e, S.exe = some e → Path.resolve w.disk.cwd e ≠ l) :
    (update S X t .stage w).2.disk.at? l = w.disk.at? l := by
  rcases update_cases S X t .stage w with ⟨h1, h2, h3⟩ | ⟨i, hi, h1⟩
  · rw [h1]
  · rw [h1]
    have hnt : ¬ Touched S X i l := by
      rintro (h0 | h0 | ⟨n, a, e, -, h2, h3, h4⟩)
      · exact ha.1 h0
      · exact ha.2 h0
      · exact ha.1 (h4 ▸ target_below (h a e h2 h3))
    rcases install_trace S X t i _ with ⟨k, -, -, h4, -⟩ | ⟨e', data, w1, w2, h'⟩
    · exact (h4.1 rfl).2.1 l hnt
    · have hcw : w2.disk.cwd = w.disk.cwd := by rw [h'.disk]; exact h'.before.cwd
      refine ((h'.after hcw).2.1 l ha.1).trans ?_
      rw [h'.disk, Disk.at?_put, if_neg (he _ h'.exe), Disk.at?_del, if_neg]
      · exact (h'.before.1 rfl).2.1 l hnt
      · rintro rfl
        exact ha.1 ⟨[b!"1pass"], rfl⟩

/-! ### C55 -/

/-- C55, as far as it holds: after a successful update there is a file at the place of the program. Missing: that it can be
executed (`C55_never_executable`). -/
theorem C55_file_partial (S : Sys) (X : Ext) (t : Int) (cb : Nat → Ev) (hcb : ∀ n d, cb n ≠ .disk d) (w : World)
    (e : Bytes) (he : S.exe = some e) (ha : Apart (Path.resolve w.disk.cwd e))
    (h : (update S X t cb w).1 = .ret (.ok ())) :
    ∃ data, (update S X t cb w).2.disk.at? (Path.resolve w.disk.cwd e) = some (.file data false) := by
  obtain ⟨s1, s2, -⟩ := update_any S X t cb hcb w
  rw [s1] at h
  rw [s2]
  rcases update_cases S X t .stage w with ⟨-, -, h3⟩ | ⟨i, hi, h1⟩
  · exact absurd h (h3 ())
  · rw [h1] at h ⊢
    rcases install_trace S X t i _ with ⟨k, -, -, -, h5⟩ | ⟨e', data, w1, w2, h'⟩
    · exact absurd h (h5 ())
    · have hee : e' = e := by have := h'.exe; rw [he] at this; exact (Option.some.inj this).symm
      subst hee
      have hcw : w2.disk.cwd = w.disk.cwd := by rw [h'.disk]; exact h'.before.cwd
      refine ⟨data, ((h'.after hcw).2.1 _ ha.1).trans ?_⟩
      rw [h'.disk, Disk.at?_put, if_pos rfl]

/-- C55 fails: after no successful update is the program executable. -/
theorem C55_never_executable (S : Sys) (X : Ext) (t : Int) (cb : Nat → Ev) (hcb : ∀ n d, cb n ≠ .disk d) (w : World)
    (e : Bytes) (he : S.exe = some e) (ha : Apart (Path.resolve w.disk.cwd e))
    (h : (update S X t cb w).1 = .ret (.ok ())) (data : Bytes) :
    (update S X t cb w).2.disk.at? (Path.resolve w.disk.cwd e) ≠ some (.file data true) := by
  obtain ⟨d, hd⟩ := C55_file_partial S X t cb hcb w e he ha h
  rw [hd]; simp

/-! ### Examples and refutations -/

/-- An installation with something left in the cache by an earlier run. -/
def samplePlace : Disk :=
  { fs := [([b!"usr"], .dir), ([b!"usr", b!"bin"], .dir), ([b!"usr", b!"bin", b!"1pass"], .file b!"old" true),
           ([b!"tmp"], .dir), ([b!"tmp", b!"1pass"], .dir), ([b!"tmp", b!"1pass", b!"1pass"], .file b!"left" false)]
    cwd := [] }

/-- The server: the list of releases, the archive, the checksum. -/
def sampleSys (archive sums : Bytes) : Sys :=
  { Toy.sys [] 0 with
    answer := fun _ url => if url = b!"u/a" then .body archive true else if url = b!"u/s" then .body sums true
      else .body sampleBody true }

/-- An archive of these files. -/
def sampleExt (es : List TarEntry) : Ext := { Toy.ext with untar := fun _ => (es, true) }

def sampleSum : Bytes := hexText (Toy.ext.md5 b!"new")

/-- C48, C49, C50, C51, C55: an update that goes through: all seven stages, the new program, no cache, not executable. -/
def goodRun := update (sampleSys b!"new" (sampleSum ++ b!"  1pass\n")) Toy.ext 5 .stage (Toy.world samplePlace [])

theorem goodRun_done : goodRun.1 = .ret (.ok ()) ∧ stages goodRun.2.log = [1, 2, 3, 4, 5, 6, 7] ∧
    goodRun.2.disk.at? [b!"usr", b!"bin", b!"1pass"] = some (.file b!"new" false) ∧ goodRun.2.disk.at? cacheLoc = none := by
  decide +kernel

/-- C49: an update with a wrong checksum stops at stage 5, the old program in its place. -/
def badRun := update (sampleSys b!"new" b!"00  1pass\n") Toy.ext 5 .stage (Toy.world samplePlace [])

theorem badRun_stops : badRun.1 = .ret (.error .invalidMd5) ∧ stages badRun.2.log = [1, 2, 3, 4, 5] ∧
    badRun.2.disk.at? [b!"usr", b!"bin", b!"1pass"] = some (.file b!"old" true) := by
  decide +kernel

/-- The assumptions of the theorems hold of these runs. -/
example : Apart [b!"usr", b!"bin", b!"1pass"] := by
  constructor <;> decide +kernel
example : Path.resolve [] b!"/usr/bin/1pass" = [b!"usr", b!"bin", b!"1pass"] := by decide +kernel
example (i : UpdateInfo) (S : Sys) : ¬ Brings S Toy.ext i checksumLoc := by
  rintro ⟨n, a, e, -, h2, -, h4⟩
  simp only [Toy.ext, List.mem_singleton] at h2
  subst h2
  have : target b!"1pass" ≠ checksumLoc := by decide +kernel
  exact this h4

/-- C48 fails: an archive with its own `checksum.md5` is installed though the checksum received is another one. -/
theorem C48_refuted :
    let evil := [⟨b!"1pass", true, b!"evil", true⟩, ⟨b!"checksum.md5", true, hexText (Toy.ext.md5 b!"evil"), true⟩]
    let run := update (sampleSys b!"" sampleSum) (sampleExt evil) 5 .stage (Toy.world samplePlace [])
    run.1 = .ret (.ok ()) ∧ run.2.disk.at? [b!"usr", b!"bin", b!"1pass"] = some (.file b!"evil" false) ∧
      ¬ FirstWord sampleSum (hexText (Toy.ext.md5 b!"evil")) := by
  refine ⟨by decide +kernel, by decide +kernel, ?_⟩
  rw [← fields_iff]
  decide +kernel

/-- C49 fails: an archive with an entry `../../usr/bin/1pass` replaces the program before anything is checked; the update
then fails. -/
theorem C49_refuted :
    let evil := [⟨b!"../../usr/bin/1pass", true, b!"evil", true⟩]
    let run := update (sampleSys b!"" sampleSum) (sampleExt evil) 5 .stage (Toy.world samplePlace [])
    (∃ err, run.1 = .ret (.error err)) ∧ run.2.disk.at? [b!"usr", b!"bin", b!"1pass"] = some (.file b!"evil" true) := by
  exact ⟨⟨ioErr, by decide +kernel⟩, by decide +kernel⟩

/-- C54 fails: unpacking writes outside the destination. -/
theorem C54_refuted :
    let evil := [⟨b!"../../usr/bin/1pass", true, b!"evil", true⟩]
    let start : Disk := samplePlace.put archiveLoc (.file b!"" false)
    let run := extractArchive (Toy.sys [] 0) (sampleExt evil) (Path.join [cacheDir, archiveName]) cacheDir (Toy.world start [])
    run.1 = .ret (.ok ()) ∧ run.2.disk.at? [b!"usr", b!"bin", b!"1pass"] ≠ start.at? [b!"usr", b!"bin", b!"1pass"] ∧
      ¬ cacheLoc <+: [b!"usr", b!"bin", b!"1pass"] := by
  refine ⟨by decide +kernel, by decide +kernel, by decide +kernel⟩

/-- C54: the entry of the examples stays inside. -/
example : ∀ a, ∀ e ∈ (Toy.ext.untar a).1, e.reg = true → [46, 46] ∉ Path.split e.name := by
  intro a e he _
  simp only [Toy.ext, List.mem_singleton] at he
  subst he
  simp only
  decide +kernel

/-- C55 fails. -/
theorem C55_refuted : goodRun.1 = .ret (.ok ()) ∧
    samplePlace.at? [b!"usr", b!"bin", b!"1pass"] = some (.file b!"old" true) ∧
    ∀ data, goodRun.2.disk.at? [b!"usr", b!"bin", b!"1pass"] ≠ some (.file data true) := by
  obtain ⟨h1, -, h2, -⟩ := goodRun_done
  exact ⟨h1, by decide +kernel, fun data => by rw [h2]; simp⟩

end Upd
end OnePass
