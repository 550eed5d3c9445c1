/-
Looking for a release: C47, C52, C53, C58.
-/
import Verif.Spec.Release
import Verif.Model.UpdateFacts
import Verif.Model.Toy

set_option linter.unusedSimpArgs false

namespace OnePass
namespace Upd
open Prog Spec

/-- The running version is 1.3.1; a tag counts as newer if, without its dots, it reads as a number above 131. -/
def NewerTag (tag : Bytes) : Prop := Above 131 (dotless tag)

theorem versionNumber_newer (tag : Bytes) : versionNumber tag > versionNumber version ↔ NewerTag tag := by
  have h1 : versionNumber version = 131 := by decide +kernel
  have h2 : Str.replaceByte 46 [] tag = dotless tag := by
    unfold Str.replaceByte dotless
    induction tag with
    | nil => rfl
    | cons b r ih =>
      rw [List.flatMap_cons, List.filter_cons, ih]
      by_cases hb : b = 46 <;> simp [hb]
  rw [h1]
  unfold versionNumber NewerTag
  rw [h2]
  exact Num.parseInt_above 131 (by decide) (by decide) _

/-! ### C58 -/

/-- Every asset that is looked at has a URL. -/
def Complete (r : Release) : Prop := ∀ a ∈ r.assets, IsArchive a ∨ IsChecksum a → a.2 ≠ none

theorem asset_cases (urls : Bytes × Bytes) (j : Json) (a : Bytes × Option Bytes) (h : IsAsset j a) :
    (IsArchive a ∧ assetUrls urls j = match a.2 with | some u => .ret (u, urls.2) | none => .panic) ∨
    (IsChecksum a ∧ assetUrls urls j = match a.2 with | some u => .ret (urls.1, u) | none => .panic) ∨
    (¬ IsArchive a ∧ ¬ IsChecksum a ∧ assetUrls urls j = .ret urls) := by
  obtain ⟨m, rfl, h1, h2⟩ := h
  have hurl : ∀ f : Bytes → Bytes × Bytes, (asStr (Json.field m b!"browser_download_url") >>= fun u => (pure (f u) : Out _)) =
      match a.2 with | some u => .ret (f u) | none => .panic := by
    intro f
    cases ha : a.2 with
    | some u => rw [ha] at h2; simp only at h2; rw [h2]; rfl
    | none =>
      rw [ha] at h2
      cases hj : Json.field m b!"browser_download_url" with
      | str u => exact absurd hj (h2 u)
      | _ => rfl
  have hrun : assetUrls urls (.obj m) = if Str.contains a.1 b!".tar.gz" then
      (asStr (Json.field m b!"browser_download_url") >>= fun u => (pure (u, urls.2) : Out _))
    else if Str.contains a.1 b!".md5" then
      (asStr (Json.field m b!"browser_download_url") >>= fun u => (pure (urls.1, u) : Out _))
    else pure urls := by
    show (asStr (Json.field m b!"name") >>= fun name => _) = _
    rw [h1]; rfl
  by_cases c1 : Str.contains a.1 b!".tar.gz" = true
  · rw [if_pos c1, hurl] at hrun
    exact .inl ⟨Str.contains_iff.1 c1, hrun⟩
  · have n1 : ¬ IsArchive a := fun h => c1 (Str.contains_iff.2 h)
    rw [if_neg c1] at hrun
    by_cases c2 : Str.contains a.1 b!".md5" = true
    · rw [if_pos c2, hurl] at hrun
      exact .inr (.inl ⟨⟨n1, Str.contains_iff.1 c2⟩, hrun⟩)
    · rw [if_neg c2] at hrun
      exact .inr (.inr ⟨n1, fun h => c2 (Str.contains_iff.2 h.2), hrun⟩)

theorem lastUrl_cons {kind : Bytes × Option Bytes → Prop} {a : Bytes × Option Bytes} {as : List (Bytes × Option Bytes)}
    {u : Bytes} (h : (∃ before name after, as = before ++ (name, some u) :: after ∧ kind (name, some u) ∧ ∀ x ∈ after, ¬ kind x)) :
    LastUrl kind (a :: as) u := by
  obtain ⟨b, n, f, h1, h2, h3⟩ := h
  exact .inl ⟨a :: b, n, f, by rw [h1]; rfl, h2, h3⟩

/-- The URLs found in some assets, after others. -/
theorem allUrls_eq (as : List Json) (l : List (Bytes × Option Bytes)) (h : List.Forall₂ IsAsset as l) (urls : Bytes × Bytes) :
    (∃ u v, allUrls urls as = .ret (u, v) ∧ (∀ a ∈ l, IsArchive a ∨ IsChecksum a → a.2 ≠ none) ∧
      (LastUrl IsArchive l u ∧ (∃ a ∈ l, IsArchive a) ∨ (∀ a ∈ l, ¬ IsArchive a) ∧ u = urls.1) ∧
      (LastUrl IsChecksum l v ∧ (∃ a ∈ l, IsChecksum a) ∨ (∀ a ∈ l, ¬ IsChecksum a) ∧ v = urls.2)) ∨
    (allUrls urls as = .panic ∧ ∃ a ∈ l, (IsArchive a ∨ IsChecksum a) ∧ a.2 = none) := by
  induction h generalizing urls with
  | nil => exact .inl ⟨urls.1, urls.2, rfl, by simp, .inr ⟨by simp, rfl⟩, .inr ⟨by simp, rfl⟩⟩
  | @cons j a js l hj hl ih =>
    have hstep : allUrls urls (j :: js) = (assetUrls urls j >>= fun u => allUrls u js) := rfl
    -- what happens after this asset
    have cont : ∀ kindA kindC : Prop, ∀ u0 v0 : Bytes, assetUrls urls j = .ret (u0, v0) →
        ((IsArchive a ∧ a.2 = some u0) ∨ (¬ IsArchive a ∧ u0 = urls.1)) →
        ((IsChecksum a ∧ a.2 = some v0) ∨ (¬ IsChecksum a ∧ v0 = urls.2)) →
        (∃ u v, allUrls urls (j :: js) = .ret (u, v) ∧ (∀ x ∈ a :: l, IsArchive x ∨ IsChecksum x → x.2 ≠ none) ∧
          (LastUrl IsArchive (a :: l) u ∧ (∃ x ∈ a :: l, IsArchive x) ∨ (∀ x ∈ a :: l, ¬ IsArchive x) ∧ u = urls.1) ∧
          (LastUrl IsChecksum (a :: l) v ∧ (∃ x ∈ a :: l, IsChecksum x) ∨ (∀ x ∈ a :: l, ¬ IsChecksum x) ∧ v = urls.2)) ∨
        (allUrls urls (j :: js) = .panic ∧ ∃ x ∈ a :: l, (IsArchive x ∨ IsChecksum x) ∧ x.2 = none) := by
      intro _ _ u0 v0 h1 h2 h3
      have hrun : allUrls urls (j :: js) = allUrls (u0, v0) js := by rw [hstep, h1]; rfl
      have side : ∀ (kind : Bytes × Option Bytes → Prop) (c0 old c : Bytes),
          ((kind a ∧ a.2 = some c0) ∨ (¬ kind a ∧ c0 = old)) →
          (LastUrl kind l c ∧ (∃ x ∈ l, kind x) ∨ (∀ x ∈ l, ¬ kind x) ∧ c = c0) →
          (LastUrl kind (a :: l) c ∧ (∃ x ∈ a :: l, kind x) ∨ (∀ x ∈ a :: l, ¬ kind x) ∧ c = old) := by
        intro kind c0 old c h4 h5
        rcases h5 with ⟨h5, x, hx, hk⟩ | ⟨h5, rfl⟩
        · refine .inl ⟨?_, x, by simp [hx], hk⟩
          rcases h5 with h5 | ⟨h5, -⟩
          · exact lastUrl_cons h5
          · exact absurd hk (h5 x hx)
        · rcases h4 with ⟨h6, h7⟩ | ⟨h6, rfl⟩
          · refine .inl ⟨.inl ⟨[], a.1, l, ?_, ?_, h5⟩, a, by simp, h6⟩
            · rw [← h7]; rfl
            · rw [← h7]; exact h6
          · refine .inr ⟨?_, rfl⟩
            intro x hx
            rcases List.mem_cons.1 hx with rfl | hx
            · exact h6
            · exact h5 x hx
      rcases ih (u0, v0) with ⟨u, v, i1, i2, i3, i4⟩ | ⟨i1, x, hx, i2⟩
      · refine .inl ⟨u, v, hrun.trans i1, ?_, side _ _ _ _ h2 i3, side _ _ _ _ h3 i4⟩
        intro x hx hk
        rcases List.mem_cons.1 hx with rfl | hx
        · rcases hk with hk | hk
          · rcases h2 with ⟨-, h2⟩ | ⟨h2, -⟩
            · rw [h2]; simp
            · exact absurd hk h2
          · rcases h3 with ⟨-, h3⟩ | ⟨h3, -⟩
            · rw [h3]; simp
            · exact absurd hk h3
        · exact i2 x hx hk
      · exact .inr ⟨hrun.trans i1, x, by simp [hx], i2⟩
    rcases asset_cases urls j a hj with ⟨h1, h2⟩ | ⟨h1, h2⟩ | ⟨h1, h1', h2⟩
    · cases ha : a.2 with
      | none => rw [ha] at h2; exact .inr ⟨by rw [hstep, h2]; rfl, a, by simp, .inl h1, ha⟩
      | some u => rw [ha] at h2; exact cont True True _ _ h2 (.inl ⟨h1, ha⟩) (.inr ⟨fun h => h.1 h1, rfl⟩)
    · cases ha : a.2 with
      | none => rw [ha] at h2; exact .inr ⟨by rw [hstep, h2]; rfl, a, by simp, .inr h1, ha⟩
      | some u => rw [ha] at h2; exact cont True True _ _ h2 (.inr ⟨h1.1, rfl⟩) (.inl ⟨h1, ha⟩)
    · exact cont True True _ _ h2 (.inr ⟨h1, rfl⟩) (.inr ⟨h1', rfl⟩)

theorem lastUrl_none {kind : Bytes × Option Bytes → Prop} {l : List (Bytes × Option Bytes)} {u : Bytes}
    (h : LastUrl kind l u ∧ (∃ a ∈ l, kind a) ∨ (∀ a ∈ l, ¬ kind a) ∧ u = []) : LastUrl kind l u :=
  h.elim (·.1) (.inr ·)

/-- The information taken from a release. -/
structure Describes (r : Release) (i : UpdateInfo) : Prop where
  version : i.version = r.tag
  changelog : i.changelog = r.changelog
  archive : LastUrl IsArchive r.assets i.archiveUrl
  checksum : LastUrl IsChecksum r.assets i.checksumUrl
  newer : i.newer = true ↔ NewerTag r.tag

theorem releaseInfo_published (body : Bytes) (r : Release) (h : Publishes body r) :
    (∃ i, releaseInfo body = .ret (.ok (some i)) ∧ Describes r i ∧ Complete r) ∨ (releaseInfo body = .panic ∧ ¬ Complete r) := by
  obtain ⟨m, rest, as, h1, h2, h3, h4, h5⟩ := h
  have hrun : releaseInfo body = (allUrls ([], []) as >>= fun urls =>
      (pure (.ok (some { archiveUrl := urls.1, checksumUrl := urls.2, changelog := r.changelog, version := r.tag,
                         newer := decide (versionNumber r.tag > versionNumber version) })) : Out (Except Err (Option UpdateInfo)))) := by
    unfold releaseInfo
    rw [unmarshalArr_iff.2 h1]
    show (asStr (Json.field m b!"body") >>= fun changelog => _) = _
    rw [h3]
    show (asStr (Json.field m b!"tag_name") >>= fun tag => _) = _
    rw [h2]
    show (asArr (Json.field m b!"assets") >>= fun assets => _) = _
    rw [h4]; rfl
  rcases allUrls_eq as r.assets h5 ([], []) with ⟨u, v, e1, e2, e3, e4⟩ | ⟨e1, a, ha, e2, e3⟩
  · rw [e1] at hrun
    refine .inl ⟨_, hrun, ⟨rfl, rfl, lastUrl_none e3, lastUrl_none e4, ?_⟩, e2⟩
    rw [decide_eq_true_iff]
    exact versionNumber_newer r.tag
  · rw [e1] at hrun
    exact .inr ⟨hrun, fun h0 => h0 a ha e2 e3⟩

theorem asStr_ret {j : Json} {s : Bytes} (h : asStr j = .ret s) : j = .str s := by
  cases j <;> first | (cases h; rfl) | cases h

theorem out_bind_ret {α β : Type} {m : Out α} {f : α → Out β} {b : β} (h : (m >>= f) = .ret b) : ∃ a, m = .ret a ∧ f a = .ret b := by
  cases m with
  | ret a => exact ⟨a, rfl, h⟩
  | panic => cases h
  | fatal => cases h

theorem assets_exist (as : List Json) (urls : Bytes × Bytes) (r : Bytes × Bytes) (h : allUrls urls as = .ret r) :
    ∃ l, List.Forall₂ IsAsset as l := by
  induction as generalizing urls with
  | nil => exact ⟨[], .nil⟩
  | cons j js ih =>
    have : (assetUrls urls j >>= fun u => allUrls u js) = .ret r := h
    obtain ⟨u, h1, h2⟩ := out_bind_ret this
    obtain ⟨l, hl⟩ := ih u h2
    unfold assetUrls at h1
    obtain ⟨m, h3, h4⟩ := out_bind_ret h1
    obtain ⟨n, h5, h6⟩ := out_bind_ret h4
    have hj : j = .obj m := by cases j <;> first | (cases h3; rfl) | cases h3
    have hn := asStr_ret h5
    cases hu : Json.field m b!"browser_download_url" with
    | str s => exact ⟨(n, some s) :: l, .cons ⟨m, hj, hn, hu⟩ hl⟩
    | null => exact ⟨(n, none) :: l, .cons ⟨m, hj, hn, by intro u; rw [hu]; simp⟩ hl⟩
    | bool _ => exact ⟨(n, none) :: l, .cons ⟨m, hj, hn, by intro u; rw [hu]; simp⟩ hl⟩
    | num _ => exact ⟨(n, none) :: l, .cons ⟨m, hj, hn, by intro u; rw [hu]; simp⟩ hl⟩
    | arr _ => exact ⟨(n, none) :: l, .cons ⟨m, hj, hn, by intro u; rw [hu]; simp⟩ hl⟩
    | obj _ => exact ⟨(n, none) :: l, .cons ⟨m, hj, hn, by intro u; rw [hu]; simp⟩ hl⟩

theorem releaseInfo_sound {body : Bytes} {i : UpdateInfo} (h : releaseInfo body = .ret (.ok (some i))) :
    ∃ r, Publishes body r ∧ Describes r i ∧ Complete r := by
  have hpub : ∃ r, Publishes body r := by
    unfold releaseInfo at h
    cases hu : unmarshalArr body with
    | none => rw [hu] at h; cases h
    | some o =>
      rw [hu] at h
      cases o with
      | none => cases h
      | some l =>
        cases l with
        | nil => cases h
        | cons first rest =>
          have hfirst : ∃ m, first = .obj m := by
            cases first with
            | obj m => exact ⟨m, rfl⟩
            | null => cases h
            | _ => cases h
          obtain ⟨m, rfl⟩ := hfirst
          simp only at h
          obtain ⟨m', h1, h⟩ := out_bind_ret h
          cases h1
          obtain ⟨cl, h1, h⟩ := out_bind_ret h
          obtain ⟨tag, h2, h⟩ := out_bind_ret h
          obtain ⟨as, h3, h⟩ := out_bind_ret h
          obtain ⟨urls, h4, -⟩ := out_bind_ret h
          have has : Json.field m b!"assets" = .arr as := by
            cases hj : Json.field m b!"assets" <;> rw [hj] at h3 <;> first | (cases h3; rfl) | cases h3
          obtain ⟨l, hl⟩ := assets_exist as _ _ h4
          refine ⟨⟨tag, cl, l⟩, m, rest, as, ?_, asStr_ret h2, asStr_ret h1, has, hl⟩
          exact unmarshalArr_iff.1 hu
  obtain ⟨r, hr⟩ := hpub
  rcases releaseInfo_published body r hr with ⟨i', h1, h2, h3⟩ | ⟨h1, -⟩
  · rw [h] at h1
    cases h1
    exact ⟨r, hr, h2, h3⟩
  · rw [h] at h1; cases h1

/-- What is made of an answer. -/
def answered : HttpAnswer → Out (Except Err (Option UpdateInfo))
  | .failed => .ret (.error (.stdlib b!"http"))
  | .body _ false => .ret (.error (.stdlib b!"http"))
  | .body data true => releaseInfo data

theorem fetchInfo_run (S : Sys) (t : Int) (w : World) : fetchInfo S t w =
    (answered (S.answer w.tick githubReleases),
     { w with tick := w.tick + 1, log := w.log ++ [.request githubReleases t] }) := by
  unfold fetchInfo
  rw [bind_run, Os.httpGet_run]
  simp only
  cases S.answer w.tick githubReleases with
  | failed => rfl
  | body d c => cases c <;> rfl

/-- C58. What is published is what is reported: version and changelog of the first release, the URLs of the last
assets named like an archive and like a checksum file. -/
theorem C58_read_as_published (S : Sys) (t : Int) (w : World) (body : Bytes) (r : Release)
    (ha : S.answer w.tick githubReleases = .body body true) (hp : Publishes body r) (hc : Complete r) :
    ∃ i, (fetchInfo S t w).1 = .ret (.ok (some i)) ∧ Describes r i := by
  rw [fetchInfo_run, ha]
  rcases releaseInfo_published body r hp with ⟨i, h1, h2, -⟩ | ⟨-, h⟩
  · exact ⟨i, h1, h2⟩
  · exact absurd hc h

/-- C58. And nothing is reported that was not published. -/
theorem C58_nothing_else (S : Sys) (t : Int) (w : World) (i : UpdateInfo) (h : (fetchInfo S t w).1 = .ret (.ok (some i))) :
    ∃ body r, S.answer w.tick githubReleases = .body body true ∧ Publishes body r ∧ Describes r i := by
  rw [fetchInfo_run] at h
  cases ha : S.answer w.tick githubReleases with
  | failed => rw [ha] at h; cases h
  | body d c =>
    rw [ha] at h
    cases c with
    | false => cases h
    | true =>
      obtain ⟨r, h1, h2, -⟩ := releaseInfo_sound h
      exact ⟨d, r, rfl, h1, h2⟩

/-- C58. An empty list of releases crashes the program. -/
theorem C58_empty_list_crashes (S : Sys) (t : Int) (w : World) (body : Bytes)
    (ha : S.answer w.tick githubReleases = .body body true) (hp : Json.DocR body (.arr [])) :
    (fetchInfo S t w).1 = .panic := by
  rw [fetchInfo_run, ha]
  show releaseInfo body = .panic
  unfold releaseInfo
  rw [unmarshalArr_iff.2 ⟨hp, rfl⟩]

/-! ### C47 -/

/-- A newer release is on offer: the server answers, and the first release it lists is newer. -/
def Offered (S : Sys) (w : World) : Prop :=
  ∃ body r, S.answer w.tick githubReleases = .body body true ∧ Publishes body r ∧ NewerTag r.tag

/-- C47. Without a newer release on offer, no file is touched – not at any time –, one request is made, and the
update does not succeed. -/
theorem C47_touches_nothing (S : Sys) (X : Ext) (t : Int) (cb : Nat → Ev) (w : World) (h : ¬ Offered S w) :
    (update S X t cb w).2.disk = w.disk ∧ (update S X t cb w).2.log = w.log ++ [.request githubReleases t] ∧
      ∀ a, (update S X t cb w).1 ≠ .ret (.ok a) := by
  unfold update
  rw [andThen_run]
  have hs := C58_nothing_else S t w
  rw [fetchInfo_run] at hs ⊢
  simp only at hs ⊢
  generalize answered (S.answer w.tick githubReleases) = o at hs ⊢
  cases o with
  | panic => exact ⟨rfl, rfl, by simp⟩
  | fatal => exact ⟨rfl, rfl, by simp⟩
  | ret r =>
    cases r with
    | error e => exact ⟨rfl, rfl, by simp⟩
    | ok info =>
      cases info with
      | none => exact ⟨rfl, rfl, by simp [Prog.pure]⟩
      | some i =>
        obtain ⟨body, r, h1, h2, h3⟩ := hs i rfl
        have : i.newer ≠ true := fun h0 => h ⟨body, r, h1, h2, h3.newer.1 h0⟩
        simp only [if_neg this]
        exact ⟨rfl, rfl, by simp [Prog.pure]⟩

/-- C47. The error, as far as it goes: no answer, an incomplete one, one that is no JSON list or has a number beyond
the range of float64, `null`, or a release that
is not newer give an error. Missing: an empty list, or a release without the expected members – see `C47_refuted`. -/
theorem C47_error_partial (S : Sys) (X : Ext) (t : Int) (cb : Nat → Ev) (w : World)
    (h : S.answer w.tick githubReleases = .failed ∨ (∃ b, S.answer w.tick githubReleases = .body b false) ∨
      ∃ body, S.answer w.tick githubReleases = .body body true ∧
        ((∀ l, ¬ Json.ReadR body (.arr l)) ∨ (∃ rest, Json.ReadR body (.arr (.null :: rest))) ∨
          ∃ r, Publishes body r ∧ Complete r ∧ ¬ NewerTag r.tag)) :
    ∃ e, (update S X t cb w).1 = .ret (.error e) := by
  unfold update
  rw [andThen_run, fetchInfo_run]
  rcases h with h | ⟨b, h⟩ | ⟨body, h, h2⟩
  · rw [h]; exact ⟨_, rfl⟩
  · rw [h]; exact ⟨_, rfl⟩
  · rw [h]
    rcases h2 with h2 | ⟨rest, h2⟩ | ⟨r, h2, h3, h4⟩
    · have : (∃ e, releaseInfo body = .ret (.error e)) ∨ releaseInfo body = .ret (.ok none) := by
        unfold releaseInfo
        cases hu : unmarshalArr body with
        | none => exact .inl ⟨_, rfl⟩
        | some o =>
          cases o with
          | none => exact .inr rfl
          | some l => exact absurd (unmarshalArr_iff.1 hu) (h2 l)
      rcases this with ⟨e, this⟩ | this
      · simp only [answered, this]; exact ⟨e, rfl⟩
      · simp only [answered, this]; exact ⟨_, rfl⟩
    · have : releaseInfo body = .ret (.ok none) := by
        unfold releaseInfo
        rw [unmarshalArr_iff.2 h2]
      simp only [answered, this]; exact ⟨_, rfl⟩
    · rcases releaseInfo_published body r h2 with ⟨i, h5, h6, -⟩ | ⟨-, h5⟩
      · simp only [answered, h5]
        have : i.newer ≠ true := fun h0 => h4 (h6.newer.1 h0)
        simp only [if_neg this]
        exact ⟨_, rfl⟩
      · exact absurd h3 h5

/-- C47 fails: a server without releases answers `[]`, and the update crashes instead of returning an error. -/
theorem C47_refuted : ∃ (S : Sys) (w : World), S.Quiet ∧ S.answer w.tick githubReleases = .body b!"[]" true ∧
    ∀ X t cb, (update S X t cb w).1 = .panic := by
  refine ⟨Toy.sys b!"[]" 0, Toy.world ⟨[], []⟩ [], fun _ => rfl, rfl, fun X t cb => ?_⟩
  unfold update
  rw [andThen_run]
  have h := C58_empty_list_crashes (Toy.sys b!"[]" 0) t (Toy.world ⟨[], []⟩ []) b!"[]" rfl (Json.parse_sound rfl)
  cases hr : fetchInfo (Toy.sys b!"[]" 0) t (Toy.world ⟨[], []⟩ []) with
  | mk o w' => rw [hr] at h; simp only at h; subst h; rfl

/-! ### C52 -/

theorem decimal_append (a b : Bytes) : decimal (a ++ b) = Num.onward (decimal a) b := by
  simp [decimal, Num.onward, List.foldl_append]

theorem decimal_snoc (a : Bytes) (b : UInt8) : decimal (a ++ [b]) = 10 * decimal a + (b.toNat - 48) := by
  simp [decimal, List.foldl_append]

/-- C52, as far as it holds: for versions with any major number and one-digit minor and patch numbers, a release is
taken for newer iff its version is greater than 1.3.1 component by component. -/
theorem C52_newer_partial (tag : Bytes) (x y z : Nat) (hv : IsVersion tag x y z)
    (hlen : ∃ a b c : Bytes, tag = a ++ 46 :: (b ++ 46 :: c) ∧ 46 ∉ a ∧ b.length = 1 ∧ c.length = 1) :
    NewerTag tag ↔ [1, 3, 1] < [x, y, z] := by
  obtain ⟨a, b, c, rfl, ⟨ha, hb, hc⟩, hd, rfl, rfl, rfl⟩ := hv
  have hdot : ∀ l : Bytes, (∀ d ∈ l, 48 ≤ d ∧ d ≤ 57) → 46 ∉ l := fun l hl h0 => absurd (hl 46 h0) (by decide)
  have da : ∀ d ∈ a, 48 ≤ d ∧ d ≤ 57 := fun d h => hd d (by simp [h])
  have db : ∀ d ∈ b, 48 ≤ d ∧ d ≤ 57 := fun d h => hd d (by simp [h])
  have dc : ∀ d ∈ c, 48 ≤ d ∧ d ≤ 57 := fun d h => hd d (by simp [h])
  -- the components are those of the other decomposition
  have uniq : ∀ (p q r s : Bytes), p ++ 46 :: q = r ++ 46 :: s → 46 ∉ p → 46 ∉ r → p = r ∧ q = s := by
    intro p
    induction p with
    | nil =>
      intro q r s h _ hr
      cases r with
      | nil => exact ⟨rfl, (List.cons.inj h).2⟩
      | cons e r => exact absurd (by rw [← (List.cons.inj h).1]; simp) hr
    | cons e p ih =>
      intro q r s h hp hr
      cases r with
      | nil => exact absurd (by rw [(List.cons.inj h).1]; simp) hp
      | cons f r =>
        obtain ⟨h1, h2⟩ := List.cons.inj h
        obtain ⟨h3, h4⟩ := ih q r s h2 (fun h0 => hp (by simp [h0])) (fun h0 => hr (by simp [h0]))
        exact ⟨by rw [h1, h3], h4⟩
  obtain ⟨a', b', c', e1, e2, e3, e4⟩ := hlen
  obtain ⟨rfl, e5⟩ := uniq _ _ _ _ e1 (hdot a da) e2
  have hb2 : b.length = 1 ∧ c.length = 1 := by
    have l1 := congrArg List.length e5
    simp only [List.length_append, List.length_cons] at l1
    have l2 := List.length_pos_iff.2 hb
    have l3 := List.length_pos_iff.2 hc
    omega
  obtain ⟨hb1, hc1⟩ := hb2
  obtain ⟨y, rfl⟩ := List.length_eq_one_iff.1 hb1
  obtain ⟨z, rfl⟩ := List.length_eq_one_iff.1 hc1
  have hfil : ∀ l : Bytes, (∀ d ∈ l, 48 ≤ d ∧ d ≤ 57) → l.filter (fun b => decide (b ≠ 46)) = l := by
    intro l hl
    rw [List.filter_eq_self]
    intro d hdl
    have := hdot l hl
    simp only [decide_eq_true_eq]
    rintro rfl
    exact this hdl
  have hdl : dotless (a ++ 46 :: ([y] ++ 46 :: [z])) = a ++ [y] ++ [z] := by
    unfold dotless
    rw [List.filter_append, hfil a da]
    have hy : y ≠ 46 := by rintro rfl; exact hdot [46] db (by simp)
    have hz : z ≠ 46 := by rintro rfl; exact hdot [46] dc (by simp)
    simp [List.filter_cons, hy, hz]
  unfold NewerTag
  rw [hdl]
  have hy := db y (by simp)
  have hz := dc z (by simp)
  have hyn : y.toNat - 48 ≤ 9 := by have := UInt8.le_iff_toNat_le.1 hy.2; simp at this; omega
  have hzn : z.toNat - 48 ≤ 9 := by have := UInt8.le_iff_toNat_le.1 hz.2; simp at this; omega
  have ey : decimal [y] = y.toNat - 48 := by simp [decimal]
  have ez : decimal [z] = z.toNat - 48 := by simp [decimal]
  have hall : decimal (a ++ [y] ++ [z]) = 100 * decimal a + 10 * decimal [y] + decimal [z] := by
    rw [decimal_snoc, decimal_snoc, ey, ez]; omega
  have hmain : Above 131 (a ++ [y] ++ [z]) ↔ 131 < 100 * decimal a + 10 * decimal [y] + decimal [z] := by
    rw [← hall]
    have hdig : ∀ d ∈ a ++ [y] ++ [z], 48 ≤ d ∧ d ≤ 57 := by
      intro d hd
      simp only [List.mem_append, List.mem_singleton] at hd
      rcases hd with (hd | rfl) | rfl
      · exact da d hd
      · exact hy
      · exact hz
    constructor
    · rintro ⟨pre, v, ⟨post, h1⟩, ⟨ds, k1, k2, (⟨rfl | rfl, rfl⟩ | ⟨rfl, rfl⟩)⟩, h3, h4⟩
      · rw [← h1, decimal_append]
        have := Num.onward_ge (decimal pre) post
        omega
      · exfalso
        exact absurd (hdig 43 (by rw [← h1]; simp)) (by decide)
      · exfalso
        omega
    · intro h
      exact ⟨_, _, List.prefix_rfl, ⟨_, by simp, hdig, .inl ⟨.inl rfl, rfl⟩⟩, by exact_mod_cast h, .inl rfl⟩
  rw [hmain, ey, ez]
  generalize decimal a = x at *
  generalize y.toNat - 48 = y at *
  generalize z.toNat - 48 = z at *
  simp only [List.cons_lt_cons_iff, List.lt_irrefl, and_false, or_false]
  omega

/-- C52 fails in general: 2.0 is greater than 1.3.1 but not taken for newer, and 1.2.10 is smaller but taken for newer. -/
theorem C52_refuted : (¬ NewerTag b!"2.0" ∧ [1, 3, 1] < [2, 0]) ∧
    (NewerTag b!"1.2.10" ∧ IsVersion b!"1.2.10" 1 2 10 ∧ ¬ [1, 3, 1] < [1, 2, 10]) := by
  refine ⟨⟨?_, by decide⟩, ?_, ⟨b!"1", b!"2", b!"10", by decide +kernel⟩, by decide⟩
  · rw [← versionNumber_newer]; decide +kernel
  · rw [← versionNumber_newer]; decide +kernel

/-! ### C53 -/

theorem of_mem_takeWhile {p : UInt8 → Bool} {l : Bytes} {b : UInt8} (h : b ∈ l.takeWhile p) : p b = true := by
  induction l with
  | nil => cases h
  | cons c l ih =>
    rw [List.takeWhile_cons] at h
    by_cases hc : p c = true
    · rw [if_pos hc] at h
      rcases List.mem_cons.1 h with rfl | h
      · exact hc
      · exact ih h
    · rw [if_neg hc] at h; cases h

theorem dropWhile_nil {p : UInt8 → Bool} {l : Bytes} (h : l.dropWhile p = []) : ∀ b ∈ l, p b = true := by
  induction l with
  | nil => simp
  | cons c l ih =>
    rw [List.dropWhile_cons] at h
    by_cases hc : p c = true
    · rw [if_pos hc] at h
      intro b hb
      rcases List.mem_cons.1 hb with rfl | hb
      · exact hc
      · exact ih h b hb
    · rw [if_neg hc] at h; cases h

theorem hex_eq (b : Bytes) : hex b = hexText b := by
  unfold hex hexText
  congr 1
  funext x
  revert x
  decide +kernel

/-- The first field of a text, trimmed, is its first word. -/
theorem fields_iff (s w : Bytes) : (Str.fields (Str.trimSpace s)).head? = some w ↔ FirstWord s w :=
  Str.fields_trim s w

/-- C53. Nothing failing, the check succeeds iff the first word of the checksum file is the MD5 of the binary in
lower-case hexadecimal; a file without words crashes it, another word is refused. -/
theorem C53_checksum (S : Sys) (hq : S.Quiet) (X : Ext) (binary file data sums : Bytes) (w : World)
    (h1 : w.disk.readFile file = some sums) (h2 : w.disk.readFile binary = some data) :
    ((validateChecksum S X binary file w).1 = .ret (.ok ()) ↔ FirstWord sums (hexText (X.md5 data))) ∧
    ((validateChecksum S X binary file w).1 = .panic ↔ AllWhite sums) ∧
    ((validateChecksum S X binary file w).1 = .ret (.error .invalidMd5) ↔
      ∃ word, FirstWord sums word ∧ word ≠ hexText (X.md5 data)) := by
  have hrun : (validateChecksum S X binary file w).1 =
      match (Str.fields (Str.trimSpace sums)).head? with
      | none => .panic
      | some c => .ret (if c ≠ hex (X.md5 data) then .error .invalidMd5 else .ok ()) := by
    unfold validateChecksum
    rw [andThen_run, Os.readFile_run, h1]
    simp only [hq w.tick, if_true]
    rw [andThen_run, Os.readFile_run]
    simp only [hq (w.tick + 1), h2, if_true]
    cases Str.fields (Str.trimSpace sums) with
    | nil => rfl
    | cons c r => rfl
  have hw : ∀ word, (Str.fields (Str.trimSpace sums)).head? = some word ↔ FirstWord sums word := fields_iff sums
  rw [hrun, ← hex_eq]
  cases hf : (Str.fields (Str.trimSpace sums)).head? with
  | none =>
    rw [hf] at hw
    have hno : ∀ word, ¬ FirstWord sums word := fun word h0 => by have := (hw word).2 h0; cases this
    have hwhite : AllWhite sums := (Str.fields_trim_nil sums).1 (List.head?_eq_none_iff.1 hf)
    refine ⟨⟨fun h => by simp at h, fun h => absurd h (hno _)⟩, ⟨fun _ => hwhite, fun _ => rfl⟩, ⟨fun h => by simp at h, ?_⟩⟩
    rintro ⟨word, h, -⟩
    exact absurd h (hno _)
  | some c =>
    rw [hf] at hw
    have hc : FirstWord sums c := (hw c).1 rfl
    have hu : ∀ word, FirstWord sums word → word = c := fun word h0 => (Option.some.inj ((hw word).2 h0)).symm
    have hnw : ¬ AllWhite sums := by
      intro h0
      rw [(Str.fields_trim_nil sums).2 h0] at hf
      cases hf
    by_cases hne : c ≠ hex (X.md5 data)
    · simp only [if_pos hne]
      refine ⟨⟨fun h => by simp at h, fun h => absurd (hu _ h).symm hne⟩, ⟨fun h => by simp at h, fun h => absurd h hnw⟩,
        ⟨fun _ => ⟨c, hc, hne⟩, fun _ => by trivial⟩⟩
    · simp only [if_neg hne]
      rw [not_not] at hne
      refine ⟨⟨fun _ => hne ▸ hc, fun _ => by trivial⟩, ⟨fun h => by simp at h, fun h => absurd h hnw⟩, ⟨fun h => by simp at h, ?_⟩⟩
      rintro ⟨word, h, h0⟩
      exact absurd ((hu _ h).trans hne) h0

/-! ### Examples -/

/-- A list with one release, newer, with an archive and a checksum file. -/
def sampleBody : Bytes := b!"[{\"tag_name\":\"1.4.0\",\"body\":\"news\",\"assets\":[{\"name\":\"1pass.tar.gz\",\"browser_download_url\":\"u/a\"},{\"name\":\"1pass.md5\",\"browser_download_url\":\"u/s\"},{\"name\":\"notes.txt\"}]}]"

def sampleRelease : Release :=
  ⟨b!"1.4.0", b!"news", [(b!"1pass.tar.gz", some b!"u/a"), (b!"1pass.md5", some b!"u/s"), (b!"notes.txt", none)]⟩

def sampleInfo : UpdateInfo :=
  { archiveUrl := b!"u/a", checksumUrl := b!"u/s", changelog := b!"news", version := b!"1.4.0", newer := true }

theorem sample_info : releaseInfo sampleBody = .ret (.ok (some sampleInfo)) := by decide +kernel

/-- C58, C47: the sample is published; it is newer. -/
example : ∃ r, Publishes sampleBody r ∧ Describes r sampleInfo ∧ Complete r := releaseInfo_sound sample_info
example : NewerTag b!"1.4.0" := (versionNumber_newer _).1 (by decide +kernel)
example : ¬ NewerTag b!"1.3.1" := fun h => absurd ((versionNumber_newer _).2 h) (by decide +kernel)
set_option maxRecDepth 10000 in
example : (fetchInfo (Toy.sys sampleBody 0) 5 (Toy.world ⟨[], []⟩ [])).1 = .ret (.ok (some sampleInfo)) := by
  rw [fetchInfo_run]
  show releaseInfo sampleBody = _
  rw [sample_info]

/-- C47: nothing on offer. -/
example : ¬ Offered (Toy.sys b!"null" 0) (Toy.world ⟨[], []⟩ []) := by
  rintro ⟨body, r, h1, ⟨m, rest, as, h2, -⟩, -⟩
  cases h1
  have : Json.parse b!"null" = some .null := rfl
  rw [Json.parse_complete h2.1] at this; cases this

/-- C52: versions the theorem speaks about. -/
example : IsVersion b!"12.0.3" 12 0 3 := ⟨b!"12", b!"0", b!"3", by decide +kernel⟩
example : NewerTag b!"12.0.3" :=
  (C52_newer_partial _ 12 0 3 ⟨b!"12", b!"0", b!"3", by decide +kernel⟩
    ⟨b!"12", b!"0", b!"3", by decide +kernel⟩).2 (by decide)

/-- C53: the usual format of `md5sum`. -/
example : FirstWord b!"00ff  1pass\n" (hexText [0, 255]) :=
  (fields_iff _ _).1 (by decide +kernel)
/-- C53: white space beyond ASCII separates words, too (a no-break space, an ideographic space). -/
example : FirstWord (Str.utf8 [0xA0, 0x30, 0x30, 0x66, 0x66, 0x3000, 0x78]) (hexText [0, 255]) :=
  (fields_iff _ _).1 (by decide +kernel)

end Upd
end OnePass
