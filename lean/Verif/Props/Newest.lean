/-
C144: the newest of the releases published is found.
-/
import Verif.Props.Versions
import Verif.Props.Throttle

set_option linter.unusedSimpArgs false

namespace OnePass
namespace Upd
open Spec
open Prog hiding pure bind get panic

/-- A JSON value is this release. -/
def IsRelease (j : Json) (r : Release) : Prop :=
  ∃ m as, j = .obj m ∧ Json.field m b!"tag_name" = .str r.tag ∧ Json.field m b!"body" = .str r.changelog ∧
    Json.field m b!"assets" = .arr as ∧ List.Forall₂ IsAsset as r.assets

/-- An answer of the server is the list of these releases. -/
def Lists (body : Bytes) (rs : List Release) : Prop := ∃ js, Json.ReadR body (.arr js) ∧ List.Forall₂ IsRelease js rs

/-- The numbers of a version. -/
def Numbers (r : Release) (v : List Nat) : Prop := ∃ x y z, v = [x, y, z] ∧ IsVersion r.tag x y z

theorem split_unique {p q r s : Bytes} (h : p ++ 46 :: q = r ++ 46 :: s) (hp : 46 ∉ p) (hr : 46 ∉ r) : p = r ∧ q = s := by
  induction p generalizing r with
  | nil =>
    cases r with
    | nil => exact ⟨rfl, (List.cons.inj h).2⟩
    | cons e r => exact absurd (by rw [← (List.cons.inj h).1]; simp) hr
  | cons e p ih =>
    cases r with
    | nil => exact absurd (by rw [(List.cons.inj h).1]; simp) hp
    | cons f r =>
      obtain ⟨rfl, h3⟩ := List.cons.inj h
      obtain ⟨rfl, h2⟩ := ih h3 (fun x => hp (by simp [x])) (fun x => hr (by simp [x]))
      exact ⟨rfl, h2⟩

/-- A version has one sequence of numbers. -/
theorem Numbers.unique {r : Release} {u v : List Nat} (hu : Numbers r u) (hv : Numbers r v) : u = v := by
  obtain ⟨x, y, z, rfl, a, b, c, h1, -, h2, rfl, rfl, rfl⟩ := hu
  obtain ⟨x, y, z, rfl, a', b', c', h1', -, h2', rfl, rfl, rfl⟩ := hv
  have hdot : ∀ l : Bytes, (∀ d ∈ l, 48 ≤ d ∧ d ≤ 57) → 46 ∉ l := fun l hl h0 => absurd (hl 46 h0) (by decide)
  rw [h1] at h1'
  obtain ⟨rfl, h3⟩ := split_unique h1' (hdot a fun d h => h2 d (by simp [h])) (hdot a' fun d h => h2' d (by simp [h]))
  obtain ⟨rfl, rfl⟩ := split_unique h3 (hdot b fun d h => h2 d (by simp [h])) (hdot b' fun d h => h2' d (by simp [h]))
  rfl

theorem Lists.publishes {body : Bytes} {r : Release} {rs : List Release} (h : Lists body (r :: rs)) : Publishes body r := by
  obtain ⟨js, h1, h2⟩ := h
  cases h2 with
  | cons h3 h4 =>
    obtain ⟨m, as, rfl, h5⟩ := h3
    exact ⟨m, _, as, h1, h5⟩

/-- C144, how far the code looks: what follows the first release in the list makes no difference to a check. -/
theorem C144_first_only (S S' : Sys) (X : Ext) (p t : Int) (dir : Bytes) (w : World) (first : Json) (rest rest' : List Json)
    (body body' : Bytes) (h : Json.ReadR body (.arr (first :: rest))) (h' : Json.ReadR body' (.arr (first :: rest')))
    (ha : S.answer w.tick githubReleases = .body body true) (ha' : S'.answer w.tick githubReleases = .body body' true) :
    (checkForUpdate S X p t true dir w).1 = (checkForUpdate S' X p t true dir w).1 := by
  have hi : releaseInfo body = releaseInfo body' := by
    unfold releaseInfo
    rw [unmarshalArr_iff.2 h, unmarshalArr_iff.2 h']
    cases first <;> rfl
  rw [check_asks S X p t true dir w w (by simp) (fun _ => rfl), check_asks S' X p t true dir w w (by simp) (fun _ => rfl), ha, ha']
  have hi' : answered (.body body true) = answered (.body body' true) := hi
  rw [hi']
  generalize answered (.body body' true) = o
  cases o with
  | ret r => cases r <;> rfl
  | panic => rfl
  | fatal => rfl

/-- C144, as far as it holds: if the greatest version is at the head of the list, and it is a version of three numbers greater
than the one that runs, it is the one a check finds. -/
theorem C144_greatest_first_partial (S : Sys) (X : Ext) (p t : Int) (dir : Bytes) (w : World) (body : Bytes) (r : Release) (rs : List Release)
    (ha : S.answer w.tick githubReleases = .body body true) (hl : Lists body (r :: rs)) (hc : Complete r) (v : List Nat) (hv : Numbers r v)
    (hmax : ∀ q ∈ r :: rs, ∀ u, Numbers q u → u ≤ v) (q : Release) (hq : q ∈ r :: rs) (u : List Nat) (hu : Numbers q u) (hn : [1, 3, 1] < u) :
    ∃ i, (checkForUpdate S X p t true dir w).1 = .ret (.ok i) ∧ Describes r i := by
  obtain ⟨x, y, z, rfl, hv⟩ := hv
  have hlt : [1, 3, 1] < [x, y, z] := lt_of_lt_of_le hn (hmax q hq u hu)
  have hnew := C52_never_missed r.tag x y z hv hlt
  rcases releaseInfo_published body r hl.publishes with ⟨i, h1, h2, -⟩ | ⟨-, h⟩
  · refine ⟨i, ?_, h2⟩
    rw [check_asks S X p t true dir w w (by simp) (fun _ => rfl), ha]
    have : answered (.body body true) = .ret (.ok (some i)) := h1
    rw [this]
    simp only [h2.newer.2 hnew, if_true]
  · exact absurd hc h

namespace Newest

/-- A list of releases with these tags and nothing else. -/
def page (a b : Bytes) : Bytes :=
  b!"[{\"body\":\"\",\"tag_name\":\"" ++ a ++ b!"\",\"assets\":[]},{\"body\":\"\",\"tag_name\":\"" ++ b ++ b!"\",\"assets\":[]}]"

def check (a b : Bytes) : Out (Except Err UpdateInfo) :=
  (checkForUpdate (Toy.sys (page a b) 0) Toy.ext 7 5 true b!"/h" (Toy.world (Cli.stampDisk b!"1") [])).1

/-- What is in that list. -/
def entry (a : Bytes) : Release := { tag := a, changelog := [], assets := [] }

def member (a : Bytes) : Json := Json.obj [(b!"body", Json.str []), (b!"tag_name", Json.str a), (b!"assets", Json.arr [])]

theorem member_release (a : Bytes) : IsRelease (member a) (entry a) := ⟨_, [], rfl, rfl, rfl, rfl, .nil⟩

end Newest

/-- What was hoped for: if the server lists a version greater than the one that runs, a check finds the greatest one listed. -/
def C144_wish : Prop := ∀ (S : Sys) (X : Ext) (p t : Int) (dir : Bytes) (w : World) (body : Bytes) (rs : List Release),
  S.Quiet → S.answer w.tick githubReleases = .body body true → Lists body rs → (∀ r ∈ rs, Complete r ∧ ∃ v, Numbers r v) →
  (∃ r ∈ rs, ∃ v, Numbers r v ∧ [1, 3, 1] < v) →
  ∃ r ∈ rs, (∃ v, Numbers r v ∧ ∀ q ∈ rs, ∀ u, Numbers q u → u ≤ v) ∧
    ∃ i, (checkForUpdate S X p t true dir w).1 = .ret (.ok i) ∧ Describes r i

open Newest in
/-- C144 is false: 1.2.9, a correction of an old release, was published after 2.0.0. -/
theorem C144_refuted : ¬ C144_wish := by
  intro h
  have hp : Json.parse (page b!"1.2.9" b!"2.0.0") = some (Json.arr [member b!"1.2.9", member b!"2.0.0"]) := by rfl
  have hlist : Lists (page b!"1.2.9" b!"2.0.0") [entry b!"1.2.9", entry b!"2.0.0"] :=
    ⟨_, ⟨Json.parse_sound hp, rfl⟩, .cons (member_release _) (.cons (member_release _) .nil)⟩
  have h1 : Numbers (entry b!"1.2.9") [1, 2, 9] := ⟨1, 2, 9, rfl, b!"1", b!"2", b!"9", by decide +kernel⟩
  have h2 : Numbers (entry b!"2.0.0") [2, 0, 0] := ⟨2, 0, 0, rfl, b!"2", b!"0", b!"0", by decide +kernel⟩
  have hc : ∀ a, Complete (entry a) := fun a x hx => by cases hx
  obtain ⟨r, -, -, i, h3, -⟩ := h (Toy.sys (page b!"1.2.9" b!"2.0.0") 0) Toy.ext 7 5 b!"/h" (Toy.world (Cli.stampDisk b!"1") [])
    _ _ (fun _ => rfl) rfl hlist (by
      intro r hr
      rcases List.mem_cons.1 hr with rfl | hr
      · exact ⟨hc _, _, h1⟩
      · rcases List.mem_cons.1 hr with rfl | hr
        · exact ⟨hc _, _, h2⟩
        · cases hr)
    ⟨entry b!"2.0.0", by simp, _, h2, by decide⟩
  have h4 : check b!"1.2.9" b!"2.0.0" = .ret (.error .noUpdate) := by decide +kernel
  unfold check at h4
  rw [h4] at h3
  cases h3

open Newest in
/-- C144: the hypotheses of what holds can be met. -/
example : ∃ i, check b!"2.0.0" b!"1.2.9" = .ret (.ok i) ∧ Describes (entry b!"2.0.0") i := by
  have hp : Json.parse (page b!"2.0.0" b!"1.2.9") = some (Json.arr [member b!"2.0.0", member b!"1.2.9"]) := by rfl
  have h1 : Numbers (entry b!"1.2.9") [1, 2, 9] := ⟨1, 2, 9, rfl, b!"1", b!"2", b!"9", by decide +kernel⟩
  have h2 : Numbers (entry b!"2.0.0") [2, 0, 0] := ⟨2, 0, 0, rfl, b!"2", b!"0", b!"0", by decide +kernel⟩
  refine C144_greatest_first_partial (Toy.sys (page b!"2.0.0" b!"1.2.9") 0) Toy.ext 7 5 b!"/h" (Toy.world (Cli.stampDisk b!"1") [])
    _ (entry b!"2.0.0") [entry b!"1.2.9"] rfl ⟨_, ⟨Json.parse_sound hp, rfl⟩, .cons (member_release _) (.cons (member_release _) .nil)⟩
    (fun x hx => by cases hx) _ h2 ?_ (entry b!"2.0.0") (by simp) _ h2 (by decide)
  intro q hq u hu
  rcases List.mem_cons.1 hq with rfl | hq
  · rw [hu.unique h2]
  · rw [List.mem_singleton.1 hq] at hu
    rw [hu.unique h1]
    decide

open Newest in
/-- C144: in the order of the versions 2.0.0 is found; in another order, an older one that is still newer than 1.3.1. -/
example : (match check b!"2.0.0" b!"1.2.9" with | .ret (.ok i) => some i.version | _ => none) = some b!"2.0.0" ∧
    (match check b!"1.4.0" b!"2.0.0" with | .ret (.ok i) => some i.version | _ => none) = some b!"1.4.0" ∧
    check b!"1.2.9" b!"1.3.0" = .ret (.error .noUpdate) := by decide +kernel

end Upd
end OnePass
