/-
C126: how many files an update needs open at a time.
-/
import Verif.Model.Fds
import Verif.Props.Install

namespace OnePass
namespace Upd
open Prog

/-- The number of files in an archive. -/
def files (l : List TarEntry) : Nat := (l.filter (·.reg)).length

/-- C126 as one would like it: where the archive and one file can be open at a time, an archive can be unpacked if it can be
unpacked without a limit. -/
def C126_wish : Prop :=
  ∀ (S : Sys) (X : Ext) (limit opened : Nat) (src dst : Bytes) (w : World), opened + 2 ≤ limit →
    (extractArchive S X src dst w).1 = .ret (.ok ()) → (Fds.extractArchive S X limit opened src dst w).1 = .ret (.ok ())

theorem entries_enough (S : Sys) (limit : Nat) (dst : Bytes) (clean : Bool) (l : List TarEntry) (opened : Nat)
    (h : opened + files l ≤ limit) : Fds.extractEntries S limit dst clean opened l = extractEntries S dst clean l := by
  induction l generalizing opened with
  | nil => rfl
  | cons e r ih =>
    unfold Fds.extractEntries extractEntries
    cases hr : e.reg with
    | false =>
      simp only [files, hr, List.filter_cons] at h
      exact ih opened h
    | true =>
      simp only [files, hr, List.filter_cons, if_true, List.length_cons] at h
      have h' : opened + 1 + files r ≤ limit := by unfold files; omega
      have hlt : opened < limit := by omega
      simp only [if_true, Fds.create, if_pos hlt, ih _ h']

/-- C126, as far as it holds: if all files of the archive may be open at once, the limit does not matter. Missing: fewer
(`C126_too_many`). -/
theorem C126_enough_partial (S : Sys) (X : Ext) (limit opened : Nat) (src dst : Bytes)
    (h : ∀ data, opened + 1 + files (X.untar data).1 ≤ limit) :
    Fds.extractArchive S X limit opened src dst = extractArchive S X src dst := by
  unfold Fds.extractArchive extractArchive
  rw [if_pos (by have := h []; omega)]
  congr 1
  funext data
  exact entries_enough S limit dst _ _ _ (h data)

theorem andThen_not_ok {α β : Type} {m : Prog (Except Err α)} {f : α → Prog (Except Err β)} {w : World}
    (h : ∀ a w1, m w = (.ret (.ok a), w1) → ∀ b, (f a w1).1 ≠ .ret (.ok b)) (b : β) : (andThen m f w).1 ≠ .ret (.ok b) := by
  rcases andThen_split m f w with ⟨a, w1, h1, h2⟩ | ⟨-, -, h3, -⟩
  · rw [h2]
    exact h a w1 h1 b
  · exact h3 b

theorem entries_too_many (S : Sys) (limit : Nat) (dst : Bytes) (clean : Bool) (l : List TarEntry) (opened : Nat) (w : World)
    (ho : opened ≤ limit) (h : limit < opened + files l) : (Fds.extractEntries S limit dst clean opened l w).1 ≠ .ret (.ok ()) := by
  induction l generalizing opened w with
  | nil =>
    simp only [files, List.filter_nil, List.length_nil] at h
    omega
  | cons e r ih =>
    unfold Fds.extractEntries
    cases hr : e.reg with
    | false =>
      simp only [files, hr, List.filter_cons] at h
      exact ih opened w ho h
    | true =>
      simp only [files, hr, List.filter_cons, if_true, List.length_cons] at h
      simp only [if_true]
      apply andThen_not_ok
      intro a w1 h1
      by_cases hlt : opened < limit
      · intro b
        exact ih (opened + 1) w1 (by omega) (by unfold files; omega)
      · exfalso
        have := andThen_not_ok (m := Fds.create S limit opened (Path.join [dst, e.name])) (f := fun f => Os.write S f e.data e.whole)
          (w := w) (fun a w1 h2 => by
            unfold Fds.create at h2
            rw [if_neg hlt] at h2
            cases h2) a
        rw [h1] at this
        exact this rfl

/-- C126. An archive with more files than may be open besides what is open is never unpacked. -/
theorem C126_too_many (S : Sys) (X : Ext) (limit opened : Nat) (src dst : Bytes) (w : World)
    (h : ∀ data, limit < opened + 1 + files (X.untar data).1) :
    (Fds.extractArchive S X limit opened src dst w).1 ≠ .ret (.ok ()) := by
  unfold Fds.extractArchive
  split
  · apply andThen_not_ok
    intro data w1 _ _
    exact entries_too_many S limit dst _ _ _ w1 (by omega) (h data)
  · intro h
    cases h

/-- An archive with two files. -/
def twoFiles : List TarEntry := [⟨b!"1pass", true, b!"new", true⟩, ⟨b!"README", true, b!"text", true⟩]

def packed : World := Toy.world (samplePlace.put archiveLoc (.file b!"" false)) []

theorem twoFiles_unpacked :
    (extractArchive (Toy.sys [] 0) (sampleExt twoFiles) (Path.join [cacheDir, archiveName]) cacheDir packed).1 = .ret (.ok ()) := by
  decide +kernel

/-- With three files open (the standard ones) and a limit of six it is unpacked, with five not. -/
theorem C126_runs :
    (Fds.extractArchive (Toy.sys [] 0) (sampleExt twoFiles) 6 3 (Path.join [cacheDir, archiveName]) cacheDir packed).1 = .ret (.ok ()) ∧
    (Fds.extractArchive (Toy.sys [] 0) (sampleExt twoFiles) 5 3 (Path.join [cacheDir, archiveName]) cacheDir packed).1 =
      .ret (.error ioErr) := by decide +kernel

/-- C126 fails. -/
theorem C126_refuted : ¬ C126_wish := by
  intro h
  have := h (Toy.sys [] 0) (sampleExt twoFiles) 5 3 (Path.join [cacheDir, archiveName]) cacheDir packed (by omega) twoFiles_unpacked
  exact C126_too_many _ _ 5 3 _ _ _ (fun _ => by show 5 < 3 + 1 + files twoFiles; decide) this

end Upd
end OnePass
