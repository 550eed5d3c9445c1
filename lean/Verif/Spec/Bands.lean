/-
What the band files of a vault are, and which raw items they hold. Written down from the OPVault format; the
only things used from the model are the disk and the JSON grammar.
-/
import Verif.Go.PathFacts
import Verif.Model.Domain

namespace OnePass
namespace Spec
open Json

/-- The last member with key `k` has value `v`. -/
def LastEntry (m : Members) (k : Bytes) (v : Json) : Prop :=
  ∃ a b, m = a ++ (k, v) :: b ∧ ∀ e ∈ b, e.1 ≠ k

/-- No member has key `k`. -/
def NoEntry (m : Members) (k : Bytes) : Prop := ∀ e ∈ m, e.1 ≠ k

/-- The names of the band files in a directory, in byte order. -/
def BandNames (d : Disk) (dir : List Bytes) (names : List Bytes) : Prop :=
  names.Pairwise (· < ·) ∧ ∀ n, n ∈ names ↔ Path.IsBand n ∧ d.at? (dir ++ [n]) ≠ none

/-- A band file: four bytes (`ld({`), JSON members with optional white space in front – no number in
them beyond the range of float64 –, three bytes (`});`). -/
def BandText (file : Bytes) (m : Members) : Prop :=
  ∃ pre w t post, file = pre ++ w ++ t ++ post ∧ pre.length = 4 ∧ post.length = 3 ∧ WS w ∧ MemsR 9999 t m ∧
    finiteM m = true

/-- The file `name` in `dir` is a band file with members `m`. -/
def BandFile (d : Disk) (dir : List Bytes) (name : Bytes) (m : Members) : Prop :=
  ∃ data x, d.at? (dir ++ [name]) = some (.file data x) ∧ BandText data m

/-- The members `m` describe the raw item `r`. Numbers are whatever their literal converts to
(`Flt.toInt`, exact for integers up to 2^53); a missing or null trashed flag means not trashed. -/
structure ItemDoc (F : Flt) (m : Members) (r : RawItem) : Prop where
  category : LastEntry m b!"category" (.str r.category)
  created : ∃ t, LastEntry m b!"created" (.num t) ∧ F.toInt t = r.created
  updated : ∃ t, LastEntry m b!"updated" (.num t) ∧ F.toInt t = r.updated
  details : LastEntry m b!"d" (.str r.details)
  hmac : LastEntry m b!"hmac" (.str r.hmac)
  keys : LastEntry m b!"k" (.str r.keys)
  overview : LastEntry m b!"o" (.str r.overview)
  trashed : LastEntry m b!"trashed" (.bool r.trashed) ∨
    (r.trashed = false ∧ (LastEntry m b!"trashed" .null ∨ NoEntry m b!"trashed"))

/-- A vault directory: a usable path without the special characters of glob patterns, on a disk whose names
contain no slash, with a directory `default` in it. -/
structure VaultDir (d : Disk) (v : Bytes) (dir : List Bytes) : Prop where
  nonempty : v ≠ []
  noMeta : ∀ b ∈ v, b ≠ 42 ∧ b ≠ 63 ∧ b ≠ 91 ∧ b ≠ 92
  names : ∀ e ∈ d.fs, ∀ c ∈ e.1, (47 : UInt8) ∉ c
  dir_eq : dir = Path.resolve d.cwd v ++ [b!"default"]
  exist : d.at? dir = some .dir

end Spec
end OnePass
