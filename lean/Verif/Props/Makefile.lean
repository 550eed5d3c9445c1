/-
C145: what the Makefile releases can be installed by the program that is released with it.
-/
import Verif.Props.Publish
import Verif.Props.Versions

set_option linter.unusedSimpArgs false

namespace OnePass
namespace Cli
open Prog Fmt Spec Upd

/-- Makefile:34: the name of the archive. -/
def madeArchive (version : Bytes) : Bytes := b!"1pass_" ++ version ++ b!"_Linux_x86_64.tar.gz"

/-- Makefile:8, 33: what `md5sum 1pass` prints. -/
def madeSums (X : Ext) (data : Bytes) : Bytes := hexText (X.md5 data) ++ b!"  1pass\n"

/-- Makefile:29-35 `release`, and the upload: a release whose tag is the version, with the archive of the program alone and the
checksum file, in either order; whatever is asked for is answered completely. -/
def Made (S : Sys) (X : Ext) (version data : Bytes) : Prop :=
  ∃ body r archive ua uc, (∀ n, S.answer n githubReleases = .body body true) ∧ Publishes body r ∧ r.tag = version ∧
    (r.assets = [(madeArchive version, some ua), (b!"checksum.md5", some uc)] ∨
      r.assets = [(b!"checksum.md5", some uc), (madeArchive version, some ua)]) ∧
    (∀ n, S.answer n ua = .body archive true) ∧ X.untar archive = ([⟨b!"1pass", true, data, true⟩], true) ∧
    ∀ n, S.answer n uc = .body (madeSums X data) true

theorem hex_noWhite (b : Bytes) : Str.NoWhite (hexText b) := by
  have hdig : ∀ n, n < 16 → ∀ r, Str.spaceLen ((b!"0123456789abcdef").getD n 0 :: r) = 0 := by
    intro n hn r
    have : ∀ n, n < 16 → Str.isSpaceA ((b!"0123456789abcdef").getD n 0) = false ∧
        ((b!"0123456789abcdef").getD n 0 == 0xC2) = false ∧ ((b!"0123456789abcdef").getD n 0 == 0xE1) = false ∧
        ((b!"0123456789abcdef").getD n 0 == 0xE2) = false ∧ ((b!"0123456789abcdef").getD n 0 == 0xE3) = false := by decide
    obtain ⟨h1, h2, h3, h4, h5⟩ := this n hn
    generalize (b!"0123456789abcdef").getD n 0 = d at *
    match r with
    | [] => simp [Str.spaceLen, h1]
    | [x] => simp [Str.spaceLen, h1, h2]
    | x :: y :: r => simp [Str.spaceLen, h1, h2, h3, h4, h5]
  have hmem : ∀ d ∈ hexText b, ∃ n, n < 16 ∧ d = (b!"0123456789abcdef").getD n 0 := by
    intro d hd
    obtain ⟨x, -, hd⟩ := List.mem_flatMap.1 hd
    rcases List.mem_cons.1 hd with rfl | hd
    · exact ⟨x.toNat / 16, by have := x.toNat_lt; omega, rfl⟩
    · exact ⟨x.toNat % 16, by omega, List.mem_singleton.1 hd⟩
  rintro c hc ⟨p, q, h⟩
  have hw := Str.spaceLen_enc_white hc q
  cases he : Json.utf8Enc c with
  | nil =>
    unfold Json.utf8Enc at he
    split at he
    · cases he
    · split at he
      · cases he
      · split at he <;> cases he
  | cons d t =>
    obtain ⟨n, hn, rfl⟩ := hmem d (by rw [← h, he]; simp)
    rw [he, List.cons_append, hdig n hn] at hw
    simp at hw

theorem madeSums_first (X : Ext) (data : Bytes) : FirstWord (madeSums X data) (hexText (X.md5 data)) := by
  refine ⟨[], b!"  1pass\n", rfl, by simp, ?_, hex_noWhite _, .inr ⟨32, b!" 1pass\n", by unfold Str.White; omega, by decide +kernel⟩⟩
  intro h
  have hl : (hexText (X.md5 data)).length = 2 * (X.md5 data).length := by
    unfold hexText
    induction X.md5 data with
    | nil => rfl
    | cons x r ih => rw [List.flatMap_cons, List.length_append, ih]; simp; omega
  rw [h, X.md5_len] at hl
  cases hl

/-- C145. A release built by the Makefile under a greater version of three numbers, and uploaded, is installed by `update`, if
nothing fails, the user agrees, and the program is a file on the file system of `/tmp`. (That the file has lost its execute bit
is C55.) -/
theorem C145_made_installs (C : Ctx) (hq : C.sys.Quiet) (hdir : C.dir ≠ []) (w : World) (hc : WellTyped w.conf) (version data : Bytes)
    (x y z : Nat) (hv : IsVersion version x y z) (hn : [1, 3, 1] < [x, y, z]) (hm : Made C.sys C.ext version data)
    (e : Bytes) (hp : Replaceable C.sys w.disk e) (a rest : Bytes) (ht : Types w.stdin a rest) (hy : Yes C.env.text a) :
    ∃ w', command C .update w = (.ret (), w') ∧ w'.disk.at? (Path.resolve w.disk.cwd e) = some (.file data false) ∧
      (∀ l, cacheLoc <+: l → w'.disk.at? l = none) ∧
      (texts w'.log).getLast? = some (b!"1pass application updated to version " ++ version ++ b!"\n") := by
  obtain ⟨body, r, archive, ua, uc, h1, h2, rfl, h3, h4, h5, h6⟩ := hm
  have ka : IsArchive (madeArchive r.tag, some ua) := ⟨b!"1pass_" ++ r.tag ++ b!"_Linux_x86_64", [], by simp [madeArchive]⟩
  have kc : ¬ IsArchive (b!"checksum.md5", some uc) := by
    unfold IsArchive
    show ¬ b!".tar.gz" <:+: b!"checksum.md5"
    decide +kernel
  have kc' : IsChecksum (b!"checksum.md5", some uc) := ⟨kc, by show b!".md5" <:+: b!"checksum.md5"; decide +kernel⟩
  have ka' : ¬ IsChecksum (madeArchive r.tag, some ua) := fun h => h.1 ka
  have hcomp : Complete r := by
    intro q hq _
    rcases h3 with h3 | h3 <;> rw [h3] at hq <;> rcases List.mem_cons.1 hq with rfl | hq
    · simp
    · rw [List.mem_singleton.1 hq]; simp
    · simp
    · rw [List.mem_singleton.1 hq]; simp
  rcases releaseInfo_published body r h2 with ⟨i, -, hd, -⟩ | ⟨-, h⟩
  swap
  · exact absurd hcomp h
  have hurl : LastUrl IsArchive r.assets ua ∧ LastUrl IsChecksum r.assets uc := by
    rcases h3 with h3 | h3 <;> rw [h3]
    · exact ⟨.inl ⟨[], madeArchive r.tag, [(b!"checksum.md5", some uc)], rfl, ka, by simpa using kc⟩,
        .inl ⟨[(madeArchive r.tag, some ua)], b!"checksum.md5", [], rfl, kc', by simp⟩⟩
    · exact ⟨.inl ⟨[(b!"checksum.md5", some uc)], madeArchive r.tag, [], rfl, ka, by simp⟩,
        .inl ⟨[], b!"checksum.md5", [(madeArchive r.tag, some ua)], rfl, kc', by simpa using ka'⟩⟩
  have hinfo : i.archiveUrl = ua ∧ i.checksumUrl = uc := ⟨lastUrl_unique hd.archive hurl.1, lastUrl_unique hd.checksum hurl.2⟩
  obtain ⟨w', g1, g2, g3, g4⟩ := C115_installs_partial C hq hdir w hc i
    ⟨body, r, h1, h2, hcomp, C52_never_missed r.tag x y z hv hn, hd⟩ data
    ⟨⟨archive, [], ⟨b!"1pass", true, data, true⟩, [], by rw [hinfo.1]; exact h4, h5, by
      intro e' he _
      simp only [List.nil_append, List.mem_singleton] at he
      subst he
      refine ⟨rfl, ?_, b!"1pass", by unfold Path.Simple; decide +kernel, .inl rfl⟩
      show ¬ (b!"1pass" = b!"checksum.md5" ∨ b!"1pass" = b!"./" ++ b!"checksum.md5")
      decide +kernel, rfl, .inl rfl, rfl, by simp⟩,
     ⟨madeSums C.ext data, by rw [hinfo.2]; exact h6, madeSums_first C.ext data⟩⟩ e hp a rest ht hy
  refine ⟨w', g1, g2, g3, ?_⟩
  rw [g4, hd.version, List.getLast?_append]
  rfl

/-! ### Example -/

namespace Made

/-- The page of such a release. -/
def page : Bytes :=
  b!"[{\"body\":\"x\",\"tag_name\":\"1.4.0\",\"assets\":[{\"name\":\"checksum.md5\",\"browser_download_url\":\"u/c\"},{\"name\":\"1pass_1.4.0_Linux_x86_64.tar.gz\",\"browser_download_url\":\"u/a\"}]}]"

def answer (_ : Nat) (url : Bytes) : HttpAnswer :=
  if url = b!"u/a" then .body b!"new" true else if url = b!"u/c" then .body (madeSums Toy.ext b!"new") true else .body page true

/-- A server with it. -/
def ctx : Ctx := { steady with sys := { steady.sys with answer := answer } }

end Made

set_option maxRecDepth 20000 in
/-- C145: the hypothesis can be met. -/
example : Made Made.ctx.sys Made.ctx.ext b!"1.4.0" b!"new" := by
  let asset (n u : Bytes) : Json := Json.obj [(b!"name", Json.str n), (b!"browser_download_url", Json.str u)]
  have hp : Json.parse Made.page = some (Json.arr [Json.obj [(b!"body", Json.str b!"x"), (b!"tag_name", Json.str b!"1.4.0"),
      (b!"assets", Json.arr [asset b!"checksum.md5" b!"u/c", asset b!"1pass_1.4.0_Linux_x86_64.tar.gz" b!"u/a"])]]) := by rfl
  refine ⟨Made.page, ⟨b!"1.4.0", b!"x", [(b!"checksum.md5", some b!"u/c"), (madeArchive b!"1.4.0", some b!"u/a")]⟩, b!"new", b!"u/a", b!"u/c",
    fun n => ?_, ⟨_, _, _, ⟨Json.parse_sound hp, rfl⟩, rfl, rfl, rfl, .cons ⟨_, rfl, rfl, rfl⟩ (.cons ⟨_, rfl, rfl, rfl⟩ .nil)⟩, rfl,
    .inr rfl, fun n => rfl, rfl, fun n => ?_⟩
  · show Made.answer n githubReleases = _
    unfold Made.answer
    rw [if_neg (by decide +kernel), if_neg (by decide +kernel)]
  · show Made.answer n b!"u/c" = _
    unfold Made.answer
    rw [if_neg (by decide +kernel), if_pos rfl]
    rfl

/-- C145: the checksum file of the program `new`, and the update to 1.4.0. -/
example : madeSums Toy.ext b!"new" = b!"22af645d1859cb5ca6da0c484f1f37ea  1pass\n" ∧
    (command Made.ctx .update (updater b!"y\n")).1 = .ret () ∧
    (command Made.ctx .update (updater b!"y\n")).2.disk.at? [b!"usr", b!"bin", b!"1pass"] = some (.file b!"new" false) ∧
    (texts (command Made.ctx .update (updater b!"y\n")).2.log).getLast? = some b!"1pass application updated to version 1.4.0\n" := by
  decide +kernel

end Cli
end OnePass
