/-
C147: where downloads come from.
-/
import Verif.Props.Timeout

set_option linter.unusedSimpArgs false

namespace OnePass
namespace Cli
open Prog Fmt Spec Upd

/-- The URL of the list of releases, or one that a list sent by the server has for a file, or – if it has none – nothing. -/
def Linked (S : Sys) (u : Bytes) : Prop :=
  u = githubReleases ∨ u = [] ∨
    ∃ n body r name, S.answer n githubReleases = .body body true ∧ Publishes body r ∧ NewerTag r.tag ∧ (name, some u) ∈ r.assets

/-- A request with such a URL, or no request. -/
def Goes (S : Sys) (e : Ev) : Prop := ∀ u t, e = .request u t → Linked S u

theorem lastUrl_linked {S : Sys} {kind : Bytes × Option Bytes → Prop} {n : Nat} {body : Bytes} {r : Release} {u : Bytes}
    (h1 : S.answer n githubReleases = .body body true) (h2 : Publishes body r) (h3 : NewerTag r.tag) (h : LastUrl kind r.assets u) :
    Linked S u := by
  rcases h with ⟨before, name, after, h, -, -⟩ | ⟨-, h⟩
  · exact .inr (.inr ⟨n, body, r, name, h1, h2, h3, by rw [h]; simp⟩)
  · exact .inr (.inl h)

theorem goes_install (S : Sys) (X : Ext) (cwd : List Bytes) (t : Int) (b : Nat → Bytes) (info : UpdateInfo)
    (h1 : Linked S info.archiveUrl) (h2 : Linked S info.checksumUrl) :
    Rel (Foot cwd (fun _ => True) (Goes S)) (install S X t (fun n => .out (b n)) info) := by
  have hR := foot_chain cwd (fun _ => True) (Goes S)
  have he : ∀ n, Rel (Foot cwd (fun _ => True) (Goes S)) (emit (.out (b n))) :=
    fun n => foot_emit _ _ _ (by simp) (by intro u t h; cases h)
  have hrm : Rel (Foot cwd (fun _ => True) (Goes S)) (Os.removeAll S cacheDir) := foot_removeAll _ _ _ S _ (fun _ _ => trivial)
  unfold install
  refine Rel.bind hR (he 1) (fun _ => Rel.andThen hR hrm (fun _ => Rel.andThen hR (foot_mkdirAll _ _ _ S _ (fun _ _ _ => trivial))
    (fun _ => Rel.bind hR (he 2) (fun _ =>
    Rel.andThen hR (foot_downloadFile _ _ _ S _ _ t trivial (by rintro u t' ⟨-⟩; exact h1)) (fun _ => Rel.bind hR (he 3) (fun _ =>
    Rel.andThen hR (foot_downloadFile _ _ _ S _ _ t trivial (by rintro u t' ⟨-⟩; exact h2)) (fun _ => Rel.bind hR (he 4) (fun _ =>
    Rel.andThen hR (rel_extract hR S X _ _ (foot_readFile _ _ _ S _) (fun n d c => foot_createWrite _ _ _ S _ d c trivial)) (fun _ =>
    Rel.bind hR (he 5) (fun _ => Rel.andThen hR (rel_validate hR S X _ _ (fun p => foot_readFile _ _ _ S p)) (fun _ =>
    Rel.bind hR (he 6) (fun _ => Rel.andThen hR ?_ (fun _ => Rel.bind hR (he 7) (fun _ => hrm))))))))))))))
  unfold replaceBinary
  cases S.exe with
  | none => exact Rel.pure hR _
  | some dst => exact foot_rename _ _ _ S _ dst trivial trivial

theorem goes_facadeUpdate (C : Ctx) (cwd : List Bytes) (b : Nat → Bytes) :
    Rel (Foot cwd (fun _ => True) (Goes C.sys)) (facadeUpdate C.sys C.ext (fun n => .out (b n))) := by
  have hR := foot_chain cwd (fun _ => True) (Goes C.sys)
  refine Rel.bind hR (rel_read hR) (fun c => ?_)
  intro w
  have hf : Rel (Foot cwd (fun _ => True) (Goes C.sys)) (fetchInfo C.sys c.timeout) :=
    foot_fetchInfo _ _ _ _ _ (by rintro u t' ⟨-⟩; exact .inl rfl)
  have h0 := hf w
  unfold Upd.update
  unfold andThen
  rw [bind_run]
  have hn := C58_nothing_else C.sys c.timeout w
  rcases hr : fetchInfo C.sys c.timeout w with ⟨o, w1⟩
  rw [hr] at h0 hn
  cases o with
  | panic => exact h0
  | fatal => exact h0
  | ret r =>
    cases r with
    | error e => exact h0
    | ok i =>
      cases i with
      | none => exact h0
      | some i =>
        show Foot _ _ _ w ((if i.newer then install C.sys C.ext c.timeout _ i else Prog.pure _) w1).2
        split
        · rename_i hnew
          obtain ⟨body, r, h1, h2, h3⟩ := hn i rfl
          have h4 : NewerTag r.tag := h3.newer.1 hnew
          exact hR.trans _ _ _ h0 (goes_install C.sys C.ext cwd c.timeout b i (lastUrl_linked h1 h2 h4 h3.archive)
            (lastUrl_linked h1 h2 h4 h3.checksum) w1)
        · exact h0

/-- C147, what holds: every request of the program goes to the server of releases, or to a URL that this server lists for a file of
a newer release; if it lists none there is a request without URL, which fails. -/
theorem C147_linked (C : Ctx) (cmd : Cmd) (w : World) :
    ∃ es, (main C cmd w).2.log = w.log ++ es ∧ ∀ u t, .request u t ∈ es → Linked C.sys u := by
  by_cases hcmd : cmd = .update
  · subst hcmd
    have hR := foot_chain w.disk.cwd (fun _ => True) (Goes C.sys)
    have hout : ∀ b, Rel (Foot w.disk.cwd (fun _ => True) (Goes C.sys)) (emit (.out b)) :=
      fun b => foot_emit _ _ _ (by simp) (by intro u t h; cases h)
    have hstop : Rel (Foot w.disk.cwd (fun _ => True) (Goes C.sys)) (do println b!"Aborting update..."; Prog.exit : Prog Unit) :=
      Rel.bind hR (hout _) (fun _ => Rel.lift hR _)
    suffices h : Rel (Foot w.disk.cwd (fun _ => True) (Goes C.sys)) (main C .update) by
      obtain ⟨-, -, es, h1, h2⟩ := h w rfl
      exact ⟨es, h1, fun u t he => h2 _ he u t rfl⟩
    refine Rel.bind hR (Rel.bind hR (foot_load _ _ _ _ _ _) (fun m => foot_fresh _ _ _ m)) (fun _ => ?_)
    show Rel _ (update C)
    unfold update
    refine Rel.bind hR (hout _) (fun _ => Rel.bind hR ?_ (fun r => ?_))
    · exact fun v => foot_mono (fun _ _ => trivial) (fun _ h => h)
        (foot_facadeCheck C w.disk.cwd (Goes C.sys) (by rintro t u t' ⟨-⟩; exact .inl rfl) v)
    cases r with
    | error e => exact rel_die hR e hout
    | ok info =>
      refine Rel.bind hR (hout _) (fun _ => Rel.bind hR (hout _) (fun _ => Rel.bind hR
        (foot_scanln _ _ _ (by intro u t h; cases h)) (fun v => ?_)))
      cases LogicVal.fromName C.env.text v with
      | error e => exact hstop
      | ok p =>
        show Rel _ (if _ then _ else _)
        split
        · exact hstop
        · refine Rel.bind hR (hout _) (fun _ => Rel.bind hR (goes_facadeUpdate C _ _) (fun r => ?_))
          cases r with
          | error e => exact rel_die hR e hout
          | ok _ => exact hout _
  · obtain ⟨-, -, es, h1, h2⟩ := C83_footprint C cmd hcmd w rfl
    exact ⟨es, h1, fun u t he => .inl (h2 _ he)⟩

/-- The URL says that the connection is encrypted. -/
def Secure (u : Bytes) : Prop := b!"https://" <+: u

instance (u : Bytes) : Decidable (Secure u) := inferInstanceAs (Decidable (_ <+: _))

/-- C147 as long as the server lists encrypted URLs only: all connections of the program are encrypted. -/
theorem C147_secure_partial (C : Ctx)
    (h : ∀ n body r name u, C.sys.answer n githubReleases = .body body true → Publishes body r → (name, some u) ∈ r.assets → Secure u)
    (cmd : Cmd) (w : World) :
    ∃ es, (main C cmd w).2.log = w.log ++ es ∧ ∀ u t, .request u t ∈ es → u ≠ [] → Secure u := by
  obtain ⟨es, h1, h2⟩ := C147_linked C cmd w
  refine ⟨es, h1, fun u t he hne => ?_⟩
  rcases h2 u t he with rfl | rfl | ⟨n, body, r, name, h3, h4, -, h5⟩
  · decide +kernel
  · exact absurd rfl hne
  · exact h n body r name u h3 h4 h5

namespace Plain

/-- A release whose files lie on some other server, without encryption. -/
def page : Bytes := b!"[{\"tag_name\":\"1.4.0\",\"body\":\"\",\"assets\":[{\"name\":\"a.tar.gz\",\"browser_download_url\":\"http://x/a\"},{\"name\":\"a.md5\",\"browser_download_url\":\"http://x/s\"}]}]"

def reply (_ : Nat) (url : Bytes) : HttpAnswer :=
  if url = b!"http://x/a" then .body b!"new" true else if url = b!"http://x/s" then .body sampleSum true else .body page true

def server : Ctx := { demo [] 0 with sys := { Toy.sys [] 0 with answer := reply } }

def ends := main server .update (updater b!"y\n")

end Plain
open Plain

/-- C147 is false: the program follows whatever the list says. The user agrees, archive and checksum are fetched from another server
without encryption, and the program is replaced by what came from there. -/
theorem C147_refuted : ∃ (C : Ctx) (w : World), (main C .update w).1 = .ret () ∧
    (∃ t, .request b!"http://x/a" t ∈ (main C .update w).2.log) ∧ ¬ Secure b!"http://x/a" ∧
    (main C .update w).2.disk.at? [b!"usr", b!"bin", b!"1pass"] = some (.file b!"new" false) := by
  refine ⟨server, updater b!"y\n", ?_, ⟨5, ?_⟩, ?_, ?_⟩
  · decide +kernel
  · decide +kernel
  · decide +kernel
  · decide +kernel

namespace Plain

/-- A list with an encrypted URL. -/
def good : Bytes := b!"[{\"tag_name\":\"1.4.0\",\"body\":\"\",\"assets\":[{\"name\":\"a.tar.gz\",\"browser_download_url\":\"https://x/a\"}]}]"

def goodFile : Json := .obj [(b!"name", .str b!"a.tar.gz"), (b!"browser_download_url", .str b!"https://x/a")]

end Plain

set_option maxRecDepth 20000 in
/-- C147: a server that lists encrypted URLs only. -/
example (C : Ctx) (hC : ∀ n, C.sys.answer n githubReleases = .body good true) (w : World) :
    ∃ es, (main C .update w).2.log = w.log ++ es ∧ ∀ u t, .request u t ∈ es → u ≠ [] → Secure u := by
  refine C147_secure_partial C (fun n body r name u h1 h2 h3 => ?_) .update w
  rw [hC n] at h1
  cases h1
  obtain ⟨m, rest, as, ⟨h4, -⟩, -, -, h5, h6⟩ := h2
  have hp : Json.parse good = some (.arr [.obj [(b!"tag_name", .str b!"1.4.0"), (b!"body", .str []), (b!"assets", .arr [goodFile])]]) := by rfl
  rw [Json.parse_complete h4] at hp
  cases hp
  cases (show Json.arr [goodFile] = .arr as from h5)
  generalize r.assets = rs at h3 h6
  cases h6 with
  | cons h7 h8 =>
    cases h8
    rename_i a
    obtain ⟨m, h9, -, h10⟩ := h7
    cases h9
    rw [← List.mem_singleton.1 h3] at h10
    cases (show Json.str b!"https://x/a" = .str u from h10)
    decide +kernel

end Cli
end OnePass
