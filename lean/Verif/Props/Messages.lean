/-
What is said about updates, C95.
-/
import Verif.Model.Relabel
import Verif.Props.Consent

set_option linter.unusedSimpArgs false

namespace OnePass
namespace Cli
open Prog Fmt Spec Upd

/-- The texts among what is observed. -/
def texts (l : List Ev) : List Bytes := l.filterMap (fun | .out t => some t | _ => none)

theorem texts_append (a b : List Ev) : texts (a ++ b) = texts a ++ texts b := by simp [texts, List.filterMap_append]

/-- What is said while a release is installed. -/
def progress : List Bytes :=
  [b!"  Creating update cache...\n", b!"  Downloading new version...\n", b!"  Downloading checksums...\n",
   b!"  Extracting downloaded files...\n", b!"  Validating checksums...\n", b!"  Replacing binary...\n",
   b!"  Cleaning update cache...\n"]

/-- Announcements by number, as texts. -/
def spoken : Ev → Ev
  | .stage n => .out (stageText n ++ [10])
  | e => e

/-- Not a text. -/
def NoText : Ev → Prop
  | .out _ => False
  | _ => True

theorem mute_update (S : Sys) (X : Ext) (t : Int) (w : World) :
    ∃ es, (Upd.update S X t .stage w).2.log = w.log ++ es ∧ ∀ b, Ev.out b ∉ es := by
  have hR := foot_chain w.disk.cwd (fun _ => True) NoText
  have hem : ∀ n, Rel (Foot w.disk.cwd (fun _ => True) NoText) (emit (.stage n)) :=
    fun n => foot_emit _ _ _ (by simp) trivial
  have hcw : ∀ p d c, Rel (Foot w.disk.cwd (fun _ => True) NoText) (andThen (Os.create S p) fun f => Os.write S f d c) :=
    fun p d c => foot_createWrite _ _ _ S p d c trivial
  have h : Rel (Foot w.disk.cwd (fun _ => True) NoText) (Upd.update S X t .stage) := by
    refine Rel.andThen hR (foot_fetchInfo _ _ _ S t trivial) (fun i => ?_)
    cases i with
    | none => exact Rel.pure hR _
    | some i =>
      show Rel _ (if i.newer then _ else _)
      split
      · unfold install
        refine Rel.bind hR (hem 1) (fun _ => Rel.andThen hR (foot_removeAll _ _ _ S _ (fun _ _ => trivial)) (fun _ =>
          Rel.andThen hR (foot_mkdirAll _ _ _ S _ (fun _ _ _ => trivial)) (fun _ => Rel.bind hR (hem 2) (fun _ =>
          Rel.andThen hR (foot_downloadFile _ _ _ S _ _ _ trivial trivial) (fun _ => Rel.bind hR (hem 3) (fun _ =>
          Rel.andThen hR (foot_downloadFile _ _ _ S _ _ _ trivial trivial) (fun _ => Rel.bind hR (hem 4) (fun _ =>
          Rel.andThen hR (rel_extract hR S X _ _ (foot_readFile _ _ _ S _) (fun _ _ _ => hcw _ _ _)) (fun _ =>
          Rel.bind hR (hem 5) (fun _ => Rel.andThen hR (rel_validate hR S X _ _ (fun p => foot_readFile _ _ _ S p)) (fun _ =>
          Rel.bind hR (hem 6) (fun _ => Rel.andThen hR ?_ (fun _ => Rel.bind hR (hem 7) (fun _ =>
          foot_removeAll _ _ _ S _ (fun _ _ => trivial)))))))))))))))
        unfold replaceBinary
        split
        · exact Rel.pure hR _
        · exact foot_rename _ _ _ S _ _ trivial trivial
      · exact Rel.pure hR _
  obtain ⟨-, -, es, h1, h2⟩ := h w rfl
  exact ⟨es, h1, fun b hb => h2 _ hb⟩

theorem spoken_texts (es : List Ev) (h : ∀ b, Ev.out b ∉ es) : texts (es.map spoken) = (stages es).map (fun n => stageText n ++ [10]) := by
  induction es with
  | nil => rfl
  | cons e r ih =>
    have hr := ih (fun b hb => h b (by simp [hb]))
    unfold texts stages at hr ⊢
    cases e <;> simp [spoken, hr, List.filterMap_cons]
    exact absurd (List.mem_cons_self) (h _)

theorem progress_range (k : Nat) (hk : k ≤ 7) : (List.range' 1 k).map (fun n => stageText n ++ [10]) = progress.take k := by
  have : ∀ k : Fin 8, (List.range' 1 k.val).map (fun n => stageText n ++ [10]) = progress.take k.val := by decide +kernel
  exact this ⟨k, by omega⟩

/-- The run with texts is the run with numbers. -/
theorem update_spoken (S : Sys) (X : Ext) (t : Int) (w : World) :
    ∃ es, (Upd.update S X t .stage { w with log := [] }).2.log = es ∧ (∀ b, Ev.out b ∉ es) ∧
      Upd.update S X t (fun n => .out (stageText n ++ [10])) w =
        ((Upd.update S X t .stage { w with log := [] }).1,
         { (Upd.update S X t .stage { w with log := [] }).2 with log := w.log ++ es.map spoken }) := by
  obtain ⟨es, h1, h2⟩ := mute_update S X t { w with log := [] }
  refine ⟨es, h1, h2, ?_⟩
  have h := renamed_update S X (L := w.log) (f := spoken) (fun _ => rfl) (fun _ _ => rfl) t .stage
    (fun n => .out (stageText n ++ [10])) (fun _ => rfl) { w with log := [] }
  rw [show World.relabel w.log spoken { w with log := [] } = w by simp [World.relabel]] at h
  rw [h, World.relabel, h1]
  rfl

/-- After a yes: what the installation says. -/
theorem installing_texts (C : Ctx) (info : UpdateInfo) (w : World) :
    ∃ k ≤ 7, ∃ last, texts (installing C info w).2.log = texts w.log ++ progress.take k ++ last ∧
      ((installing C info w).1 = .ret () → k = 7 ∧ last = [b!"1pass application updated to version " ++ info.version ++ b!"\n"]) ∧
      ((installing C info w).1 ≠ .ret () → last = [] ∨ ∃ e : Err, last = [e.text ++ b!"\n"]) := by
  unfold installing facadeUpdate
  rw [bind_run, bind_run, read_run]
  cases hc : Conf.getConfig w.conf with
  | panic => exact ⟨0, by omega, [], by simp, by simp, by simp⟩
  | fatal => exact ⟨0, by omega, [], by simp, by simp, by simp⟩
  | ret c =>
    simp only
    obtain ⟨es, h1, h2, h3⟩ := update_spoken C.sys C.ext c.timeout w
    obtain ⟨k, hk, hs, h7, -⟩ := C50_in_order C.sys C.ext c.timeout { w with log := [] }
    rw [h1] at hs
    rw [h3]
    have ht : texts (w.log ++ es.map spoken) = texts w.log ++ progress.take k := by
      rw [texts_append, spoken_texts es h2, hs]
      show _ ++ List.map _ ([] ++ List.range' 1 k) = _
      rw [List.nil_append, progress_range k hk]
    revert h7
    cases (Upd.update C.sys C.ext c.timeout .stage { w with log := [] }).1 with
    | panic => exact fun _ => ⟨k, hk, [], by simp [ht], by simp, by simp⟩
    | fatal => exact fun _ => ⟨k, hk, [], by simp [ht], by simp, by simp⟩
    | ret r =>
      cases r with
      | error e =>
        intro _
        refine ⟨k, hk, [e.text ++ b!"\n"], ?_, ?_, fun _ => .inr ⟨e, rfl⟩⟩
        · show texts (w.log ++ es.map spoken ++ [_]) = _
          rw [texts_append, ht]
          rfl
        · intro h; cases h
      | ok u =>
        intro h7
        refine ⟨k, hk, [b!"1pass application updated to version " ++ info.version ++ b!"\n"], ?_, fun _ => ⟨h7 rfl, rfl⟩, ?_⟩
        · show texts (w.log ++ es.map spoken ++ [_]) = _
          rw [texts_append, ht]
          rfl
        · intro h; exact absurd rfl h

/-- What is said before the answer. -/
def offerTexts (info : UpdateInfo) : List Bytes :=
  [b!"Checking for 1pass application updates...\n",
   b!"New version of 1pass is available (" ++ info.version ++ b!").\n\n" ++ info.changelog ++ b!"\n\n",
   b!"Do you want to update now? (n) [y - for yes/n - for no]: "]

/-- What the check itself writes is no text. -/
theorem check_mute (C : Ctx) (w : World) : texts (facadeCheck C.sys C.ext C.dir true w).2.log = texts w.log := by
  obtain ⟨-, -, es, h1, h2⟩ := foot_facadeCheck C w.disk.cwd NoText (fun _ => trivial) w rfl
  rw [h1, texts_append]
  have : texts es = [] := by
    unfold texts
    rw [List.filterMap_eq_nil_iff]
    intro e he
    have := h2 e he
    cases e <;> first | rfl | exact absurd this id
  rw [this, List.append_nil]

/-- C95. Nothing new: that is said, and nothing else. -/
theorem C95_nothing_new (C : Ctx) (w w1 : World) (e : Err)
    (h : facadeCheck C.sys C.ext C.dir true (checking w) = (.ret (.error e), w1)) :
    texts (command C .update w).2.log = texts w.log ++ [b!"Checking for 1pass application updates...\n", e.text ++ b!"\n"] ∧
      Err.noUpdate.text = b!"up to date" := by
  refine ⟨?_, rfl⟩
  have hm := check_mute C (checking w)
  rw [h] at hm
  show texts (update C w).2.log = _
  rw [update_run, h]
  show texts (w1.log ++ [.out (e.text ++ [10])]) = _
  rw [texts_append, hm]
  show texts (w.log ++ [.out _]) ++ _ = _
  rw [texts_append, List.append_assoc]
  rfl

/-- C95. Declined: the offer with the version and the notes of the release, the question, and that it is given up. -/
theorem C95_declined (C : Ctx) (w w1 : World) (info : UpdateInfo) (a rest : Bytes) (ht : Types w.stdin a rest)
    (hn : ¬ Yes C.env.text a) (h : facadeCheck C.sys C.ext C.dir true (checking w) = (.ret (.ok info), w1)) :
    texts (command C .update w).2.log = texts w.log ++ offerTexts info ++ [b!"Aborting update...\n"] := by
  have hm := check_mute C (checking w)
  have hs := calm_facadeCheck C (checking w)
  rw [h] at hm hs
  show texts (update C w).2.log = _
  rw [update_run, h]
  simp only
  rw [answer_no C info w1 a rest (by rw [hs.2.1]; exact ht) hn]
  show texts (w1.log ++ offer info ++ [_]) = _
  rw [texts_append, texts_append, hm]
  show texts (w.log ++ [.out _]) ++ _ ++ _ = _
  rw [texts_append, List.append_assoc, List.append_assoc, List.append_assoc]
  rfl

/-- C95. Agreed: the offer, from which version to which, the steps of the installation one after the other as far as it gets, and
at the end either that it is done – after the last step – or the error. -/
theorem C95_agreed (C : Ctx) (w w1 : World) (info : UpdateInfo) (a rest : Bytes) (ht : Types w.stdin a rest)
    (hy : Yes C.env.text a) (h : facadeCheck C.sys C.ext C.dir true (checking w) = (.ret (.ok info), w1)) :
    ∃ k ≤ 7, ∃ last, texts (command C .update w).2.log = texts w.log ++ offerTexts info ++
        [b!"Updating 1pass application from version 1.3.1 to " ++ info.version ++ b!"...\n"] ++ progress.take k ++ last ∧
      ((command C .update w).1 = .ret () → k = 7 ∧ last = [b!"1pass application updated to version " ++ info.version ++ b!"\n"]) ∧
      ((command C .update w).1 ≠ .ret () → last = [] ∨ ∃ e : Err, last = [e.text ++ b!"\n"]) := by
  have hm := check_mute C (checking w)
  have hs := calm_facadeCheck C (checking w)
  rw [h] at hm hs
  show ∃ k ≤ 7, ∃ last, texts (update C w).2.log = _ ∧ ((update C w).1 = _ → _) ∧ ((update C w).1 ≠ _ → _)
  rw [update_run, h]
  simp only
  rw [answer_yes C info w1 a rest (by rw [hs.2.1]; exact ht) hy]
  obtain ⟨k, hk, last, h1, h2, h3⟩ := installing_texts C info { w1 with stdin := rest, log := w1.log ++ offer info ++
      [.out (b!"Updating 1pass application from version 1.3.1 to " ++ info.version ++ b!"...\n")] }
  refine ⟨k, hk, last, ?_, h2, h3⟩
  rw [h1]
  have : ∀ msg, texts (w1.log ++ offer info ++ [.out msg]) = texts w.log ++ offerTexts info ++ [msg] := by
    intro msg
    rw [texts_append, texts_append, hm]
    show texts (w.log ++ [.out _]) ++ _ ++ [msg] = _
    rw [texts_append, List.append_assoc (texts w.log)]
    rfl
  rw [← this]

/-- The notice of the other commands. -/
def notice (version : Bytes) : Bytes :=
  b!"New version of 1pass is available (current: 1.3.1, available: " ++ version ++ b!"). Run 'sudo 1pass update' to upgrade.\n\n"

/-- The unforced check says nothing itself; what it reports has just been published and is newer. -/
theorem check_reports (C : Ctx) (period timeout : Int) (w : World) :
    texts (Upd.checkForUpdate C.sys C.ext period timeout false C.dir w).2.log = texts w.log ∧
    ∀ info, (Upd.checkForUpdate C.sys C.ext period timeout false C.dir w).1 = .ret (.ok info) →
      ∃ n body r, C.sys.answer n githubReleases = .body body true ∧ Publishes body r ∧ NewerTag r.tag ∧ Describes r info := by
  constructor
  · obtain ⟨-, -, es, h1, h2⟩ := rel_checkForUpdate C.sys (foot_chain w.disk.cwd (fun _ => True) NoText) C.ext period timeout false C.dir
      (foot_fetchInfo _ _ _ _ _ trivial) (foot_checkTimestamp _ _ _ _ _ (fun _ _ _ => trivial) trivial)
      (foot_shouldCheck _ _ _ _ _ _ _) w rfl
    rw [h1, texts_append]
    have : texts es = [] := by
      unfold texts
      rw [List.filterMap_eq_nil_iff]
      intro e he
      have := h2 e he
      cases e <;> first | rfl | exact absurd this id
    rw [this, List.append_nil]
  · intro info h
    obtain ⟨b, hb⟩ := shouldCheck_run C.sys C.ext period C.dir w
    cases b with
    | false =>
      have : Upd.checkForUpdate C.sys C.ext period timeout false C.dir w = (.ret (.error .noUpdate), { w with tick := w.tick + 3 }) := by
        unfold Upd.checkForUpdate
        simp only [Bool.false_eq_true, if_false]
        rw [bind_run, hb]
        rfl
      rw [this] at h
      cases h
    | true =>
      rw [check_asks C.sys C.ext period timeout false C.dir w { w with tick := w.tick + 3 } (fun _ => hb) (by simp)] at h
      revert h
      cases ha : answered (C.sys.answer (w.tick + 3) githubReleases) with
      | panic => intro h; cases h
      | fatal => intro h; cases h
      | ret r =>
        cases r with
        | error e => intro h; cases h
        | ok i =>
          cases i with
          | none => intro h; cases h
          | some i =>
            intro h
            by_cases hnew : i.newer = true
            · simp only [hnew, if_true] at h
              cases h
              obtain ⟨body, r, h1, h2, h3⟩ := C58_nothing_else C.sys timeout { w with tick := w.tick + 3 } info (by
                rw [fetchInfo_run]; exact ha)
              exact ⟨_, body, r, h1, h2, h3.newer.1 hnew, h3⟩
            · simp only [hnew, Bool.false_eq_true, if_false] at h
              cases h

/-- C95. The check before a command says nothing, or that the version is available which the server has just published and
which is newer. -/
theorem C95_notice (C : Ctx) (w : World) :
    texts (checkForUpdate C w).2.log = texts w.log ∨
    ∃ n body r, C.sys.answer n githubReleases = .body body true ∧ Publishes body r ∧ NewerTag r.tag ∧
      texts (checkForUpdate C w).2.log = texts w.log ++ [notice r.tag] := by
  unfold checkForUpdate
  rw [bind_run, read_run]
  cases hc : Conf.getConfig w.conf with
  | panic => exact .inl rfl
  | fatal => exact .inl rfl
  | ret c =>
    simp only
    by_cases hn : c.notify = true
    · rw [if_pos hn]
      unfold facadeCheck
      rw [bind_run, bind_run, read_run, hc]
      simp only
      obtain ⟨h1, h2⟩ := check_reports C c.period c.timeout w
      revert h1 h2
      cases Upd.checkForUpdate C.sys C.ext c.period c.timeout false C.dir w with
      | mk o w1 =>
        intro h1 h2
        cases o with
        | panic => exact .inl h1
        | fatal => exact .inl h1
        | ret r =>
          cases r with
          | error e => exact .inl h1
          | ok info =>
            obtain ⟨n, body, r, g1, g2, g3, g4⟩ := h2 info rfl
            refine .inr ⟨n, body, r, g1, g2, g3, ?_⟩
            show texts (w1.log ++ [.out _]) = _
            rw [texts_append, h1, g4.version]
            show _ ++ [_] = _ ++ [notice r.tag]
            unfold notice
            congr 2
            simp only [List.append_assoc]
            rfl
    · rw [if_neg hn]
      exact .inl rfl

/-- C95. If notifications are on and the server, being asked, publishes a newer release, that is said. -/
theorem C95_noticed (C : Ctx) (w : World) (c : Config) (hc : Conf.getConfig w.conf = .ret c) (hn : c.notify = true)
    (hask : ∃ es, (Upd.checkForUpdate C.sys C.ext c.period c.timeout false C.dir w).2.log =
      w.log ++ .request githubReleases c.timeout :: es)
    (body : Bytes) (r : Release) (hs : ∀ n, C.sys.answer n githubReleases = .body body true) (hp : Publishes body r)
    (hcomp : Complete r) (hnew : NewerTag r.tag) :
    (checkForUpdate C w).1 = .ret () ∧ texts (checkForUpdate C w).2.log = texts w.log ++ [notice r.tag] := by
  have hrun : ∃ i w1, Upd.checkForUpdate C.sys C.ext c.period c.timeout false C.dir w = (.ret (.ok i), w1) ∧ i.version = r.tag := by
    obtain ⟨b, hb⟩ := shouldCheck_run C.sys C.ext c.period C.dir w
    cases b with
    | false =>
      exfalso
      have : Upd.checkForUpdate C.sys C.ext c.period c.timeout false C.dir w = (.ret (.error .noUpdate), { w with tick := w.tick + 3 }) := by
        unfold Upd.checkForUpdate
        simp only [Bool.false_eq_true, if_false]
        rw [bind_run, hb]
        rfl
      obtain ⟨es, he⟩ := hask
      rw [this] at he
      have := congrArg List.length he
      simp at this
    | true =>
      obtain ⟨i, h1, h2⟩ := C58_read_as_published C.sys c.timeout { w with tick := w.tick + 3 } body r (hs _) hp hcomp
      rw [fetchInfo_run] at h1
      rw [check_asks C.sys C.ext c.period c.timeout false C.dir w { w with tick := w.tick + 3 } (fun _ => hb) (by simp)]
      simp only at h1 ⊢
      rw [h1]
      simp only [h2.newer.2 hnew, if_true]
      exact ⟨_, _, rfl, h2.version⟩
  obtain ⟨i, w1, h1, h2⟩ := hrun
  have hm := (check_reports C c.period c.timeout w).1
  rw [h1] at hm
  have e : checkForUpdate C w = (.ret (), { w1 with log := w1.log ++ [.out (b!"New version of 1pass is available (current: " ++
      Upd.version ++ b!", available: " ++ i.version ++ b!"). Run 'sudo 1pass update' to upgrade.\n" ++ [10])] }) := by
    unfold checkForUpdate
    rw [bind_run, read_run, hc]
    simp only
    rw [if_pos hn]
    unfold facadeCheck
    rw [bind_run, bind_run, read_run, hc]
    simp only
    rw [h1]
    rfl
  rw [e]
  refine ⟨rfl, ?_⟩
  show texts (w1.log ++ [.out _]) = _
  rw [texts_append, hm, h2]
  show _ ++ [_] = _ ++ [notice r.tag]
  unfold notice
  congr 2
  simp only [List.append_assoc]
  rfl

theorem disks_spoken (es : List Ev) : disks (es.map spoken) = disks es := by
  induction es with
  | nil => rfl
  | cons e r ih =>
    unfold disks at ih ⊢
    cases e <;> simp [spoken, ih, List.filterMap_cons]

/-- C95. In an update that succeeds "Replacing binary..." and what comes before it is said before, "Cleaning update cache..."
right after the program is replaced. -/
theorem C95_replacing (C : Ctx) (info : UpdateInfo) (w : World) (h : (installing C info w).1 = .ret ()) :
    ∃ es d fs, (installing C info w).2.log = w.log ++ es ++ .disk d :: .out b!"  Cleaning update cache...\n" :: fs ∧
      texts es = progress.take 6 ∧ ReplacedBetween C.sys w (w.disk.last (disks es)) d := by
  revert h
  unfold installing facadeUpdate
  rw [bind_run, bind_run, read_run]
  cases hc : Conf.getConfig w.conf with
  | panic => intro h; cases h
  | fatal => intro h; cases h
  | ret c =>
    simp only
    obtain ⟨es, h1, h2, h3⟩ := update_spoken C.sys C.ext c.timeout w
    obtain ⟨k, hk, hs, h7, -⟩ := C50_in_order C.sys C.ext c.timeout { w with log := [] }
    have hrep := C50_replacement C.sys C.ext c.timeout { w with log := [] } rfl
    rw [h1] at hs hrep
    rw [h3]
    revert h7
    cases (Upd.update C.sys C.ext c.timeout .stage { w with log := [] }).1 with
    | panic => intro _ h; cases h
    | fatal => intro _ h; cases h
    | ret r =>
      cases r with
      | error e => intro _ h; cases h
      | ok u =>
        intro h7 _
        have hk7 := h7 rfl
        subst hk7
        have hmem : Ev.stage 7 ∈ es := by
          have : 7 ∈ stages es := by rw [hs]; show 7 ∈ List.range' 1 7; decide
          unfold stages at this
          rw [List.mem_filterMap] at this
          obtain ⟨e, he, h⟩ := this
          cases e <;> simp at h
          subst h
          exact he
        obtain ⟨gs, d, fs, g1, g2, g3⟩ := hrep hmem
        have g1' : es = gs ++ .disk d :: .stage 7 :: fs := by rw [g1]; rfl
        refine ⟨gs.map spoken, d, fs.map spoken ++ [.out (b!"1pass application updated to version " ++ info.version ++ b!"\n")], ?_, ?_, ?_⟩
        · show w.log ++ es.map spoken ++ [_] = _
          rw [g1']
          simp only [List.map_append, List.map_cons, List.append_assoc, List.cons_append]
          rfl
        · rw [spoken_texts gs (fun b hb => h2 b (by rw [g1']; simp [hb])), g2]
          decide +kernel
        · rw [disks_spoken]
          exact g3

/-! ### Examples -/

/-- C95: the whole screen of an update to 1.4.0, the one that is declined, and of a server without news. -/
example : texts steadyRun.2.log = offerTexts sampleInfo ++ [b!"Updating 1pass application from version 1.3.1 to 1.4.0...\n"] ++
    progress ++ [b!"1pass application updated to version 1.4.0\n"] := by decide +kernel
example : texts declinedRun.2.log = offerTexts sampleInfo ++ [b!"Aborting update...\n"] := by decide +kernel

/-- C95: a command says that 1.4.0 is available, unless notifications are off. -/
example : texts (checkForUpdate steady { updater [] with conf := some (Conf.updated [] { Conf.myConf with notify := true }) }).2.log =
      [notice b!"1.4.0"] ∧
    texts (checkForUpdate steady (updater [])).2.log = [] := by decide +kernel

end Cli
end OnePass
