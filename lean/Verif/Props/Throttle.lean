/-
When the server is asked: C56, C57, C60, C78.
-/
import Verif.Props.Release
import Verif.Props.FirstRun
import Mathlib.Tactic.NormNum
import Mathlib.Algebra.Order.Floor.Ring
import Mathlib.Data.Rat.Floor

set_option linter.unusedSimpArgs false

namespace OnePass
namespace Upd
open Prog Spec

/-! ### Days -/

theorem div_add_mod_rat (a : Nat) :
    ((a / 3600000000000 : Nat) : ℚ) + ((a % 3600000000000 : Nat) : ℚ) / 3600000000000 = (a : ℚ) / 3600000000000 := by
  have h := Nat.div_add_mod a 3600000000000
  have h2 : (3600000000000 : ℚ) * ((a / 3600000000000 : Nat) : ℚ) + ((a % 3600000000000 : Nat) : ℚ) = (a : ℚ) := by
    exact_mod_cast h
  rw [← h2]
  field_simp

theorem rnd_nat (n : Nat) (h : n ≤ 9007199254740992) : F64.rnd (n : ℚ) = n := by
  have := F64.rnd_int (n : Int) (by omega) (by exact_mod_cast h)
  simpa using this

/-- At least `k` days, read as at least `k`. -/
theorem days_ge (d : Int) (hd : d.natAbs ≤ 9223372036854775808) (k : Nat) (hk : k ≤ 1000000)
    (h : k * 86400000000000 ≤ d.natAbs) : (k : Int) ≤ (daysBetween d).floor := by
  have hfl : 24 * k ≤ d.natAbs / 3600000000000 := by omega
  rw [Rat.le_floor_iff]
  unfold daysBetween
  simp only
  have e1 : F64.rnd ((d.natAbs / 3600000000000 : Nat) : ℚ) = ((d.natAbs / 3600000000000 : Nat) : ℚ) := rnd_nat _ (by omega)
  have e2 : F64.rnd ((d.natAbs % 3600000000000 : Nat) : ℚ) = ((d.natAbs % 3600000000000 : Nat) : ℚ) := rnd_nat _ (by omega)
  rw [e1, e2]
  have h0 : (0 : ℚ) ≤ F64.rnd (((d.natAbs % 3600000000000 : Nat) : ℚ) / 3600000000000) := by
    have := F64.rnd_mono (x := 0) (y := (((d.natAbs % 3600000000000 : Nat)) : ℚ) / 3600000000000) (by positivity)
    have z := rnd_nat 0 (by omega)
    simp only [Nat.cast_zero] at z
    rwa [z] at this
  have h1 : ((24 * k : Nat) : ℚ) ≤ F64.rnd (((d.natAbs / 3600000000000 : Nat) : ℚ) +
      F64.rnd (((d.natAbs % 3600000000000 : Nat) : ℚ) / 3600000000000)) := by
    rw [← rnd_nat (24 * k) (by omega)]
    apply F64.rnd_mono
    have : ((24 * k : Nat) : ℚ) ≤ ((d.natAbs / 3600000000000 : Nat) : ℚ) := by exact_mod_cast hfl
    linarith
  have h2 : ((k : Nat) : ℚ) ≤ F64.rnd (F64.rnd (((d.natAbs / 3600000000000 : Nat) : ℚ) +
      F64.rnd (((d.natAbs % 3600000000000 : Nat) : ℚ) / 3600000000000)) / 24) := by
    rw [← rnd_nat k (by omega)]
    apply F64.rnd_mono
    rw [le_div_iff₀ (by norm_num)]
    push_cast at h1 ⊢
    linarith
  exact_mod_cast h2

/-- A millisecond less than `k` days, read as less than `k`. -/
theorem days_lt (d : Int) (k : Nat) (hk : k ≤ 110000)
    (h : d.natAbs + 1000000 ≤ k * 86400000000000) : (daysBetween d).floor < (k : Int) := by
  rw [Rat.floor_lt_iff]
  unfold daysBetween
  simp only
  generalize d.natAbs = a at h
  have e1 : F64.rnd ((a / 3600000000000 : Nat) : ℚ) = ((a / 3600000000000 : Nat) : ℚ) := rnd_nat _ (by omega)
  have e2 : F64.rnd ((a % 3600000000000 : Nat) : ℚ) = ((a % 3600000000000 : Nat) : ℚ) := rnd_nat _ (by omega)
  rw [e1, e2]
  have hsum := div_add_mod_rat a
  generalize hh : ((a / 3600000000000 : Nat) : ℚ) = H at *
  generalize hm : ((a % 3600000000000 : Nat) : ℚ) / 3600000000000 = M at *
  have hM0 : 0 ≤ M := by rw [← hm]; positivity
  have hH0 : 0 ≤ H := by rw [← hh]; positivity
  have hM1 : M ≤ 1 := by
    rw [← hm, div_le_one (by norm_num)]
    have : a % 3600000000000 ≤ 3600000000000 := by omega
    exact_mod_cast this
  have r1 := F64.rnd_close M hM0
  have r10 : 0 ≤ F64.rnd M := by
    have := F64.rnd_mono (x := 0) (y := M) hM0
    have z := rnd_nat 0 (by omega)
    simp only [Nat.cast_zero] at z
    rwa [z] at this
  generalize F64.rnd M = M' at *
  have r2 := F64.rnd_close (H + M') (by linarith)
  have r20 : 0 ≤ F64.rnd (H + M') := by
    have := F64.rnd_mono (x := 0) (y := (H + M')) (by linarith)
    have z := rnd_nat 0 (by omega)
    simp only [Nat.cast_zero] at z
    rwa [z] at this
  generalize F64.rnd (H + M') = W at *
  have r3 := F64.rnd_close (W / 24) (by positivity)
  have hq : ((a : ℚ) + 1000000) ≤ (k : ℚ) * 86400000000000 := by exact_mod_cast h
  have hkq : (k : ℚ) ≤ 110000 := by exact_mod_cast hk
  have ha : (a : ℚ) / 3600000000000 ≤ 24 * k - 1 / 3600000 := by
    rw [div_le_iff₀ (by norm_num)]
    linarith
  have hHM : H + M ≤ 24 * k - 1 / 3600000 := by rw [hsum]; exact ha
  have : F64.rnd (W / 24) < (k : ℚ) := by
    have b1 : H + M' ≤ 24 * k - 1 / 3600000 + 1 / 9007199254740992 + 1 / 1000000000000000000 := by
      have : M / 9007199254740992 ≤ 1 / 9007199254740992 := by
        apply div_le_div_of_nonneg_right hM1 (by norm_num)
      linarith
    have b2 : W ≤ 24 * k - 1 / 3700000 := by
      have : (H + M') / 9007199254740992 ≤ 2640001 / 9007199254740992 := by
        apply div_le_div_of_nonneg_right _ (by norm_num)
        norm_num at b1 ⊢
        linarith
      norm_num at b1 this r2 ⊢
      linarith
    have b3 : W / 24 ≤ k - 1 / 88800000 := by
      rw [div_le_iff₀ (by norm_num)]
      norm_num at b2 ⊢
      linarith
    have b4 : W / 24 / 9007199254740992 ≤ 110000 / 9007199254740992 := by
      apply div_le_div_of_nonneg_right _ (by norm_num)
      norm_num at b3 ⊢
      linarith
    norm_num at b3 b4 r3 ⊢
    linarith
  exact_mod_cast this

/-! ### C56 -/

/-- The time stamp file says: checked at second `s`. -/
def Stamped (d : Disk) (dir : Bytes) (s : Int) : Prop :=
  ∃ text, d.readFile (Path.join [dir, lastCheckFile]) = some text ∧ Num.parseInt (Str.trimSpace text) = (s, false)

/-- Nanoseconds in a day. -/
def day : Nat := 86400000000000

theorem readFile_stat {d : Disk} {p b : Bytes} (h : d.readFile p = some b) : ∃ x, d.stat p = some (.file b x) := by
  unfold Disk.readFile at h
  cases hs : d.stat p with
  | none => rw [hs] at h; cases h
  | some n =>
    rw [hs] at h
    cases n with
    | dir => cases h
    | file b' x => cases h; exact ⟨x, rfl⟩

theorem shouldCheck_run (S : Sys) (X : Ext) (period : Int) (dir : Bytes) (w : World) :
    ∃ b, shouldCheck S X period dir w = (.ret b, { w with tick := w.tick + 3 }) := by
  unfold shouldCheck
  simp only
  rw [bind_run, Os.stat_run]
  simp only
  rw [bind_run, Os.readFile_run]
  simp only
  rw [bind_run, Os.now_run]
  exact ⟨_, rfl⟩

theorem shouldCheck_stamped (S : Sys) (hq : S.Quiet) (X : Ext) (period : Int) (dir : Bytes) (w : World) (s : Int)
    (h : Stamped w.disk dir s) : shouldCheck S X period dir w =
      (.ret (decide ((daysBetween (duration (S.now (w.tick + 2) - s * 1000000000))).floor ≥ period)), { w with tick := w.tick + 3 }) := by
  obtain ⟨text, h1, h2⟩ := h
  obtain ⟨x, h3⟩ := readFile_stat h1
  unfold shouldCheck
  simp only
  rw [bind_run, Os.stat_run]
  simp only [hq _, if_true]
  rw [bind_run, Os.readFile_run]
  simp only [hq _, if_true, h1]
  rw [bind_run, Os.now_run]
  simp only [h2, h3, Prog.pure]
  simp

theorem shouldCheck_unstamped (S : Sys) (X : Ext) (period : Int) (dir : Bytes) (w : World)
    (h : ∀ s, ¬ Stamped w.disk dir s) : shouldCheck S X period dir w = (.ret true, { w with tick := w.tick + 3 }) := by
  unfold shouldCheck
  simp only
  rw [bind_run, Os.stat_run]
  simp only
  rw [bind_run, Os.readFile_run]
  simp only
  rw [bind_run, Os.now_run]
  simp only [Prog.pure]
  congr 2
  cases hr : w.disk.readFile (Path.join [dir, lastCheckFile]) with
  | none => simp
  | some text =>
    cases hf : S.fault (w.tick + 1) with
    | some k => simp
    | none =>
      have : (Num.parseInt (Str.trimSpace text)).2 = true := by
        by_contra hn
        rw [Bool.not_eq_true] at hn
        exact h (Num.parseInt (Str.trimSpace text)).1 ⟨text, hr, by rw [← hn]⟩
      simp [this]

theorem duration_natAbs (x : Int) (k : Nat) (hk : k ≤ 9223372036854775807) :
    (k ≤ (duration x).natAbs ↔ k ≤ x.natAbs) ∧ (duration x).natAbs ≤ 9223372036854775808 := by
  unfold duration
  omega

/-- C56. With the last check a millisecond or more within the period, an unforced check asks no one, writes nothing
and finds nothing. -/
theorem C56_throttled (S : Sys) (hq : S.Quiet) (X : Ext) (period : Nat) (hp : period ≤ 106751) (timeout : Int)
    (dir : Bytes) (w : World) (s : Int) (h : Stamped w.disk dir s)
    (hrecent : (S.now (w.tick + 2) - s * 1000000000).natAbs + 1000000 ≤ period * day) :
    checkForUpdate S X period timeout false dir w = (.ret (.error .noUpdate), { w with tick := w.tick + 3 }) := by
  have hb : (daysBetween (duration (S.now (w.tick + 2) - s * 1000000000))).floor < (period : Int) := by
    apply days_lt _ period (by omega)
    unfold day at hrecent
    generalize S.now (w.tick + 2) - s * 1000000000 = x at hrecent
    unfold duration
    omega
  have hd : ¬ (daysBetween (duration (S.now (w.tick + 2) - s * 1000000000))).floor ≥ (period : Int) := by omega
  unfold checkForUpdate
  simp only [Bool.false_eq_true, if_false]
  rw [bind_run, shouldCheck_stamped S hq X period dir w s h]
  simp only [hd, decide_false, Bool.false_eq_true, if_false]
  rfl

/-- What follows the answer of the server. -/
def concluded (S : Sys) (dir : Bytes) : Option UpdateInfo → Prog (Except Err UpdateInfo)
  | none => do
    checkTimestamp S dir
    Prog.pure (.error .noUpdate)
  | some i => do
    checkTimestamp S dir
    if i.newer then Prog.pure (.ok i) else Prog.pure (.error .noUpdate)

theorem check_asks (S : Sys) (X : Ext) (period timeout : Int) (force : Bool) (dir : Bytes) (w v : World)
    (hs : force = false → shouldCheck S X period dir w = (.ret true, v)) (hf : force = true → v = w) :
    checkForUpdate S X period timeout force dir w =
      match answered (S.answer v.tick githubReleases) with
      | .panic => (.panic, { v with tick := v.tick + 1, log := v.log ++ [.request githubReleases timeout] })
      | .fatal => (.fatal, { v with tick := v.tick + 1, log := v.log ++ [.request githubReleases timeout] })
      | .ret (.error e) => (.ret (.error e), { v with tick := v.tick + 1, log := v.log ++ [.request githubReleases timeout] })
      | .ret (.ok info) =>
        (.ret (match info with | some i => if i.newer then .ok i else .error .noUpdate | none => .error .noUpdate),
         (checkTimestamp S dir { v with tick := v.tick + 1, log := v.log ++ [.request githubReleases timeout] }).2) := by
  have hts : ∀ u, (checkTimestamp S dir u).1 = .ret () := by
    intro u
    unfold checkTimestamp
    rw [bind_run, Os.now_run]
    simp only
    rw [bind_run]
    obtain ⟨ds, k, h1, -⟩ := Os.ensureDir_run S dir { u with tick := u.tick + 1 }
    rw [h1]
    simp only
    rw [bind_run]
    obtain ⟨r, ds, k, h2, -⟩ := Os.writeFile_run S (Path.join [dir, lastCheckFile]) (Num.intDec (seconds (S.now u.tick)))
      { u with tick := u.tick + 1 + k, disk := u.disk.last ds, log := u.log ++ ds.map Ev.disk }
    rw [h2]
    rfl
  have hgo : checkForUpdate S X period timeout force dir w = andThen (fetchInfo S timeout) (concluded S dir) v := by
    unfold checkForUpdate
    cases force with
    | true => rw [hf rfl]; rfl
    | false =>
      simp only [Bool.false_eq_true, if_false]
      rw [bind_run, hs rfl]
      rfl
  rw [hgo, andThen_run, fetchInfo_run]
  cases answered (S.answer v.tick githubReleases) with
  | panic => rfl
  | fatal => rfl
  | ret r =>
    cases r with
    | error e => rfl
    | ok info =>
      show concluded S dir info { v with tick := v.tick + 1, log := v.log ++ [.request githubReleases timeout] } = _
      generalize ({ v with tick := v.tick + 1, log := v.log ++ [.request githubReleases timeout] } : World) = u
      have h1 := hts u
      cases hr : checkTimestamp S dir u with
      | mk o u' =>
        rw [hr] at h1
        simp only at h1
        subst h1
        cases info with
        | none =>
          show (checkTimestamp S dir >>= fun _ => Prog.pure _) u = _
          rw [bind_run, hr]; rfl
        | some i =>
          show (checkTimestamp S dir >>= fun _ => if i.newer then Prog.pure (Except.ok i) else Prog.pure (Except.error Err.noUpdate)) u = _
          rw [bind_run, hr]
          cases h2 : i.newer <;> simp [h2, Prog.pure]

theorem check_log (S : Sys) (X : Ext) (period timeout : Int) (force : Bool) (dir : Bytes) (w v : World)
    (hs : force = false → shouldCheck S X period dir w = (.ret true, v)) (hf : force = true → v = w) (hl : v.log = w.log) :
    ∃ es, (checkForUpdate S X period timeout force dir w).2.log = w.log ++ .request githubReleases timeout :: es := by
  rw [check_asks S X period timeout force dir w v hs hf]
  cases answered (S.answer v.tick githubReleases) with
  | panic => exact ⟨[], by rw [← hl]⟩
  | fatal => exact ⟨[], by rw [← hl]⟩
  | ret r =>
    cases r with
    | error e => exact ⟨[], by rw [← hl]⟩
    | ok info =>
      simp only
      generalize hu : ({ v with tick := v.tick + 1, log := v.log ++ [.request githubReleases timeout] } : World) = u
      obtain ⟨-, -, es, h1, -⟩ := foot_checkTimestamp u.disk.cwd (fun _ => True) (fun _ => True) S dir (fun _ _ _ => trivial)
        trivial u rfl
      refine ⟨es, ?_⟩
      rw [h1, ← hu, ← hl]
      simp [List.append_assoc]

/-- C56. A period or more after the last check, an unforced check asks the server. With period 0 that is always. -/
theorem C56_due (S : Sys) (hq : S.Quiet) (X : Ext) (period : Nat) (hp : period ≤ 106751) (timeout : Int)
    (dir : Bytes) (w : World) (s : Int) (h : Stamped w.disk dir s)
    (hdue : period * day ≤ (S.now (w.tick + 2) - s * 1000000000).natAbs) :
    ∃ es, (checkForUpdate S X period timeout false dir w).2.log = w.log ++ .request githubReleases timeout :: es := by
  have hb : (period : Int) ≤ (daysBetween (duration (S.now (w.tick + 2) - s * 1000000000))).floor := by
    unfold day at hdue
    obtain ⟨h1, h2⟩ := duration_natAbs (S.now (w.tick + 2) - s * 1000000000) (period * 86400000000000) (by omega)
    exact days_ge _ h2 period (by omega) (h1.2 hdue)
  refine check_log S X period timeout false dir w { w with tick := w.tick + 3 } (fun _ => ?_) (by simp) rfl
  rw [shouldCheck_stamped S hq X period dir w s h]
  simp [hb]

/-- C56. Period 0 (or below) checks every time, whatever the time stamp says. -/
theorem C56_every_time (S : Sys) (hq : S.Quiet) (X : Ext) (period : Int) (hp : period ≤ 0) (timeout : Int)
    (dir : Bytes) (w : World) :
    ∃ es, (checkForUpdate S X period timeout false dir w).2.log = w.log ++ .request githubReleases timeout :: es := by
  refine check_log S X period timeout false dir w { w with tick := w.tick + 3 } (fun _ => ?_) (by simp) rfl
  by_cases h : ∃ s, Stamped w.disk dir s
  · obtain ⟨s, h⟩ := h
    rw [shouldCheck_stamped S hq X period dir w s h]
    have : ((0 : Nat) : Int) ≤ (daysBetween (duration (S.now (w.tick + 2) - s * 1000000000))).floor :=
      days_ge _ (duration_natAbs _ 0 (Nat.zero_le _)).2 0 (Nat.zero_le _) (by rw [Nat.zero_mul]; exact Nat.zero_le _)
    have : (daysBetween (duration (S.now (w.tick + 2) - s * 1000000000))).floor ≥ period := by
      simp only [Nat.cast_zero] at this
      exact le_trans hp this
    simp [this]
  · exact shouldCheck_unstamped S X period dir w (fun s hs => h ⟨s, hs⟩)

/-- C56. Without a readable time stamp an unforced check asks the server, whatever fails. -/
theorem C56_no_stamp (S : Sys) (X : Ext) (period timeout : Int) (dir : Bytes) (w : World)
    (h : ∀ s, ¬ Stamped w.disk dir s) :
    ∃ es, (checkForUpdate S X period timeout false dir w).2.log = w.log ++ .request githubReleases timeout :: es :=
  check_log S X period timeout false dir w { w with tick := w.tick + 3 }
    (fun _ => shouldCheck_unstamped S X period dir w h) (by simp) rfl

/-! ### C57, C78 -/

/-- C78. The time stamp of any moment (of the next and last 292 billion years) is read back as its second. -/
theorem C78_read_back (ns : Int) (h1 : -9223372036854775808 ≤ seconds ns) (h2 : seconds ns < 9223372036854775808) :
    Num.parseInt (Str.trimSpace (Num.intDec (seconds ns))) = (seconds ns, false) := by
  have hd : ∀ b ∈ Num.intDec (seconds ns), b = 45 ∨ Str.isDigitA b = true := by
    intro b hb
    unfold Num.intDec at hb
    split at hb
    · rcases List.mem_cons.1 hb with rfl | hb
      · exact .inl rfl
      · exact .inr (Num.natDec_digits _ b hb)
    · exact .inr (Num.natDec_digits _ b hb)
  have hns : ∀ b : UInt8, b = 45 ∨ Str.isDigitA b = true → Str.isSpaceA b = false ∧ b < 128 := by decide +kernel
  have hasc : Str.isAscii (Num.intDec (seconds ns)) = true := by
    rw [Str.isAscii_iff]
    exact fun b hb => (hns b (hd b hb)).2
  have hdw : ∀ l : Bytes, (∀ b ∈ l, Str.isSpaceA b = false) → l.dropWhile Str.isSpaceA = l := by
    intro l hl
    cases l with
    | nil => rfl
    | cons a r => rw [List.dropWhile_cons_of_neg (by simp [hl a (by simp)])]
  have htrim : Str.trimSpace (Num.intDec (seconds ns)) = Num.intDec (seconds ns) := by
    unfold Str.trimSpace
    rw [if_pos hasc, hdw _ (fun b hb => (hns b (hd b hb)).1), hdw _ (fun b hb => (hns b (hd b (List.mem_reverse.1 hb))).1),
      List.reverse_reverse]
  rw [htrim]
  exact Num.parseInt_intDec _ h1 h2

/-- The server has answered: with something that is read as a list of releases. -/
def Answered (S : Sys) (n : Nat) : Prop := ∃ info, answered (S.answer n githubReleases) = .ret (.ok info)

/-- C57. If the server does not answer, or nothing is asked, nothing is written. -/
theorem C57_not_written (S : Sys) (X : Ext) (period timeout : Int) (force : Bool) (dir : Bytes) (w : World)
    (h : ∀ n, ¬ Answered S n) : (checkForUpdate S X period timeout force dir w).2.disk = w.disk := by
  have key : ∀ v, v.disk = w.disk → (force = false → shouldCheck S X period dir w = (.ret true, v)) → (force = true → v = w) →
      (checkForUpdate S X period timeout force dir w).2.disk = w.disk := by
    intro v hv hs hf
    rw [check_asks S X period timeout force dir w v hs hf]
    cases ha : answered (S.answer v.tick githubReleases) with
    | panic => exact hv
    | fatal => exact hv
    | ret r =>
      cases r with
      | error e => exact hv
      | ok info => exact absurd ⟨info, ha⟩ (h v.tick)
  cases force with
  | true => exact key w rfl (by simp) (fun _ => rfl)
  | false =>
    obtain ⟨b, hb⟩ := shouldCheck_run S X period dir w
    cases b with
    | true => exact key { w with tick := w.tick + 3 } rfl (fun _ => hb) (by simp)
    | false =>
      unfold checkForUpdate
      simp only [Bool.false_eq_true, if_false]
      rw [bind_run, hb]
      rfl

/-- The configuration directory is there or can be made. -/
def Reachable (d : Disk) (dir : Bytes) : Prop :=
  Path.resolve d.cwd dir ≠ [] ∧
  (∀ l, l <+: Path.resolve d.cwd dir → l ≠ [] → d.at? l = none ∨ d.at? l = some .dir) ∧
  d.at? (Path.resolve d.cwd (Path.join [dir, lastCheckFile])) ≠ some .dir

theorem resolve_stamp (cwd : List Bytes) {dir : Bytes} (h : dir ≠ []) :
    Path.resolve cwd (Path.join [dir, lastCheckFile]) = Path.resolve cwd dir ++ [lastCheckFile] :=
  Path.resolve_join cwd h (by simp) (by intro c hc; rw [List.mem_singleton] at hc; subst hc; decide)

theorem checkTimestamp_writes (S : Sys) (hq : S.Quiet) (dir : Bytes) (hdir : dir ≠ []) (w : World) (hr : Reachable w.disk dir) :
    (checkTimestamp S dir w).2.disk.readFile (Path.join [dir, lastCheckFile]) = some (Num.intDec (seconds (S.now w.tick))) := by
  obtain ⟨hr1, hr2, hr3⟩ := hr
  unfold checkTimestamp
  rw [bind_run, Os.now_run]
  simp only
  rw [bind_run]
  obtain ⟨ds, k, h1, h2, h3⟩ := Os.ensureDir_run S dir { w with tick := w.tick + 1 }
  rw [h1]
  simp only at h2 h3 ⊢
  have hlast : (w.disk.last ds).cwd = w.disk.cwd ∧ (∀ l, ¬ l <+: Path.resolve w.disk.cwd dir → (w.disk.last ds).at? l = w.disk.at? l) := by
    rcases Disk.last_mem w.disk ds with h0 | h0
    · rw [h0]; exact ⟨rfl, fun _ _ => rfl⟩
    · exact ⟨(h2 _ h0).1, (h2 _ h0).2.1⟩
  have hdirAt := h3 hq hr2 hr1
  have hres : Path.resolve (w.disk.last ds).cwd (Path.join [dir, lastCheckFile]) = Path.resolve w.disk.cwd dir ++ [lastCheckFile] := by
    rw [hlast.1, resolve_stamp _ hdir]
  have hjne : Path.join [dir, lastCheckFile] ≠ [] := by
    intro h0
    have := resolve_stamp w.disk.cwd hdir
    have h4 := hr3
    rw [h0] at this
    -- an empty path resolves to the working directory only if joined to nothing
    have hj : Path.join [dir, lastCheckFile] = Path.clean (dir ++ 47 :: lastCheckFile) := by
      unfold Path.join
      rw [List.dropWhile_cons_of_neg (by cases dir with | nil => exact absurd rfl hdir | cons a r => simp)]
      rfl
    rw [hj] at h0
    exact Path.clean_ne_nil _ h0
  rw [bind_run]
  obtain ⟨r, ds2, k2, w1, w2, w3, w4, w5, -⟩ := Os.writeFile_run S (Path.join [dir, lastCheckFile])
    (Num.intDec (seconds (S.now w.tick)))
    { w with tick := w.tick + 1 + k, disk := w.disk.last ds, log := w.log ++ ds.map Ev.disk }
  simp only at w1 w2 w3 w5
  have hok : r = .ok () := by
    apply w5 hq hjne
    · rw [hres]; simp
    · rw [hres, List.dropLast_concat]
      unfold Disk.isDir
      rw [hdirAt]; simp
    · rw [hres, hlast.2 _ (by
        intro h0
        have := h0.length_le
        rw [List.length_append, List.length_singleton] at this
        omega), ← resolve_stamp _ hdir]
      exact hr3
  obtain ⟨-, x, hx⟩ := w3 hok
  rw [w1]
  simp only
  show Disk.readFile ((w.disk.last ds).last ds2) _ = _
  have hcw : ((w.disk.last ds).last ds2).cwd = (w.disk.last ds).cwd := by
    rcases Disk.last_mem (w.disk.last ds) ds2 with h0 | h0
    · rw [h0]
    · exact (w2 _ h0).1
  unfold Disk.readFile Disk.stat
  rw [if_neg hjne, hcw, hx]

/-- C57. If the server answers, whether or not the release is newer, the time stamp is that of the check, and from then on
says so. A forced check always asks. -/
theorem C57_written (S : Sys) (hq : S.Quiet) (X : Ext) (period timeout : Int) (dir : Bytes) (hdir : dir ≠ [])
    (w : World) (hr : Reachable w.disk dir) (ha : Answered S w.tick)
    (h1 : -9223372036854775808 ≤ seconds (S.now (w.tick + 1))) (h2 : seconds (S.now (w.tick + 1)) < 9223372036854775808) :
    Stamped (checkForUpdate S X period timeout true dir w).2.disk dir (seconds (S.now (w.tick + 1))) := by
  rw [check_asks S X period timeout true dir w w (by simp) (fun _ => rfl)]
  obtain ⟨info, ha⟩ := ha
  rw [ha]
  exact ⟨_, checkTimestamp_writes S hq dir hdir _ hr, C78_read_back _ h1 h2⟩

/-- C57. The same for an unforced check that asks. -/
theorem C57_written_unforced (S : Sys) (hq : S.Quiet) (X : Ext) (period timeout : Int) (dir : Bytes) (hdir : dir ≠ [])
    (w : World) (hr : Reachable w.disk dir) (ha : Answered S (w.tick + 3))
    (hask : (shouldCheck S X period dir w).1 = .ret true)
    (h1 : -9223372036854775808 ≤ seconds (S.now (w.tick + 4))) (h2 : seconds (S.now (w.tick + 4)) < 9223372036854775808) :
    Stamped (checkForUpdate S X period timeout false dir w).2.disk dir (seconds (S.now (w.tick + 4))) := by
  obtain ⟨b, hb⟩ := shouldCheck_run S X period dir w
  rw [hb] at hask
  cases hask
  rw [check_asks S X period timeout false dir w _ (fun _ => hb) (by simp)]
  obtain ⟨info, ha⟩ := ha
  simp only [ha]
  exact ⟨_, checkTimestamp_writes S hq dir hdir _ hr, C78_read_back _ h1 h2⟩

/-- C57. A forced check asks the server, whatever the time stamp says and whatever fails. -/
theorem C57_forced_asks (S : Sys) (X : Ext) (period timeout : Int) (dir : Bytes) (w : World) :
    ∃ es, (checkForUpdate S X period timeout true dir w).2.log = w.log ++ .request githubReleases timeout :: es :=
  check_log S X period timeout true dir w w (by simp) (fun _ => rfl) rfl

/-- C56 and C57 together: after a check the server answered, at time `t0`, an unforced check at a time that is at least a
millisecond within the period makes no request. -/
theorem C56_after_check (S : Sys) (hq : S.Quiet) (X : Ext) (period : Nat) (hp : period ≤ 106751)
    (timeout : Int) (dir : Bytes) (hdir : dir ≠ []) (w : World) (hr : Reachable w.disk dir) (ha : Answered S w.tick)
    (h1 : -9223372036854775808 ≤ seconds (S.now (w.tick + 1))) (h2 : seconds (S.now (w.tick + 1)) < 9223372036854775808)
    (v : World) (hv : v = (checkForUpdate S X period timeout true dir w).2)
    (h3 : S.now (w.tick + 1) ≤ S.now (v.tick + 2)) (h4 : S.now (v.tick + 2) + 1001000000 ≤ S.now (w.tick + 1) + period * day) :
    (checkForUpdate S X period timeout false dir v).2.log = v.log ∧
      (checkForUpdate S X period timeout false dir v).2.disk = v.disk := by
  have hs := C57_written S hq X period timeout dir hdir w hr ha h1 h2
  rw [← hv] at hs
  rw [C56_throttled S hq X period hp timeout dir v _ hs ?_]
  · exact ⟨rfl, rfl⟩
  · unfold seconds day at *
    generalize S.now (w.tick + 1) = a at *
    generalize S.now (v.tick + 2) = b at *
    omega

end Upd

namespace Cli
open Prog Upd Fmt

/-! ### C60 -/

/-- Nothing is asked of any server. -/
def NoRequest (e : Ev) : Prop := ∀ u t, e ≠ .request u t

/-- Nothing was asked of any server on the way. -/
def NoAsk (w w' : World) : Prop := ∃ es, w'.log = w.log ++ es ∧ ∀ e ∈ es, NoRequest e

theorem noAsk_chain : Chain NoAsk :=
  ⟨fun w => ⟨[], by simp, by simp⟩, fun a b c ⟨e1, h1, h2⟩ ⟨e2, h3, h4⟩ =>
    ⟨e1 ++ e2, by rw [h3, h1, List.append_assoc], fun e he => (List.mem_append.1 he).elim (h2 e) (h4 e)⟩⟩

theorem noAsk_of_foot {α : Type} {m : Prog α} (h : ∀ cwd, Rel (Foot cwd (fun _ => True) NoRequest) m) : Rel NoAsk m := by
  intro w
  obtain ⟨-, -, es, h1, h2⟩ := h _ w rfl
  refine ⟨es, h1, fun e he => ?_⟩
  have := h2 e he
  cases e with
  | disk d => intro u t h; cases h
  | _ => exact this

/-- The configuration of the running process says: no update notifications. -/
def Silent (w : World) : Prop := Conf.entry w.conf b!"update-notification" = .bool false

instance (w : World) : Decidable (Silent w) := by unfold Silent; infer_instance

theorem silent_available {w : World} (h : Silent w) : Conf.isAvailable w.conf = true := by
  unfold Silent Conf.entry at h
  cases hc : w.conf with
  | none => rw [hc] at h; cases h
  | some m =>
    rw [hc] at h
    cases m with
    | nil => cases h
    | cons a r => rfl

/-- Silent processes ask nothing and stay silent. -/
def Off (w w' : World) : Prop := Silent w → w'.conf = w.conf ∧ NoAsk w w'

theorem off_chain : Chain Off :=
  ⟨fun w _ => ⟨rfl, noAsk_chain.refl w⟩, fun a b c h1 h2 hs => by
    obtain ⟨h3, h4⟩ := h1 hs
    have hb : Silent b := by unfold Silent; rw [h3]; exact hs
    obtain ⟨h5, h6⟩ := h2 hb
    exact ⟨h5.trans h3, noAsk_chain.trans _ _ _ h4 h6⟩⟩

theorem off_check (C : Ctx) : Rel Off (checkForUpdate C) := by
  intro w hs
  have hc : ∀ c, Conf.getConfig w.conf = .ret c → c.notify = false := by
    intro c h
    exact (Conf.C46_defaults w.conf c h).2.2.2.2.2.1 false hs
  unfold checkForUpdate
  rw [bind_run, read_run]
  cases hg : Conf.getConfig w.conf with
  | panic => exact ⟨rfl, noAsk_chain.refl w⟩
  | fatal => exact ⟨rfl, noAsk_chain.refl w⟩
  | ret c =>
    simp only [hc c hg, Bool.false_eq_true, if_false]
    exact ⟨rfl, noAsk_chain.refl w⟩

theorem off_firstRun (C : Ctx) : Rel Off (firstRun C) := by
  intro w hs
  have : firstRun C w = (.ret (), w) := by
    unfold firstRun
    rw [bind_run]
    show (if Conf.isAvailable w.conf then Prog.pure () else _) w = _
    rw [if_pos (silent_available hs)]
    rfl
  rw [this]
  exact ⟨rfl, noAsk_chain.refl w⟩

theorem off_emit {e : Ev} (h : NoRequest e) : Rel Off (emit e) := fun w _ => ⟨rfl, [e], rfl, by simpa using h⟩

theorem off_onSession {α : Type} (f : Disk → Session → Out (α × Session)) : Rel Off (onSession f) := by
  intro w _
  unfold onSession
  cases f w.disk w.sess with
  | ret p => exact ⟨rfl, [], by simp, by simp⟩
  | panic => exact ⟨rfl, [], by simp, by simp⟩
  | fatal => exact ⟨rfl, [], by simp, by simp⟩

/-- C60. With notifications off, in any state and whatever fails, no command except `update` asks anything of any
server. Missing: the GUI itself, which does (`C60_refuted`). -/
theorem C60_no_request_partial (C : Ctx) (cmd : Cmd) (hcmd : cmd ≠ .update) (w : World) (h : Silent w) :
    ∃ es, (command C cmd w).2.log = w.log ++ es ∧ ∀ u t, Ev.request u t ∉ es := by
  have hout : ∀ b, Rel Off (emit (.out b)) := fun b => off_emit (by intro u t h; cases h)
  have fin : ∀ w', NoAsk w w' → ∃ es, w'.log = w.log ++ es ∧ ∀ u t, Ev.request u t ∉ es := by
    rintro w' ⟨es, h1, h2⟩
    exact ⟨es, h1, fun u t h0 => h2 _ h0 u t rfl⟩
  apply fin
  by_cases ha : cmd.asks = true
  · exact (rel_command off_chain C cmd ha (off_firstRun C) (off_check C) hout (fun _ _ => off_emit (by intro u t h; cases h))
      (fun w _ => by rw [Os.readPassword_run]; exact ⟨rfl, [.password], rfl, by simp [NoRequest]⟩) off_onSession w h).2
  · cases cmd with
    | update => exact absurd rfl hcmd
    | configure =>
      show NoAsk w (configure C w).2
      unfold configure
      have hno : ∀ b, Rel NoAsk (emit (.out b)) := fun b w => ⟨[.out b], rfl, by simp [NoRequest]⟩
      rw [bind_run]
      have h1 := off_check C w h
      cases hr : checkForUpdate C w with
      | mk o w1 =>
        rw [hr] at h1
        cases o with
        | panic => exact h1.2
        | fatal => exact h1.2
        | ret u =>
          refine noAsk_chain.trans _ _ _ h1.2 ?_
          -- the rest of the dialog, in which nothing is asked of anyone but the user
          have hs : Rel NoAsk (do
              let c ← Conf.read
              println b!"Detailed configuration manual can be found online: https://github.com/mashmb/1pass#configuration"
              println b!"Configuring 1pass:"
              let c ← askVault C c
              let c ← askNotify C c
              let c ← askTimeout c
              let c ← askPeriod c
              Conf.save C.sys C.ext C.dir c
              println b!"1pass configured") := rel_dialog noAsk_chain C hno
            (fun w => ⟨[.scan], rfl, by simp [NoRequest]⟩)
            (fun c => noAsk_of_foot (fun cwd => foot_save _ _ _ _ _ _ _ (fun _ _ => trivial) trivial))
          exact hs w1
    | categories =>
      refine (Rel.bind off_chain (off_check C) (fun _ => rel_get (fun w' => Rel.bind off_chain ?_ (fun _ => ?_))) w h).2
      · intro v _; exact ⟨rfl, [], by simp [setSess], by simp⟩
      · exact off_emit (by intro u t h; cases h)
    | version => exact (hout _ w h).2
    | gui v => exact absurd rfl ha
    | list v c n t => exact absurd rfl ha
    | overview v u t => exact absurd rfl ha
    | details v u t => exact absurd rfl ha

/-- C60, for a run of the program on a disk with a configuration file that turns notifications off. -/
theorem C60_whole_run_partial (C : Ctx) (hq : C.sys.Quiet) (cmd : Cmd) (hcmd : cmd ≠ .update) (w : World) (m : YMap)
    (hl : Conf.loaded C.ext w.disk C.dir = some (some m)) (hm : m.get b!"update-notification" = .bool false) :
    ∃ es, (main C cmd w).2.log = w.log ++ es ∧ ∀ u t, Ev.request u t ∉ es := by
  obtain ⟨k, hb⟩ := Conf.boot_run hq C.dir w (X := C.ext)
  unfold main
  rw [bind_run, hb, hl]
  exact C60_no_request_partial C cmd hcmd _ hm

/-! ### Examples -/

/-- The configuration directory with a time stamp (and notifications off). -/
def stampDisk (stamp : Bytes) : Disk :=
  { Conf.confDisk (Toy.encode (Conf.updated [] Conf.myConf)) with
    fs := (Conf.confDisk (Toy.encode (Conf.updated [] Conf.myConf))).fs ++ [([b!"h", b!"lastcheck"], .file stamp false)] }

/-- C56: the stamp says 1970-01-08; with a period of 7 days nothing is asked one hour before a week has passed, and the
server is asked when it has. The file may end with a line feed. -/
example : Stamped (stampDisk b!"604800\n") b!"/h" 604800 ∧
    (Upd.checkForUpdate (Toy.sys b!"null" 1206000000000000) Toy.ext 7 5 false b!"/h" (Toy.world (stampDisk b!"604800\n") [])).2.log = [] ∧
    (Upd.checkForUpdate (Toy.sys b!"null" 1209600000000000) Toy.ext 7 5 false b!"/h" (Toy.world (stampDisk b!"604800\n") [])).2.log.head? =
      some (.request githubReleases 5) := by
  refine ⟨⟨b!"604800\n", by decide +kernel, by decide +kernel⟩, by decide +kernel, by decide +kernel⟩

/-- C56: what is not a number is no time stamp. -/
example : ∀ s, ¬ Stamped (stampDisk b!"today") b!"/h" s := by
  rintro s ⟨t, h1, h2⟩
  have : t = b!"today" := by
    have e : (stampDisk b!"today").readFile (Path.join [b!"/h", lastCheckFile]) = some b!"today" := by decide +kernel
    rw [e] at h1; exact (Option.some.inj h1).symm
  subst this
  have e : (Num.parseInt (Str.trimSpace b!"today")).2 = true := by decide +kernel
  rw [h2] at e; cases e

/-- C57: the server has no releases to tell of (`null`), which is an answer; the second of the check is written. -/
example : Answered (Toy.sys b!"null" 1206000000000000) 0 ∧ Reachable (stampDisk b!"1") b!"/h" ∧
    (Upd.checkForUpdate (Toy.sys b!"null" 1206000000000000) Toy.ext 7 5 true b!"/h" (Toy.world (stampDisk b!"1") [])).2.disk.readFile
      b!"/h/lastcheck" = some b!"1206000" := by
  refine ⟨⟨none, by decide +kernel⟩, ⟨by decide +kernel, ?_, by decide +kernel⟩, by decide +kernel⟩
  intro l hl hne
  have hr : Path.resolve (stampDisk b!"1").cwd b!"/h" = [b!"h"] := by decide +kernel
  rw [hr] at hl
  rcases List.prefix_cons_iff.1 hl with h | ⟨t, rfl, ht⟩
  · exact absurd h hne
  · rw [List.prefix_nil] at ht
    subst ht
    right; decide +kernel

/-- C57: a server that answers nonsense has not answered. -/
example : ∀ n, ¬ Answered (Toy.sys b!"<html>" 0) n := by
  rintro n ⟨i, h⟩
  have e : (match answered ((Toy.sys b!"<html>" 0).answer 0 githubReleases) with | .ret (.error _) => true | _ => false) = true := by
    decide +kernel
  have e2 : answered ((Toy.sys b!"<html>" 0).answer 0 githubReleases) = .ret (.ok i) := h
  rw [e2] at e; cases e

/-- C60: notifications are off in this configuration, and on after a change. -/
example : Silent (user []) ∧ (∃ m, Conf.loaded (demo [] 0).ext (stampDisk b!"1") b!"/h" = some (some m) ∧
    m.get b!"update-notification" = .bool false) ∧
    ¬ Silent (configure (demo [] 0) (user b!"n\nY\n31\n 14 \nx")).2 :=
  ⟨by decide +kernel, ⟨Conf.updated [] Conf.myConf, by decide +kernel, by decide +kernel⟩, by decide +kernel⟩

/-- C78: before 1970 and with many digits. -/
example : Num.intDec (seconds (-1)) = b!"-1" ∧ Num.intDec (seconds 1700000000999999999) = b!"1700000000" := by decide +kernel

end Cli
end OnePass
