/-
A program that ends while it notes the time of a check: C137.
-/
import Verif.Props.Throttle

namespace OnePass
open Prog

/-- A beginning of the digits of a number: nothing, all, or the digits of a number at most a tenth of it. -/
theorem Num.natDec_prefix (n : Nat) : ∀ b, b <+: Num.natDec n → b = [] ∨ b = Num.natDec n ∨ ∃ m, b = Num.natDec m ∧ 10 * m ≤ n := by
  induction n using Nat.strongRecOn with
  | ind n ih =>
    intro b hb
    by_cases h : n < 10
    · rw [Num.natDec_lt h] at hb ⊢
      rcases List.prefix_cons_iff.1 hb with h | ⟨t, rfl, ht⟩
      · exact .inl h
      · rw [List.prefix_nil] at ht
        subst ht
        exact .inr (.inl rfl)
    · have h10 : 10 ≤ n := by omega
      rw [Num.natDec_ge h10] at hb ⊢
      rcases List.prefix_concat_iff.1 hb with h | h
      · exact .inr (.inl h)
      · rcases ih (n / 10) (by omega) b h with h | h | ⟨m, h, hm⟩
        · exact .inl h
        · exact .inr (.inr ⟨n / 10, h, by omega⟩)
        · exact .inr (.inr ⟨m, h, by omega⟩)

namespace Upd

/-- What the time stamp file says on two disks with the same file. -/
theorem stamped_congr {d d' : Disk} {dir : Bytes} (hc : d.cwd = d'.cwd)
    (h : d.at? (Path.resolve d'.cwd (Path.join [dir, lastCheckFile])) = d'.at? (Path.resolve d'.cwd (Path.join [dir, lastCheckFile])))
    {s : Int} : Stamped d dir s ↔ Stamped d' dir s := by
  unfold Stamped Disk.readFile Disk.stat
  rw [hc, h]

/-- The states of the disk while the time is noted. -/
theorem checkTimestamp_states (S : Sys) (dir : Bytes) (hdir : dir ≠ []) (w : World) :
    ∃ ds : List Disk, (checkTimestamp S dir w).2.log = w.log ++ ds.map Ev.disk ∧
      ∀ d ∈ ds, d.cwd = w.disk.cwd ∧
        (d.at? (Path.resolve w.disk.cwd (Path.join [dir, lastCheckFile])) =
            w.disk.at? (Path.resolve w.disk.cwd (Path.join [dir, lastCheckFile])) ∨
          ∃ b x, b <+: Num.intDec (seconds (S.now w.tick)) ∧
            d.at? (Path.resolve w.disk.cwd (Path.join [dir, lastCheckFile])) = some (.file b x)) := by
  unfold checkTimestamp
  rw [bind_run, Os.now_run]
  simp only
  rw [bind_run]
  obtain ⟨ds, k, h1, h2, -⟩ := Os.ensureDir_run S dir { w with tick := w.tick + 1 }
  rw [h1]
  simp only at h2 ⊢
  have hnp : ¬ Path.resolve w.disk.cwd (Path.join [dir, lastCheckFile]) <+: Path.resolve w.disk.cwd dir := by
    rw [resolve_stamp _ hdir]
    intro h0
    have := h0.length_le
    rw [List.length_append, List.length_singleton] at this
    omega
  have hlast : (w.disk.last ds).cwd = w.disk.cwd := by
    rcases Disk.last_mem w.disk ds with h0 | h0
    · rw [h0]
    · exact (h2 _ h0).1
  rw [bind_run]
  obtain ⟨r, ds2, k2, w1, w2, -⟩ := Os.writeFile_run S (Path.join [dir, lastCheckFile])
    (Num.intDec (seconds (S.now w.tick)))
    { w with tick := w.tick + 1 + k, disk := w.disk.last ds, log := w.log ++ ds.map Ev.disk }
  simp only at w1 w2
  rw [w1]
  refine ⟨ds ++ ds2, by simp [Prog.pure], fun d hd => ?_⟩
  rcases List.mem_append.1 hd with hd | hd
  · exact ⟨(h2 d hd).1, .inl ((h2 d hd).2.1 _ hnp)⟩
  · obtain ⟨g1, -, b, x, g2, g3, -⟩ := w2 d hd
    rw [hlast] at g1 g3
    exact ⟨g1, .inr ⟨b, x, g2, g3⟩⟩

/-- The states of the disk during a check. -/
theorem check_states (S : Sys) (X : Ext) (period timeout : Int) (force : Bool) (dir : Bytes) (hdir : dir ≠ []) (w : World) (d : Disk)
    (hd : d ∈ Conf.diskStates (checkForUpdate S X period timeout force dir) w) :
    d.cwd = w.disk.cwd ∧
      (d.at? (Path.resolve w.disk.cwd (Path.join [dir, lastCheckFile])) =
          w.disk.at? (Path.resolve w.disk.cwd (Path.join [dir, lastCheckFile])) ∨
        ∃ n b x, w.tick ≤ n ∧ b <+: Num.intDec (seconds (S.now n)) ∧
          d.at? (Path.resolve w.disk.cwd (Path.join [dir, lastCheckFile])) = some (.file b x)) := by
  have key : ∀ v, v.disk = w.disk → v.log = w.log → w.tick ≤ v.tick →
      (force = false → shouldCheck S X period dir w = (.ret true, v)) → (force = true → v = w) →
      ∃ es, (checkForUpdate S X period timeout force dir w).2.log = w.log ++ es ∧ ∀ d, Ev.disk d ∈ es → d.cwd = w.disk.cwd ∧
        (d.at? (Path.resolve w.disk.cwd (Path.join [dir, lastCheckFile])) =
          w.disk.at? (Path.resolve w.disk.cwd (Path.join [dir, lastCheckFile])) ∨
        ∃ n b x, w.tick ≤ n ∧ b <+: Num.intDec (seconds (S.now n)) ∧
          d.at? (Path.resolve w.disk.cwd (Path.join [dir, lastCheckFile])) = some (.file b x)) := by
    intro v hv hl ht hs hf
    rw [check_asks S X period timeout force dir w v hs hf]
    cases ha : answered (S.answer v.tick githubReleases) with
    | panic => exact ⟨[.request githubReleases timeout], by simp [hl], by simp⟩
    | fatal => exact ⟨[.request githubReleases timeout], by simp [hl], by simp⟩
    | ret r =>
      cases r with
      | error e => exact ⟨[.request githubReleases timeout], by simp [hl], by simp⟩
      | ok info =>
        obtain ⟨ds, h1, h2⟩ := checkTimestamp_states S dir hdir
          { v with tick := v.tick + 1, log := v.log ++ [.request githubReleases timeout] }
        refine ⟨.request githubReleases timeout :: ds.map Ev.disk, by simp only; rw [h1]; simp [hl], fun d hd => ?_⟩
        simp only [List.mem_cons, reduceCtorEq, List.mem_map, Ev.disk.injEq, exists_eq_right, false_or] at hd
        have := h2 d hd
        simp only [hv] at this
        refine ⟨this.1, this.2.imp id ?_⟩
        rintro ⟨b, x, g1, g2⟩
        exact ⟨v.tick + 1, b, x, by omega, g1, g2⟩
  have main : ∃ es, (checkForUpdate S X period timeout force dir w).2.log = w.log ++ es ∧ ∀ d, Ev.disk d ∈ es → d.cwd = w.disk.cwd ∧
        (d.at? (Path.resolve w.disk.cwd (Path.join [dir, lastCheckFile])) =
          w.disk.at? (Path.resolve w.disk.cwd (Path.join [dir, lastCheckFile])) ∨
        ∃ n b x, w.tick ≤ n ∧ b <+: Num.intDec (seconds (S.now n)) ∧
          d.at? (Path.resolve w.disk.cwd (Path.join [dir, lastCheckFile])) = some (.file b x)) := by
    cases force with
    | true => exact key w rfl rfl le_rfl (by simp) (fun _ => rfl)
    | false =>
      obtain ⟨b, hb⟩ := shouldCheck_run S X period dir w
      cases b with
      | true => exact key { w with tick := w.tick + 3 } rfl rfl (by simp) (fun _ => hb) (by simp)
      | false =>
        refine ⟨[], ?_, by simp⟩
        unfold checkForUpdate
        simp only [Bool.false_eq_true, if_false]
        rw [bind_run, hb]
        simp [Prog.pure]
  obtain ⟨es, h1, h2⟩ := main
  unfold Conf.diskStates at hd
  rw [h1, List.drop_left] at hd
  rcases List.mem_cons.1 hd with rfl | hd
  · exact ⟨rfl, .inl rfl⟩
  · obtain ⟨e, he, hed⟩ := List.mem_filterMap.1 hd
    cases e with
    | disk d0 => cases hed; exact h2 _ he
    | _ => cases hed

/-- C137. At every point of a check, whatever fails: if the time stamp file can be read at all, it says what it said before, or the
second of this check, or a number at most a tenth of that. -/
theorem C137_states (S : Sys) (X : Ext) (period timeout : Int) (force : Bool) (dir : Bytes) (hdir : dir ≠ []) (w : World)
    (hclock : ∀ n, w.tick ≤ n → 0 ≤ S.now n ∧ S.now n < 9223372036854775808000000000) (d : Disk)
    (hd : d ∈ Conf.diskStates (checkForUpdate S X period timeout force dir) w) :
    (∀ s, Stamped d dir s ↔ Stamped w.disk dir s) ∨
    ∃ n, w.tick ≤ n ∧ ∀ s, Stamped d dir s → s = seconds (S.now n) ∨ 0 ≤ s ∧ 10 * s ≤ seconds (S.now n) := by
  obtain ⟨hc, h | ⟨n, b, x, hn, hb, hx⟩⟩ := check_states S X period timeout force dir hdir w d hd
  · exact .inl fun s => stamped_congr hc h
  · refine .inr ⟨n, hn, fun s hs => ?_⟩
    obtain ⟨h0, h1⟩ := hclock n hn
    have hsec : 0 ≤ seconds (S.now n) ∧ seconds (S.now n) < 9223372036854775808 := by
      unfold seconds; omega
    obtain ⟨text, ht, hp⟩ := hs
    have htext : text = b := by
      unfold Disk.readFile Disk.stat at ht
      rw [hc, hx] at ht
      split at ht
      · rename_i he; split at he <;> simp_all
      · simp_all
    subst htext
    have hdec : Num.intDec (seconds (S.now n)) = Num.natDec (seconds (S.now n)).natAbs := by
      unfold Num.intDec
      rw [if_neg (by omega)]
    rw [hdec] at hb
    rcases Num.natDec_prefix _ _ hb with rfl | rfl | ⟨m, rfl, hm⟩
    · have e : Num.parseInt (Str.trimSpace []) = (0, true) := by decide +kernel
      rw [e] at hp
      simp at hp
    · left
      rw [← hdec, C78_read_back _ (by omega) hsec.2] at hp
      simpa using hp.symm
    · right
      have hm' : seconds ((m : Int) * 1000000000) = m := by unfold seconds; omega
      have hd' : Num.natDec m = Num.intDec (seconds ((m : Int) * 1000000000)) := by
        rw [hm']
        unfold Num.intDec
        rw [if_neg (by omega)]
        rfl
      rw [hd', C78_read_back _ (by omega) (by omega), hm'] at hp
      have : (m : Int) = s := by simpa using hp
      omega

/-- C137. A check that is cut off at any point does not put off the next one: a program that is started on what is on the disk then,
later, finds the old time stamp, or the complete new one, or asks the server (if the period is at most 10000 days, and the clocks are
those of 2001 or later). -/
theorem C137_next (S : Sys) (X : Ext) (period timeout : Int) (force : Bool) (dir : Bytes) (hdir : dir ≠ []) (w : World)
    (hclock : ∀ n, w.tick ≤ n → 1000000000000000000 ≤ S.now n ∧ S.now n < 9223372036854775808000000000) (d : Disk)
    (hd : d ∈ Conf.diskStates (checkForUpdate S X period timeout force dir) w)
    (S' : Sys) (hq : S'.Quiet) (period' : Nat) (hp : period' ≤ 10000) (timeout' : Int) (w' : World) (hw : w'.disk = d)
    (hlater : ∀ n m, w.tick ≤ n → S.now n ≤ S'.now m) :
    (∀ s, Stamped d dir s ↔ Stamped w.disk dir s) ∨
    (∃ n, w.tick ≤ n ∧ Stamped d dir (seconds (S.now n))) ∨
    ∃ es, (checkForUpdate S' X period' timeout' false dir w').2.log = w'.log ++ .request githubReleases timeout' :: es := by
  rcases C137_states S X period timeout force dir hdir w (fun n hn => ⟨by have := (hclock n hn).1; omega, (hclock n hn).2⟩) d hd with
    h | ⟨n, hn, h⟩
  · exact .inl h
  · right
    by_cases hst : ∃ s, Stamped d dir s
    · obtain ⟨s, hs⟩ := hst
      rcases h s hs with rfl | ⟨h0, h1⟩
      · exact .inl ⟨n, hn, hs⟩
      · right
        refine C56_due S' hq X period' (by omega) timeout' dir w' s (by rw [hw]; exact hs) ?_
        have g1 := hlater n (w'.tick + 2) hn
        have g2 := (hclock n hn).1
        unfold seconds at h1
        unfold day
        omega
    · right
      exact C56_no_stamp S' X period' timeout' dir w' (by rw [hw]; exact fun s hs => hst ⟨s, hs⟩)

end Upd

namespace Cli

/-- C137: the states of the time stamp file during a check in 2023, and which of them a program started from there, a minute later
and with a period of seven days, takes for a reason to ask. -/
example :
    (Conf.diskStates (Upd.checkForUpdate (Toy.sys b!"null" 1700000000000000000) Toy.ext 7 5 true b!"/h") (Toy.world (stampDisk b!"1699999999") [])).map
      (fun d => (d.readFile b!"/h/lastcheck",
        decide ((Upd.checkForUpdate (Toy.sys b!"null" 1700000060000000000) Toy.ext 7 5 false b!"/h" (Toy.world d [])).2.log ≠ []))) =
    [(some b!"1699999999", false), (some b!"", true), (some b!"1", true), (some b!"17", true), (some b!"170", true), (some b!"1700", true),
     (some b!"17000", true), (some b!"170000", true), (some b!"1700000", true), (some b!"17000000", true), (some b!"170000000", true),
     (some b!"1700000000", false)] := by decide +kernel

end Cli
end OnePass
