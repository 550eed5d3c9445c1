/-
C106: what the configuration dialog shows.
-/
import Verif.Props.FirstRun

set_option linter.unusedSimpArgs false

namespace OnePass
namespace Cli
open Prog Fmt Spec

/-- The usual decimal text of an integer: digits without needless zeros, a minus sign if it is negative. -/
def Decimal (t : Bytes) (n : Int) : Prop :=
  ∃ ds : Bytes, ds ≠ [] ∧ (∀ b ∈ ds, 48 ≤ b ∧ b ≤ 57) ∧ (ds.head? = some 48 → ds = [48]) ∧
    ((0 ≤ n ∧ t = ds ∧ n = decimal ds) ∨ (n < 0 ∧ t = 45 :: ds ∧ n = -(decimal ds : Int)))

theorem decimal_snoc (ds : Bytes) (b : UInt8) : decimal (ds ++ [b]) = 10 * decimal ds + (b.toNat - 48) := by
  simp [decimal, List.foldl_append]

theorem natDec_decimal (n : Nat) : Num.natDec n ≠ [] ∧ (∀ b ∈ Num.natDec n, 48 ≤ b ∧ b ≤ 57) ∧
    ((Num.natDec n).head? = some 48 → n = 0 ∧ Num.natDec n = [48]) ∧ decimal (Num.natDec n) = n := by
  induction n using Nat.strongRecOn with
  | ind n ih =>
    have hdig : ∀ d, d < 10 → 48 ≤ Num.digit d ∧ Num.digit d ≤ 57 := by
      intro d hd
      have := Num.digit_toNat hd
      constructor
      · rw [UInt8.le_iff_toNat_le, this]; show 48 ≤ _; omega
      · rw [UInt8.le_iff_toNat_le, this]; show _ ≤ 57; omega
    by_cases h : n < 10
    · rw [Num.natDec_lt h]
      refine ⟨by simp, by simpa using hdig n h, ?_, ?_⟩
      · intro h0
        simp only [List.head?_cons, Option.some.injEq] at h0
        have := congrArg UInt8.toNat h0
        rw [Num.digit_toNat h] at this
        have h48 : (48 : UInt8).toNat = 48 := rfl
        exact ⟨by omega, by rw [h0]⟩
      · simp [decimal, Num.digit_toNat h]
    · have h10 : 10 ≤ n := by omega
      obtain ⟨h1, h2, h3, h4⟩ := ih (n / 10) (by omega)
      rw [Num.natDec_ge h10]
      refine ⟨by simp, ?_, ?_, ?_⟩
      · intro b hb
        rcases List.mem_append.1 hb with hb | hb
        · exact h2 b hb
        · simp at hb; subst hb; exact hdig _ (by omega)
      · intro h0
        rw [List.head?_append_of_ne_nil _ h1] at h0
        have := (h3 h0).1
        omega
      · rw [decimal_snoc, h4, Num.digit_toNat (by omega)]
        omega

theorem intDec_decimal (n : Int) : Decimal (Num.intDec n) n := by
  obtain ⟨h1, h2, h3, h4⟩ := natDec_decimal n.natAbs
  refine ⟨Num.natDec n.natAbs, h1, h2, fun h => (h3 h).2, ?_⟩
  unfold Num.intDec
  rw [h4]
  by_cases hn : n < 0
  · exact .inr ⟨hn, if_pos hn, by omega⟩
  · exact .inl ⟨by omega, if_neg hn, by omega⟩

/-- The dialog about the settings `old` as it appears on the terminal: `a1` is the answer to the first question; nothing
but writing to the disk comes between the last answer and the last line, which is there if all went well (`done`). -/
def Dialog (T : Text) (old : Config) (a1 : Bytes) (done : Prop) (log : List Ev) : Prop :=
  ∃ timeout period es vault last, Decimal timeout old.timeout ∧ Decimal period old.period ∧ (∀ e ∈ es, ∃ d, e = Ev.disk d) ∧
    (Yes T a1 → vault = [.out (b!"     Default OPVault path (" ++ old.vault ++ b!"): "), .scan]) ∧ (¬ Yes T a1 → vault = []) ∧
    (done → last = [.out b!"1pass configured\n"]) ∧ (¬ done → last = []) ∧
    log =
      [.out b!"Detailed configuration manual can be found online: https://github.com/mashmb/1pass#configuration\n",
       .out b!"Configuring 1pass:\n",
       .out b!"  1. Do you want to set default OPVault path? (n) [y - for yes/n - for no]: ", .scan] ++ vault ++
      [.out (b!"  2. Update notifications? (" ++ (if old.notify then b!"y" else b!"n") ++ b!") [y - for yes/n - for no]: "), .scan,
       .out (b!"  3. Update HTTP timeout in seconds (" ++ timeout ++ b!") [1-30]: "), .scan,
       .out (b!"  4. How often check for updates in days (" ++ period ++ b!") [0-365]: "), .scan] ++ es ++ last

/-- C106. The dialog of `configure`: every question shows the setting in force, in the order of the manual; nothing else
is printed; the last line appears exactly if the dialog comes to its end (C43: the settings are saved then). -/
theorem C106_dialog (C : Ctx) (w w1 : World) (old : Config) (hold : Conf.getConfig w.conf = .ret old)
    (hcheck : checkForUpdate C w = (.ret (), w1)) :
    ∃ log, Dialog C.env.text old (scanWord w.stdin).1 ((configure C w).1 = .ret ()) log ∧ (configure C w).2.log = w1.log ++ log := by
  have hc := calm_cliCheck C w
  rw [hcheck] at hc
  have hvault : ∀ (c : Config) (v : World), ∃ c' v', askVault C c v = (.ret c', v') ∧ c'.notify = c.notify ∧ c'.timeout = c.timeout ∧
      c'.period = c.period ∧ v'.log = v.log ++
        [.out b!"  1. Do you want to set default OPVault path? (n) [y - for yes/n - for no]: ", .scan] ++
        (if Yes C.env.text (scanWord v.stdin).1 then [.out (b!"     Default OPVault path (" ++ c.vault ++ b!"): "), .scan] else []) := by
    intro c v
    unfold askVault
    simp only [bind_run, print, scanln, emit]
    rcases fromName_cases C.env.text (scanWord v.stdin).1 with ⟨h1, h2⟩ | ⟨-, h1, h2⟩ | ⟨h1, -, h2⟩
    · simp only [h2, h1, if_true, bind_run, print, scanln, emit, Prog.pure]
      refine ⟨_, _, rfl, rfl, rfl, rfl, ?_⟩
      simp only [List.append_assoc]; rfl
    · simp only [h2, h1, show (LogicVal.no = LogicVal.yes) = False from eq_false (by decide), if_false, Prog.pure]
      refine ⟨_, _, rfl, rfl, rfl, rfl, ?_⟩
      simp only [List.append_assoc, List.append_nil]; rfl
    · simp only [h2, h1, if_false, Prog.pure]
      refine ⟨_, _, rfl, rfl, rfl, rfl, ?_⟩
      simp only [List.append_assoc, List.append_nil]; rfl
  have hnotify : ∀ (c : Config) (v : World), ∃ c' v', askNotify C c v = (.ret c', v') ∧ c'.timeout = c.timeout ∧ c'.period = c.period ∧
      v'.log = v.log ++ [.out (b!"  2. Update notifications? (" ++ (if c.notify then b!"y" else b!"n") ++
        b!") [y - for yes/n - for no]: "), .scan] := by
    intro c v
    unfold askNotify
    have e : LogicVal.fromValue c.notify = some (if c.notify then LogicVal.yes else LogicVal.no) := by
      cases c.notify <;> decide
    have e' : (if c.notify then LogicVal.yes else LogicVal.no).name = if c.notify then b!"y" else b!"n" := by
      cases c.notify <;> rfl
    rw [e]
    simp only [bind_run, print, scanln, emit, e']
    rcases fromName_cases C.env.text (scanWord v.stdin).1 with ⟨h1, h2⟩ | ⟨h0, h1, h2⟩ | ⟨h1, h0, h2⟩ <;>
    · simp only [h2, Prog.pure]
      refine ⟨_, _, rfl, rfl, rfl, ?_⟩
      simp only [List.append_assoc]; rfl
  have htimeout : ∀ (c : Config) (v : World), ∃ c' v', askTimeout c v = (.ret c', v') ∧ c'.period = c.period ∧
      v'.log = v.log ++ [.out (b!"  3. Update HTTP timeout in seconds (" ++ Num.intDec c.timeout ++ b!") [1-30]: "), .scan] := by
    intro c v
    unfold askTimeout
    simp only [bind_run, print, scanln, emit, Prog.pure]
    refine ⟨_, _, rfl, rfl, ?_⟩
    simp only [List.append_assoc]; rfl
  have hperiod : ∀ (c : Config) (v : World), ∃ c' v', askPeriod c v = (.ret c', v') ∧
      v'.log = v.log ++ [.out (b!"  4. How often check for updates in days (" ++ Num.intDec c.period ++ b!") [0-365]: "), .scan] := by
    intro c v
    unfold askPeriod
    simp only [bind_run, print, scanln, emit, Prog.pure]
    refine ⟨_, _, rfl, ?_⟩
    simp only [List.append_assoc]; rfl
  -- the run, piece by piece
  obtain ⟨r, hr⟩ : ∃ r, configure C w = r := ⟨_, rfl⟩
  rw [hr]
  unfold configure at hr
  rw [bind_run, hcheck] at hr
  simp only at hr
  rw [bind_run, read_run, hc.1, hold] at hr
  simp only at hr
  have hprint : ∀ (t : Bytes) (v : World), ∃ v', println t v = (.ret (), v') ∧ v'.log = v.log ++ [.out (t ++ [10])] ∧
      v'.stdin = v.stdin := fun t v => ⟨_, rfl, rfl, rfl⟩
  obtain ⟨va, ea, la, ia⟩ := hprint b!"Detailed configuration manual can be found online: https://github.com/mashmb/1pass#configuration" w1
  obtain ⟨v2, eb, lb, ib⟩ := hprint b!"Configuring 1pass:" va
  rw [bind_run, ea] at hr
  simp only at hr
  rw [bind_run, eb] at hr
  simp only at hr
  have i2 : v2.stdin = w.stdin := by rw [ib, ia]; exact hc.2.1
  have l2 : v2.log = w1.log ++ [.out b!"Detailed configuration manual can be found online: https://github.com/mashmb/1pass#configuration\n",
         .out b!"Configuring 1pass:\n"] := by
    rw [lb, la, List.append_assoc]; rfl
  obtain ⟨c1, v3, e1, n1, t1, p1, l3⟩ := hvault old v2
  obtain ⟨c2, v4, e2, t2, p2, l4⟩ := hnotify c1 v3
  obtain ⟨c3, v5, e3, p3, l5⟩ := htimeout c2 v4
  obtain ⟨c4, v6, e4, l6⟩ := hperiod c3 v5
  rw [bind_run, e1] at hr
  simp only at hr
  rw [bind_run, e2] at hr
  simp only at hr
  rw [bind_run, e3] at hr
  simp only at hr
  rw [bind_run, e4] at hr
  simp only at hr
  rw [bind_run] at hr
  rw [n1] at l4
  rw [t2, t1] at l5
  rw [p3, p2, p1] at l6
  rw [i2] at l3
  obtain ⟨-, -, es, l7, hes⟩ := foot_save C.sys C.ext C.dir c4 v6.disk.cwd (fun _ => True) (fun _ => False)
    (fun _ _ => trivial) trivial v6 rfl
  have hdisk : ∀ e ∈ es, ∃ d, e = Ev.disk d := by
    intro e he
    have := hes e he
    cases e with
    | disk d => exact ⟨d, rfl⟩
    | _ => exact absurd this id
  rw [l6, l5, l4, l3, l2] at l7
  clear hvault hnotify htimeout hperiod
  refine ⟨_, ⟨_, _, es,
    if Yes C.env.text (scanWord w.stdin).1 then [.out (b!"     Default OPVault path (" ++ old.vault ++ b!"): "), .scan] else [],
    if r.1 = .ret () then [.out b!"1pass configured\n"] else [], intDec_decimal old.timeout,
    intDec_decimal old.period, hdisk, fun h => if_pos h, fun h => if_neg h, fun h => if_pos h, fun h => if_neg h, rfl⟩, ?_⟩
  cases hs : Conf.save C.sys C.ext C.dir c4 v6 with
  | mk o v7 =>
    rw [hs] at l7 hr
    simp only at l7 hr
    cases o with
    | ret u =>
      simp only at hr
      obtain ⟨v8, e8, l8, -⟩ := hprint b!"1pass configured" v7
      rw [e8] at hr
      subst hr
      simp only [if_true]
      rw [l8, l7]
      simp only [List.append_assoc, List.cons_append, List.nil_append]
    | panic =>
      simp only at hr
      subst hr
      simp only [reduceCtorEq, if_false, List.append_nil]
      rw [l7]
      simp only [List.append_assoc, List.cons_append, List.nil_append]
    | fatal =>
      simp only at hr
      subst hr
      simp only [reduceCtorEq, if_false, List.append_nil]
      rw [l7]
      simp only [List.append_assoc, List.cons_append, List.nil_append]

/-- C106. Without a configuration a command starts with the same dialog about the built-in settings, between a greeting
and an empty line. -/
theorem C106_first_run (C : Ctx) (w w1 : World) (hnone : w.conf = none ∨ w.conf = some [])
    (hcheck : checkForUpdate C { w with log := w.log ++
      [.out b!"Running 1pass for the first time? Let's configure it!\n", .out b!"\n"] } = (.ret (), w1)) :
    ∃ log last, Dialog C.env.text { timeout := 1, notify := true, period := 1, vault := [] } (scanWord w.stdin).1
        ((firstRun C w).1 = .ret ()) log ∧
      ((firstRun C w).1 = .ret () → last = [.out b!"\n"]) ∧ ((firstRun C w).1 ≠ .ret () → last = []) ∧
      (firstRun C w).2.log = w1.log ++ log ++ last := by
  obtain ⟨r, hr⟩ : ∃ r, firstRun C w = r := ⟨_, rfl⟩
  rw [hr]
  have hprint : ∀ (t : Bytes) (v : World), println t v = (.ret (), { v with log := v.log ++ [.out (t ++ [10])] }) :=
    fun t v => rfl
  obtain ⟨g, hg⟩ : ∃ g : World, g = { w with log := w.log ++
      [.out b!"Running 1pass for the first time? Let's configure it!\n", .out b!"\n"] } := ⟨_, rfl⟩
  rw [← hg] at hcheck
  have gc : Conf.getConfig g.conf = .ret { timeout := 1, notify := true, period := 1, vault := [] } := by
    rw [hg]; dsimp only; rcases hnone with h | h <;> rw [h] <;> rfl
  have hav : Conf.isAvailable w.conf = false := by rcases hnone with h | h <;> rw [h] <;> rfl
  have gi : g.stdin = w.stdin := by rw [hg]
  have he : firstRun C w = (configure C >>= fun _ => println [] : Prog Unit) g := by
    unfold firstRun
    rw [bind_run]
    simp only [Prog.get]
    rw [if_neg (by rw [hav]; decide), bind_run, hprint]
    simp only
    rw [bind_run, hprint]
    simp only [List.append_assoc]
    rw [hg]
    rfl
  clear hg
  rw [he, bind_run] at hr
  obtain ⟨log, hd, hl⟩ := C106_dialog C g w1 { timeout := 1, notify := true, period := 1, vault := [] } gc hcheck
  rw [gi] at hd
  obtain ⟨o, v, hv⟩ : ∃ o v, configure C g = (o, v) := ⟨_, _, rfl⟩
  rw [hv] at hr hd hl
  cases o with
  | ret u =>
    dsimp only at hr hd hl
    rw [hprint] at hr
    subst hr
    exact ⟨log, _, hd, fun _ => rfl, fun h => absurd rfl h, by dsimp only; rw [hl]; rfl⟩
  | panic =>
    dsimp only at hr hd hl
    subst hr
    exact ⟨log, [], hd, fun h => (by cases h), fun _ => rfl, by rw [List.append_nil]; exact hl⟩
  | fatal =>
    dsimp only at hr hd hl
    subst hr
    exact ⟨log, [], hd, fun h => (by cases h), fun _ => rfl, by rw [List.append_nil]; exact hl⟩

/-- C106: somebody who wants another vault and a longer timeout. -/
example : (configure (demo [] 0) (user b!"y\n/w\n\n9\n\n")).2.log.filterMap
      (fun e => match e with | .out t => some t | _ => none) =
      [b!"Detailed configuration manual can be found online: https://github.com/mashmb/1pass#configuration\n",
       b!"Configuring 1pass:\n",
       b!"  1. Do you want to set default OPVault path? (n) [y - for yes/n - for no]: ",
       b!"     Default OPVault path (/v): ",
       b!"  2. Update notifications? (n) [y - for yes/n - for no]: ",
       b!"  3. Update HTTP timeout in seconds (5) [1-30]: ",
       b!"  4. How often check for updates in days (7) [0-365]: ",
       b!"1pass configured\n"] := by decide +kernel

/-- The hypotheses of C106 hold there. -/
example : Conf.getConfig (user b!"y\n/w\n\n9\n\n").conf = .ret Conf.myConf ∧
    (checkForUpdate (demo [] 0) (user b!"y\n/w\n\n9\n\n")).1 = .ret () := by decide +kernel

/-- Nothing is configured yet: the built-in settings are shown. -/
example : (firstRun (demo b!"null" 0) { Toy.world (Conf.confDisk []) b!"\n\n\n\n" with conf := some [] }).2.log.filterMap
      (fun e => match e with | .out t => some t | _ => none) =
      [b!"Running 1pass for the first time? Let's configure it!\n",
       b!"\n",
       b!"Detailed configuration manual can be found online: https://github.com/mashmb/1pass#configuration\n",
       b!"Configuring 1pass:\n",
       b!"  1. Do you want to set default OPVault path? (n) [y - for yes/n - for no]: ",
       b!"  2. Update notifications? (y) [y - for yes/n - for no]: ",
       b!"  3. Update HTTP timeout in seconds (1) [1-30]: ",
       b!"  4. How often check for updates in days (1) [0-365]: ",
       b!"1pass configured\n", b!"\n"] := by decide +kernel

/-- Decimal texts: one for each number. -/
example : Decimal b!"30" 30 ∧ Decimal b!"0" 0 ∧ Decimal b!"-12" (-12) ∧ ¬ Decimal b!"012" 12 ∧ ¬ Decimal b!"-0" 0 := by
  refine ⟨⟨b!"30", by decide +kernel, by decide +kernel, by decide +kernel, .inl (by decide +kernel)⟩, ⟨b!"0", by decide +kernel, by decide +kernel, by decide +kernel, .inl (by decide +kernel)⟩,
    ⟨b!"12", by decide +kernel, by decide +kernel, by decide +kernel, .inr (by decide +kernel)⟩, ?_, ?_⟩
  · rintro ⟨ds, -, -, h, ⟨-, rfl, -⟩ | ⟨h1, -⟩⟩
    · exact absurd (h rfl) (by decide +kernel)
    · omega
  · rintro ⟨ds, -, hd, -, ⟨-, rfl, -⟩ | ⟨h1, -⟩⟩
    · exact absurd (hd 45 (by decide +kernel)) (by decide +kernel)
    · omega

end Cli
end OnePass
