/-
C43, C44, C80, C81: the configuration dialog.
-/
import Verif.Props.Config
import Verif.Props.Queries
import Verif.Model.FootFacts
import Verif.Spec.Answers

set_option linter.unusedSimpArgs false

namespace OnePass
namespace Cli
open Prog Fmt Spec

/-- The answer means yes. On ASCII answers: `y` or `Y` (`C40_answers`). -/
def Yes (T : Text) (a : Bytes) : Prop := SameLetters T b!"y" a
/-- The answer means no. -/
def No (T : Text) (a : Bytes) : Prop := SameLetters T b!"n" a

instance (T : Text) (a : Bytes) : Decidable (Yes T a) := by unfold Yes; infer_instance
instance (T : Text) (a : Bytes) : Decidable (No T a) := by unfold No; infer_instance

theorem yes_not_no {T : Text} {a : Bytes} (h : Yes T a) : ¬ No T a := by
  intro h2
  have e1 := (C40_answers T a).1 h
  have e2 := (C40_answers T a).2.1 h2
  rw [e1] at e2
  cases e2

/-- What the truth value of an answer does to a setting. -/
theorem fromName_cases (T : Text) (a : Bytes) :
    (Yes T a ∧ LogicVal.fromName T a = .ok LogicVal.yes) ∨ (No T a ∧ ¬ Yes T a ∧ LogicVal.fromName T a = .ok LogicVal.no) ∨
      (¬ Yes T a ∧ ¬ No T a ∧ LogicVal.fromName T a = .error .unknownLogicVal) := by
  by_cases h1 : Yes T a
  · exact .inl ⟨h1, (C40_answers T a).1 h1⟩
  · by_cases h2 : No T a
    · exact .inr (.inl ⟨h2, h1, (C40_answers T a).2.1 h2⟩)
    · exact .inr (.inr ⟨h1, h2, (C40_answers T a).2.2.1 h1 h2⟩)

/-- The input and the log are all a question changes. -/
def asked (w : World) (rest : Bytes) (es : List Ev) : World := { w with stdin := rest, log := w.log ++ es }

theorem askVault_run (C : Ctx) (c : Config) (w : World) : ∃ es,
    askVault C c w = if Yes C.env.text (scanWord w.stdin).1 then
        (.ret { c with vault := Str.trimSpace (scanWord (scanWord w.stdin).2).1 },
          asked w (scanWord (scanWord w.stdin).2).2 es)
      else (.ret c, asked w (scanWord w.stdin).2 es) := by
  unfold askVault
  simp only [bind_run, print, scanln, emit]
  rcases fromName_cases C.env.text (scanWord w.stdin).1 with ⟨h1, h2⟩ | ⟨-, h1, h2⟩ | ⟨h1, -, h2⟩
  · simp only [h2, h1, if_true, bind_run, print, scanln, emit, Prog.pure, asked, List.append_assoc]
    exact ⟨_, rfl⟩
  · simp only [h2, h1, show (LogicVal.no = LogicVal.yes) = False from eq_false (by decide), if_false, Prog.pure, asked, List.append_assoc]
    exact ⟨_, rfl⟩
  · simp only [h2, h1, if_false, Prog.pure, asked, List.append_assoc]
    exact ⟨_, rfl⟩

theorem askNotify_run (C : Ctx) (c : Config) (w : World) : ∃ es,
    askNotify C c w = (.ret { c with
        notify := if Yes C.env.text (scanWord w.stdin).1 then true
          else if No C.env.text (scanWord w.stdin).1 then false else c.notify }, asked w (scanWord w.stdin).2 es) := by
  unfold askNotify
  obtain ⟨lv, hlv, -⟩ := C40_inverse C.env.text c.notify
  rw [hlv]
  simp only [bind_run, print, scanln, emit]
  rcases fromName_cases C.env.text (scanWord w.stdin).1 with ⟨h1, h2⟩ | ⟨h0, h1, h2⟩ | ⟨h1, h0, h2⟩
  · simp only [h2, h1, if_true, Prog.pure, asked, List.append_assoc]
    exact ⟨_, rfl⟩
  · simp only [h2, h1, h0, if_true, if_false, Prog.pure, asked, List.append_assoc]
    exact ⟨_, rfl⟩
  · simp only [h2, h1, h0, if_true, if_false, Prog.pure, asked, List.append_assoc]
    exact ⟨_, rfl⟩

theorem askTimeout_run (c : Config) (w : World) : ∃ es,
    askTimeout c w = (.ret { c with timeout := inRange 1 30 (scanWord w.stdin).1 c.timeout }, asked w (scanWord w.stdin).2 es) := by
  unfold askTimeout
  simp only [bind_run, print, scanln, emit, Prog.pure, asked, List.append_assoc]
  exact ⟨_, rfl⟩

theorem askPeriod_run (c : Config) (w : World) : ∃ es,
    askPeriod c w = (.ret { c with period := inRange 0 365 (scanWord w.stdin).1 c.period }, asked w (scanWord w.stdin).2 es) := by
  unfold askPeriod
  simp only [bind_run, print, scanln, emit, Prog.pure, asked, List.append_assoc]
  exact ⟨_, rfl⟩

theorem inRange_chosen (lo hi : Int) (a : Bytes) (old : Int) (h1 : -9223372036854775808 ≤ lo) (h2 : hi < 9223372036854775808) :
    Chosen lo hi a old (inRange lo hi a old) := by
  unfold inRange
  dsimp only
  by_cases h : ∃ n, Numeral a n ∧ lo ≤ n ∧ n ≤ hi
  · obtain ⟨n, h3, h4, h5⟩ := h
    have := (Num.parseInt_iff a n).2 ⟨h3, by omega, by omega⟩
    rw [this]
    exact .inl ⟨n, h3, h4, h5, by simp [h4, h5]⟩
  · refine .inr ⟨h, if_neg ?_⟩
    rintro ⟨h3, h4, h5⟩
    have : Num.parseInt a = ((Num.parseInt a).1, false) := by rw [← h3]
    exact h ⟨_, ((Num.parseInt_iff a _).1 this).1, h4, h5⟩

/-- The answers typed in a dialog: question 1 (with the path, if yes), 2, 3, 4. -/
structure Typed (T : Text) (stdin a1 path a2 a3 a4 rest : Bytes) : Prop where
  ex : ∃ s1 s2 s3 s4, Types stdin a1 s1 ∧ (if Yes T a1 then Types s1 path s2 else s2 = s1) ∧ Types s2 a2 s3 ∧
    Types s3 a3 s4 ∧ Types s4 a4 rest

/-- What the answers mean. -/
structure Meant (T : Text) (old new : Config) (a1 path a2 a3 a4 : Bytes) : Prop where
  vault : new.vault = if Yes T a1 then Str.trimSpace path else old.vault
  notify : new.notify = if Yes T a2 then true else if No T a2 then false else old.notify
  timeout : Chosen 1 30 a3 old.timeout new.timeout
  period : Chosen 0 365 a4 old.period new.period

/-- The whole of Configure between the check for updates and the save. -/
theorem configure_ret (C : Ctx) {w w' : World} {old : Config} (hold : Conf.getConfig w.conf = .ret old)
    (h : configure C w = (.ret (), w')) :
    ∃ w1 w2 w3 new, checkForUpdate C w = (.ret (), w1) ∧ w2.conf = w.conf ∧ w2.disk = w1.disk ∧
      Conf.save C.sys C.ext C.dir new w2 = (.ret (), w3) ∧ w'.conf = w3.conf ∧ w'.disk = w3.disk ∧
      (new.vault = if Yes C.env.text (scanWord w.stdin).1 then
        Str.trimSpace (scanWord (scanWord w.stdin).2).1 else old.vault) ∧
      (∀ a1 path a2 a3 a4 rest, Typed C.env.text w.stdin a1 path a2 a3 a4 rest →
        Meant C.env.text old new a1 path a2 a3 a4 ∧ w2.stdin = rest) := by
  unfold configure at h
  obtain ⟨⟨⟩, w1, h1, h⟩ := Conf.bind_ret h
  have hc := calm_cliCheck C w
  rw [h1] at hc
  obtain ⟨c, w1', h2, h⟩ := Conf.bind_ret h
  rw [read_run, hc.1, hold] at h2
  obtain ⟨rfl⟩ := congrArg Prod.fst h2
  obtain rfl : w1 = w1' := congrArg Prod.snd h2
  obtain ⟨⟨⟩, v1, h3, h⟩ := Conf.bind_ret h
  obtain ⟨⟨⟩, v2, h4, h⟩ := Conf.bind_ret h
  simp only [println, emit, Prod.mk.injEq, true_and] at h3 h4
  obtain ⟨c1, v3, h5, h⟩ := Conf.bind_ret h
  obtain ⟨c2, v4, h6, h⟩ := Conf.bind_ret h
  obtain ⟨c3, v5, h7, h⟩ := Conf.bind_ret h
  obtain ⟨c4, v6, h8, h⟩ := Conf.bind_ret h
  obtain ⟨⟨⟩, v7, h9, h10⟩ := Conf.bind_ret h
  simp only [println, emit, Prod.mk.injEq, true_and] at h10
  have i2 : v2.conf = w.conf ∧ v2.disk = w1.disk ∧ v2.stdin = w.stdin := by
    rw [← h4, ← h3]; exact ⟨hc.1, rfl, hc.2.1⟩
  obtain ⟨es, e5⟩ := askVault_run C old v2
  obtain ⟨es', e6⟩ := askNotify_run C c1 v3
  obtain ⟨es'', e7⟩ := askTimeout_run c2 v4
  obtain ⟨es''', e8⟩ := askPeriod_run c3 v5
  rw [h5] at e5
  rw [h6] at e6
  rw [h7] at e7
  rw [h8] at e8
  simp only [Prod.mk.injEq, Out.ret.injEq] at e6 e7 e8
  have i3 : v3.conf = v2.conf ∧ v3.disk = v2.disk := by
    split at e5 <;> (simp only [Prod.mk.injEq] at e5; rw [e5.2]; exact ⟨rfl, rfl⟩)
  have i6 : v6.conf = w.conf ∧ v6.disk = w1.disk := by
    rw [e8.2, e7.2, e6.2]
    exact ⟨i3.1.trans i2.1, i3.2.trans i2.2.1⟩
  refine ⟨w1, v6, v7, c4, h1, i6.1, i6.2, h9, by rw [← h10], by rw [← h10], ?_, ?_⟩
  · rw [i2.2.2] at e5
    rw [e8.1, e7.1, e6.1]
    split at e5
    · rename_i hy
      rw [if_pos hy]
      simp only [Prod.mk.injEq, Out.ret.injEq] at e5
      rw [e5.1]
    · rename_i hy
      rw [if_neg hy]
      simp only [Prod.mk.injEq, Out.ret.injEq] at e5
      rw [e5.1]
  rintro a1 path a2 a3 a4 rest ⟨s1, s2, s3, s4, t1, t2, t3, t4, t5⟩
  have k1 := scanWord_types t1
  have k3 := scanWord_types t3
  have k4 := scanWord_types t4
  have k5 := scanWord_types t5
  rw [i2.2.2, k1] at e5
  simp only at e5
  have e3 : c1 = { old with vault := if Yes C.env.text a1 then Str.trimSpace path else old.vault } ∧ v3.stdin = s2 := by
    by_cases hy : Yes C.env.text a1
    · rw [if_pos hy] at e5 t2
      rw [scanWord_types t2] at e5
      simp only [Prod.mk.injEq, Out.ret.injEq] at e5
      rw [if_pos hy, e5.1, e5.2]; exact ⟨rfl, rfl⟩
    · rw [if_neg hy] at e5 t2
      simp only [Prod.mk.injEq, Out.ret.injEq] at e5
      rw [if_neg hy, e5.1, e5.2, t2]; exact ⟨rfl, rfl⟩
  rw [e3.2, k3] at e6
  have e4 : v4.stdin = s3 := by rw [e6.2]; rfl
  rw [e4, k4] at e7
  have e4' : v5.stdin = s4 := by rw [e7.2]; rfl
  rw [e4', k5] at e8
  refine ⟨⟨?_, ?_, ?_, ?_⟩, by rw [e8.2]; rfl⟩
  · rw [e8.1, e7.1, e6.1, e3.1]
  · rw [e8.1, e7.1, e6.1, e3.1]
  · have := inRange_chosen 1 30 a3 old.timeout (by decide) (by decide)
    rw [e8.1, e7.1, e6.1, e3.1]; exact this
  · have := inRange_chosen 0 365 a4 old.period (by decide) (by decide)
    rw [e8.1, e7.1, e6.1, e3.1]; exact this

/-! ### C43 -/

/-- C43. Configure with any answers of one word each: what was saved (on disk, and in the running process if no
call fails) is the old configuration, changed exactly as the answers mean. -/
theorem C43_answers (C : Ctx) (hdir : C.dir ≠ []) (w w' : World) (old : Config)
    (hold : Conf.getConfig w.conf = .ret old) (a1 path a2 a3 a4 rest : Bytes)
    (ht : Typed C.env.text w.stdin a1 path a2 a3 a4 rest) (h : configure C w = (.ret (), w')) :
    ∃ new, Meant C.env.text old new a1 path a2 a3 a4 ∧
      (∃ m, Conf.loaded C.ext w'.disk C.dir = some m ∧ Conf.getConfig m = .ret new) ∧
      (C.sys.Quiet → Conf.getConfig w'.conf = .ret new) := by
  obtain ⟨w1, w2, w3, new, h1, h2, h3, h4, h5, h6, -, h7⟩ := configure_ret C hold h
  obtain ⟨m, m', -, h8, h9, -, h10, -⟩ := Conf.save_ret hdir h4
  refine ⟨new, (h7 _ _ _ _ _ _ ht).1, ⟨some m', by rw [h6]; exact h8, Conf.getConfig_updated m m' new h9⟩, fun hq => ?_⟩
  rw [h5, h10 hq]
  exact Conf.getConfig_updated m m' new h9

/-- C43. Hence timeout and period stay in range. -/
theorem C43_in_range (T : Text) (old new : Config) (a1 path a2 a3 a4 : Bytes) (h : Meant T old new a1 path a2 a3 a4)
    (h1 : 1 ≤ old.timeout ∧ old.timeout ≤ 30) (h2 : 0 ≤ old.period ∧ old.period ≤ 365) :
    1 ≤ new.timeout ∧ new.timeout ≤ 30 ∧ 0 ≤ new.period ∧ new.period ≤ 365 := by
  obtain ⟨-, -, h3, h4⟩ := h
  rcases h3 with ⟨n, -, h5, h6, h7⟩ | ⟨-, h7⟩ <;> rcases h4 with ⟨n', -, h8, h9, h10⟩ | ⟨-, h10⟩ <;>
    rw [h7, h10] <;> omega

/-- C43. Empty answers (also: an input that ends early) change nothing. -/
theorem C43_empty_answers (T : Text) (old new : Config) (path : Bytes) (h : Meant T old new [] path [] [] []) : new = old := by
  have hy : ¬ Yes T [] := by
    intro h0
    rcases (((C40_answers T []).2.2.2 rfl).1).1 h0 with h1 | h1 <;> cases h1
  have hn : ¬ No T [] := by
    intro h0
    rcases (((C40_answers T []).2.2.2 rfl).2).1 h0 with h1 | h1 <;> cases h1
  have hnum : ∀ lo hi : Int, ¬ ∃ n, Numeral [] n ∧ lo ≤ n ∧ n ≤ hi := by
    rintro lo hi ⟨n, ⟨ds, h1, -, (⟨h2 | h2, -⟩ | ⟨h2, -⟩)⟩, -⟩
    · exact h1 h2.symm
    · cases h2
    · cases h2
  obtain ⟨h1, h2, h3, h4⟩ := h
  rw [if_neg hy] at h1
  rw [if_neg hy, if_neg hn] at h2
  have h5 : new.timeout = old.timeout := by
    rcases h3 with ⟨n, h5, h6, h7, -⟩ | ⟨-, h5⟩
    · exact absurd ⟨n, h5, h6, h7⟩ (hnum 1 30)
    · exact h5
  have h6 : new.period = old.period := by
    rcases h4 with ⟨n, h5, h6, h7, -⟩ | ⟨-, h5⟩
    · exact absurd ⟨n, h5, h6, h7⟩ (hnum 0 365)
    · exact h5
  obtain ⟨t, n, p, v⟩ := new
  obtain ⟨t', n', p', v'⟩ := old
  simp only at h1 h2 h5 h6
  rw [h1, h2, h5, h6]

/-- A context for examples. -/
def demo (body : Bytes) (now : Int) : Ctx :=
  { env := .toy, ext := Toy.ext, sys := Toy.sys body now, order := MapOrder.doc, sorter := Sorter.ins, dir := b!"/h" }

/-- A user with a configuration file, and some input. -/
def user (stdin : Bytes) : World :=
  { Toy.world (Conf.confDisk (Toy.encode (Conf.updated [] Conf.myConf))) stdin with conf := some (Conf.updated [] Conf.myConf) }

/-- C43: notifications on, timeout out of range, period 14. -/
example : Typed .toy b!"n\nY\n31\n 14 \nx" b!"n" [] b!"Y" b!"31" b!"14" b!"x" :=
  ⟨⟨b!"Y\n31\n 14 \nx", b!"Y\n31\n 14 \nx", b!"31\n 14 \nx", b!" 14 \nx", by
    refine ⟨⟨[], [], [110], ?_⟩, ?_, ⟨[], [], [89], ?_⟩, ⟨[], [], [51, 49], ?_⟩, ⟨[32], [32], [49, 52], ?_⟩⟩
    all_goals first | decide +kernel | exact rfl⟩⟩

example : (configure (demo [] 0) (user b!"n\nY\n31\n 14 \nx")).1 = .ret () ∧
    Conf.getConfig (configure (demo [] 0) (user b!"n\nY\n31\n 14 \nx")).2.conf =
      .ret { timeout := 5, notify := true, period := 14, vault := b!"/v" } := by decide +kernel

/-! ### C80, C81 -/

theorem trimSpace_word {word : List Nat} (h : ∀ c ∈ word, Letter c) : Str.trimSpace (Str.utf8 word) = Str.utf8 word := by
  have h1 : ∀ q : List Nat, (∀ c ∈ q, Letter c) → q.dropWhile Str.whiteB = q := by
    intro q hq
    cases q with
    | nil => rfl
    | cons c r =>
      have : Str.whiteB c = false := by simp [Str.whiteB, (hq c (by simp)).2]
      rw [List.dropWhile, this]
  rw [Str.trimSpace_utf8 _ (fun c hc => (h c hc).1), Str.trim, h1 _ h, h1 _ (fun c hc => h c (List.mem_reverse.1 hc)),
    List.reverse_reverse]

theorem yes_y (T : Text) : Yes T b!"y" := rfl

/-- C80, what holds: a path (of Unicode characters) without white space is stored as typed. Missing: paths with blanks
(`C80_refuted`). -/
theorem C80_path_partial (C : Ctx) (hdir : C.dir ≠ []) (w w' : World) (old : Config)
    (hold : Conf.getConfig w.conf = .ret old) (p a2 a3 a4 rest : Bytes)
    (ht : Typed C.env.text w.stdin b!"y" p a2 a3 a4 rest) (h : configure C w = (.ret (), w')) :
    ∃ m new, Conf.loaded C.ext w'.disk C.dir = some m ∧ Conf.getConfig m = .ret new ∧ new.vault = p := by
  obtain ⟨new, h1, ⟨m, h2, h3⟩, -⟩ := C43_answers C hdir w w' old hold _ _ _ _ _ _ ht h
  refine ⟨m, new, h2, h3, ?_⟩
  rw [h1.vault, if_pos (yes_y _)]
  obtain ⟨s1, s2, -, -, -, h4, -⟩ := ht.ex
  rw [if_pos (yes_y _)] at h4
  obtain ⟨-, -, word, -, -, h5, rfl, -⟩ := h4
  exact trimSpace_word h5

/-- C80: a path with letters beyond ASCII; a no-break space before it (here `c2 a0`) is no part of it. -/
example : (configure (demo [] 0) (user ([121, 10, 0xC2, 0xA0, 47, 0xC5, 0xBC, 10, 10, 10, 10]))).1 = .ret () ∧
    Conf.getConfig (configure (demo [] 0) (user ([121, 10, 0xC2, 0xA0, 47, 0xC5, 0xBC, 10, 10, 10, 10]))).2.conf =
      .ret { Conf.myConf with vault := Str.utf8 [47, 0x17C] } := by decide +kernel

/-- C80 is false: whoever answers `y` and types the path `/my vault` has the vault `/my` configured, in every
context and whatever else is typed. -/
theorem C80_refuted (C : Ctx) (hdir : C.dir ≠ []) (w w' : World) (old : Config)
    (hold : Conf.getConfig w.conf = .ret old) (rest : Bytes) (hin : w.stdin = b!"y\n/my vault\n" ++ rest)
    (h : configure C w = (.ret (), w')) :
    ∃ m new, Conf.loaded C.ext w'.disk C.dir = some m ∧ Conf.getConfig m = .ret new ∧ new.vault = b!"/my" := by
  obtain ⟨w1, w2, w3, new, h1, h2, h3, h4, h5, h6, h7, -⟩ := configure_ret C hold h
  obtain ⟨m, m', -, h8, h9, -⟩ := Conf.save_ret hdir h4
  refine ⟨some m', new, by rw [h6]; exact h8, Conf.getConfig_updated m m' new h9, ?_⟩
  have e1 : scanWord w.stdin = (b!"y", b!"/my vault\n" ++ rest) := by rw [hin]; rfl
  have e2 : scanWord (b!"/my vault\n" ++ rest) = (b!"/my", b!"ault\n" ++ rest) := by rfl
  rw [h7, e1, if_pos (yes_y _)]
  simp only [e2]
  exact trimSpace_word (word := [47, 109, 121]) (by decide)

/-- C80: it does return; and the rest of the path is taken as the next answer (`ault` – no valid answer). -/
example : Conf.getConfig (configure (demo [] 0) (user b!"y\n/my vault\ny\n9\n10\n")).2.conf =
    .ret { timeout := 5, notify := false, period := 9, vault := b!"/my" } ∧
    (configure (demo [] 0) (user b!"y\n/my vault\ny\n9\n10\n")).1 = .ret () := by decide +kernel

/-- C81 is false: answering `y` and then, as everywhere else to keep the old value, nothing, deletes the
configured vault path, in every context. -/
theorem C81_refuted (C : Ctx) (hdir : C.dir ≠ []) (w w' : World) (old : Config)
    (hold : Conf.getConfig w.conf = .ret old) (rest : Bytes) (hin : w.stdin = b!"y\n\n" ++ rest)
    (h : configure C w = (.ret (), w')) :
    ∃ m new, Conf.loaded C.ext w'.disk C.dir = some m ∧ Conf.getConfig m = .ret new ∧ new.vault = [] := by
  obtain ⟨w1, w2, w3, new, h1, h2, h3, h4, h5, h6, h7, -⟩ := configure_ret C hold h
  obtain ⟨m, m', -, h8, h9, -⟩ := Conf.save_ret hdir h4
  refine ⟨some m', new, by rw [h6]; exact h8, Conf.getConfig_updated m m' new h9, ?_⟩
  have e1 : scanWord w.stdin = (b!"y", b!"\n" ++ rest) := by rw [hin]; rfl
  have e2 : scanWord (b!"\n" ++ rest) = ([], rest) := by rfl
  rw [h7, e1, if_pos (yes_y _)]
  simp only [e2]
  rfl

/-- C81, what holds: unless the answer to the first question is yes, the configured path stays. Missing: an empty
path (`C81_refuted`). -/
theorem C81_path_kept_partial (C : Ctx) (hdir : C.dir ≠ []) (w w' : World) (old : Config)
    (hold : Conf.getConfig w.conf = .ret old) (hin : ¬ Yes C.env.text (scanWord w.stdin).1)
    (h : configure C w = (.ret (), w')) :
    ∃ m new, Conf.loaded C.ext w'.disk C.dir = some m ∧ Conf.getConfig m = .ret new ∧ new.vault = old.vault := by
  obtain ⟨w1, w2, w3, new, h1, h2, h3, h4, h5, h6, h7, -⟩ := configure_ret C hold h
  obtain ⟨m, m', -, h8, h9, -⟩ := Conf.save_ret hdir h4
  refine ⟨some m', new, by rw [h6]; exact h8, Conf.getConfig_updated m m' new h9, ?_⟩
  rw [h7, if_neg hin]

example : Conf.getConfig (configure (demo [] 0) (user b!"y\n\nn\n\n\n")).2.conf = .ret { Conf.myConf with vault := [] } ∧
    (configure (demo [] 0) (user b!"y\n\nn\n\n\n")).1 = .ret () := by decide +kernel
example : Conf.getConfig (configure (demo [] 0) (user b!"\n\n\n\n")).2.conf = .ret Conf.myConf := by decide +kernel

end Cli
end OnePass
