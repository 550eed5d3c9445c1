/-
C141: one line, one answer – what becomes of the rest of a line with several words.
-/
import Verif.Props.Consent

set_option linter.unusedSimpArgs false

namespace OnePass
namespace Spec
open Str (utf8)

/-- The next line of the input `s` begins with the word `a` and goes on: white space, one more character, then `rest`
(the remainder of the line, and the lines after it). -/
def Spills (s a rest : Bytes) : Prop :=
  ∃ pre word gap : List Nat, ∃ c : Nat, (∀ c ∈ pre, Blank c) ∧ word ≠ [] ∧ (∀ c ∈ word, Letter c) ∧
    gap ≠ [] ∧ (∀ c ∈ gap, Blank c) ∧ Letter c ∧ a = utf8 word ∧ s = utf8 pre ++ a ++ utf8 gap ++ utf8 [c] ++ rest

/-- The next line is one word (or nothing), or begins with one. -/
def Begins (s a rest : Bytes) : Prop := Types s a rest ∨ Spills s a rest

end Spec

namespace Fmt
open Spec
open Str (Scalar White utf8 utf8_cons)
open Json (utf8Enc)

theorem afterWord_letter (gap : List Nat) (c : Nat) (r : Bytes) (h : ∀ c ∈ gap, Blank c) (hc : Letter c) (n : Nat)
    (hn : gap.length < n) : afterWord n (utf8 gap ++ (utf8Enc c ++ r)) = r := by
  induction gap generalizing n with
  | nil =>
    cases n with
    | zero => omega
    | succ n =>
      show afterWord (n + 1) (utf8Enc c ++ r) = r
      rw [afterWord, readRune_enc hc.1]
      simp only
      rw [if_pos (spaceLen_letter hc), ite_self]
  | cons d gap ih =>
    cases n with
    | zero => omega
    | succ n =>
      have hd := h d (by simp)
      rw [utf8_cons, List.append_assoc, afterWord, readRune_enc (blank_scalar hd.1)]
      simp only
      rw [if_neg (fun e => hd.2 ((enc_newline (blank_scalar hd.1)).1 e)), if_neg (spaceLen_white hd.1)]
      exact ih (fun c hc => h c (by simp [hc])) n (by simpa using hn)

/-- `Scanln` reads the first word of a line, and loses the first character of the second one. -/
theorem scanWord_spills {s a rest : Bytes} (h : Spills s a rest) : scanWord s = (a, rest) := by
  obtain ⟨pre, word, gap, c, h1, hw, h2, hg, h3, hc, rfl, rfl⟩ := h
  have lens := fun l => Str.utf8_length l
  have e1 : utf8 [c] = utf8Enc c := by rw [utf8_cons]; simp [utf8]
  unfold scanWord
  rw [e1, List.append_assoc, List.append_assoc, List.append_assoc]
  have hsp : utf8 gap ++ (utf8Enc c ++ rest) = [] ∨ ∃ d x, utf8 gap ++ (utf8Enc c ++ rest) = utf8Enc d ++ x ∧ White d := by
    cases gap with
    | nil => exact absurd rfl hg
    | cons d gap => exact .inr ⟨d, utf8 gap ++ (utf8Enc c ++ rest), by rw [utf8_cons, List.append_assoc], (h3 d (by simp)).1⟩
  have hwl : 0 < word.length := List.length_pos_iff.2 hw
  obtain ⟨n, hn⟩ : ∃ n, (utf8 pre ++ (utf8 word ++ (utf8 gap ++ (utf8Enc c ++ rest)))).length = pre.length + (n + 1) := by
    refine ⟨(utf8 pre).length + (utf8 word).length + (utf8 gap).length + (utf8Enc c).length + rest.length - pre.length - 1, ?_⟩
    have := lens pre; have := lens word
    simp only [List.length_append]
    omega
  rw [hn, scanFrom_skip pre _ h1, scanFrom_word word _ hw h2 hsp _ (by omega), afterWord_letter gap c rest h3 hc]
  have := lens gap; have := lens word
  simp only [List.length_append]
  omega

theorem scanWord_begins {s a rest : Bytes} (h : Begins s a rest) : scanWord s = (a, rest) :=
  h.elim scanWord_types scanWord_spills

end Fmt

namespace Cli
open Prog Fmt Spec Upd

/-! ### The dialog, whatever is typed -/

/-- What the questions of the dialog get: each the first word of what the question before it left. -/
structure Heard (T : Text) (stdin a1 path a2 a3 a4 rest : Bytes) : Prop where
  ex : ∃ s1 s2 s3 s4, Begins stdin a1 s1 ∧ (if Yes T a1 then Begins s1 path s2 else s2 = s1) ∧ Begins s2 a2 s3 ∧
    Begins s3 a3 s4 ∧ Begins s4 a4 rest

theorem configure_heard (C : Ctx) {w w' : World} {old : Config} (hold : Conf.getConfig w.conf = .ret old)
    (h : configure C w = (.ret (), w')) {a1 path a2 a3 a4 rest : Bytes} (ht : Heard C.env.text w.stdin a1 path a2 a3 a4 rest) :
    ∃ w2 w3 new, Conf.save C.sys C.ext C.dir new w2 = (.ret (), w3) ∧ w'.conf = w3.conf ∧ w'.disk = w3.disk ∧
      Meant C.env.text old new a1 path a2 a3 a4 := by
  unfold configure at h
  obtain ⟨⟨⟩, w1, h1, h⟩ := Conf.bind_ret h
  have hc := calm_cliCheck C w
  rw [h1] at hc
  obtain ⟨c, w1', h2, h⟩ := Conf.bind_ret h
  rw [read_run, hc.1, hold] at h2
  obtain ⟨rfl⟩ := congrArg Prod.fst h2
  obtain rfl : w1 = w1' := congrArg Prod.snd h2
  obtain ⟨⟨⟩, v1, h3, h⟩ := Conf.bind_ret h
  obtain ⟨⟨⟩, v2, h4, h⟩ := Conf.bind_ret h
  simp only [println, emit, Prod.mk.injEq, true_and] at h3 h4
  obtain ⟨c1, v3, h5, h⟩ := Conf.bind_ret h
  obtain ⟨c2, v4, h6, h⟩ := Conf.bind_ret h
  obtain ⟨c3, v5, h7, h⟩ := Conf.bind_ret h
  obtain ⟨c4, v6, h8, h⟩ := Conf.bind_ret h
  obtain ⟨⟨⟩, v7, h9, h10⟩ := Conf.bind_ret h
  simp only [println, emit, Prod.mk.injEq, true_and] at h10
  have i2 : v2.stdin = w.stdin := by rw [← h4, ← h3]; exact hc.2.1
  obtain ⟨es, e5⟩ := askVault_run C old v2
  obtain ⟨es', e6⟩ := askNotify_run C c1 v3
  obtain ⟨es'', e7⟩ := askTimeout_run c2 v4
  obtain ⟨es''', e8⟩ := askPeriod_run c3 v5
  rw [h5] at e5
  rw [h6] at e6
  rw [h7] at e7
  rw [h8] at e8
  simp only [Prod.mk.injEq, Out.ret.injEq] at e6 e7 e8
  refine ⟨v6, v7, c4, h9, by rw [← h10], by rw [← h10], ?_⟩
  obtain ⟨s1, s2, s3, s4, t1, t2, t3, t4, t5⟩ := ht.ex
  have k1 := scanWord_begins t1
  have k3 := scanWord_begins t3
  have k4 := scanWord_begins t4
  have k5 := scanWord_begins t5
  rw [i2, k1] at e5
  simp only at e5
  have e3 : c1 = { old with vault := if Yes C.env.text a1 then Str.trimSpace path else old.vault } ∧ v3.stdin = s2 := by
    by_cases hy : Yes C.env.text a1
    · rw [if_pos hy] at e5 t2
      rw [scanWord_begins t2] at e5
      simp only [Prod.mk.injEq, Out.ret.injEq] at e5
      rw [if_pos hy, e5.1, e5.2]; exact ⟨rfl, rfl⟩
    · rw [if_neg hy] at e5 t2
      simp only [Prod.mk.injEq, Out.ret.injEq] at e5
      rw [if_neg hy, e5.1, e5.2, t2]; exact ⟨rfl, rfl⟩
  rw [e3.2, k3] at e6
  have e4 : v4.stdin = s3 := by rw [e6.2]; rfl
  rw [e4, k4] at e7
  have e4' : v5.stdin = s4 := by rw [e7.2]; rfl
  rw [e4', k5] at e8
  refine ⟨?_, ?_, ?_, ?_⟩
  · rw [e8.1, e7.1, e6.1, e3.1]
  · rw [e8.1, e7.1, e6.1, e3.1]
  · have := inRange_chosen 1 30 a3 old.timeout (by decide) (by decide)
    rw [e8.1, e7.1, e6.1, e3.1]; exact this
  · have := inRange_chosen 0 365 a4 old.period (by decide) (by decide)
    rw [e8.1, e7.1, e6.1, e3.1]; exact this

/-! ### C141 -/

/-- C141. What the dialog does with several words on a line, in every context: each question is answered by the first
word of what the question before it left; and if there was a second word, that is the second word without its first
character and whatever follows. -/
theorem C141_spill (C : Ctx) (hdir : C.dir ≠ []) (w w' : World) (old : Config)
    (hold : Conf.getConfig w.conf = .ret old) (a1 path a2 a3 a4 rest : Bytes)
    (ht : Heard C.env.text w.stdin a1 path a2 a3 a4 rest) (h : configure C w = (.ret (), w')) :
    ∃ new, Meant C.env.text old new a1 path a2 a3 a4 ∧
      (∃ m, Conf.loaded C.ext w'.disk C.dir = some m ∧ Conf.getConfig m = .ret new) ∧
      (C.sys.Quiet → Conf.getConfig w'.conf = .ret new) := by
  obtain ⟨w2, w3, new, h4, h5, h6, h7⟩ := configure_heard C hold h ht
  obtain ⟨m, m', -, h8, h9, -, h10, -⟩ := Conf.save_ret hdir h4
  refine ⟨new, h7, ⟨some m', by rw [h6]; exact h8, Conf.getConfig_updated m m' new h9⟩, fun hq => ?_⟩
  rw [h5, h10 hq]
  exact Conf.getConfig_updated m m' new h9

/-- C141: the path `/my by 17 25`. The vault is `/my`, notifications are turned on by the second letter of `by`, the
timeout is 7 and the period 5. -/
example : Heard .toy b!"y\n/my by 17 25\n\n" b!"y" b!"/my" b!"y" b!"7" b!"5" b!"\n" :=
  ⟨⟨b!"/my by 17 25\n\n", b!"y 17 25\n\n", b!"7 25\n\n", b!"5\n\n", by
    rw [if_pos (show Yes .toy b!"y" by decide +kernel)]
    refine ⟨.inl ⟨[], [], [121], ?_⟩, .inr ⟨[], [47, 109, 121], [32], 98, ?_⟩, .inr ⟨[], [121], [32], 49, ?_⟩,
      .inr ⟨[], [55], [32], 50, ?_⟩, .inl ⟨[], [], [53], ?_⟩⟩
    all_goals decide +kernel⟩⟩
example : Conf.getConfig (configure (demo [] 0) (user b!"y\n/my by 17 25\n\n")).2.conf =
    .ret { timeout := 7, notify := true, period := 5, vault := b!"/my" } ∧
    (configure (demo [] 0) (user b!"y\n/my by 17 25\n\n")).1 = .ret () := by decide +kernel

/-- The line is an `n`, possibly followed by something else. -/
def SaysNo (l : Bytes) : Prop := 10 ∉ l ∧ (l = b!"n" ∨ ∃ r, l = b!"n " ++ r)

/-- C141, the wish: one line answers one question. Two runs of the dialog in which the first line is a no, whatever
comments it has, and all other lines agree, store the same. -/
def C141_wish (C : Ctx) : Prop :=
  ∀ (w w1 w2 : World) (l l' t : Bytes), SaysNo l → SaysNo l' →
    configure C { w with stdin := l ++ 10 :: t } = (.ret (), w1) →
    configure C { w with stdin := l' ++ 10 :: t } = (.ret (), w2) →
    Conf.getConfig w1.conf = Conf.getConfig w2.conf

theorem ran {α : Type} {p : Out α × World} {x : α} (h : p.1 = .ret x) : p = (.ret x, p.2) := by rw [← h]

/-- C141 is false: after `n by` instead of `n` the answer to the second question is `y`: notifications are turned on although the line for that question reads `n`. -/
theorem C141_refuted : ¬ C141_wish (demo [] 0) := by
  intro h
  have h1 := h (user []) _ _ b!"n" b!"n by" b!"n\n\n\n" ⟨by decide, .inl rfl⟩ ⟨by decide, .inr ⟨b!"by", rfl⟩⟩
    (ran (by decide +kernel)) (ran (by decide +kernel))
  revert h1
  decide +kernel

theorem chosen_unique {lo hi : Int} {a : Bytes} {old n m : Int} (h1 : -9223372036854775808 ≤ lo) (h2 : hi < 9223372036854775808)
    (h : Chosen lo hi a old n) (h' : Chosen lo hi a old m) : n = m := by
  rcases h with ⟨k, h3, h4, h5, h6⟩ | ⟨h3, h6⟩ <;> rcases h' with ⟨k', h3', h4', h5', h6'⟩ | ⟨h3', h6'⟩
  · have e := (Num.parseInt_iff a k).2 ⟨h3, by omega, by omega⟩
    have e' := (Num.parseInt_iff a k').2 ⟨h3', by omega, by omega⟩
    rw [e] at e'
    rw [h6, h6']
    exact congrArg Prod.fst e'
  · exact absurd ⟨k, h3, h4, h5⟩ h3'
  · exact absurd ⟨k', h3', h4', h5'⟩ h3
  · rw [h6, h6']

theorem meant_unique {T : Text} {old new new' : Config} {a1 path a2 a3 a4 : Bytes} (h : Meant T old new a1 path a2 a3 a4)
    (h' : Meant T old new' a1 path a2 a3 a4) : new = new' := by
  have e1 := h.vault.trans h'.vault.symm
  have e2 := h.notify.trans h'.notify.symm
  have e3 := chosen_unique (by decide) (by decide) h.timeout h'.timeout
  have e4 := chosen_unique (by decide) (by decide) h.period h'.period
  obtain ⟨t, n, p, v⟩ := new
  obtain ⟨t', n', p', v'⟩ := new'
  simp only at e1 e2 e3 e4
  rw [e1, e2, e3, e4]

/-- C141, as far as it holds: if every line is one word (blanks aside), two runs with the same answers store the same,
in whatever states of the world, contexts and blanks they differ otherwise. Missing: lines with several words
(`C141_refuted`). -/
theorem C141_one_word_partial (C C' : Ctx) (hT : C.env.text = C'.env.text) (hd : C.dir ≠ []) (hd' : C'.dir ≠ [])
    (hq : C.sys.Quiet) (hq' : C'.sys.Quiet) (w w1 v v1 : World) (old : Config)
    (hw : Conf.getConfig w.conf = .ret old) (hv : Conf.getConfig v.conf = .ret old) (a1 path a2 a3 a4 r r' : Bytes)
    (ht : Typed C.env.text w.stdin a1 path a2 a3 a4 r) (ht' : Typed C'.env.text v.stdin a1 path a2 a3 a4 r')
    (h : configure C w = (.ret (), w1)) (h' : configure C' v = (.ret (), v1)) :
    Conf.getConfig w1.conf = Conf.getConfig v1.conf := by
  obtain ⟨n, h1, -, h2⟩ := C43_answers C hd w w1 old hw _ _ _ _ _ _ ht h
  obtain ⟨n', h1', -, h2'⟩ := C43_answers C' hd' v v1 old hv _ _ _ _ _ _ ht' h'
  rw [h2 hq, h2' hq']
  rw [← hT] at h1'
  rw [meant_unique h1 h1']

/-- C141: the same answers with blanks around them. -/
example : Conf.getConfig (configure (demo [] 0) (user b!"n\nY\n31\n14\n")).2.conf =
    Conf.getConfig (configure (demo [] 0) (user b!" n \n Y\n31   \n\t14\n")).2.conf := by decide +kernel

/-! ### The question of the update command -/

/-- C141, the second wish: an update is installed only after a line that is a yes, as a whole. -/
def C141_consent_wish (C : Ctx) : Prop :=
  ∀ (w w' : World) (l t : Bytes), 10 ∉ l → w.stdin = l ++ 10 :: t → command C .update w = (.ret (), w') →
    Yes C.env.text (Str.trimSpace l)

/-- C141. Only the first word of the line counts: without a yes there nothing is installed, with a yes the
installation goes on, whatever the user adds. -/
theorem C141_first_word (C : Ctx) (info : UpdateInfo) (w : World) (a rest : Bytes) (ht : Begins w.stdin a rest) :
    (Yes C.env.text a → answer C info w = installing C info { w with stdin := rest, log := w.log ++ offer info ++
      [.out (b!"Updating 1pass application from version 1.3.1 to " ++ info.version ++ b!"...\n")] }) ∧
    (¬ Yes C.env.text a →
      answer C info w = (.fatal, { w with stdin := rest, log := w.log ++ offer info ++ [.out b!"Aborting update...\n"] })) := by
  unfold answer
  simp only [bind_run, println, print, emit, scanln, scanWord_begins ht]
  rcases fromName_cases C.env.text a with ⟨h0, h1⟩ | ⟨-, h0, h1⟩ | ⟨h0, -, h1⟩
  · refine ⟨fun _ => ?_, fun hn => absurd h0 hn⟩
    rw [h1]
    have : LogicVal.yes ≠ LogicVal.no := by decide
    simp only [this, if_false, bind_run, println, emit, installing, offer, List.append_assoc]
    rfl
  · refine ⟨fun hy => absurd hy h0, fun _ => ?_⟩
    simp only [h1, if_true, bind_run, println, emit, exit, offer, List.append_assoc]
    rfl
  · refine ⟨fun hy => absurd hy h0, fun _ => ?_⟩
    simp only [h1, bind_run, println, emit, exit, offer, List.append_assoc]
    rfl

def waverRun := command steady .update (updater b!"Y no wait\n")

/-- C141: the user thinks again on the line; the update is installed. -/
theorem C141_consent_refuted : ¬ C141_consent_wish steady ∧
    waverRun.2.disk.at? [b!"usr", b!"bin", b!"1pass"] = some (.file b!"new" false) := by
  refine ⟨fun h => ?_, by decide +kernel⟩
  have := h (updater b!"Y no wait\n") _ b!"Y no wait" [] (by decide) rfl (ran (p := waverRun) (by decide +kernel))
  revert this
  decide +kernel

/-- C141, as far as it holds: if the line is one word (blanks aside), an update that ends well was agreed to by it.
Missing: lines with several words (`C141_consent_refuted`). -/
theorem C141_consent_partial (C : Ctx) (w w' : World) (a rest : Bytes) (ht : Types w.stdin a rest)
    (h : command C .update w = (.ret (), w')) : Yes C.env.text a := by
  by_contra hn
  exact (C59_no_consent C w a rest ht hn).2 (by rw [h])

example : Begins (updater b!"Y no wait\n").stdin b!"Y" b!"o wait\n" ∧ Yes .toy b!"Y" :=
  ⟨.inr ⟨[], [89], [32], 110, by decide +kernel⟩, by decide +kernel⟩

end Cli
end OnePass
