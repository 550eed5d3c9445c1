/-
The password prompt of the GUI: what reaches the vault, C92 and C93.
-/
import Verif.Go.TrimFacts
import Verif.Props.GuiScreens

set_option linter.unusedSimpArgs false

namespace OnePass
namespace Gui
open Act Str

variable (C : Ctx) (K : Kit)

/-! ### C92 -/

/-- Whatever is on screen, what is tried neither begins nor ends with white space. -/
theorem entered_bare (v : View) : Bare (entered v) := trimSpace_bare _

/-- A password that is shown on the line of the prompt and neither begins nor ends with white space is what is tried. -/
theorem entered_shown {v : View} {p : Bytes} (hv : v.shown = [p]) (hp : Bare p) (h0 : 0 ∉ p) : entered v = p := by
  have e : v.viewBuffer = p ++ [10] := by
    unfold View.viewBuffer
    rw [hv]
    have : ∀ q : Bytes, 0 ∉ q → Str.replaceByte 0 [32] q = q := by
      intro q
      induction q with
      | nil => intro _; rfl
      | cons b q ih =>
        intro hq
        simp only [List.mem_cons, not_or] at hq
        have := ih hq.2
        unfold Str.replaceByte at this ⊢
        rw [List.flatMap_cons, this, if_neg (fun h => hq.1 h.symm)]
        rfl
    simp only [List.flatMap_cons, List.flatMap_nil, List.append_nil]
    exact this _ (by simp [h0])
  unfold entered
  rw [e]
  by_cases hne : p = []
  · subst hne; decide
  · have := trimSpace_around (pre := []) (post := [10]) (p := p) (by simp) (by decide) hp hne
    have h10 : utf8 [10] = [10] := by decide
    rw [h10] at this
    exact this

/-- C92, what holds: a password shown in the prompt that neither begins nor ends with white space (and has no NUL in it) is
tried as it is. If the vault opens with it, the menu comes up with the items of the vault; if its profile refuses the password,
the vault stays closed. Missing: passwords that begin or end with white space (`C92_refuted`). -/
theorem C92_shown_partial (vault : Bytes) (w : World) (x y : Nat) (es : List Event) (s : St) (h : Live C K vault w x y es s)
    (hc : s.cur = some (.live .prompt)) (v : View) (hv : s.views .prompt = some v) (p : Bytes) (hs : v.shown = [p])
    (hp : Bare p) (h0 : 0 ∉ p) :
    (∀ sess, s.world.sess.unlock C.env (K.order s.opened) s.world.disk vault p = .ret (.ok (), sess) →
      ∃ t, step C K (.key .enter) s = (.ok (), t) ∧ t.cur = some (.live .menu) ∧ t.world.sess.isUnlocked = true ∧
        t.world.sess.items = sess.items) ∧
    (Refuses C w p → ∃ t, step C K (.key .enter) s = (.ok (), t) ∧ t.cur = some (.live .error) ∧
      t.world.sess.isUnlocked = false) := by
  have he := entered_shown hs hp h0
  constructor
  · intro sess hu
    have ha : attemptUnlock C K s (entered v) = .ret (.ok (), sess) := by
      rw [attemptUnlock, he, (h.kept C K).vault]
      exact hu
    obtain ⟨t, h1, h2, -, -, h3, -, -, h4, -⟩ := C72_right_password C K vault w x y es s h hc v hv sess ha
    exact ⟨t, h1, h2, h3, h4⟩
  · intro hr
    obtain ⟨t, h1, h2, -, -, -, -, h3, -⟩ := C72_wrong_password C K vault w x y es s h hc v hv (by rw [he]; exact hr)
    exact ⟨t, h1, h2, by rw [h3]; exact (atPrompt_of (h.inv C K) hc).locked⟩

/-- C92, what does not: if only passwords that begin or end with white space open the vault, it is never open in the GUI,
whatever the terminal, whatever is typed and however it is edited. -/
theorem C92_never (vault : Bytes) (w : World) (hr : ∀ p, Bare p → Refuses C w p) (x y : Nat) (es : List Event) (s : St)
    (h : Live C K vault w x y es s) : s.world.sess.isUnlocked = false := by
  have main : ∀ {s t : St} {es : List Event}, Steps C K s es t → Kept vault w s → s.world.sess.isUnlocked = false →
      t.world.sess.isUnlocked = false := by
    intro s t es hst hk hl
    induction hst with
    | nil => exact hl
    | snoc hst' hi ht ih =>
      have hkept := hst'.kept C K hk
      rename_i es t u e
      cases ht with
      | accepted v vm sess ha hv hm hu =>
        rw [refuses_attempt C K hkept (hr _ (entered_bare v))] at hu
        cases hu
      | refused v e sess ha hv hu =>
        obtain ⟨-, rfl⟩ := locked_of_error hu
        exact ih
      | lockMenu v vh h hv hh => rfl
      | lockItems o vm vh h hm hh => rfl
      | checked v r w' hp hv hr' =>
        have hs : (checkedSt t v r w').world.sess = t.world.sess := (check_sess C hr').1
        rw [hs]
        exact ih
      | _ => exact ih
  obtain ⟨h1, h2, h3⟩ := h.steps C K
  exact main h3 ⟨rfl, fun _ => nothing_held h.reach h.locked, rfl⟩ h.locked

namespace Demo

/-- Toy primitives with which exactly one password gives the keys of the vault. -/
def pickyEnv : Env :=
  { Env.toy with
    crypto := { Crypto.toy with
      pbkdf2 := fun p s i n => Crypto.toy.pbkdf2 (if p = b!" secret" then OnePass.Demo.pa else OnePass.Demo.pb) s i n
      pbkdf2_len := fun _ _ _ _ => fit_len _ _ } }

def picky : Ctx := { ctx with env := pickyEnv }

theorem picky_refuses (p : Bytes) (hp : p ≠ b!" secret") : Refuses picky (world (disk b!"1234" b!"memo")) p := by
  refine ⟨MapOrder.doc, disk b!"1234" b!"memo", b!"/a", ?_⟩
  have str : ∀ (j : Json) (t : Bytes), (match j with | .str u => decide (u = t) | _ => false) = true → j = .str t := by
    intro j t h
    split at h
    · rw [of_decide_eq_true h]
    · cases h
  have num : ∀ (j : Json) (t : Bytes), (match j with | .num u => decide (u = t) | _ => false) = true → j = .num t := by
    intro j t h
    split at h
    · rw [of_decide_eq_true h]
    · cases h
  have hg : GoodProfile (world (disk b!"1234" b!"memo")).sess.profile b!"salt" 7 (OnePass.Demo.master OnePass.Demo.pa)
      (OnePass.Demo.overview OnePass.Demo.pa) :=
    { range := by decide
      iterations := num _ _ (by decide +kernel)
      salt := ⟨_, str _ _ (by decide +kernel), Spec.isBase64_encode _⟩
      masterKey := ⟨_, str _ (OnePass.Demo.keyText OnePass.Demo.pa (List.replicate 16 1)) (by decide +kernel), Spec.isBase64_encode _⟩
      overviewKey := ⟨_, str _ (OnePass.Demo.keyText OnePass.Demo.pa (List.replicate 16 2)) (by decide +kernel), Spec.isBase64_encode _⟩
      master_shape := by decide +kernel
      overview_shape := by decide +kernel }
  refine (C09_unlock_iff_authentic picky.env MapOrder.doc _ b!"/a" p _ _ _ _ _ hg).2 ?_
  have hmac : passwordMac picky.env p b!"salt" 7 = passwordMac Env.toy OnePass.Demo.pb b!"salt" 7 := by
    show (Crypto.toy.pbkdf2 (if p = b!" secret" then OnePass.Demo.pa else OnePass.Demo.pb) b!"salt" 7 64).drop 32 = _
    rw [if_neg hp]
    rfl
  rw [hmac]
  rintro ⟨h, -⟩
  have : ¬ Authentic pickyEnv (passwordMac Env.toy OnePass.Demo.pb b!"salt" 7) (OnePass.Demo.master OnePass.Demo.pa) := by
    decide +kernel
  exact this h

end Demo

/-- C92 is false of the code: there is a vault which the command line opens, with a password that begins with a blank, and which
the GUI never opens – on no terminal, whatever is typed and however it is edited. -/
theorem C92_refuted : ∃ (C : Ctx) (vault : Bytes) (w : World) (p : Bytes),
    (∃ w', Cli.onSession (fun d sess => sess.unlock C.env C.order d vault p) w = (.ret (.ok ()), w') ∧
      w'.sess.isUnlocked = true) ∧
    w.sess.isUnlocked = false ∧
    ∀ (K : Kit) (x y : Nat) (es : List Event) (s : St), Live C K vault w x y es s → s.world.sess.isUnlocked = false := by
  have hu : ∃ r, (Demo.world (Demo.disk b!"1234" b!"memo")).sess.unlock Demo.picky.env Demo.picky.order
      (Demo.world (Demo.disk b!"1234" b!"memo")).disk b!"/a" b!" secret" = .ret (.ok (), r) ∧ r.isUnlocked = true := by
    have h1 : (match (Demo.world (Demo.disk b!"1234" b!"memo")).sess.unlock Demo.picky.env Demo.picky.order
        (Demo.world (Demo.disk b!"1234" b!"memo")).disk b!"/a" b!" secret" with
      | .ret (.ok (), r) => r.isUnlocked
      | _ => false) = true := by decide +kernel
    split at h1
    · rename_i r hr
      exact ⟨r, hr, h1⟩
    · cases h1
  obtain ⟨r, hr, hl⟩ := hu
  refine ⟨Demo.picky, b!"/a", Demo.world (Demo.disk b!"1234" b!"memo"), b!" secret",
    ⟨{ Demo.world (Demo.disk b!"1234" b!"memo") with sess := r }, ?_, ?_⟩, (Demo.world_locked _).1, ?_⟩
  · simp only [Cli.onSession, hr]
  · exact hl
  · intro K x y es s h
    refine C92_never Demo.picky K b!"/a" _ (fun p hp => Demo.picky_refuses p ?_) x y es s h
    rintro rfl
    exact (hp 32 (by decide)).1 ⟨b!"secret", by decide⟩

/-! ### C93 -/

/-- C93: keys that have not been drawn when ENTER is pressed are not part of what is tried: outcome, focus, session, disk and
output are those of ENTER alone. -/
theorem C93_undrawn (vault : Bytes) (w : World) (x y : Nat) (es : List Event) (s : St) (h : Live C K vault w x y es s)
    (hc : s.cur = some (.live .prompt)) (ks : List Key) (hks : ∀ k ∈ ks, k ≠ .enter ∧ k ≠ .ctrlQ) :
    let late := run C K (ks.map .key ++ [.key .enter]) s
    let alone := step C K (.key .enter) s
    (∀ t, alone = (.ok (), t) → ∃ t', late = (.ok (), t') ∧ t'.cur = t.cur ∧ t'.world = t.world ∧ t'.err = t.err ∧
      ∀ n, t'.views n = t.views n) ∧
    (alone.1 ≠ .ok () → late.1 ≠ .ok ()) := by
  have ha := atPrompt_of (h.inv C K) hc
  obtain ⟨v, hv⟩ := ha.prompt
  obtain ⟨vm, hm⟩ := (h.inv C K).frame.menu
  obtain ⟨u, h1, h2⟩ := type_run C K ks hks s v hc hv
  have he : entered u = entered v := by rw [h2]; rfl
  have hc' : ({ s with typed := s.typed ++ ks.map some, views := setAt s.views .prompt (some u) } : St).cur = some (.live .prompt) := hc
  have hlate : ∀ r, step C K (.key .enter) { s with typed := s.typed ++ ks.map some, views := setAt s.views .prompt (some u) } = r →
      (run C K (ks.map .key ++ [.key .enter]) s).1 = r.1 ∧ (r.1 = .ok () → run C K (ks.map .key ++ [.key .enter]) s = r) := by
    intro r hr
    obtain ⟨a, t⟩ := r
    rw [run_append C K _ _ _ h1, run_cons]
    cases a with
    | ok a => rw [bind_ok hr]; exact ⟨rfl, fun _ => rfl⟩
    | err e => rw [bind_err hr]; exact ⟨rfl, fun h => by cases h⟩
    | panic => rw [bind_panic hr]; exact ⟨rfl, fun h => by cases h⟩
    | fatal => rw [bind_fatal hr]; exact ⟨rfl, fun h => by cases h⟩
  have hb : ∀ t : St, t.cur = some (.live .prompt) → step C K (.key .enter) t = unlock C K (.live .prompt) t :=
    fun t ht => press_bound C K (k := .enter) (by simp) ht rfl
  obtain ⟨g1, g2⟩ := hlate _ rfl
  rw [hb _ hc'] at g1 g2
  intro late alone
  show (∀ t, step C K (.key .enter) s = (.ok (), t) → _) ∧ ((step C K (.key .enter) s).1 ≠ .ok () → _)
  rw [hb s hc]
  have hatt : ∀ p, attemptUnlock C K { s with typed := s.typed ++ ks.map some, views := setAt s.views .prompt (some u) } p =
      attemptUnlock C K s p := fun _ => rfl
  cases hu : attemptUnlock C K s (entered v) with
  | ret r =>
    obtain ⟨r, sess⟩ := r
    cases r with
    | error e =>
      have k1 := unlock_refused C K hv hc ha.error hu
      have k2 := unlock_refused C K (s := { s with typed := s.typed ++ ks.map some, views := setAt s.views .prompt (some u) }) (v := u)
        (by simp) hc (by simpa [setAt] using ha.error) (by rw [hatt, he]; exact hu)
      rw [k1]
      rw [k2] at g1 g2
      refine ⟨?_, fun h => absurd rfl h⟩
      rintro t ⟨⟩
      exact ⟨_, g2 rfl, rfl, rfl, rfl, fun n => by simp [setAt_twice]⟩
    | ok _ =>
      have k1 := unlock_accepted C K hv hc hm hu (unlocked_of_ok hu)
      have k2 := unlock_accepted C K (s := { s with typed := s.typed ++ ks.map some, views := setAt s.views .prompt (some u) }) (v := u)
        (vm := vm) (by simp) hc (by simpa [setAt] using hm) (by rw [hatt, he]; exact hu) (unlocked_of_ok hu)
      rw [k1]
      rw [k2] at g1 g2
      refine ⟨?_, fun h => absurd rfl h⟩
      rintro t ⟨⟩
      exact ⟨_, g2 rfl, rfl, rfl, rfl, fun n => by simp [filled, triedSt, setAt_twice]⟩
  | panic =>
    have hn : ∀ r, attemptUnlock C K s (entered v) ≠ .ret r := by intro r; rw [hu]; simp
    have k1 := unlock_dies C K hv hc hn
    have k2 := unlock_dies C K (s := { s with typed := s.typed ++ ks.map some, views := setAt s.views .prompt (some u) }) (v := u)
        (by simp) hc (by rw [he]; exact hn)
    refine ⟨fun t ht => ?_, fun _ => ?_⟩
    · rw [ht] at k1; rcases k1 with k1 | k1 <;> cases k1
    · rw [g1]; rcases k2 with k2 | k2 <;> rw [k2] <;> simp
  | fatal =>
    have hn : ∀ r, attemptUnlock C K s (entered v) ≠ .ret r := by intro r; rw [hu]; simp
    have k1 := unlock_dies C K hv hc hn
    have k2 := unlock_dies C K (s := { s with typed := s.typed ++ ks.map some, views := setAt s.views .prompt (some u) }) (v := u)
        (by simp) hc (by rw [he]; exact hn)
    refine ⟨fun t ht => ?_, fun _ => ?_⟩
    · rw [ht] at k1; rcases k1 with k1 | k1 <;> cases k1
    · rw [g1]; rcases k2 with k2 | k2 <;> rw [k2] <;> simp

/-- C93 is false of the code: whoever pastes the password and ENTER together – so that nothing is drawn in between – is told that
it is wrong, though it opens the vault when it is typed slowly. -/
theorem C93_refuted :
    let fast := Demo.go (Demo.disk b!"1234" b!"memo") (Demo.keys OnePass.Demo.pa ++ [.key .enter])
    let slow := Demo.go (Demo.disk b!"1234" b!"memo") (Demo.keys OnePass.Demo.pa ++ [.flush 80 24, .key .enter])
    fast.1 = .ok () ∧ fast.2.cur = some (.live .error) ∧ fast.2.world.sess.isUnlocked = false ∧ fast.2.err = some .invalidPass ∧
      slow.1 = .ok () ∧ slow.2.world.sess.isUnlocked = true := by
  decide +kernel

/-- C93, what holds: if the screen is drawn between the last key and ENTER, everything typed is what is tried (trimmed, C92):
what the editor makes of the keys since the prompt was opened. Missing: keys that have not been drawn (`C93_undrawn`). -/
theorem C93_drawn_partial (vault : Bytes) (w : World) (x y : Nat) (es : List Event) (s : St) (h : Live C K vault w x y es s)
    (hc : s.cur = some (.live .prompt)) (ks : List Key) (hne : ks ≠ []) (hks : ∀ k ∈ ks, k ≠ .enter ∧ k ≠ .ctrlQ) (x' y' : Nat)
    (hx : 2 ≤ x') (hy : 8 ≤ y') :
    ∃ t v, run C K (ks.map .key ++ [.flush x' y']) s = (.ok (), t) ∧ t.cur = some (.live .prompt) ∧ t.world = s.world ∧
      t.views .prompt = some v ∧ v.shown = K.edit (s.typed ++ ks.map some) := by
  have ha := atPrompt_of (h.inv C K) hc
  obtain ⟨v, hv⟩ := ha.prompt
  obtain ⟨u, h1, h2⟩ := type_run C K ks hks s v hc hv
  have hI1 : Inv { s with typed := s.typed ++ ks.map some, views := setAt s.views .prompt (some u) } := by
    rcases run_steps C K (h.inv C K) (ks.map .key) with ⟨t, h3, h4⟩ | ⟨_, _, _, _, _, _, _, h3, _⟩
    · rw [h1] at h3
      cases h3
      exact h4.inv C K (h.inv C K)
    · rw [h1] at h3
      exact absurd rfl h3
  obtain ⟨t, h3, h4, h5, _, h7, _, _⟩ := flush_views C K hI1 hx hy
  refine ⟨t, u.draw, ?_, h5.trans hc, h7, ?_, ?_⟩
  · rw [run_append C K _ _ _ h1]
    exact run_one C K h3
  · rw [h4 .prompt (by simp) (by simp) (by simp)]
    simp
  · rw [h2, if_neg hne]
    rfl

namespace Demo
set_option maxRecDepth 20000

/-- C92: passwords the partial theorem speaks about, among them one with a blank and a letter beyond ASCII in it. -/
example : Bare OnePass.Demo.pa ∧ Bare b!"open sesame" ∧ Bare (utf8 [0x17C, 32, 0x17C]) := by
  simp only [bare_iff]
  decide +kernel
/-- C92: and some it does not: a blank in front, a no-break space at the end. -/
example : ¬ Bare b!" secret" ∧ ¬ Bare (utf8 [115, 0xA0]) := by
  simp only [bare_iff]
  decide +kernel

/-- C92: the password with the blank, on the command line and in the GUI. -/
def cliRun := Cli.main { picky with sys := { picky.sys with typed := fun _ => some b!" secret" } } (.list b!"/a" b!"" b!"" false)
  (Toy.world (Cli.Demo.disk b!"1234" b!"memo") [])
example : cliRun.2.log = [.out b!"Password:\n", .password, .table [b!"lp.", b!"uid", b!"category", b!"title"]
    [[b!"1", b!"M", b!"Login", b!"Mail"], [b!"2", b!"N", b!"Credit Card", b!"Card"]]] := by decide +kernel
def guiRun := run picky kit (.flush 80 24 :: keys b!" secret" ++ [.flush 80 24, .key .enter])
  (start b!"/a" (world (disk b!"1234" b!"memo")))
example : guiRun.1 = .ok () ∧ guiRun.2.world.sess.isUnlocked = false ∧ guiRun.2.cur = some (.live .error) := by decide +kernel

end Demo

end Gui
end OnePass
