/-
"invalid password" and what it is said about: C136.
-/
import Verif.Props.GuiScreens

namespace OnePass
open Key Spec Session

/-- The profile belongs to the password: it has a salt, a number of iterations, and its master key was packed under the keys
derived from the password. Nothing is said about the overview key. -/
structure Owner (E : Env) (p : Profile) (password : Bytes) (saltText salt : Bytes) (n : Int) : Prop where
  range : 0 ≤ n ∧ n ≤ 9007199254740992
  iterations : p.field b!"iterations" = .num (Num.intDec n)
  salted : ProfileStr p b!"salt" saltText ∧ IsBase64 saltText salt
  masterKey : ∃ t tag iv pad base, ProfileStr p b!"masterKey" t ∧
    Packable ((E.crypto.pbkdf2 password salt n 64).take 32) tag iv pad base ∧
    IsBase64 t (pack E ((E.crypto.pbkdf2 password salt n 64).take 32) (passwordMac E password salt n) tag iv pad base)

/-- The wish: the owner of a profile is not told that the password is invalid. (A damaged vault may be reported in any other way.) -/
def C136_wish (E : Env) : Prop := ∀ (O : MapOrder) (d : Disk) (vault password : Bytes) (s s' : Session) (saltText salt : Bytes) (n : Int),
  Owner E s.profile password saltText salt n → s.unlock E O d vault password ≠ .ret (.error .invalidPass, s')

theorem derived_len (E : Env) (password salt : Bytes) (n : Int) : ((E.crypto.pbkdf2 password salt n 64).take 32).length = 32 := by
  have := E.crypto.pbkdf2_len password salt n 64
  simp; omega

/-- C136, exactly: the owner is told that the password is invalid if and only if the overview key of the profile is not base64, or
does not authenticate. -/
theorem C136_owner_partial (E : Env) (O : MapOrder) (d : Disk) (vault password : Bytes) (s s' : Session) (saltText salt : Bytes) (n : Int)
    (h : Owner E s.profile password saltText salt n) :
    s.unlock E O d vault password = .ret (.error .invalidPass, s') ↔
      s' = s ∧ ∃ t, ProfileStr s.profile b!"overviewKey" t ∧
        ((B64.decodeString t).2 = true ∨
          32 ≤ (B64.decodeString t).1.data.length ∧ ¬ Authentic E (passwordMac E password salt n) (B64.decodeString t).1.data) := by
  obtain ⟨t, tag, iv, pad, base, ht, hpk, hb⟩ := h.masterKey
  have hdk := C05_derived_keys E s.profile password saltText salt n h.range.1 h.range.2 h.iterations h.salted.1 h.salted.2
  have h4 := C04_master_and_overview_keys E s.profile ((E.crypto.pbkdf2 password salt n 64).take 32)
    ((E.crypto.pbkdf2 password salt n 64).drop 32)
  obtain ⟨g1, -, g3⟩ := decodeString_of hb
  have hm : masterKeys E s.profile ((E.crypto.pbkdf2 password salt n 64).take 32) ((E.crypto.pbkdf2 password salt n 64).drop 32) = _ :=
    ((h4.1 t ht).2 g3).2.1 base (C01_opdata_round_trip E _ (B64.decodeString_wf t) _ _ tag iv pad base hpk g1)
  unfold unlock
  rw [hdk]
  simp only [Out.ret_bind, hm]
  by_cases hov : ∃ u, ProfileStr s.profile b!"overviewKey" u
  · obtain ⟨u, hu⟩ := hov
    have huniq : ∀ u', ProfileStr s.profile b!"overviewKey" u' → u' = u := by
      intro u' hu'
      unfold ProfileStr at hu hu'
      rw [hu] at hu'
      simpa using hu'.symm
    have hk := h4.2.1 u hu
    cases hd : (B64.decodeString u).2 with
    | true =>
      rw [hk.1 hd]
      simp only [Out.ret_bind, Out.pure_eq, Out.ret.injEq, Prod.mk.injEq, true_and]
      exact ⟨fun e => ⟨e.symm, u, hu, .inl hd⟩, fun e => e.1.symm⟩
    | false =>
      have h3 := C03_outcome_determined E (B64.decodeString u).1 (B64.decodeString_wf u)
        ((E.crypto.pbkdf2 password salt n 64).take 32) ((E.crypto.pbkdf2 password salt n 64).drop 32)
      obtain ⟨c1, c2, c3, -, c5⟩ := h3
      obtain ⟨k1, k2, k3⟩ := hk.2 hd
      have hrhs : (s' = s ∧ ∃ t, ProfileStr s.profile b!"overviewKey" t ∧
          ((B64.decodeString t).2 = true ∨
            32 ≤ (B64.decodeString t).1.data.length ∧ ¬ Authentic E (passwordMac E password salt n) (B64.decodeString t).1.data)) ↔
          s' = s ∧ 32 ≤ (B64.decodeString u).1.data.length ∧ ¬ Authentic E (passwordMac E password salt n) (B64.decodeString u).1.data := by
        constructor
        · rintro ⟨e, t', ht', hcase⟩
          rw [huniq t' ht'] at hcase
          rw [hd] at hcase
          exact ⟨e, hcase.resolve_left (by simp)⟩
        · rintro ⟨e, hc⟩
          exact ⟨e, u, hu, .inr hc⟩
      rw [hrhs]
      by_cases hl : (B64.decodeString u).1.data.length < 32
      · rw [k3 (c1 hl)]
        simp only [Out.panic_bind]
        exact ⟨fun e => (by simp at e), fun e => (by omega)⟩
      · have hl' : 32 ≤ (B64.decodeString u).1.data.length := by omega
        by_cases ha : Authentic E (passwordMac E password salt n) (B64.decodeString u).1.data
        · have hr : overviewKeys E s.profile ((E.crypto.pbkdf2 password salt n 64).take 32) ((E.crypto.pbkdf2 password salt n 64).drop 32) = .panic ∨
              ∃ k, overviewKeys E s.profile ((E.crypto.pbkdf2 password salt n 64).take 32) ((E.crypto.pbkdf2 password salt n 64).drop 32) = .ret (.ok k) := by
            by_cases h64 : (B64.decodeString u).1.data.length < 64
            · exact .inl (k3 (c3 hl' ha h64))
            · have c5' := c5 (by omega) ha (.inr (.inr (derived_len E password salt n)))
              by_cases hbad : (B64.decodeString u).1.data.length % 16 ≠ 0 ∨ declared (B64.decodeString u).1.data < 0 ∨
                  ((B64.decodeString u).1.data.length : Int) - 64 < declared (B64.decodeString u).1.data
              · exact .inl (k3 (c5'.1 hbad))
              · push Not at hbad
                obtain ⟨P, -, hP⟩ := c5'.2 hbad.1 hbad.2.1 hbad.2.2
                exact .inr ⟨_, k2 _ hP⟩
          constructor
          · intro e
            exfalso
            rcases hr with hr | ⟨k, hr⟩
            · rw [hr] at e; simp at e
            · rw [hr] at e
              simp [Out.bind_eq_ret] at e
          · rintro ⟨-, -, hna⟩
            exact absurd ha hna
        · rw [k1 _ (c2 hl' ha)]
          simp only [Out.ret_bind, Out.pure_eq, Out.ret.injEq, Prod.mk.injEq, true_and]
          exact ⟨fun e => ⟨e.symm, hl', ha⟩, fun e => e.1.symm⟩
  · push Not at hov
    rw [h4.2.2.2 hov]
    simp only [Out.panic_bind]
    constructor
    · intro e; simp at e
    · rintro ⟨-, u, hu, -⟩
      exact absurd hu (hov u)

/-- C136: with an overview key that is not base64, or a salt that is not, every password is called invalid – the one the vault was
written with and all others. -/
theorem C136_always (E : Env) (O : MapOrder) (d : Disk) (vault password : Bytes) (s : Session) :
    (∀ (m t : Bytes), ProfileStr s.profile b!"salt" t → (B64.decodeString t).2 = true → s.profile.field b!"iterations" = .num m →
      s.unlock E O d vault password = .ret (.error .invalidPass, s)) ∧
    (∀ (saltText salt masterText master t : Bytes) (n : Int), 0 ≤ n → n ≤ 9007199254740992 →
      s.profile.field b!"iterations" = .num (Num.intDec n) → ProfileStr s.profile b!"salt" saltText → IsBase64 saltText salt →
      ProfileStr s.profile b!"masterKey" masterText → IsBase64 masterText master → GoodBlob master →
      ProfileStr s.profile b!"overviewKey" t → (B64.decodeString t).2 = true →
      s.unlock E O d vault password = .ret (.error .invalidPass, s)) := by
  constructor
  · intro m t ht hd hi
    unfold unlock
    rw [(C05_bad_profile E s.profile password).1 t m hi ht hd]
    rfl
  · intro saltText salt masterText master t n h0 h1 hi hs hs' hm hm' hg ht hd
    have h4 := C04_master_and_overview_keys E s.profile ((E.crypto.pbkdf2 password salt n 64).take 32)
      ((E.crypto.pbkdf2 password salt n 64).drop 32)
    have hM := keyPair_good (derived_len E password salt n) hm' hg (h4.1 masterText hm)
    unfold unlock
    rw [C05_derived_keys E s.profile password saltText salt n h0 h1 hi hs hs']
    simp only [Out.ret_bind]
    by_cases ha : Authentic E ((E.crypto.pbkdf2 password salt n 64).drop 32) master
    · obtain ⟨k, hk⟩ := hM.1 ha
      rw [hk]
      simp only [Out.ret_bind]
      rw [(h4.2.1 t ht).1 hd]
      rfl
    · rw [hM.2 ha]
      rfl

/-- C136, on the screen: both ways of using the program say so – the commands print it, the GUI shows it. -/
theorem C136_said (C : Ctx) (vault password : Bytes) (w : World) (saltText salt : Bytes) (n : Int)
    (h : Owner C.env w.sess.profile password saltText salt n)
    (t : Bytes) (ht : ProfileStr w.sess.profile b!"overviewKey" t)
    (hd : (B64.decodeString t).2 = true ∨
      32 ≤ (B64.decodeString t).1.data.length ∧ ¬ Authentic C.env (passwordMac C.env password salt n) (B64.decodeString t).1.data) :
    (∀ (cmd : Cli.Cmd) (flag : Bytes) (w0 w1 : World), Cli.ItemCmd cmd flag → Cli.Begun C w0 w1 → Cli.Meaning w1.conf flag vault →
      w1.sess.validate w1.disk vault = .ret (.ok (), w.sess) → C.sys.password w1.tick = password →
      Cli.command C cmd w0 = (.fatal, Cli.after w1 w.sess [.out b!"invalid password\n"])) ∧
    (∀ (K : Gui.Kit) (x y : Nat) (es : List Gui.Event) (st : Gui.St) (v : Gui.View), Gui.Live C K vault w x y es st →
      st.cur = some (.live .prompt) → st.views .prompt = some v → Gui.entered v = password →
      ∃ st' u, Gui.step C K (.key .enter) st = (.ok (), st') ∧ st'.views .error = some u ∧
        u.lines = Gui.textLines b!"invalid password") := by
  have hu := fun O d => (C136_owner_partial C.env O d vault password w.sess w.sess saltText salt n h).2 ⟨rfl, t, ht, hd⟩
  constructor
  · intro cmd flag w0 w1 hi hb hm hv hp
    refine Cli.C63_wrong_password C cmd flag vault hi w0 w1 hb hm w.sess w.sess .invalidPass hv ?_
    rw [hp]
    exact hu _ _
  · intro K x y es st v hl hc hv he
    obtain ⟨st', h1, -, -, -, -, ⟨u, h2, h3⟩, -⟩ :=
      Gui.C72_wrong_password C K vault w x y es st hl hc v hv ⟨MapOrder.doc, w.disk, vault, by rw [he]; exact hu _ _⟩
    exact ⟨st', u, h1, h2, h3⟩

namespace BlamedDemo

/-- A profile whose master key was packed under the password, and whose overview key is not base64. -/
def members (E : Env) (password : Bytes) : Members :=
  [(b!"salt", .str (B64.encode b!"salt")), (b!"iterations", .num b!"7"),
   (b!"masterKey", .str (B64.encode (pack E ((E.crypto.pbkdf2 password b!"salt" 7 64).take 32) (passwordMac E password b!"salt" 7)
     b!"opdata01" (List.replicate 16 9) [] (List.replicate 16 1)))),
   (b!"overviewKey", .str b!"?")]

theorem owner (E : Env) (password : Bytes) :
    Owner E (some (members E password)) password (B64.encode b!"salt") b!"salt" 7 where
  range := by decide
  iterations := rfl
  salted := ⟨rfl, isBase64_encode _⟩
  masterKey := ⟨_, b!"opdata01", List.replicate 16 9, [], List.replicate 16 1, rfl,
    ⟨.inr (.inr (derived_len E password _ _)), by decide, by decide, by decide, by decide⟩, isBase64_encode _⟩

end BlamedDemo

/-- C136 fails, whatever the primitives: the owner of a profile with a damaged overview key is told that the password is invalid. -/
theorem C136_refuted (E : Env) : ¬ C136_wish E := fun h =>
  h .doc Demo.disk b!"/a" Demo.pa { Session.init with profile := some (BlamedDemo.members E Demo.pa) } _ _ _ _
    (BlamedDemo.owner E Demo.pa)
    ((C136_owner_partial E .doc Demo.disk b!"/a" Demo.pa { Session.init with profile := some (BlamedDemo.members E Demo.pa) } _ _ _ _
      (BlamedDemo.owner E Demo.pa)).2 ⟨rfl, b!"?", rfl, .inl (by decide +kernel)⟩)

/-- C136: a salt that is not base64. -/
example : ∀ p, unlock Env.toy .doc Demo.disk b!"/a" p
      { Session.init with profile := some ((b!"salt", .str b!"?") :: (Demo.members Demo.pa).drop 1) } =
    .ret (.error .invalidPass, { Session.init with profile := some ((b!"salt", .str b!"?") :: (Demo.members Demo.pa).drop 1) }) := fun p =>
  (C136_always Env.toy .doc Demo.disk b!"/a" p _).1 b!"7" b!"?" rfl (by decide +kernel) rfl

/-- C136: with the overview key in order the owner gets in, and a wrong password is called invalid. -/
example :
    Owner Env.toy (some (Demo.members Demo.pa)) Demo.pa (B64.encode b!"salt") b!"salt" 7 ∧
    (match unlock Env.toy .doc Demo.disk b!"/a" Demo.pa { Session.init with profile := some (Demo.members Demo.pa) } with
      | .ret (.ok (), _) => true | _ => false) = true ∧
    (match unlock Env.toy .doc Demo.disk b!"/a" Demo.pb { Session.init with profile := some (Demo.members Demo.pa) } with
      | .ret (.error .invalidPass, _) => true | _ => false) = true ∧
    (match unlock Env.toy .doc Demo.disk b!"/a" Demo.pa { Session.init with profile := some (BlamedDemo.members Env.toy Demo.pa) } with
      | .ret (.error .invalidPass, _) => true | _ => false) = true := by
  refine ⟨⟨by decide, rfl, ⟨rfl, isBase64_encode _⟩, ⟨_, b!"opdata01", List.replicate 16 9, [], List.replicate 16 1, rfl,
    ⟨.inr (.inr (derived_len Env.toy Demo.pa _ _)), by decide, by decide, by decide, by decide⟩, isBase64_encode _⟩⟩, ?_, ?_, ?_⟩ <;>
  decide +kernel

end OnePass
