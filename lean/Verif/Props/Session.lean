/-
C09–C17: unlocking, locking, validating.
-/
import Verif.Model.SessionFacts
import Verif.Go.PathFacts
import Verif.Props.Opdata

namespace OnePass
open Key Spec Session

/-! ### C09 -/

/-- A key blob of the right shape: header, whole blocks, MAC, and a declared length that fits. -/
def GoodBlob (b : Bytes) : Prop :=
  64 ≤ b.length ∧ b.length % 16 = 0 ∧ 0 ≤ declared b ∧ declared b ≤ (b.length : Int) - 64

instance (b : Bytes) : Decidable (GoodBlob b) := by unfold GoodBlob; infer_instance

/-- A profile with the four entries: base64 salt, iteration count, base64 of the two key blobs. -/
structure GoodProfile (p : Profile) (salt : Bytes) (n : Int) (master overview : Bytes) : Prop where
  range : 0 ≤ n ∧ n ≤ 9007199254740992
  iterations : p.field b!"iterations" = .num (Num.intDec n)
  salt : ∃ t, ProfileStr p b!"salt" t ∧ IsBase64 t salt
  masterKey : ∃ t, ProfileStr p b!"masterKey" t ∧ IsBase64 t master
  overviewKey : ∃ t, ProfileStr p b!"overviewKey" t ∧ IsBase64 t overview
  master_shape : GoodBlob master
  overview_shape : GoodBlob overview

/-- The MAC key derived from a password: the second half of 64 bytes of PBKDF2. -/
def passwordMac (E : Env) (password salt : Bytes) (n : Int) : Bytes := (E.crypto.pbkdf2 password salt n 64).drop 32

theorem keyPair_good {E : Env} {t b dk dm : Bytes} (hk : dk.length = 32) (hb : IsBase64 t b) (hg : GoodBlob b)
    {r : Out (Except Err (Bytes × Bytes))} (h : KeyPairOf E t dk dm r) :
    (Authentic E dm b → ∃ k, r = .ret (.ok k)) ∧ (¬ Authentic E dm b → r = .ret (.error .invalidHmac)) := by
  obtain ⟨hd, hl, he⟩ := decodeString_of hb
  have h3 := C03_outcome_determined E (B64.decodeString t).1 (B64.decodeString_wf t) dk dm
  simp only [hd] at h3
  obtain ⟨g1, g2, g3, g4⟩ := hg
  obtain ⟨-, c2, -, -, c5⟩ := h3
  obtain ⟨h1, h2, -⟩ := h.2 he
  constructor
  · intro ha
    obtain ⟨P, -, hP⟩ := (c5 g1 ha (.inr (.inr hk))).2 g2 g3 g4
    exact ⟨_, h2 _ hP⟩
  · intro ha
    exact h1 _ (c2 (by omega) ha)

/-- C09. With a well-formed profile, an `Unlock` that returns has no error iff the MAC key derived from the
password authenticates both key blobs; if it does not, `Unlock` returns the invalid-password error (it cannot
crash) and leaves the session alone. -/
theorem C09_unlock_iff_authentic (E : Env) (O : MapOrder) (d : Disk) (vault password : Bytes) (s : Session)
    (salt : Bytes) (n : Int) (master overview : Bytes) (hp : GoodProfile s.profile salt n master overview) :
    let mac := passwordMac E password salt n
    (∀ r s', unlock E O d vault password s = .ret (r, s') →
      (r = .ok () ↔ Authentic E mac master ∧ Authentic E mac overview)) ∧
    (¬ (Authentic E mac master ∧ Authentic E mac overview) →
      unlock E O d vault password s = .ret (.error .invalidPass, s)) := by
  intro mac
  obtain ⟨ts, hs1, hs2⟩ := hp.salt
  obtain ⟨tm, hm1, hm2⟩ := hp.masterKey
  obtain ⟨tov, ho1, ho2⟩ := hp.overviewKey
  have hdk := C05_derived_keys E s.profile password ts salt n hp.range.1 hp.range.2 hp.iterations hs1 hs2
  have hlen : ((E.crypto.pbkdf2 password salt n 64).take 32).length = 32 := by
    have := E.crypto.pbkdf2_len password salt n 64
    simp; omega
  have h4 := C04_master_and_overview_keys E s.profile ((E.crypto.pbkdf2 password salt n 64).take 32) mac
  have hM := keyPair_good hlen hm2 hp.master_shape (h4.1 tm hm1)
  have hO := keyPair_good hlen ho2 hp.overview_shape (h4.2.1 tov ho1)
  have hbad : ¬ (Authentic E mac master ∧ Authentic E mac overview) →
      unlock E O d vault password s = .ret (.error .invalidPass, s) := by
    intro hn
    unfold unlock
    rw [hdk]
    simp only [Out.ret_bind]
    by_cases ha : Authentic E mac master
    · obtain ⟨k, hk⟩ := hM.1 ha
      have hk' : masterKeys E s.profile ((E.crypto.pbkdf2 password salt n 64).take 32)
        ((E.crypto.pbkdf2 password salt n 64).drop 32) = .ret (.ok k) := hk
      have ho := hO.2 (fun h => hn ⟨ha, h⟩)
      have ho' : overviewKeys E s.profile ((E.crypto.pbkdf2 password salt n 64).take 32)
        ((E.crypto.pbkdf2 password salt n 64).drop 32) = .ret (.error .invalidHmac) := ho
      rw [hk']
      simp only [Out.ret_bind, ho', Out.pure_eq]
    · have hk' : masterKeys E s.profile ((E.crypto.pbkdf2 password salt n 64).take 32)
        ((E.crypto.pbkdf2 password salt n 64).drop 32) = .ret (.error .invalidHmac) := hM.2 ha
      simp only [hk', Out.ret_bind, Out.pure_eq]
  refine ⟨?_, hbad⟩
  intro r s' h
  constructor
  · intro hr
    by_contra hn
    rw [hbad hn] at h
    simp only [Out.ret.injEq, Prod.mk.injEq] at h
    rw [hr] at h
    exact absurd h.1 (by simp)
  · rintro ⟨ha, hb⟩
    rcases unlock_cases h with ⟨rfl, -⟩ | ⟨hr, -⟩
    · exfalso
      obtain ⟨k, hk⟩ := hM.1 ha
      obtain ⟨k', hk'⟩ := hO.1 hb
      unfold unlock at h
      rw [hdk] at h
      simp only [Out.ret_bind] at h
      change (masterKeys E s.profile _ mac >>= _) = _ at h
      rw [hk] at h
      simp only [Out.ret_bind] at h
      change (overviewKeys E s.profile _ mac >>= _) = _ at h
      rw [hk'] at h
      simp [Out.bind_eq_ret] at h
    · exact hr

/-- C09, for all sessions: the only error of `Unlock` is the invalid-password one. -/
theorem C09_only_error (E : Env) (O : MapOrder) (d : Disk) (vault password : Bytes) (s s' : Session) (e : Err)
    (h : unlock E O d vault password s = .ret (.error e, s')) : e = .invalidPass := by
  rcases unlock_cases h with ⟨h, -⟩ | ⟨h, -⟩
  · simpa using h
  · cases h

/-- C09, for all sessions: after a successful `Unlock` the keys held are those of the password and profile. -/
theorem C09_keys_held (E : Env) (O : MapOrder) (d : Disk) (vault password : Bytes) (s s' : Session)
    (h : unlock E O d vault password s = .ret (.ok (), s')) :
    ∃ k, s'.keys = some k ∧
      derivedKeys E s.profile password = .ret (.ok (k.derivedKey, k.derivedMac)) ∧
      masterKeys E s.profile k.derivedKey k.derivedMac = .ret (.ok (k.masterKey, k.masterMac)) ∧
      overviewKeys E s.profile k.derivedKey k.derivedMac = .ret (.ok (k.overviewKey, k.overviewMac)) := by
  rcases unlock_cases h with ⟨h, -⟩ | ⟨-, k, _, _, _, _, rfl, h1, h2, h3⟩
  · cases h
  · exact ⟨k, rfl, h1, h2, h3⟩

/-! A concrete vault for the examples: `mkProfile` is what a vault writer would produce for a password. -/

namespace Demo

/-- Passwords, long enough to reach the MAC half of the toy PBKDF2. -/
def pa : Bytes := List.replicate 40 1
def pb : Bytes := List.replicate 40 2
def px : Bytes := List.replicate 40 3

/-- The key blob a writer makes for a password. -/
def keyText (password base : Bytes) : Bytes :=
  let k := Env.toy.crypto.pbkdf2 password b!"salt" 7 64
  B64.encode (pack Env.toy (k.take 32) (k.drop 32) b!"opdata01" (List.replicate 16 9) [] base)

/-- Profile entries for a password. -/
def members (password : Bytes) : Members :=
  [(b!"salt", .str (B64.encode b!"salt")), (b!"iterations", .num b!"7"),
   (b!"masterKey", .str (keyText password (List.replicate 16 1))),
   (b!"overviewKey", .str (keyText password (List.replicate 16 2)))]

def master (password : Bytes) : Bytes :=
  let k := Env.toy.crypto.pbkdf2 password b!"salt" 7 64
  pack Env.toy (k.take 32) (k.drop 32) b!"opdata01" (List.replicate 16 9) [] (List.replicate 16 1)

def overview (password : Bytes) : Bytes :=
  let k := Env.toy.crypto.pbkdf2 password b!"salt" 7 64
  pack Env.toy (k.take 32) (k.drop 32) b!"opdata01" (List.replicate 16 9) [] (List.replicate 16 2)

/-- The text of the profile file. -/
def profileText (password : Bytes) : Bytes :=
  b!"var profile={\"salt\":\"" ++ B64.encode b!"salt" ++ b!"\",\"iterations\":7,\"masterKey\":\"" ++
  keyText password (List.replicate 16 1) ++ b!"\",\"overviewKey\":\"" ++ keyText password (List.replicate 16 2) ++
  b!"\"};"

/-- One item with blobs that do not authenticate (it shows as a blank login). -/
def bandText : Bytes :=
  b!"ld({\"A1\":{\"category\":\"001\",\"created\":5,\"updated\":6,\"hmac\":\"\",\"d\":\"" ++
  B64.encode (List.replicate 33 255) ++ b!"\",\"o\":\"" ++ B64.encode (List.replicate 33 255) ++ b!"\",\"k\":\"" ++
  B64.encode (List.replicate 112 0) ++ b!"\"}});"

/-- Two vaults, /a with password `pa` and /b with password `pb`. -/
def disk : Disk :=
  { cwd := []
    fs := [([b!"a"], .dir), ([b!"a", b!"default"], .dir),
           ([b!"a", b!"default", b!"profile.js"], .file (profileText pa) false),
           ([b!"b"], .dir), ([b!"b", b!"default"], .dir),
           ([b!"b", b!"default", b!"profile.js"], .file (profileText pb) false)] }

/-- The same with one item in /a. -/
def disk' : Disk :=
  { disk with fs := ([b!"a", b!"default", b!"band_0.js"], .file bandText false) :: disk.fs }

end Demo

/-- The demo profile meets the hypotheses of C09; the right password authenticates, another does not. -/
example : GoodProfile (some (Demo.members Demo.pa)) b!"salt" 7 (Demo.master Demo.pa) (Demo.overview Demo.pa) where
  range := by decide
  iterations := rfl
  salt := ⟨_, rfl, isBase64_encode _⟩
  masterKey := ⟨_, rfl, isBase64_encode _⟩
  overviewKey := ⟨_, rfl, isBase64_encode _⟩
  master_shape := by decide +kernel
  overview_shape := by decide +kernel

example : Authentic Env.toy (passwordMac Env.toy Demo.pa b!"salt" 7) (Demo.master Demo.pa) ∧
    ¬ Authentic Env.toy (passwordMac Env.toy Demo.pb b!"salt" 7) (Demo.master Demo.pa) := by
  decide +kernel

/-! ### C10 -/

/-- C10. In any state, an `Unlock` that reports an error leaves everything as it was. -/
theorem C10_failed_unlock_changes_nothing (E : Env) (st st' : St) (O : MapOrder) (vault password : Bytes) (e : Err)
    (h : step E st (.unlock O vault password) = .ret (.err (some e), st')) : st' = st := by
  simp only [step, Out.bind_eq_ret, Out.pure_eq, Out.ret.injEq, Prod.mk.injEq, Prod.exists] at h
  obtain ⟨r, s, hu, ha, rfl⟩ := h
  rcases unlock_cases hu with ⟨-, rfl⟩ | ⟨rfl, -⟩
  · rfl
  · simp [answerErr] at ha

/-! ### C11 -/

theorem step_unlocked {E : Env} {st st' : St} {o : Op} {a : Answer} (h : step E st o = .ret (a, st')) :
    st'.sess.isUnlocked =
      match o with
      | .lock => false
      | .unlock _ _ _ => (match a with | .err none => true | _ => st.sess.isUnlocked)
      | _ => st.sess.isUnlocked := by
  cases o with
  | validate v =>
    simp only [step, validate, Out.bind_eq_ret, Out.pure_eq, Out.ret.injEq, Prod.mk.injEq, Prod.exists] at h
    obtain ⟨r, s, ⟨r', p, _, _, rfl⟩, _, rfl⟩ := h
    rfl
  | unlock O v p =>
    simp only [step, Out.bind_eq_ret, Out.pure_eq, Out.ret.injEq, Prod.mk.injEq, Prod.exists] at h
    obtain ⟨r, s, hu, rfl, rfl⟩ := h
    rcases unlock_cases hu with ⟨rfl, rfl⟩ | ⟨rfl, keys, raw, items, -, -, rfl, -⟩
    · rfl
    · rfl
  | lock => simp only [step, Out.ret.injEq, Prod.mk.injEq] at h; obtain ⟨_, rfl⟩ := h; rfl
  | count c t => simp only [step, Out.ret.injEq, Prod.mk.injEq] at h; obtain ⟨_, rfl⟩ := h; rfl
  | getItem u t => simp only [step, Out.ret.injEq, Prod.mk.injEq] at h; obtain ⟨_, rfl⟩ := h; rfl
  | getItems S c ti t => simp only [step, Out.ret.injEq, Prod.mk.injEq] at h; obtain ⟨_, rfl⟩ := h; rfl
  | isUnlocked => simp only [step, Out.ret.injEq, Prod.mk.injEq] at h; obtain ⟨_, rfl⟩ := h; rfl
  | sortReg S less => simp only [step, Out.ret.injEq, Prod.mk.injEq] at h; obtain ⟨_, rfl⟩ := h; rfl
  | disk d => simp only [step, Out.ret.injEq, Prod.mk.injEq] at h; obtain ⟨_, rfl⟩ := h; rfl

/-- The call is an `Unlock` and it succeeded. -/
def UnlockOk (o : Op) (a : Answer) : Prop := (∃ O v p, o = .unlock O v p) ∧ a = .err none

/-- C11. After any history of a process, `IsUnlocked` is true iff some `Unlock` succeeded and no `Lock`
followed it. -/
theorem C11_is_unlocked (E : Env) (d : Disk) (ops : List Op) (as : List Answer) (st : St)
    (h : run E ⟨d, init⟩ ops = .ret (as, st)) :
    st.sess.isUnlocked = true ↔
      ∃ pre o post preA a postA, ops = pre ++ o :: post ∧ as = preA ++ a :: postA ∧ preA.length = pre.length ∧
        UnlockOk o a ∧ ∀ x ∈ post, x ≠ .lock := by
  have key : ∀ (ops : List Op) (st0 : St) (as : List Answer) (st : St), run E st0 ops = .ret (as, st) →
      (st.sess.isUnlocked = true ↔ (st0.sess.isUnlocked = true ∧ ∀ x ∈ ops, x ≠ .lock) ∨
        ∃ pre o post preA a postA, ops = pre ++ o :: post ∧ as = preA ++ a :: postA ∧ preA.length = pre.length ∧
          UnlockOk o a ∧ ∀ x ∈ post, x ≠ .lock) := by
    intro ops
    induction ops with
    | nil =>
      intro st0 as st h
      cases h
      simp
    | cons o os ih =>
      intro st0 as st h
      obtain ⟨a, st1, as', h1, h2, rfl⟩ := run_cons.1 h
      rw [ih st1 as' st h2]
      have hs := step_unlocked h1
      constructor
      · rintro (⟨hu, hl⟩ | ⟨pre, o', post, preA, a', postA, rfl, rfl, hlen, hok, hl⟩)
        · by_cases hok : UnlockOk o a
          · exact .inr ⟨[], o, os, [], a, as', rfl, rfl, rfl, hok, hl⟩
          · left
            have hne : o ≠ .lock := by
              rintro rfl
              simp [hs] at hu
            refine ⟨?_, ?_⟩
            · cases o with
              | lock => exact absurd rfl hne
              | unlock O v p =>
                rw [hs] at hu
                simp only at hu
                split at hu
                · exact absurd ⟨⟨O, v, p, rfl⟩, rfl⟩ hok
                · exact hu
              | _ => rw [hs] at hu; exact hu
            · intro x hx
              rcases List.mem_cons.1 hx with rfl | hx
              · exact hne
              · exact hl x hx
        · exact .inr ⟨o :: pre, o', post, a :: preA, a', postA, rfl, rfl, by simp [hlen], hok, hl⟩
      · rintro (⟨hu, hl⟩ | ⟨pre, o', post, preA, a', postA, heq, haeq, hlen, hok, hl⟩)
        · left
          refine ⟨?_, fun x hx => hl x (by simp [hx])⟩
          rw [hs]
          cases o with
          | lock => exact absurd rfl (hl .lock (by simp))
          | unlock O v p => simp only; split <;> simp [hu]
          | _ => exact hu
        · cases pre with
          | nil =>
            simp only [List.nil_append, List.cons.injEq] at heq
            obtain ⟨rfl, rfl⟩ := heq
            have : preA = [] := by simpa using hlen
            subst this
            simp only [List.nil_append, List.cons.injEq] at haeq
            obtain ⟨rfl, rfl⟩ := haeq
            left
            obtain ⟨⟨O, v, p, rfl⟩, rfl⟩ := hok
            exact ⟨by rw [hs], hl⟩
          | cons o2 pre =>
            cases preA with
            | nil => simp at hlen
            | cons a2 preA =>
              simp only [List.cons_append, List.cons.injEq] at heq haeq
              obtain ⟨rfl, rfl⟩ := heq
              obtain ⟨rfl, rfl⟩ := haeq
              exact .inr ⟨pre, o', post, preA, a', postA, rfl, rfl, by simpa using hlen, hok, hl⟩
  rw [key ops _ as st h]
  simp [init, isUnlocked]

/-! ### C12, C13 -/

/-- Nothing can be got out of the session. -/
def NothingHeld (T : Text) (s : Session) : Prop :=
  (∀ c t, s.countItems c t = 0) ∧ (∀ S c ti t, s.getItems T S c ti t = []) ∧ (∀ u t, s.getItem u t = none)

theorem nothingHeld_of {T : Text} {s : Session} (h : s.items = none) : NothingHeld T s := by
  refine ⟨?_, ?_, ?_⟩
  · intro c t; simp [countItems, Repo.count, h]
  · intro S c ti t
    have := (S.perm lessItem ((Repo.findBy T s.items c ti t).map simple)).length_eq
    simp only [Repo.findBy, h, Option.getD_none, List.filter_nil, List.map_nil, List.length_nil] at this
    simpa [getItems, Repo.findBy, h] using List.length_eq_zero_iff.1 this
  · intro u t; simp [getItem, Repo.findFirst, h]

/-- C12. From any state whatsoever: after `Lock`, and after any further history without a successful `Unlock`,
nothing is held. -/
theorem C12_lock_erases (E : Env) (st st' : St) (ops : List Op) (as : List Answer)
    (h : run E st (.lock :: ops) = .ret (as, st'))
    (hno : ∀ p ∈ ops.zip as.tail, ¬ UnlockOk p.1 p.2) : NothingHeld E.text st'.sess := by
  obtain ⟨a, st1, as', h1, h2, rfl⟩ := run_cons.1 h
  simp only [List.tail_cons] at hno
  have h0 : st1.sess.items = none := by
    simp only [step, Out.ret.injEq, Prod.mk.injEq] at h1
    obtain ⟨-, rfl⟩ := h1
    exact lock_items _
  clear h h1
  apply nothingHeld_of
  induction ops generalizing st1 as' with
  | nil => cases h2; exact h0
  | cons o os ih =>
    obtain ⟨a', st2, as'', h3, h4, rfl⟩ := run_cons.1 h2
    refine ih st2 as'' h4 (fun p hp => hno p (by simp [hp])) ?_
    have hno' : ¬ UnlockOk o a' := hno (o, a') (by simp)
    cases o with
    | validate v =>
      simp only [step, validate, Out.bind_eq_ret, Out.pure_eq, Out.ret.injEq, Prod.mk.injEq, Prod.exists] at h3
      obtain ⟨r, s, ⟨r', p, _, _, rfl⟩, _, rfl⟩ := h3
      exact h0
    | unlock O v p =>
      simp only [step, Out.bind_eq_ret, Out.pure_eq, Out.ret.injEq, Prod.mk.injEq, Prod.exists] at h3
      obtain ⟨r, s, hu, rfl, rfl⟩ := h3
      rcases unlock_cases hu with ⟨rfl, rfl⟩ | ⟨rfl, -⟩
      · exact h0
      · exact absurd ⟨⟨O, v, p, rfl⟩, rfl⟩ hno'
    | lock => simp only [step, Out.ret.injEq, Prod.mk.injEq] at h3; obtain ⟨_, rfl⟩ := h3; exact lock_items _
    | count c t => simp only [step, Out.ret.injEq, Prod.mk.injEq] at h3; obtain ⟨_, rfl⟩ := h3; exact h0
    | getItem u t => simp only [step, Out.ret.injEq, Prod.mk.injEq] at h3; obtain ⟨_, rfl⟩ := h3; exact h0
    | getItems S c ti t => simp only [step, Out.ret.injEq, Prod.mk.injEq] at h3; obtain ⟨_, rfl⟩ := h3; exact h0
    | isUnlocked => simp only [step, Out.ret.injEq, Prod.mk.injEq] at h3; obtain ⟨_, rfl⟩ := h3; exact h0
    | sortReg S less => simp only [step, Out.ret.injEq, Prod.mk.injEq] at h3; obtain ⟨_, rfl⟩ := h3; exact h0
    | disk d => simp only [step, Out.ret.injEq, Prod.mk.injEq] at h3; obtain ⟨_, rfl⟩ := h3; exact h0

/-- C13. In every reachable state that is not unlocked nothing is held. -/
theorem C13_locked_holds_nothing (E : Env) (s : Session) (hr : Reachable E s) (hl : s.isUnlocked = false) :
    NothingHeld E.text s := by
  apply nothingHeld_of
  apply hr.inv.locked
  simpa [isUnlocked] using hl

/-! ### C14 -/

/-- C14. From a reachable locked session, a successful `Unlock` leaves exactly the decoded current contents of
the vault. -/
theorem C14_unlock_shows_current (E : Env) (O : MapOrder) (d : Disk) (vault password : Bytes) (s s' : Session)
    (hr : Reachable E s) (hl : s.isUnlocked = false)
    (h : unlock E O d vault password s = .ret (.ok (), s')) :
    ∃ k raw items, s'.keys = some k ∧ Repo.loadItems E O d vault = .ret raw ∧
      ItemSvc.decodeItems E O s.reg k raw = .ret items ∧ s'.items = some items := by
  have hi : s.items = none := hr.inv.locked (by simpa [isUnlocked] using hl)
  rcases unlock_cases h with ⟨h, -⟩ | ⟨-, k, raw, items, h1, h2, rfl, -⟩
  · cases h
  · exact ⟨k, raw, items, rfl, h1, h2, by simp [hi, Repo.storeItems]⟩

/-- What fails: a second `Unlock` without `Lock` in between never updates the items, whatever the vault now
contains. -/
theorem C14_second_unlock_keeps_old (E : Env) (O : MapOrder) (d : Disk) (vault password : Bytes) (s s' : Session)
    (l : List Item) (hi : s.items = some l) (r : Except Err Unit)
    (h : unlock E O d vault password s = .ret (r, s')) : s'.items = some l := by
  rcases unlock_cases h with ⟨-, rfl⟩ | ⟨-, k, raw, items, h1, h2, rfl, -⟩
  · exact hi
  · simp [hi, Repo.storeItems]

/-- The wish of C14 without the restriction to locked sessions. -/
def C14_wish (E : Env) : Prop :=
  ∀ (O : MapOrder) (d : Disk) (vault password : Bytes) (s s' : Session), Reachable E s →
    unlock E O d vault password s = .ret (.ok (), s') →
    ∃ k raw items, s'.keys = some k ∧ Repo.loadItems E O d vault = .ret raw ∧
      ItemSvc.decodeItems E O s.reg k raw = .ret items ∧ s'.items = some items

/-- A history in which the vault gets an item between two unlocks. -/
def staleOps : List Op :=
  [.validate b!"/a", .unlock .doc b!"/a" Demo.pa, .disk Demo.disk']

/-- How many items are held after a history, `none` if the process does not survive it. -/
def heldAfter (d : Disk) (ops : List Op) : Option (Option Nat) :=
  match run Env.toy ⟨d, init⟩ ops with
  | .ret (_, st) => some (st.sess.items.map List.length)
  | _ => none

/-- The demo vault can be opened, with no item and with one. -/
example : heldAfter Demo.disk [.validate b!"/a", .unlock .doc b!"/a" Demo.pa] = some (some 0) ∧
    heldAfter Demo.disk' [.validate b!"/a", .unlock .doc b!"/a" Demo.pa] = some (some 1) ∧
    heldAfter Demo.disk' [.validate b!"/a", .unlock .doc b!"/a" Demo.px] = some none ∧
    heldAfter Demo.disk' [.validate b!"/a", .unlock .doc b!"/a" Demo.pa, .lock] = some none := by
  decide +kernel

/-- After `staleOps`, the vault is unlocked again: the lists held, and the current contents. -/
def staleLengths : Option (Option Nat × Nat) :=
  match run Env.toy ⟨Demo.disk, init⟩ staleOps with
  | .ret (_, st) =>
    match st.sess.unlock Env.toy .doc st.disk b!"/a" Demo.pa with
    | .ret (.ok (), s') =>
      match s'.keys, Repo.loadItems Env.toy .doc st.disk b!"/a" with
      | some k, .ret raw =>
        match ItemSvc.decodeItems Env.toy .doc st.sess.reg k raw with
        | .ret items => some (s'.items.map List.length, items.length)
        | _ => none
      | _, _ => none
    | _ => none
  | _ => none

/-- C14, the wish is false: an unlocked session that is unlocked again does not show the new item. -/
theorem C14_refuted : ¬ C14_wish Env.toy := by
  intro hw
  have hs : staleLengths = some (some 0, 1) := by decide +kernel
  unfold staleLengths at hs
  split at hs
  · rename_i as st hrun
    split at hs
    · rename_i s' hu
      obtain ⟨k, raw, items, h1, h2, h3, h4⟩ := hw _ _ _ _ _ _ ⟨_, _, _, _, hrun⟩ hu
      simp only [h1, h2, h3, h4, Option.map_some, Option.some.injEq, Prod.mk.injEq] at hs
      omega
    · cases hs
  · cases hs

/-! ### C15 -/

/-- The calls that only read. -/
def IsRead : Op → Prop
  | .count _ _ | .getItem _ _ | .getItems _ _ _ _ | .isUnlocked => True
  | _ => False

/-- What a reading call answers in a session. -/
def readAnswer (E : Env) (s : Session) : Op → Answer
  | .count c t => .num (s.countItems c t)
  | .getItem u t => .item (s.getItem u t)
  | .getItems S c ti t => .list (s.getItems E.text S c ti t)
  | .isUnlocked => .flag s.isUnlocked
  | _ => .none

/-- C15. Any sequence of reading calls survives, leaves the state as it is, and each call answers as it would
have on its own in the initial state. -/
theorem C15_reads_change_nothing (E : Env) (st : St) (ops : List Op) (h : ∀ o ∈ ops, IsRead o) :
    run E st ops = .ret (ops.map (readAnswer E st.sess), st) := by
  induction ops with
  | nil => rfl
  | cons o os ih =>
    rw [run_cons]
    refine ⟨readAnswer E st.sess o, st, os.map (readAnswer E st.sess), ?_, ih (fun x hx => h x (by simp [hx])), rfl⟩
    have := h o (by simp)
    cases o <;> first | rfl | exact this.elim

example : ∀ o ∈ [Op.count none true, .getItems .ins none b!"x" false, .isUnlocked, .getItem b!"A1" false], IsRead o := by
  simp [IsRead]

/-! ### C16 -/

/-- `m` is the profile document of the vault at `v`: the file default/profile.js without its first twelve bytes
and its last byte. -/
def ProfileOf (d : Disk) (v : Bytes) (m : Profile) : Prop :=
  v ≠ [] ∧ ∃ pre body last x,
    d.at? (Path.resolve d.cwd v ++ [b!"default", b!"profile.js"]) = some (.file (pre ++ body ++ [last]) x) ∧
    pre.length = 12 ∧ Json.unmarshalMap body = (m, false)

theorem profile_stat (d : Disk) {v : Bytes} (hv : v ≠ []) :
    d.stat (profilePath v) = d.at? (Path.resolve d.cwd v ++ [b!"default", b!"profile.js"]) := by
  have hs : ∀ c ∈ [b!"default", b!"profile.js"], Path.Simple c := by decide +kernel
  have hr := Path.resolve_join d.cwd hv (cs := [b!"default", b!"profile.js"]) (by simp) hs
  have hj := Path.join_snoc hv (cs := [b!"default"]) (b := b!"profile.js") (by simp) (by decide +kernel) (by decide)
  unfold Disk.stat
  rw [if_neg]
  · exact congrArg d.at? hr
  · unfold profilePath profileDir profileFile
    intro h
    have hj' : Path.join (v :: [b!"default", b!"profile.js"]) = _ := hj
    rw [h] at hj'
    simp at hj'

theorem subBytes_ret {l r : Bytes} {a : Nat} {k : Nat} (h : subBytes l a ((l.length : Int) - k) = .ret r) :
    ∃ x y, l = x ++ r ++ y ∧ x.length = a ∧ y.length = k := by
  unfold subBytes at h
  split at h
  · rename_i hc
    cases h
    have e : ((l.length : Int) - k).toNat = l.length - k := by omega
    rw [e]
    refine ⟨l.take a, l.drop (l.length - k), ?_, ?_, ?_⟩
    · have h1 : l.take a = (l.take (l.length - k)).take a := by
        rw [List.take_take]; congr 1; omega
      rw [h1, Int.toNat_natCast, List.take_append_drop, List.take_append_drop]
    · simp; omega
    · simp; omega
  · cases h

theorem loadProfile_none {d : Disk} {v : Bytes} {p' : Profile} (hv : v ≠ [])
    (h : Repo.loadProfile d v none = .ret p') : ProfileOf d v p' := by
  unfold Repo.loadProfile at h
  simp only at h
  split at h
  · cases h
  · rename_i file hf
    simp only [Out.bind_eq_ret] at h
    obtain ⟨body, hb, h⟩ := h
    obtain ⟨pre, y, rfl, hx, hy⟩ := subBytes_ret (a := 12) (k := 1) hb
    obtain ⟨last, rfl⟩ := List.length_eq_one_iff.1 hy
    split at h
    · cases h
    · rename_i m hm
      cases h
      unfold Disk.readFile at hf
      split at hf
      · rename_i data x hd
        cases hf
        rw [profile_stat d hv] at hd
        exact ⟨hv, pre, body, last, x, hd, hx, hm⟩
      · cases hf

theorem step_profile {E : Env} {st st' : St} {o : Op} {a : Answer} (h : step E st o = .ret (a, st')) :
    st'.sess.profile = st.sess.profile ∨
    (st.sess.profile = none ∧ ∃ v, o = .validate v ∧ ProfileOf st.disk v st'.sess.profile) := by
  cases o with
  | validate v =>
    simp only [step, validate, Out.bind_eq_ret, Out.pure_eq, Out.ret.injEq, Prod.mk.injEq, Prod.exists] at h
    obtain ⟨r, s, ⟨r', p, hv, _, rfl⟩, _, rfl⟩ := h
    simp only
    unfold Repo.validateVault at hv
    split at hv
    · cases hv; exact .inl rfl
    · cases hv; exact .inl rfl
    · rename_i hst
      have hne : v ≠ [] := by rintro rfl; simp [Disk.stat] at hst
      split at hv
      · cases hv; exact .inl rfl
      · cases hv; exact .inl rfl
      · simp only [Out.bind_eq_ret, Out.pure_eq, Out.ret.injEq, Prod.mk.injEq] at hv
        obtain ⟨p', hl, -, rfl⟩ := hv
        cases hp : st.sess.profile with
        | some m =>
          rw [hp] at hl
          simp only [Repo.loadProfile, Out.ret.injEq] at hl
          exact .inl hl.symm
        | none =>
          rw [hp] at hl
          exact .inr ⟨rfl, v, rfl, loadProfile_none hne hl⟩
  | unlock O v p =>
    simp only [step, Out.bind_eq_ret, Out.pure_eq, Out.ret.injEq, Prod.mk.injEq, Prod.exists] at h
    obtain ⟨r, s, hu, rfl, rfl⟩ := h
    rcases unlock_cases hu with ⟨rfl, rfl⟩ | ⟨rfl, keys, raw, items, -, -, rfl, -⟩
    · exact .inl rfl
    · exact .inl rfl
  | lock => simp only [step, Out.ret.injEq, Prod.mk.injEq] at h; obtain ⟨_, rfl⟩ := h; exact .inl rfl
  | count c t => simp only [step, Out.ret.injEq, Prod.mk.injEq] at h; obtain ⟨_, rfl⟩ := h; exact .inl rfl
  | getItem u t => simp only [step, Out.ret.injEq, Prod.mk.injEq] at h; obtain ⟨_, rfl⟩ := h; exact .inl rfl
  | getItems S c ti t => simp only [step, Out.ret.injEq, Prod.mk.injEq] at h; obtain ⟨_, rfl⟩ := h; exact .inl rfl
  | isUnlocked => simp only [step, Out.ret.injEq, Prod.mk.injEq] at h; obtain ⟨_, rfl⟩ := h; exact .inl rfl
  | sortReg S less => simp only [step, Out.ret.injEq, Prod.mk.injEq] at h; obtain ⟨_, rfl⟩ := h; exact .inl rfl
  | disk d => simp only [step, Out.ret.injEq, Prod.mk.injEq] at h; obtain ⟨_, rfl⟩ := h; exact .inl rfl

/-- What holds in all histories: the profile held is the one of the first vault validated, as it was then. -/
theorem C16_profile_is_first (E : Env) (st0 : St) (h0 : st0.sess.profile = none) (ops : List Op) (as : List Answer)
    (st : St) (h : run E st0 ops = .ret (as, st)) (m : Members) (hm : st.sess.profile = some m) :
    ∃ pre v post as1 st1, ops = pre ++ .validate v :: post ∧ run E st0 pre = .ret (as1, st1) ∧
      st1.sess.profile = none ∧ ProfileOf st1.disk v (some m) := by
  have keep : ∀ (ops : List Op) (st0 st : St) (as : List Answer) (m : Members), run E st0 ops = .ret (as, st) →
      st0.sess.profile = some m → st.sess.profile = some m := by
    intro ops
    induction ops with
    | nil => intro st0 st as m h hm; cases h; exact hm
    | cons o os ih =>
      intro st0 st as m h hm
      obtain ⟨a, st1, as', h1, h2, rfl⟩ := run_cons.1 h
      rcases step_profile h1 with he | ⟨he, -⟩
      · exact ih st1 st as' m h2 (he.trans hm)
      · rw [he] at hm; cases hm
  induction ops generalizing st0 as with
  | nil => cases h; rw [h0] at hm; cases hm
  | cons o os ih =>
    obtain ⟨a, st1, as', h1, h2, rfl⟩ := run_cons.1 h
    cases hp : st1.sess.profile with
    | none =>
      obtain ⟨pre, v, post, as1, st2, rfl, hr, hn, hP⟩ := ih st1 hp as' h2
      exact ⟨o :: pre, v, post, a :: as1, st2, rfl, run_cons.2 ⟨a, st1, as1, h1, hr, rfl⟩, hn, hP⟩
    | some m' =>
      have := keep os st1 st as' m' h2 hp
      rw [hm] at this
      cases this
      rcases step_profile h1 with he | ⟨he, v, rfl, hP⟩
      · rw [h0] at he; rw [he] at hp; cases hp
      · rw [hp] at hP
        exact ⟨[], v, os, [], st0, rfl, rfl, h0, hP⟩

/-- All calls of the history name the vault `v`, and the disk does not change. -/
def OneVault (v : Bytes) (ops : List Op) : Prop :=
  ∀ o ∈ ops, match o with
    | .validate v' => v' = v
    | .unlock _ v' _ => v' = v
    | .disk _ => False
    | _ => True

/-- C16, for histories that name a single vault on an unchanging disk: a successful `Unlock` has derived the
keys from the password and that vault's profile, so (C09) the password authenticates that vault's key blobs.
Missing: histories with several vaults (see `C16_refuted`) or a changing disk. -/
theorem C16_checked_vault_partial (E : Env) (d : Disk) (v : Bytes) (ops : List Op) (hv : OneVault v ops)
    (as : List Answer) (st : St) (h : run E ⟨d, init⟩ ops = .ret (as, st))
    (O : MapOrder) (password : Bytes) (s' : Session)
    (hu : unlock E O st.disk v password st.sess = .ret (.ok (), s')) :
    ∃ m k, ProfileOf d v m ∧ s'.keys = some k ∧
      derivedKeys E m password = .ret (.ok (k.derivedKey, k.derivedMac)) ∧
      masterKeys E m k.derivedKey k.derivedMac = .ret (.ok (k.masterKey, k.masterMac)) ∧
      overviewKeys E m k.derivedKey k.derivedMac = .ret (.ok (k.overviewKey, k.overviewMac)) := by
  obtain ⟨k, hk, h1, h2, h3⟩ := C09_keys_held E O st.disk v password st.sess s' hu
  cases hp : st.sess.profile with
  | none =>
    rw [hp] at h2
    have : masterKeys E none k.derivedKey k.derivedMac = .panic := by
      rw [(C04_master_and_overview_keys E none k.derivedKey k.derivedMac).2.2.1]
      intro t ht; cases ht
    rw [this] at h2; cases h2
  | some m =>
    obtain ⟨pre, v', post, as1, st1, rfl, hr, hn, hP⟩ := C16_profile_is_first E _ rfl ops as st h m hp
    have hv' : v' = v := hv (.validate v') (by simp)
    have hd : ∀ (pre : List Op) (st0 st1 : St) (as1 : List Answer), (∀ o ∈ pre, ∀ d, o ≠ .disk d) →
        run E st0 pre = .ret (as1, st1) → st1.disk = st0.disk := by
      intro pre
      induction pre with
      | nil => intro st0 st1 as1 _ h; cases h; rfl
      | cons o os ih =>
        intro st0 st1 as1 hno h
        obtain ⟨a, st2, as', h1, h2, rfl⟩ := run_cons.1 h
        rw [ih st2 st1 as' (fun x hx => hno x (by simp [hx])) h2]
        have hno' := hno o (by simp)
        cases o with
        | disk d => exact absurd rfl (hno' d)
        | validate v =>
          simp only [step, Out.bind_eq_ret, Out.pure_eq, Out.ret.injEq, Prod.mk.injEq, Prod.exists] at h1
          obtain ⟨_, _, _, _, rfl⟩ := h1; rfl
        | unlock O v p =>
          simp only [step, Out.bind_eq_ret, Out.pure_eq, Out.ret.injEq, Prod.mk.injEq, Prod.exists] at h1
          obtain ⟨_, _, _, _, rfl⟩ := h1; rfl
        | _ => simp only [step, Out.ret.injEq, Prod.mk.injEq] at h1; obtain ⟨_, rfl⟩ := h1; rfl
    have hdisk := hd pre _ _ _ (fun o ho d hd => by
      have := hv o (by simp [ho]); rw [hd] at this; exact this) hr
    rw [hdisk, hv'] at hP
    rw [hp] at h1 h2 h3
    exact ⟨_, k, hP, hk, h1, h2, h3⟩

/-- The wish of C16. -/
def C16_wish (E : Env) : Prop :=
  ∀ (d : Disk) (v : Bytes) (ops : List Op) (as : List Answer) (st : St),
    (∀ o ∈ ops, ∀ d, o ≠ .disk d) → run E ⟨d, init⟩ ops = .ret (as, st) →
    ∀ (O : MapOrder) (password : Bytes) (s' : Session),
      unlock E O st.disk v password st.sess = .ret (.ok (), s') →
      ∃ m k, ProfileOf d v m ∧ derivedKeys E m password = .ret (.ok k) ∧ ∃ k', masterKeys E m k.1 k.2 = .ret (.ok k')

/-- Both vaults are validated. -/
def twoVaults : List Op := [.validate b!"/a", .validate b!"/b"]

/-- Does unlocking /b with a password succeed after `twoVaults`? -/
def opensB (password : Bytes) : Option (List Answer × St × Session) :=
  match run Env.toy ⟨Demo.disk, init⟩ twoVaults with
  | .ret (as, st) =>
    match unlock Env.toy .doc st.disk b!"/b" password st.sess with
    | .ret (.ok (), s') => some (as, st, s')
    | _ => none
  | _ => none

/-- The profile document of a vault on the demo disk. -/
def demoProfile (v : Bytes) : Profile :=
  match Demo.disk.at? (Path.resolve Demo.disk.cwd v ++ [b!"default", b!"profile.js"]) with
  | some (.file data _) => (Json.unmarshalMap ((data.drop 12).dropLast)).1
  | _ => none

/-- Does the password open the vault according to its own profile? -/
def authenticates (v password : Bytes) : Bool :=
  match derivedKeys Env.toy (demoProfile v) password with
  | .ret (.ok k) => (match masterKeys Env.toy (demoProfile v) k.1 k.2 with | .ret (.ok _) => true | _ => false)
  | _ => false

/-- C16 fails: with two vaults validated, /b opens with the password of /a. -/
theorem C16_refuted : ¬ C16_wish Env.toy := by
  intro hw
  have h1 : (opensB Demo.pa).isSome = true := by decide +kernel
  have h2 : authenticates b!"/b" Demo.pa = false := by decide +kernel
  unfold opensB at h1
  split at h1
  · rename_i as st hrun
    split at h1
    · rename_i s' hu
      obtain ⟨m, k, hP, hk, k', hk'⟩ := hw Demo.disk b!"/b" twoVaults as st (by
        intro o ho d hd; subst hd; simp [twoVaults] at ho) hrun _ _ _ hu
      obtain ⟨-, pre, body, last, x, hat, hlen, hm⟩ := hP
      have : demoProfile b!"/b" = m := by
        unfold demoProfile
        rw [hat]
        simp [← hlen, hm]
      unfold authenticates at h2
      rw [this, hk] at h2
      simp only at h2
      rw [hk'] at h2
      cases h2
    · cases h1
  · cases h1

example : authenticates b!"/a" Demo.pa = true ∧ authenticates b!"/b" Demo.pb = true ∧
    OneVault b!"/a" [.validate b!"/a", .unlock .doc b!"/a" b!"x", .lock] := by
  refine ⟨by decide +kernel, by decide +kernel, ?_⟩
  simp [OneVault]

/-! ### C17 -/

/-- C17. `Validate` is decided by two objects on the disk: the one at the path and the one at
default/profile.js below it. If the first is a directory and the second a file there is no error; otherwise the
error names the first check that failed and the session is unchanged. -/
theorem C17_validate (d : Disk) (v : Bytes) (s : Session) :
    let dir := d.at? (Path.resolve d.cwd v)
    let profile := d.at? (Path.resolve d.cwd v ++ [b!"default", b!"profile.js"])
    let path := Path.join [v, b!"default", b!"profile.js"]
    (v = [] ∨ dir = none → validate d v s = .ret (.error (.invalidVault (v ++ b!" is not a valid path")), s)) ∧
    (v ≠ [] → (∃ data x, dir = some (.file data x)) →
      validate d v s = .ret (.error (.invalidVault (v ++ b!" is not a directory")), s)) ∧
    (v ≠ [] → dir = some .dir → profile = none →
      validate d v s = .ret (.error (.invalidVault (path ++ b!" do not exist")), s)) ∧
    (v ≠ [] → dir = some .dir → profile = some .dir →
      validate d v s = .ret (.error (.invalidVault (path ++ b!" is not a file")), s)) ∧
    (v ≠ [] → dir = some .dir → (∃ data x, profile = some (.file data x)) →
      ∀ r s', validate d v s = .ret (r, s') → r = .ok () ∧ s'.items = s.items ∧ s'.keys = s.keys ∧ s'.reg = s.reg ∧
        (s.profile = none → ProfileOf d v s'.profile) ∧ (s.profile ≠ none → s'.profile = s.profile)) := by
  intro dir profile path
  have hst : v ≠ [] → d.stat v = dir := fun hv => by unfold Disk.stat; rw [if_neg hv]
  have hsp : v ≠ [] → d.stat (profilePath v) = profile := fun hv => profile_stat d hv
  refine ⟨?_, ?_, ?_, ?_, ?_⟩
  · intro h
    have : d.stat v = none := by
      by_cases hv : v = []
      · simp [Disk.stat, hv]
      · rw [hst hv]; exact h.resolve_left hv
    simp [validate, Repo.validateVault, this]
  · rintro hv ⟨data, x, h⟩
    simp [validate, Repo.validateVault, hst hv, h]
  · intro hv h1 h2
    simp [validate, Repo.validateVault, hst hv, h1, hsp hv, h2]
    rfl
  · intro hv h1 h2
    simp [validate, Repo.validateVault, hst hv, h1, hsp hv, h2]
    rfl
  · rintro hv h1 ⟨data, x, h2⟩ r s' h
    simp only [validate, Repo.validateVault, hst hv, h1, hsp hv, h2, Out.bind_eq_ret, Out.pure_eq, Out.ret.injEq,
      Prod.mk.injEq, Prod.exists] at h
    obtain ⟨r', p, ⟨p', hl, rfl, rfl⟩, rfl, rfl⟩ := h
    refine ⟨rfl, rfl, rfl, rfl, ?_, ?_⟩
    · intro hn
      rw [hn] at hl
      exact loadProfile_none hv hl
    · intro hn
      obtain ⟨m, hm⟩ := Option.ne_none_iff_exists'.1 hn
      rw [hm] at hl ⊢
      simp only [Repo.loadProfile, Out.ret.injEq] at hl
      exact hl.symm

/-- The call of `Validate` as a Boolean: accepted. -/
def accepted (d : Disk) (v : Bytes) : Bool :=
  match validate d v init with
  | .ret (.ok (), _) => true
  | _ => false

example : accepted Demo.disk b!"/a" = true ∧ accepted Demo.disk b!"/a/" = true ∧ accepted Demo.disk b!"/b/../a" = true ∧
    accepted Demo.disk b!"/c" = false ∧ accepted Demo.disk b!"" = false ∧
    accepted Demo.disk b!"/a/default/profile.js" = false ∧ accepted Demo.disk b!"/a/default" = false := by
  decide +kernel

end OnePass
