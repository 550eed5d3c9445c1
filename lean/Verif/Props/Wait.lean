/-
C119: how long the program waits for servers.
-/
import Verif.Model.Http
import Verif.Props.Timeout

set_option linter.unusedSimpArgs false

namespace OnePass
namespace Http

/-- A server that, once the connection is there, has answered after `r` at the latest. -/
def Hop.Prompt (r : Nat) (h : Hop) : Prop :=
  ∃ a b c, h.handshake = some a ∧ h.header = some b ∧ h.body = some c ∧ a + b + c ≤ r

theorem wrap_small (t : Int) (h1 : 1 ≤ t) (h2 : t ≤ 9223372036) : wrap (t * 1000000000) = t * 1000000000 := by
  unfold wrap
  omega

theorem phase_zero (n : Nat) : phase 0 (some n) = (some n, true) := rfl

theorem phases_zero (n : Nat) (ps : List (Int × Option Nat)) :
    phases ((0, some n) :: ps) = ((phases ps).1.map (n + ·), (phases ps).2) := rfl

/-- One request: at most the timeout for each connection, and what the servers take from then on. -/
theorem waits_bound (t : Int) (h1 : 1 ≤ t) (h2 : t ≤ 9223372036) (r : Nat) (hops : List Hop) (hr : ∀ h ∈ hops, h.Prompt r) :
    ∃ n : Nat, waits t hops = some n ∧ (n : Int) ≤ hops.length * (t * 1000000000 + r) := by
  show ∃ n : Nat, (phases (hops.flatMap fun h => [((httpClient t).dial, h.connect), (0, h.handshake), (0, h.header), (0, h.body)])).1 =
    some n ∧ _
  have hl : (httpClient t).dial = t * 1000000000 := wrap_small t h1 h2
  rw [hl]
  induction hops with
  | nil => exact ⟨0, rfl, by simp⟩
  | cons h hops ih =>
    obtain ⟨m, h3, h4⟩ := ih (fun x hx => hr x (by simp [hx]))
    obtain ⟨a, b, c, e1, e2, e3, e4⟩ := hr h (by simp)
    rw [List.flatMap_cons, List.length_cons]
    simp only [List.cons_append, List.nil_append, e1, e2, e3]
    have hnn : (0 : Int) ≤ hops.length * (t * 1000000000 + r) := by
      have : (0 : Int) ≤ t * 1000000000 + r := by omega
      exact mul_nonneg (by omega) this
    have e5 : ((hops.length + 1 : Nat) : Int) * (t * 1000000000 + r) = hops.length * (t * 1000000000 + r) + (t * 1000000000 + r) := by
      push_cast; ring
    rw [e5]
    rw [phases]
    unfold phase
    rw [if_neg (by omega)]
    cases h.connect with
    | none =>
      simp only
      exact ⟨_, rfl, by omega⟩
    | some d =>
      simp only
      by_cases hd : (d : Int) ≤ t * 1000000000
      · rw [if_pos hd]
        simp only [phases_zero, h3, Option.map_some]
        exact ⟨_, rfl, by push_cast; omega⟩
      · rw [if_neg hd]
        exact ⟨_, rfl, by omega⟩

/-- A server that accepts connections at once, and says nothing. -/
def silent : Hop := { connect := some 0, handshake := some 0, header := none, body := none }

/-- Whatever the timeout (from one second on), a request to it never ends. -/
theorem silent_waits (t : Int) (h1 : 1 ≤ t) (h2 : t ≤ 9223372036) : waits t [silent] = none := by
  show (phases [((httpClient t).dial, some 0), (0, some 0), (0, none), (0, none)]).1 = none
  have hl : (httpClient t).dial = t * 1000000000 := wrap_small t h1 h2
  rw [hl, phases]
  unfold phase
  rw [if_neg (by omega)]
  simp only
  rw [if_pos (by omega)]
  rfl

/-- The requests made. -/
def requests (es : List Ev) : List (Bytes × Int) := es.filterMap fun e => match e with | .request u t => some (u, t) | _ => none

theorem requests_append (a b : List Ev) : requests (a ++ b) = requests a ++ requests b := List.filterMap_append

theorem requests_none {es : List Ev} (h : ∀ e ∈ es, Cli.NoRequest e) : requests es = [] := by
  unfold requests
  rw [List.filterMap_eq_nil_iff]
  intro e he
  cases e with
  | request u t => exact absurd rfl (h _ he u t)
  | _ => rfl

/-- A run that makes at most `k` requests with timeout `t` waits at most `k` times the bound for one. -/
theorem waited_bound (t : Int) (h1 : 1 ≤ t) (h2 : t ≤ 9223372036) (r hopsMax : Nat) (net : Nat → Bytes → List Hop)
    (hnet : ∀ n u, (net n u).length ≤ hopsMax ∧ ∀ h ∈ net n u, h.Prompt r) (es : List Ev) (ht : ∀ u t', Ev.request u t' ∈ es → t' = t) :
    ∃ n : Nat, waited net es = some n ∧ (n : Int) ≤ (requests es).length * (hopsMax * (t * 1000000000 + r)) := by
  induction es with
  | nil => exact ⟨0, rfl, by simp [requests]⟩
  | cons e es ih =>
    obtain ⟨m, h3, h4⟩ := ih (fun u t' h => ht u t' (by simp [h]))
    cases e with
    | request u t' =>
      obtain rfl : t' = t := ht u t' (by simp)
      obtain ⟨n, h5, h6⟩ := waits_bound t' h1 h2 r (net es.length u) (hnet _ _).2
      refine ⟨n + m, ?_, ?_⟩
      · unfold waited
        rw [h5, h3]
      · have : (n : Int) ≤ hopsMax * (t' * 1000000000 + r) := by
          refine le_trans h6 (mul_le_mul_of_nonneg_right ?_ (by omega))
          exact_mod_cast (hnet es.length u).1
        have e : requests (Ev.request u t' :: es) = (u, t') :: requests es := rfl
        rw [e, List.length_cons]
        push_cast
        have e5 : ((requests es).length + 1 : Int) * (hopsMax * (t' * 1000000000 + r)) =
          (requests es).length * (hopsMax * (t' * 1000000000 + r)) + hopsMax * (t' * 1000000000 + r) := by ring
        rw [e5]
        omega
    | _ => exact ⟨m, h3, h4⟩

/-- A run that asks a silent server never ends. -/
theorem waited_silent (net : Nat → Bytes → List Hop) (hnet : ∀ n u, net n u = [silent]) (es : List Ev) (u : Bytes) (t : Int)
    (h1 : 1 ≤ t) (h2 : t ≤ 9223372036) (h : Ev.request u t ∈ es) : waited net es = none := by
  induction es with
  | nil => cases h
  | cons e es ih =>
    rcases List.mem_cons.1 h with rfl | h
    · unfold waited
      rw [hnet, silent_waits t h1 h2]
    · have := ih h
      cases e with
      | request u' t' =>
        unfold waited
        rw [this]
        cases waits t' (net es.length u') <;> rfl
      | _ => exact this

end Http

namespace Cli
open Prog Upd Fmt Http

/-- At most `n` requests. -/
def Few (n : Nat) {α : Type} (m : Prog α) : Prop := ∀ w, ∃ es, (m w).2.log = w.log ++ es ∧ (requests es).length ≤ n

theorem few_none {α : Type} {m : Prog α} (h : Rel NoAsk m) : Few 0 m := by
  intro w
  obtain ⟨es, h1, h2⟩ := h w
  exact ⟨es, h1, by rw [requests_none h2]; simp⟩

theorem few_mono {α : Type} {m : Prog α} {a b : Nat} (h : Few a m) (hab : a ≤ b) : Few b m := by
  intro w
  obtain ⟨es, h1, h2⟩ := h w
  exact ⟨es, h1, by omega⟩

theorem few_bind {α β : Type} {m : Prog α} {f : α → Prog β} {a b : Nat} (h1 : Few a m) (h2 : ∀ x, Few b (f x)) :
    Few (a + b) (m >>= f) := by
  intro w
  rw [bind_run]
  obtain ⟨es, h3, h4⟩ := h1 w
  cases hr : m w with
  | mk o w1 =>
    rw [hr] at h3
    cases o with
    | panic => exact ⟨es, h3, by omega⟩
    | fatal => exact ⟨es, h3, by omega⟩
    | ret x =>
      obtain ⟨es', h5, h6⟩ := h2 x w1
      refine ⟨es ++ es', by rw [h5, h3, List.append_assoc], ?_⟩
      rw [requests_append, List.length_append]
      omega

theorem few_then {α β : Type} {m : Prog (Except Err α)} {f : α → Prog (Except Err β)} {a b : Nat} (h1 : Few a m) (h2 : ∀ x, Few b (f x)) :
    Few (a + b) (andThen m f) := by
  refine few_bind h1 (fun x => ?_)
  cases x with
  | error e => exact few_mono (few_none (Rel.pure noAsk_chain _)) (Nat.zero_le _)
  | ok a => exact h2 a

theorem few_read {α : Type} {f : Config → Prog α} {n : Nat} (h : ∀ c, Few n (f c)) : Few n (Conf.read >>= f) := by
  have := few_bind (few_none (rel_read noAsk_chain)) h
  rwa [Nat.zero_add] at this

theorem few_get (S : Sys) (u : Bytes) (t : Int) : Few 1 (Os.httpGet S u t) := by
  intro w
  rw [Os.httpGet_run]
  exact ⟨[.request u t], rfl, by simp [requests]⟩

theorem noAsk_out {e : Ev} (h : NoRequest e) : Rel NoAsk (emit e) := fun _ => ⟨[e], rfl, by simpa using h⟩

theorem few_fetch (S : Sys) (t : Int) : Few 1 (fetchInfo S t) := by
  refine few_bind (b := 0) (few_get S _ t) (fun a => ?_)
  cases a with
  | failed => exact few_none (Rel.pure noAsk_chain _)
  | body d c =>
    cases c with
    | false => exact few_none (Rel.pure noAsk_chain _)
    | true => exact few_none (Rel.lift noAsk_chain _)

theorem few_check (S : Sys) (X : Ext) (period t : Int) (force : Bool) (dir : Bytes) : Few 1 (Upd.checkForUpdate S X period t force dir) := by
  have hstamp : Rel NoAsk (checkTimestamp S dir) :=
    noAsk_of_foot (fun cwd => foot_checkTimestamp _ _ _ S dir (fun _ _ _ => trivial) trivial)
  have hgo : Few 1 (andThen (fetchInfo S t) fun info => do
      match info with
      | none =>
        checkTimestamp S dir
        Prog.pure (.error .noUpdate)
      | some i =>
        checkTimestamp S dir
        if i.newer then Prog.pure (.ok i) else Prog.pure (.error .noUpdate) : Prog (Except Err UpdateInfo)) := by
    refine few_then (b := 0) (few_fetch S t) (fun i => ?_)
    cases i with
    | none => exact few_none (Rel.bind noAsk_chain hstamp (fun _ => Rel.pure noAsk_chain _))
    | some i =>
      refine few_none (Rel.bind noAsk_chain hstamp (fun _ => ?_))
      split
      · exact Rel.pure noAsk_chain _
      · exact Rel.pure noAsk_chain _
  unfold Upd.checkForUpdate
  cases force with
  | true => exact hgo
  | false =>
    refine few_bind (a := 0) (b := 1) (few_none (noAsk_of_foot (fun cwd => foot_shouldCheck _ _ _ S X period dir))) (fun x => ?_)
    cases x with
    | true => exact hgo
    | false => exact few_mono (few_none (Rel.pure noAsk_chain _)) (Nat.zero_le _)

theorem few_facadeCheck (C : Ctx) (force : Bool) : Few 1 (facadeCheck C.sys C.ext C.dir force) :=
  few_read (fun _ => few_check _ _ _ _ _ _)

theorem few_cliCheck (C : Ctx) : Few 1 (checkForUpdate C) := by
  unfold checkForUpdate
  refine few_read (fun c => ?_)
  show Few 1 (if c.notify then _ else _)
  split
  · refine few_bind (b := 0) (few_facadeCheck C false) (fun r => ?_)
    cases r with
    | error e => exact few_none (Rel.pure noAsk_chain _)
    | ok i => exact few_none (noAsk_out (by intro u t h; cases h))
  · exact few_mono (few_none (Rel.pure noAsk_chain _)) (Nat.zero_le _)

theorem few_install (S : Sys) (X : Ext) (t : Int) (cb : Nat → Ev) (hcb : ∀ n u t, cb n ≠ .request u t) (info : UpdateInfo) :
    Few 2 (install S X t cb info) := by
  have hR := noAsk_chain
  have he : ∀ n, Few 0 (emit (cb n)) := fun n => few_none (noAsk_out (hcb n))
  have hrm : Rel NoAsk (Os.removeAll S cacheDir) := noAsk_of_foot (fun cwd => foot_removeAll _ _ _ S _ (fun _ _ => trivial))
  have hmk : Rel NoAsk (Os.mkdirAll S cacheDir) := noAsk_of_foot (fun cwd => foot_mkdirAll _ _ _ S _ (fun _ _ _ => trivial))
  have hcw : ∀ p d c, Rel NoAsk (andThen (Os.create S p) fun f => Os.write S f d c) := fun p d c =>
    noAsk_of_foot (fun cwd => foot_createWrite _ _ _ S p d c trivial)
  have hread : ∀ p, Rel NoAsk (Os.readFile S p) := fun p => noAsk_of_foot (fun cwd => foot_readFile _ _ _ S p)
  have hdl : ∀ dst url, Few 1 (downloadFile S dst url t) := by
    intro dst url
    refine few_bind (b := 0) (few_get S url t) (fun a => ?_)
    cases a with
    | failed => exact few_none (Rel.pure hR _)
    | body d c => exact few_none (hcw dst d c)
  have hrep : Rel NoAsk (replaceBinary S (Path.join [cacheDir, appName])) := by
    unfold replaceBinary
    cases S.exe with
    | none => exact Rel.pure hR _
    | some dst => exact noAsk_of_foot (fun cwd => foot_rename _ _ _ S _ dst trivial trivial)
  unfold install
  exact few_bind (a := 0) (b := 2) (he 1) (fun _ => few_then (a := 0) (b := 2) (few_none hrm) (fun _ =>
    few_then (a := 0) (b := 2) (few_none hmk) (fun _ => few_bind (a := 0) (b := 2) (he 2) (fun _ =>
    few_then (a := 1) (b := 1) (hdl _ _) (fun _ => few_bind (a := 0) (b := 1) (he 3) (fun _ =>
    few_then (a := 1) (b := 0) (hdl _ _) (fun _ => few_bind (a := 0) (b := 0) (he 4) (fun _ =>
    few_then (a := 0) (b := 0) (few_none (rel_extract hR S X _ _ (hread _) (fun n => hcw _))) (fun _ =>
    few_bind (a := 0) (b := 0) (he 5) (fun _ => few_then (a := 0) (b := 0) (few_none (rel_validate hR S X _ _ hread)) (fun _ =>
    few_bind (a := 0) (b := 0) (he 6) (fun _ => few_then (a := 0) (b := 0) (few_none hrep) (fun _ =>
    few_bind (a := 0) (b := 0) (he 7) (fun _ => few_none hrm))))))))))))))

theorem few_update (C : Ctx) : Few 4 (update C) := by
  have hR := noAsk_chain
  have hout : ∀ b, Rel NoAsk (emit (.out b)) := fun b => noAsk_out (by intro u t h; cases h)
  have hstop : Rel NoAsk (do println b!"Aborting update..."; Prog.exit : Prog Unit) := Rel.bind hR (hout _) (fun _ => Rel.lift hR _)
  unfold update
  refine few_bind (a := 0) (b := 4) (few_none (hout _)) (fun _ => few_bind (a := 1) (b := 3) (few_facadeCheck C true) (fun r => ?_))
  cases r with
  | error e => exact few_mono (few_none (rel_die hR e hout)) (Nat.zero_le _)
  | ok info =>
    refine few_bind (a := 0) (b := 3) (few_none (hout _)) (fun _ => few_bind (a := 0) (b := 3) (few_none (hout _)) (fun _ =>
      few_bind (a := 0) (b := 3) (few_none ?_) (fun v => ?_)))
    · intro w
      exact ⟨[.scan], rfl, by simp [NoRequest]⟩
    · cases LogicVal.fromName C.env.text v with
      | error e => exact few_mono (few_none hstop) (Nat.zero_le _)
      | ok p =>
        show Few 3 (if _ then _ else _)
        split
        · exact few_mono (few_none hstop) (Nat.zero_le _)
        · refine few_bind (a := 0) (b := 3) (few_none (hout _)) (fun _ => few_bind (a := 3) (b := 0) ?_ (fun r => ?_))
          · refine few_read (fun c => ?_)
            unfold Upd.update
            refine few_then (a := 1) (b := 2) (few_fetch _ _) (fun i => ?_)
            cases i with
            | none => exact few_mono (few_none (Rel.pure hR _)) (Nat.zero_le _)
            | some i =>
              show Few 2 (if _ then _ else _)
              split
              · exact few_install _ _ _ _ (by intro n u t h; cases h) _
              · exact few_mono (few_none (Rel.pure hR _)) (Nat.zero_le _)
          · cases r with
            | error e => exact few_none (rel_die hR e hout)
            | ok _ => exact few_none (hout _)

theorem few_configure (C : Ctx) : Few 1 (configure C) := by
  unfold configure
  refine few_bind (a := 1) (b := 0) (few_cliCheck C) (fun _ => few_none ?_)
  exact rel_dialog noAsk_chain C (fun b w => ⟨[.out b], rfl, by simp [NoRequest]⟩)
        (fun w => ⟨[.scan], rfl, by simp [NoRequest]⟩)
        (fun c => noAsk_of_foot (fun cwd => foot_save _ _ _ _ _ _ _ (fun _ _ => trivial) trivial))

theorem few_firstRun (C : Ctx) : Few 1 (firstRun C) := by
  have hout : ∀ b, Rel NoAsk (emit (.out b)) := fun b => noAsk_out (by intro u t h; cases h)
  intro w
  unfold firstRun
  rw [bind_run]
  show ∃ es, ((if Conf.isAvailable w.conf then Prog.pure () else _) w).2.log = _ ∧ _
  split
  · exact ⟨[], by simp [Prog.pure], by simp [requests]⟩
  · exact few_bind (a := 0) (b := 1) (few_none (hout _)) (fun _ => few_bind (a := 0) (b := 1) (few_none (hout _)) (fun _ =>
      few_bind (a := 1) (b := 0) (few_configure C) (fun _ => few_none (hout _)))) w

/-- How many requests a command may make. -/
def Cmd.most (available : Bool) : Cmd → Nat
  | .version => 0
  | .categories | .configure => 1
  | .gui _ => if available then 0 else 1
  | .list .. | .overview .. | .details .. => if available then 1 else 2
  | .update => 4

theorem few_command (C : Ctx) (cmd : Cmd) (w : World) :
    ∃ es, (command C cmd w).2.log = w.log ++ es ∧ (requests es).length ≤ cmd.most (Conf.isAvailable w.conf) := by
  have hR := noAsk_chain
  have hout : ∀ b, Rel NoAsk (emit (.out b)) := fun b => noAsk_out (by intro u t h; cases h)
  have htab : ∀ a b, Rel NoAsk (emit (.table a b)) := fun a b => noAsk_out (by intro u t h; cases h)
  have hsess : ∀ {α : Type} (f : Disk → Session → Out (α × Session)), Rel NoAsk (onSession f) := by
    intro α f v
    unfold onSession
    cases f v.disk v.sess <;> exact ⟨[], by simp, by simp⟩
  have hpw : Rel NoAsk (Os.readPassword C.sys) := noAsk_of_foot (fun cwd => foot_readPassword _ _ _ _ (by intro u t h; cases h))
  -- after the first run
  have hrest : ∀ flag, ∃ k : Prog Unit, openVault C flag = (firstRun C >>= fun _ => k) ∧ Few 1 k := by
    intro flag
    refine ⟨_, rfl, ?_⟩
    refine few_bind (a := 1) (b := 0) (few_cliCheck C) (fun _ => few_none (Rel.bind hR (rel_chooseVault hR flag) (fun v => ?_)))
    refine Rel.bind hR (hsess _) (fun r => ?_)
    cases r with
    | error e => exact rel_die hR e hout
    | ok _ =>
      refine Rel.bind hR (hout _) (fun _ => Rel.bind hR hpw (fun pw => Rel.bind hR (hsess _) (fun r => ?_)))
      cases r with
      | error e => exact rel_die hR e hout
      | ok _ => exact Rel.pure hR _
  have hopen : ∀ flag (f : Unit → Prog Unit), (∀ x, Rel NoAsk (f x)) →
      ∃ es, ((openVault C flag >>= f) w).2.log = w.log ++ es ∧ (requests es).length ≤ if Conf.isAvailable w.conf then 1 else 2 := by
    intro flag f hf
    obtain ⟨k, h1, h2⟩ := hrest flag
    cases hav : Conf.isAvailable w.conf with
    | true =>
      have e : openVault C flag w = k w := by
        rw [h1, bind_run]
        unfold firstRun
        rw [bind_run]
        simp only [Prog.get, hav, if_true, Prog.pure]
      obtain ⟨es, h3, h4⟩ := few_bind (b := 0) h2 (fun x => few_none (hf x)) w
      refine ⟨es, ?_, h4⟩
      rw [← h3, bind_run, bind_run, e]
    | false =>
      have : Few 2 (openVault C flag) := by rw [h1]; exact few_bind (a := 1) (b := 1) (few_firstRun C) (fun _ => h2)
      exact few_bind (a := 2) (b := 0) this (fun x => few_none (hf x)) w
  cases cmd with
  | version => exact few_none (hout _) w
  | update => exact few_update C w
  | configure => exact few_configure C w
  | categories =>
    refine few_bind (a := 1) (b := 0) (few_cliCheck C) (fun _ => few_none (rel_get (fun v => Rel.bind hR ?_ (fun _ => htab _ _)))) w
    exact fun v => ⟨[], by simp [setSess], by simp⟩
  | gui v =>
    show ∃ es, (firstRun C w).2.log = _ ∧ _ ≤ if Conf.isAvailable w.conf = true then 0 else 1
    cases hav : Conf.isAvailable w.conf with
    | true =>
      refine ⟨[], ?_, by simp [requests]⟩
      unfold firstRun
      rw [bind_run]
      simp [Prog.get, hav, Prog.pure]
    | false => exact few_firstRun C w
  | list v c n t =>
    refine hopen v _ (fun _ => rel_get (fun v => ?_))
    cases categoryFilter C v.sess.reg c with
    | error e => exact rel_die hR e hout
    | ok cat =>
      show Rel _ (if _ then _ else _)
      split
      · exact htab _ _
      · exact hout _
  | overview v u t => exact hopen v _ (fun _ => rel_printItem hR C true u t hout)
  | details v u t => exact hopen v _ (fun _ => rel_printItem hR C false u t hout)

/-- C119, what holds: a command waits no longer than the timeout (of the configuration in force) for each connection, plus
what the servers take from there, for each of its requests: none (version), one (the others; two on the first run), or four
(update). Missing: a limit on what the servers take (`C119_refuted`). -/
theorem C119_wait_partial (C : Ctx) (cmd : Cmd) (w : World) (h : cmd.asks = true → Conf.isAvailable w.conf = true) (c : Config)
    (hc : Conf.getConfig w.conf = .ret c) (h1 : 1 ≤ c.timeout) (h2 : c.timeout ≤ 9223372036) (r hops : Nat)
    (net : Nat → Bytes → List Hop) (hnet : ∀ n u, (net n u).length ≤ hops ∧ ∀ s ∈ net n u, s.Prompt r) :
    ∃ es, (command C cmd w).2.log = w.log ++ es ∧ ∃ n : Nat, waited net es = some n ∧
      (n : Int) ≤ cmd.most (Conf.isAvailable w.conf) * (hops * (c.timeout * 1000000000 + r)) := by
  obtain ⟨es, h3, h4⟩ := C105_commands C cmd w h
  obtain ⟨es', h5, h6⟩ := few_command C cmd w
  obtain rfl : es' = es := List.append_cancel_left (h5.symm.trans h3)
  obtain ⟨n, h7, h8⟩ := waited_bound c.timeout h1 h2 r hops net hnet es' (by
    intro u t ht
    rcases h4 u t ht with ⟨e1, rfl⟩ | e1 <;> rcases timeout_is hc with ⟨e2, e3⟩ | e2
    · exact e3.symm
    · rw [e1] at e2; cases e2
    · rw [e1] at e2; cases e2
    · rw [e1] at e2; cases e2; rfl)
  refine ⟨es', h3, n, h7, le_trans h8 (mul_le_mul_of_nonneg_right (by exact_mod_cast h6) ?_)⟩
  exact mul_nonneg (by omega) (by omega)

/-- A user with notifications on and a timeout of five seconds, not checked yet. -/
def eager : World :=
  { Toy.world (Conf.confDisk (Toy.encode (Conf.updated [] { Conf.myConf with notify := true, timeout := 5 }))) [] with
    conf := some (Conf.updated [] { Conf.myConf with notify := true, timeout := 5 }) }

/-- C119 is false: with servers that accept connections at once and say nothing, every run that asks one of them waits for
ever, whatever the timeout; so does the list of a user with a timeout of five seconds, before the password is asked for. -/
theorem C119_refuted : ∃ net : Nat → Bytes → List Hop, (∀ n u, ∀ h ∈ net n u, h.connect = some 0) ∧
    (∀ (C : Ctx) (cmd : Cmd) (w : World) (es : List Ev) (u : Bytes) (t : Int), (command C cmd w).2.log = w.log ++ es →
      Ev.request u t ∈ es → 1 ≤ t → t ≤ 9223372036 → waited net es = none) ∧
    ∃ (C : Ctx) (w : World) (c : Config) (e : Ev) (es : List Ev), C.sys.Quiet ∧ Conf.getConfig w.conf = .ret c ∧ c.timeout = 5 ∧
      (command C (.list [] [] [] false) w).2.log = w.log ++ e :: es ∧ waited net [e] = none ∧ .password ∉ [e] := by
  refine ⟨fun _ _ => [silent], ?_, ?_, demo b!"null" 0, eager, { Conf.myConf with notify := true, timeout := 5 },
    .request githubReleases 5, (command (demo b!"null" 0) (.list [] [] [] false) eager).2.log.drop 1, fun _ => rfl, by decide +kernel, rfl,
    by decide +kernel, ?_, by decide⟩
  · intro n u h hh
    rw [List.mem_singleton.1 hh]
    rfl
  · intro C cmd w es u t _ hu h1 h2
    exact waited_silent _ (fun _ _ => rfl) es u t h1 h2 hu
  · exact waited_silent _ (fun _ _ => rfl) _ _ 5 (by decide) (by decide) (List.mem_singleton.2 rfl)

/-- C119: with a server that takes eight seconds to connect the request fails after five; with one that takes two seconds
and then answers in one, through a redirection, it takes what they take. A timeout of zero is none. -/
example : waits 5 [⟨some 8000000000, some 0, some 0, some 0⟩] = some 5000000000 ∧
    (httpClient 5).get [⟨some 2000000000, some 3, some 4, some 5⟩, ⟨some 1000000000, some 0, some 0, some 1000000000⟩] =
      (some 4000000012, true) ∧
    waits 0 [⟨none, some 0, some 0, some 0⟩] = none ∧ waits (-1) [⟨some 1, some 0, some 0, some 0⟩] = some 0 := by decide +kernel
/-- C119: the run above makes one request. -/
example : requests ((command (demo b!"null" 0) (.list [] [] [] false) eager).2.log) = [(githubReleases, 5)] := by decide +kernel

end Cli
end OnePass
