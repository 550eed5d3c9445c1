/-
C41, C42, C45, C46: the configuration file.
-/
import Verif.Model.ConfigFacts
import Verif.Model.Toy

set_option linter.unusedTactic false
set_option linter.unusedSimpArgs false

namespace OnePass
namespace Conf
open Prog

/-! ### Histories -/

/-- What happens to a configuration: it is saved, or the program is started anew. -/
inductive Op where
  | save (c : Config)
  | restart

/-- A history. -/
def runOps (S : Sys) (X : Ext) (dir : Bytes) : List Op → Prog Unit
  | [] => Prog.pure ()
  | .save c :: r => do
    save S X dir c
    runOps S X dir r
  | .restart :: r => do
    boot S X dir
    runOps S X dir r

/-- The entries the application uses. -/
def known : List Bytes := [b!"opvault", b!"timeout", b!"update-notification", b!"update-period"]

theorem get_updated (m : YMap) (c : Config) (k : Bytes) : (updated m c).get k =
    if k = kPeriod then .int c.period else if k = kNotify then .bool c.notify
    else if k = kTimeout then .int c.timeout else if k = kVault then .str c.vault else m.get k := by
  unfold updated
  simp only [YMap.get_set, eq_comm (b := k)]

theorem updated_ne (m : YMap) (c : Config) : updated m c ≠ [] := by simp [updated, YMap.set]

/-- Any map with the entries of a saved configuration reads as that configuration. -/
theorem getConfig_updated (m m' : YMap) (c : Config) (h : ∀ k, m'.get k = (updated m c).get k) :
    getConfig (some m') = .ret c := by
  have h1 : entry (some m') kVault = .str c.vault := by
    show m'.get kVault = _
    rw [h, get_updated]; simp [kVault, kPeriod, kNotify, kTimeout]
  have h2 : entry (some m') kTimeout = .int c.timeout := by
    show m'.get kTimeout = _
    rw [h, get_updated]; simp [kVault, kPeriod, kNotify, kTimeout]
  have h3 : entry (some m') kNotify = .bool c.notify := by
    show m'.get kNotify = _
    rw [h, get_updated]; simp [kVault, kPeriod, kNotify, kTimeout]
  have h4 : entry (some m') kPeriod = .int c.period := by
    show m'.get kPeriod = _
    rw [h, get_updated]; simp
  simp only [getConfig, notification, intEntry, defaultVault, h1, h2, h3, h4]
  rfl

/-- The running process has what is in the file. -/
def Sync (X : Ext) (dir : Bytes) (w : World) : Prop := loaded X w.disk dir = some w.conf

/-- What a save that returned has done. -/
theorem save_ret {S : Sys} {X : Ext} {dir : Bytes} (hdir : dir ≠ []) {c : Config} {w w' : World}
    (h : save S X dir c w = (.ret (), w')) :
    ∃ m m', w.conf = some m ∧ loaded X w'.disk dir = some (some m') ∧ (∀ k, m'.get k = (updated m c).get k) ∧
      m' ≠ [] ∧ (S.Quiet → w'.conf = some m') ∧ w'.disk.cwd = w.disk.cwd ∧
      ∃ b x, w'.disk.at? (Path.resolve w.disk.cwd (path dir)) = some (.file b x) ∧ X.yamlDecode b = some (some m') := by
  cases hm : w.conf with
  | none =>
    unfold save at h
    simp only [bind_run, Prog.get, hm] at h
    have := congrArg Prod.fst h
    cases this
  | some m =>
    obtain ⟨o, ds₁, ds₂, k, conf', h1, h2, h3, h4, -⟩ := save_run S X hdir c w m hm
    rw [h] at h1
    have ho : Out.ret () = o := congrArg Prod.fst h1
    have hw : w' = _ := congrArg Prod.snd h1
    obtain ⟨h5, x, h6⟩ := h3 ho.symm
    obtain ⟨m', h7, h8, h9⟩ := X.yaml_law (updated m c)
    have hcwd : (w.disk.last (ds₁ ++ ds₂)).cwd = w.disk.cwd := by
      rcases Disk.last_mem w.disk (ds₁ ++ ds₂) with h0 | h0
      · rw [h0]
      · rcases List.mem_append.1 h0 with h0 | h0
        · exact (h2.early _ h0).1
        · exact (h2.late _ h0).1
    refine ⟨m, m', rfl, ?_, h9, fun h0 => updated_ne m c (h8.1 h0), ?_, by rw [hw]; exact hcwd, ?_⟩
    · have hstat : w'.disk.stat (path dir) = some (.file (X.yamlEncode (updated m c)) x) := by
        unfold Disk.stat
        rw [if_neg (path_ne dir), hw]
        simp only
        rw [hcwd]; exact h6
      unfold loaded
      rw [hstat]; exact h7
    · intro hq
      have := h4 hq ho.symm
      rw [h7] at this
      rw [hw]
      exact (Option.some.inj this).symm
    · exact ⟨_, x, by rw [hw]; exact h6, h7⟩

/-- A start: the file is read into the process; the disk is not touched. -/
theorem boot_run {S : Sys} {X : Ext} (hq : S.Quiet) (dir : Bytes) (w : World) :
    ∃ k, boot S X dir w = match loaded X w.disk dir with
      | some m => (.ret (), { w with tick := w.tick + k, conf := m, sess := Session.init })
      | none => (.fatal, { w with tick := w.tick + k }) := by
  obtain ⟨k, hk⟩ := load_run (X := X) hq dir w
  refine ⟨k, ?_⟩
  unfold boot
  rw [bind_run, hk]
  cases loaded X w.disk dir <;> rfl

/-! ### C41 -/

theorem runOps_append (S : Sys) (X : Ext) (dir : Bytes) (a b : List Op) (w : World) :
    runOps S X dir (a ++ b) w = (runOps S X dir a >>= fun _ => runOps S X dir b) w := by
  induction a generalizing w with
  | nil => rfl
  | cons o a ih =>
    cases o with
    | save c =>
      show (save S X dir c >>= fun _ => runOps S X dir (a ++ b)) w =
        ((save S X dir c >>= fun _ => runOps S X dir a) >>= fun _ => runOps S X dir b) w
      rw [bind_assoc']
      have : (fun _ : Unit => runOps S X dir (a ++ b)) = fun _ => runOps S X dir a >>= fun _ => runOps S X dir b := by
        funext _ w; exact ih w
      rw [this]
    | restart =>
      show (boot S X dir >>= fun _ => runOps S X dir (a ++ b)) w =
        ((boot S X dir >>= fun _ => runOps S X dir a) >>= fun _ => runOps S X dir b) w
      rw [bind_assoc']
      have : (fun _ : Unit => runOps S X dir (a ++ b)) = fun _ => runOps S X dir a >>= fun _ => runOps S X dir b := by
        funext _ w; exact ih w
      rw [this]

theorem bind_ret {α β : Type} {m : Prog α} {f : α → Prog β} {w : World} {b : β} {w' : World}
    (h : (m >>= f) w = (.ret b, w')) : ∃ a w1, m w = (.ret a, w1) ∧ f a w1 = (.ret b, w') := by
  rw [bind_run] at h
  cases hm : m w with
  | mk o w1 =>
    rw [hm] at h
    cases o with
    | ret a => exact ⟨a, w1, rfl, h⟩
    | panic => cases h
    | fatal => cases h

theorem restarts {S : Sys} {X : Ext} (hq : S.Quiet) {dir : Bytes} (k : Nat) {w w' : World} (hs : Sync X dir w)
    (h : runOps S X dir (List.replicate k .restart) w = (.ret (), w')) : w'.conf = w.conf ∧ w'.disk = w.disk := by
  induction k generalizing w with
  | zero => cases h; exact ⟨rfl, rfl⟩
  | succ k ih =>
    rw [List.replicate_succ] at h
    obtain ⟨a, w1, h1, h2⟩ := bind_ret h
    obtain ⟨j, hj⟩ := boot_run (X := X) hq dir w
    rw [hs] at hj
    rw [hj] at h1
    simp only [Prod.mk.injEq] at h1
    obtain ⟨-, h1⟩ := h1
    have e1 : w1.conf = w.conf := by rw [← h1]
    have e2 : w1.disk = w.disk := by rw [← h1]
    have := ih (w := w1) (by unfold Sync; rw [e1, e2]; exact hs) h2
    exact ⟨this.1.trans e1, this.2.trans e2⟩

/-- C41. After any history `before`, saving a configuration and starting the program `k` more times, the
configuration read is the one saved (if the history runs to its end and no system call fails). `k = 0`: in the
same process. -/
theorem C41_saved_is_read (S : Sys) (X : Ext) (hq : S.Quiet) (dir : Bytes) (hdir : dir ≠ []) (before : List Op)
    (c : Config) (k : Nat) (w w' : World)
    (h : runOps S X dir (before ++ .save c :: List.replicate k .restart) w = (.ret (), w')) :
    getConfig w'.conf = .ret c := by
  rw [runOps_append] at h
  obtain ⟨-, w1, -, h⟩ := bind_ret h
  obtain ⟨⟨⟩, w2, h1, h2⟩ := bind_ret h
  obtain ⟨m, m', -, h3, h4, -, h5, -⟩ := save_ret hdir h1
  have := restarts hq k (by unfold Sync; rw [h3, h5 hq]) h2
  rw [this.1, h5 hq]
  exact getConfig_updated m m' c h4

/-- C41. Even if system calls fail during the save (but it returned): any later start of the program without
failures reads the saved configuration. -/
theorem C41_saved_is_read_later (S S' : Sys) (X : Ext) (hq : S'.Quiet) (dir : Bytes) (hdir : dir ≠ []) (c : Config)
    (w w1 : World) (h : save S X dir c w = (.ret (), w1)) (stdin : Bytes) :
    ∃ w2, boot S' X dir { w1 with stdin := stdin, conf := none } = (.ret (), w2) ∧ getConfig w2.conf = .ret c := by
  obtain ⟨m, m', -, h3, h4, -⟩ := save_ret hdir h
  obtain ⟨j, hj⟩ := boot_run (X := X) hq dir { w1 with stdin := stdin, conf := none }
  simp only [h3] at hj
  exact ⟨_, hj, getConfig_updated m m' c h4⟩

/-- C41. A save returns: if the process has a configuration map and no file is in the way of the configuration
directory or file. -/
theorem C41_save_returns (S : Sys) (X : Ext) (hq : S.Quiet) (dir : Bytes) (hdir : dir ≠ []) (c : Config) (w : World)
    (m : YMap) (hm : w.conf = some m)
    (h1 : ∀ l, l <+: Path.resolve w.disk.cwd dir → l ≠ [] → w.disk.at? l = none ∨ w.disk.at? l = some .dir)
    (h2 : w.disk.at? (Path.resolve w.disk.cwd dir ++ [configFile]) ≠ some .dir) :
    ∃ w', save S X dir c w = (.ret (), w') := by
  obtain ⟨o, ds₁, ds₂, k, conf', h3, -, -, -, h4, -⟩ := save_run S X hdir c w m hm
  rw [h3, h4 hq h1 (by rw [resolve_path _ hdir]; exact h2)]
  exact ⟨_, rfl⟩

/-! ### C42 -/

/-- C42. A history from a start of the program: every entry the application does not know is the same in the
file afterwards as in the file before (a missing file has no entries). -/
theorem C42_foreign_keys (S : Sys) (X : Ext) (hq : S.Quiet) (dir : Bytes) (hdir : dir ≠ []) (ops : List Op)
    (w w' : World) (h : runOps S X dir (.restart :: ops) w = (.ret (), w')) :
    ∃ m m', loaded X w.disk dir = some m ∧ loaded X w'.disk dir = some m' ∧
      ∀ k, k ∉ known → entry m' k = entry m k := by
  have main : ∀ (ops : List Op) (w : World), Sync X dir w → runOps S X dir ops w = (.ret (), w') →
      Sync X dir w' ∧ ∀ k, k ∉ known → entry w'.conf k = entry w.conf k := by
    intro ops
    induction ops with
    | nil => intro w hs h; cases h; exact ⟨hs, fun _ _ => rfl⟩
    | cons o ops ih =>
      intro w hs h
      cases o with
      | save c =>
        obtain ⟨⟨⟩, w1, h1, h2⟩ := bind_ret h
        obtain ⟨m, m', h3, h4, h5, -, h6, -⟩ := save_ret hdir h1
        obtain ⟨h7, h8⟩ := ih w1 (by unfold Sync; rw [h4, h6 hq]) h2
        refine ⟨h7, fun k hk => ?_⟩
        rw [h8 k hk, h6 hq, h3]
        show m'.get k = m.get k
        rw [h5, get_updated]
        simp only [known, List.mem_cons, List.not_mem_nil, or_false, not_or] at hk
        have e1 : k ≠ kPeriod := hk.2.2.2
        have e2 : k ≠ kNotify := hk.2.2.1
        have e3 : k ≠ kTimeout := hk.2.1
        have e4 : k ≠ kVault := hk.1
        rw [if_neg e1, if_neg e2, if_neg e3, if_neg e4]
      | restart =>
        obtain ⟨⟨⟩, w1, h1, h2⟩ := bind_ret h
        obtain ⟨j, hj⟩ := boot_run (X := X) hq dir w
        rw [hs] at hj
        rw [hj] at h1
        simp only [Prod.mk.injEq] at h1
        obtain ⟨-, h1⟩ := h1
        obtain ⟨h7, h8⟩ := ih w1 (by unfold Sync; rw [← h1]; exact hs) h2
        refine ⟨h7, fun k hk => ?_⟩
        rw [h8 k hk, ← h1]
  obtain ⟨⟨⟩, w1, h1, h2⟩ := bind_ret h
  obtain ⟨j, hj⟩ := boot_run (X := X) hq dir w
  cases hl : loaded X w.disk dir with
  | none => rw [hl] at hj; rw [hj] at h1; cases h1
  | some m =>
    rw [hl] at hj
    rw [hj] at h1
    simp only [Prod.mk.injEq] at h1
    obtain ⟨-, h1⟩ := h1
    obtain ⟨h7, h8⟩ := main ops w1 (by unfold Sync; rw [← h1]; exact hl) h2
    refine ⟨m, w'.conf, rfl, h7, fun k hk => ?_⟩
    rw [h8 k hk, ← h1]

/-! ### C45 -/

/-- All states the disk is in during a run, the first one included. -/
def diskStates {α : Type} (m : Prog α) (w : World) : List Disk :=
  w.disk :: ((m w).2.log.drop w.log.length).filterMap (fun e => match e with | .disk d => some d | _ => none)

theorem diskStates_of_log {α : Type} {m : Prog α} {w : World} {ds : List Disk}
    (h : (m w).2.log = w.log ++ ds.map Ev.disk) : diskStates m w = w.disk :: ds := by
  unfold diskStates
  rw [h, List.drop_left]
  congr 1
  induction ds with
  | nil => rfl
  | cons d ds ih => simp [ih]

/-- C45, what holds. At every point of a save, whatever fails, the configuration file is the old one (or still
missing) or a beginning of the new one; no other existing file changes. When the save returned, the file is the
new one completely. Missing: the file is empty or incomplete at some points (`C45_refuted`). -/
theorem C45_crash_states_partial (S : Sys) (X : Ext) (dir : Bytes) (hdir : dir ≠ []) (c : Config) (w : World) (m : YMap)
    (hm : w.conf = some m) :
    (∀ d ∈ diskStates (save S X dir c) w,
      (d.at? (Path.resolve w.disk.cwd (path dir)) = w.disk.at? (Path.resolve w.disk.cwd (path dir)) ∨
        ∃ b x, b <+: X.yamlEncode (updated m c) ∧ d.at? (Path.resolve w.disk.cwd (path dir)) = some (.file b x)) ∧
      ∀ l, l ≠ Path.resolve w.disk.cwd (path dir) → w.disk.at? l ≠ none → d.at? l = w.disk.at? l) ∧
    ((save S X dir c w).1 = .ret () → ∃ x, (save S X dir c w).2.disk.at? (Path.resolve w.disk.cwd (path dir)) =
      some (.file (X.yamlEncode (updated m c)) x)) := by
  obtain ⟨o, ds₁, ds₂, k, conf', h1, h2, h3, -⟩ := save_run S X hdir c w m hm
  have hlog : (save S X dir c w).2.log = w.log ++ (ds₁ ++ ds₂).map Ev.disk := by rw [h1]
  have hnp : ¬ Path.resolve w.disk.cwd (path dir) <+: Path.resolve w.disk.cwd dir := by
    rw [resolve_path _ hdir]
    intro h0
    have := h0.length_le
    rw [List.length_append, List.length_singleton] at this
    omega
  constructor
  · intro d hd
    rw [diskStates_of_log hlog] at hd
    rcases List.mem_cons.1 hd with rfl | hd
    · exact ⟨.inl rfl, fun _ _ _ => rfl⟩
    · rcases List.mem_append.1 hd with hd | hd
      · have := h2.early d hd
        exact ⟨.inl (this.2.1 _ hnp), fun l _ h0 => this.2.2 l h0⟩
      · have := h2.late d hd
        exact ⟨.inr this.2.2.2, this.2.2.1⟩
  · intro h0
    rw [h1] at h0 ⊢
    exact (h3 h0).2

/-- A disk with a configuration file with the given contents. -/
def confDisk (b : Bytes) : Disk :=
  { fs := [([b!"h"], .dir), ([b!"h", b!"1pass.yml"], .file b false)], cwd := [] }

/-- A configured user. -/
def myConf : Config := { timeout := 5, notify := false, period := 7, vault := b!"/v" }

/-- The process of that user, started on the file of that configuration. -/
def myWorld : World := { Toy.world (confDisk (Toy.encode (updated [] myConf))) [] with conf := some (updated [] myConf) }

/-- C45 is false: for every library there is a save and a point of it at which the file is empty. A program
started from there reads the defaults instead of the old or new configuration, and its next save panics (whatever
is saved): the configuration can then not be changed any more. -/
theorem C45_refuted (X : Ext) (S : Sys) (hq : S.Quiet) : ∃ (dir : Bytes) (w : World) (new : Config),
    getConfig w.conf = .ret myConf ∧
    ∃ d ∈ diskStates (save S X dir new) w, ∀ w2 : World, w2.disk = d →
      ∃ w3, boot S X dir w2 = (.ret (), w3) ∧ getConfig w3.conf = .ret { timeout := 1, notify := true, period := 1, vault := [] } ∧
        ∀ c, (save S X dir c w3).1 = .panic := by
  refine ⟨b!"/h", { Toy.world (confDisk (X.yamlEncode (updated [] myConf))) [] with conf := some (updated [] myConf) },
    { myConf with timeout := 6 }, by rfl, ?_⟩
  generalize hw : ({ Toy.world (confDisk (X.yamlEncode (updated [] myConf))) [] with conf := some (updated [] myConf) } : World) = w
  have hm : w.conf = some (updated [] myConf) := by rw [← hw]
  obtain ⟨o, ds₁, ds₂, k, conf', h1, h2, h3, -, h5, -⟩ :=
    save_run S X (dir := b!"/h") (by decide) { myConf with timeout := 6 } w _ hm
  have hd : w.disk = confDisk (X.yamlEncode (updated [] myConf)) := by rw [← hw]; rfl
  have hr1 : Path.resolve w.disk.cwd b!"/h" = [b!"h"] := by
    rw [hd]; show Path.resolve [] _ = _; decide +kernel
  have hr2 : Path.resolve w.disk.cwd (path b!"/h") = [b!"h", b!"1pass.yml"] := by
    rw [hd]; show Path.resolve [] _ = _; decide +kernel
  have ho : o = .ret () := by
    refine h5 hq ?_ ?_
    · intro l hl hne
      rw [hr1] at hl
      have : l = [b!"h"] := by
        rcases List.prefix_cons_iff.1 hl with rfl | ⟨t, rfl, ht⟩
        · exact absurd rfl hne
        · rw [List.prefix_nil] at ht; rw [ht]
      subst this
      rw [hd]
      exact .inr rfl
    · rw [hr2, hd]
      show some (Node.file (X.yamlEncode (updated [] myConf)) false) ≠ some Node.dir
      simp
  obtain ⟨h6, -⟩ := h3 ho
  obtain ⟨d, ds, hds⟩ := List.exists_cons_of_ne_nil h6
  obtain ⟨x, hx⟩ := h2.first d (by rw [hds]; rfl)
  have hcw := (h2.late d (by rw [hds]; simp)).1
  refine ⟨d, ?_, fun w2 hw2 => ?_⟩
  · rw [diskStates_of_log (ds := ds₁ ++ ds₂) (by rw [h1]), hds]; simp
  · obtain ⟨j, hj⟩ := boot_run (X := X) hq b!"/h" w2
    have hl : loaded X w2.disk b!"/h" = some none := by
      have hstat : w2.disk.stat (path b!"/h") = some (.file [] x) := by
        unfold Disk.stat
        rw [if_neg (path_ne _), hw2, hcw]; exact hx
      unfold loaded
      rw [hstat]; exact X.yaml_empty
    rw [hl] at hj
    refine ⟨_, hj, rfl, fun c => ?_⟩
    unfold save
    simp only [bind_run, Prog.get]
    rfl

/-! ### C46 -/

/-- C46. For every configuration: the vault is empty if missing and the text if it is a text; timeout and period
are 1 if missing and the number if it is a number; the notification is on if missing and the truth value if it is
one. (A null entry counts as missing.) -/
theorem C46_defaults (conf : Option YMap) (c : Config) (h : getConfig conf = .ret c) :
    (entry conf b!"opvault" = .null → c.vault = []) ∧ (∀ s, entry conf b!"opvault" = .str s → c.vault = s) ∧
    (entry conf b!"timeout" = .null → c.timeout = 1) ∧ (∀ n, entry conf b!"timeout" = .int n → c.timeout = n) ∧
    (entry conf b!"update-notification" = .null → c.notify = true) ∧
    (∀ v, entry conf b!"update-notification" = .bool v → c.notify = v) ∧
    (entry conf b!"update-period" = .null → c.period = 1) ∧ (∀ n, entry conf b!"update-period" = .int n → c.period = n) := by
  simp only [getConfig, notification, intEntry, defaultVault, kVault, kTimeout, kNotify, kPeriod] at h
  cases h1 : entry conf b!"update-notification" <;> rw [h1] at h <;> try (cases h; done)
  all_goals cases h2 : entry conf b!"update-period" <;> rw [h2] at h <;> try (cases h; done)
  all_goals cases h3 : entry conf b!"timeout" <;> rw [h3] at h <;> try (cases h; done)
  all_goals
    simp only [Out.ret_bind, Out.pure_eq, Out.ret.injEq] at h
    subst h
    refine ⟨?_, ?_, ?_, ?_, ?_, ?_, ?_, ?_⟩ <;> intros <;> simp_all [shown]

/-- C46. Reading succeeds exactly if timeout, period and notification are missing or of the right type; otherwise
the program crashes. -/
theorem C46_crash (conf : Option YMap) :
    ((∃ c, getConfig conf = .ret c) ↔
      (entry conf b!"timeout" = .null ∨ ∃ n, entry conf b!"timeout" = .int n) ∧
      (entry conf b!"update-notification" = .null ∨ ∃ v, entry conf b!"update-notification" = .bool v) ∧
      (entry conf b!"update-period" = .null ∨ ∃ n, entry conf b!"update-period" = .int n)) ∧
    ((∃ c, getConfig conf = .ret c) ∨ getConfig conf = .panic) := by
  simp only [getConfig, notification, intEntry, defaultVault, kVault, kTimeout, kNotify, kPeriod]
  cases entry conf b!"update-notification" <;> cases entry conf b!"update-period" <;> cases entry conf b!"timeout" <;>
    simp

/-- C46. An empty or missing file: all defaults. -/
theorem C46_empty : getConfig none = .ret { timeout := 1, notify := true, period := 1, vault := [] } ∧
    getConfig (some []) = .ret { timeout := 1, notify := true, period := 1, vault := [] } := ⟨rfl, rfl⟩

/-! ### Examples -/

/-- A foreign entry next to a wrong old value. -/
def oldMap : YMap := [(b!"colour", .str b!"red"), (b!"timeout", .int 3)]

/-- C41, C42: save, restart, save, restart. -/
def demoOps : List Op := [.restart, .save { myConf with timeout := 9 }, .restart, .save myConf, .restart]

example : (runOps (Toy.sys [] 0) Toy.ext b!"/h" demoOps (Toy.world (confDisk (Toy.encode oldMap)) [])).1 = .ret () := by
  decide +kernel
example : getConfig (runOps (Toy.sys [] 0) Toy.ext b!"/h" demoOps (Toy.world (confDisk (Toy.encode oldMap)) [])).2.conf = .ret myConf := by
  decide +kernel
example : entry (runOps (Toy.sys [] 0) Toy.ext b!"/h" demoOps (Toy.world (confDisk (Toy.encode oldMap)) [])).2.conf b!"colour" = .str b!"red" := by
  decide +kernel
/-- The same without directory and file. -/
example : getConfig (runOps (Toy.sys [] 0) Toy.ext b!"/h" demoOps (Toy.world { fs := [], cwd := [] } [])).2.conf = .ret myConf := by
  decide +kernel
/-- C45: a save goes through more than a hundred states; the one after the first is the empty file. -/
example : (diskStates (save (Toy.sys [] 0) Toy.ext b!"/h" { myConf with timeout := 6 }) myWorld).length > 100 ∧
    ((diskStates (save (Toy.sys [] 0) Toy.ext b!"/h" { myConf with timeout := 6 }) myWorld)[1]?.bind
      (·.at? [b!"h", b!"1pass.yml"])) = some (.file [] false) := by decide +kernel
/-- C46. -/
example : getConfig (some oldMap) = .ret { timeout := 3, notify := true, period := 1, vault := [] } := by decide +kernel
example : getConfig (some [(b!"timeout", .str b!"3")]) = .panic := by decide +kernel

end Conf
end OnePass
