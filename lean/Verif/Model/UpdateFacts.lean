/-
Lemmas about the update service: what every run of `install` does.
-/
import Verif.Model.FootFacts
import Verif.Go.PathFacts
import Verif.Go.FloatFacts

set_option linter.unusedSimpArgs false

namespace OnePass
namespace Upd
open Prog

theorem unmarshalArr_iff {s : Bytes} {l : List Json} : unmarshalArr s = some (some l) ↔ Json.ReadR s (.arr l) := by
  unfold unmarshalArr Json.ReadR
  rw [← Json.parse_iff]
  constructor
  · intro h
    split at h
    · split at h
      · rename_i l' hp hf
        cases h
        exact ⟨hp, by rw [Json.finite]; exact hf⟩
      · cases h
    · cases h
    · cases h
  · rintro ⟨h, hf⟩
    rw [Json.finite] at hf
    rw [h]
    simp [hf]

/-- The cache directory `/tmp/1pass`. -/
def cacheLoc : List Bytes := [b!"tmp", b!"1pass"]
def archiveLoc : List Bytes := [b!"tmp", b!"1pass", b!"1pass.tar.gz"]
def checksumLoc : List Bytes := [b!"tmp", b!"1pass", b!"checksum.md5"]
def binaryLoc : List Bytes := [b!"tmp", b!"1pass", b!"1pass"]

/-- Where the archive entry of this name goes when unpacked in the cache directory. -/
def target (name : Bytes) : List Bytes := ((Path.split name).foldl (Path.cleanStep true) cacheLoc.reverse).reverse

theorem resolve_target (cwd : List Bytes) (name : Bytes) : Path.resolve cwd (Path.join [cacheDir, name]) = target name := by
  have hj : Path.join [cacheDir, name] = Path.clean (cacheDir ++ 47 :: name) := by
    unfold Path.join
    have : List.dropWhile List.isEmpty [cacheDir, name] = [cacheDir, name] := by
      rw [List.dropWhile_cons_of_neg (by decide)]
    rw [this]; rfl
  rw [hj, Path.resolve_clean]
  unfold Path.resolve
  have ha : Path.isAbs (cacheDir ++ 47 :: name) = true := rfl
  rw [if_pos ha]
  unfold Path.comps
  rw [ha, Path.split_append, List.foldl_append]
  have : (Path.split cacheDir).foldl (Path.cleanStep true) [] = cacheLoc.reverse := by decide +kernel
  rw [this]; rfl

theorem resolve_cache (cwd : List Bytes) : Path.resolve cwd cacheDir = cacheLoc := by
  unfold Path.resolve
  rw [if_pos (by rfl : Path.isAbs cacheDir = true)]
  decide +kernel
theorem resolve_archive (cwd : List Bytes) : Path.resolve cwd (Path.join [cacheDir, archiveName]) = archiveLoc := by
  rw [resolve_target]; decide +kernel
theorem resolve_checksum (cwd : List Bytes) : Path.resolve cwd (Path.join [cacheDir, checksumName]) = checksumLoc := by
  rw [resolve_target]; decide +kernel
theorem resolve_binary (cwd : List Bytes) : Path.resolve cwd (Path.join [cacheDir, appName]) = binaryLoc := by
  rw [resolve_target]; decide +kernel

theorem join_binary_ne : Path.join [cacheDir, appName] ≠ [] := by decide +kernel
theorem join_checksum_ne : Path.join [cacheDir, checksumName] ≠ [] := by decide +kernel
theorem join_archive_ne : Path.join [cacheDir, archiveName] ≠ [] := by decide +kernel

/-- A name without `..` stays below the cache directory. -/
theorem target_below {name : Bytes} (h : [46, 46] ∉ Path.split name) : cacheLoc <+: target name := by
  unfold target
  generalize Path.split name = cs at h
  have : ∀ st : List Bytes, cacheLoc <+: st.reverse → cacheLoc <+: (cs.foldl (Path.cleanStep true) st).reverse := by
    induction cs with
    | nil => intro st hst; exact hst
    | cons c cs ih =>
      intro st hst
      rw [List.foldl_cons]
      refine ih (fun h0 => h (by simp [h0])) _ ?_
      unfold Path.cleanStep
      split
      · exact hst
      · rw [if_neg (by rintro rfl; exact h (by simp))]
        rw [List.reverse_cons]
        exact hst.trans (List.prefix_append _ _)
  exact this _ (by simp)

/-! ### Stages -/

/-- The stages reported in a log. -/
def stages (l : List Ev) : List Nat := l.filterMap (fun | .stage n => some n | _ => none)

theorem stages_append (a b : List Ev) : stages (a ++ b) = stages a ++ stages b := by simp [stages, List.filterMap_append]

/-- Not a report of a stage. -/
def Quietly (e : Ev) : Prop := ∀ n, e ≠ .stage n

theorem stages_of_foot {cwd : List Bytes} {P : List Bytes → Prop} {w w' : World} (hc : w.disk.cwd = cwd)
    (h : Foot cwd P Quietly w w') : stages w'.log = stages w.log := by
  obtain ⟨-, -, es, h1, h2⟩ := h hc
  rw [h1, stages_append]
  have : stages es = [] := by
    unfold stages
    rw [List.filterMap_eq_nil_iff]
    intro e he
    have := h2 e he
    cases e with
    | stage n => exact absurd rfl (this n)
    | _ => rfl
  rw [this, List.append_nil]

theorem foot_mono {cwd : List Bytes} {P P' : List Bytes → Prop} {A A' : Ev → Prop} {w w' : World}
    (hp : ∀ l, P l → P' l) (ha : ∀ e, A e → A' e) (h : Foot cwd P A w w') : Foot cwd P' A' w w' := by
  intro hc
  obtain ⟨h1, h2, es, h3, h4⟩ := h hc
  refine ⟨h1, fun l hl => h2 l (fun h0 => hl (hp l h0)), es, h3, fun e he => ?_⟩
  have := h4 e he
  cases e with
  | disk d => exact ⟨this.1, fun l hl => this.2 l (fun h0 => hl (hp l h0))⟩
  | _ => exact ha _ this

/-! ### The steps -/

theorem andThen_split {α β : Type} (m : Prog (Except Err α)) (f : α → Prog (Except Err β)) (w : World) :
    (∃ a w1, m w = (.ret (.ok a), w1) ∧ andThen m f w = f a w1) ∨
    ((∀ a, (m w).1 ≠ .ret (.ok a)) ∧ (andThen m f w).2 = (m w).2 ∧ (∀ b, (andThen m f w).1 ≠ .ret (.ok b)) ∧
      (∀ e, (m w).1 = .ret (.error e) → (andThen m f w).1 = .ret (.error e)) ∧
      ((m w).1 = .panic → (andThen m f w).1 = .panic)) := by
  rw [andThen_run]
  cases h : m w with
  | mk o w' =>
    cases o with
    | ret r =>
      cases r with
      | ok a => exact .inl ⟨a, w', rfl, rfl⟩
      | error e => exact .inr ⟨by simp, rfl, by simp, by simp, by simp⟩
    | panic => exact .inr ⟨by simp, rfl, by simp, by simp, by simp⟩
    | fatal => exact .inr ⟨by simp, rfl, by simp, by simp, by simp⟩

/-- Creating a file and writing all of it. -/
theorem createWrite_ok {S : Sys} {p data : Bytes} {c : Bool} {w w' : World}
    (h : andThen (Os.create S p) (fun f => Os.write S f data c) w = (.ret (.ok ()), w')) :
    c = true ∧ (∀ l, l ≠ Path.resolve w.disk.cwd p → w'.disk.at? l = w.disk.at? l) ∧
      ∃ x, w'.disk.at? (Path.resolve w.disk.cwd p) = some (.file data x) ∧
        (w.disk.at? (Path.resolve w.disk.cwd p) = none ∧ x = false ∨
          ∃ old, w.disk.at? (Path.resolve w.disk.cwd p) = some (.file old x)) := by
  rw [andThen_run] at h
  rcases Os.create_run S p w with ⟨h1, -⟩ | ⟨x, h1, h2, -⟩
  · rw [h1] at h; cases h
  · rw [h1] at h
    simp only at h
    generalize hw1 : Os.after w [w.disk.put (Path.resolve w.disk.cwd p) (.file [] x)] = w1 at h
    have hd1 : w1.disk = w.disk.put (Path.resolve w.disk.cwd p) (.file [] x) := by rw [← hw1]; rfl
    rcases Os.write_run S (Path.resolve w.disk.cwd p, x) data c w1 with ⟨k, h3, -⟩ | ⟨h3, h4, -⟩
    · rw [h3] at h; cases h
    · rw [h3] at h
      have h5 : w' = Os.after w1 (Os.writeStates w1.disk (Path.resolve w.disk.cwd p, x) data data.length) :=
        (congrArg Prod.snd h).symm
      have h6 : w'.disk = w1.disk.last (Os.writeStates w1.disk (Path.resolve w.disk.cwd p, x) data data.length) := by
        rw [h5]; rfl
      have h7 := Os.writeStates_last w1.disk (Path.resolve w.disk.cwd p, x) data
        (by rw [hd1, Disk.at?_put]; simp)
      refine ⟨h4, fun l hl => ?_, x, ?_, h2⟩
      · rw [h6, h7, if_neg hl, hd1, Disk.at?_put, if_neg (Ne.symm hl)]
      · rw [h6, h7, if_pos rfl]

theorem downloadFile_ok {S : Sys} {dst url : Bytes} {t : Int} {w w' : World}
    (h : downloadFile S dst url t w = (.ret (.ok ()), w')) :
    ∃ n data, S.answer n url = .body data true ∧ (∀ l, l ≠ Path.resolve w.disk.cwd dst → w'.disk.at? l = w.disk.at? l) ∧
      ∃ x, w'.disk.at? (Path.resolve w.disk.cwd dst) = some (.file data x) ∧
        (w.disk.at? (Path.resolve w.disk.cwd dst) = none → x = false) := by
  unfold downloadFile at h
  rw [bind_run, Os.httpGet_run] at h
  simp only at h
  cases ha : S.answer w.tick url with
  | failed => rw [ha] at h; cases h
  | body data c =>
    rw [ha] at h
    simp only at h
    obtain ⟨h1, h2, x, h3, h4⟩ := createWrite_ok h
    subst h1
    refine ⟨w.tick, data, ha, h2, x, h3, fun h0 => ?_⟩
    rcases h4 with h4 | ⟨old, h4⟩
    · exact h4.2
    · rw [show ({ w with tick := w.tick + 1, log := w.log ++ [.request url t] } : World).disk = w.disk from rfl] at h4
      rw [h0] at h4; cases h4

theorem foot_downloadFile (cwd : List Bytes) (P : List Bytes → Prop) (A : Ev → Prop) (S : Sys) (dst url : Bytes) (t : Int)
    (h1 : P (Path.resolve cwd dst)) (h2 : A (.request url t)) : Rel (Foot cwd P A) (downloadFile S dst url t) := by
  refine Rel.bind (foot_chain cwd P A) (foot_httpGet cwd P A S url t h2) (fun a => ?_)
  cases a with
  | failed => exact Rel.pure (foot_chain cwd P A) _
  | body d c => exact foot_createWrite cwd P A S dst d c h1

/-- The entries of an archive that end up at a location. -/
def hits (es : List TarEntry) (l : List Bytes) : List TarEntry := es.filter (fun e => e.reg && decide (target e.name = l))

theorem foot_extractEntries (cwd : List Bytes) (P : List Bytes → Prop) (A : Ev → Prop) (S : Sys) (clean : Bool)
    (es : List TarEntry) (h : ∀ e ∈ es, e.reg = true → P (target e.name)) :
    Rel (Foot cwd P A) (extractEntries S cacheDir clean es) := by
  induction es with
  | nil => exact Rel.pure (foot_chain cwd P A) _
  | cons e r ih =>
    unfold extractEntries
    have ih' := ih (fun x hx => h x (by simp [hx]))
    split
    · rename_i hr
      exact Rel.andThen (foot_chain cwd P A)
        (foot_createWrite cwd P A S _ _ _ (by rw [resolve_target]; exact h e (by simp) hr)) (fun _ => ih')
    · exact ih'

theorem extractEntries_ok {S : Sys} {clean : Bool} {es : List TarEntry} {w w' : World}
    (h : extractEntries S cacheDir clean es w = (.ret (.ok ()), w')) :
    clean = true ∧ (∀ e ∈ es, e.reg = true → e.whole = true) ∧
    ∀ l, match (hits es l).getLast? with
      | none => w'.disk.at? l = w.disk.at? l
      | some e => ∃ x, w'.disk.at? l = some (.file e.data x) ∧
          (w.disk.at? l = none ∧ x = false ∨ ∃ old, w.disk.at? l = some (.file old x)) := by
  induction es generalizing w with
  | nil =>
    unfold extractEntries at h
    cases clean with
    | true =>
      have := congrArg Prod.snd h
      simp only [Prog.pure] at this
      subst this
      exact ⟨rfl, by simp, fun l => rfl⟩
    | false => cases congrArg Prod.fst h
  | cons e r ih =>
    unfold extractEntries at h
    by_cases hr : e.reg = true
    · rw [if_pos hr] at h
      rcases andThen_split (andThen (Os.create S (Path.join [cacheDir, e.name])) fun f => Os.write S f e.data e.whole)
        (fun _ => extractEntries S cacheDir clean r) w with ⟨⟨⟩, w1, h1, h2⟩ | ⟨-, -, h2, -⟩
      · rw [h2] at h
        obtain ⟨i1, i2, i3⟩ := ih h
        obtain ⟨c1, c2, x, c3, c4⟩ := createWrite_ok h1
        rw [resolve_target] at c2 c3 c4
        refine ⟨i1, fun e' he' hr' => ?_, fun l => ?_⟩
        · rcases List.mem_cons.1 he' with rfl | he'
          · exact c1
          · exact i2 e' he' hr'
        · have i4 := i3 l
          unfold hits at i4 ⊢
          by_cases hl : target e.name = l
          · subst hl
            rw [List.filter_cons_of_pos (by simp [hr])]
            cases hg : (r.filter (fun e' => e'.reg && decide (target e'.name = target e.name))).getLast? with
            | none =>
              rw [hg] at i4
              have h0 := List.getLast?_eq_none_iff.1 hg
              rw [h0]
              simp only [List.getLast?_singleton]
              exact ⟨x, i4.trans c3, c4⟩
            | some e2 =>
              rw [hg] at i4
              have : (e :: r.filter (fun e' => e'.reg && decide (target e'.name = target e.name))).getLast? = some e2 := by
                cases hc : r.filter (fun e' => e'.reg && decide (target e'.name = target e.name)) with
                | nil => rw [hc] at hg; cases hg
                | cons a b => rw [hc] at hg; rw [List.getLast?_cons_cons]; exact hg
              rw [this]
              obtain ⟨y, y1, y2⟩ := i4
              rw [c3] at y2
              rcases y2 with ⟨y2, -⟩ | ⟨old, y2⟩
              · cases y2
              · obtain ⟨-, rfl⟩ := Node.file.inj (Option.some.inj y2)
                exact ⟨x, y1, c4⟩
          · rw [List.filter_cons_of_neg (by simp [hl])]
            rw [c2 l (Ne.symm hl)] at i4
            exact i4
      · exact absurd (congrArg Prod.fst h) (h2 ())
    · rw [if_neg hr] at h
      obtain ⟨i1, i2, i3⟩ := ih h
      refine ⟨i1, fun e' he' hr' => ?_, fun l => ?_⟩
      · rcases List.mem_cons.1 he' with rfl | he'
        · exact absurd hr' hr
        · exact i2 e' he' hr'
      · have := i3 l
        unfold hits at this ⊢
        rw [List.filter_cons_of_neg (by simp [hr])]
        exact this

/-! ### Installing -/

/-- Anything an update is made of. -/
theorem rel_fetchInfo {R : World → World → Prop} (hR : Chain R) (S : Sys) (t : Int)
    (h : Rel R (Os.httpGet S githubReleases t)) : Rel R (fetchInfo S t) := by
  refine Rel.bind hR h (fun a => ?_)
  cases a with
  | failed => exact Rel.pure hR _
  | body d c =>
    cases c
    · exact Rel.pure hR _
    · exact Rel.lift hR _

theorem rel_downloadFile {R : World → World → Prop} (hR : Chain R) (S : Sys) (dst url : Bytes) (t : Int)
    (h1 : Rel R (Os.httpGet S url t)) (h2 : ∀ d c, Rel R (andThen (Os.create S dst) fun f => Os.write S f d c)) :
    Rel R (downloadFile S dst url t) := by
  refine Rel.bind hR h1 (fun a => ?_)
  cases a with
  | failed => exact Rel.pure hR _
  | body d c => exact h2 d c

theorem rel_extract {R : World → World → Prop} (hR : Chain R) (S : Sys) (X : Ext) (src dst : Bytes)
    (h1 : Rel R (Os.readFile S src))
    (h2 : ∀ n d c, Rel R (andThen (Os.create S (Path.join [dst, n])) fun f => Os.write S f d c)) :
    Rel R (extractArchive S X src dst) := by
  refine Rel.andThen hR h1 (fun data => ?_)
  generalize (X.untar data).1 = es
  induction es with
  | nil => exact Rel.pure hR _
  | cons e r ih =>
    unfold extractEntries
    split
    · exact Rel.andThen hR (h2 _ _ _) (fun _ => ih)
    · exact ih

theorem rel_validate {R : World → World → Prop} (hR : Chain R) (S : Sys) (X : Ext) (binary file : Bytes)
    (h : ∀ p, Rel R (Os.readFile S p)) : Rel R (validateChecksum S X binary file) := by
  refine Rel.andThen hR (h _) (fun c => ?_)
  refine Rel.andThen hR (h _) (fun d => ?_)
  show Rel R (match Str.fields (Str.trimSpace c) with | [] => Prog.panic | c :: _ => _)
  split
  · exact Rel.lift hR _
  · exact Rel.pure hR _

/-- Everything an update can touch before the program is replaced: the cache, the way to it, and wherever entries of
an archive the server may send go. -/
def Touched (S : Sys) (X : Ext) (info : UpdateInfo) (l : List Bytes) : Prop :=
  cacheLoc <+: l ∨ l <+: cacheLoc ∨
    ∃ n a e, S.answer n info.archiveUrl = .body a true ∧ e ∈ (X.untar a).1 ∧ e.reg = true ∧ target e.name = l

/-- `data` is what a completely received archive has for the program, and its MD5 is the first word of the checksum
file – the one received, or the one in the archive. -/
def Verified (S : Sys) (X : Ext) (info : UpdateInfo) (data : Bytes) : Prop :=
  ∃ n archive m sums entry rest, S.answer n info.archiveUrl = .body archive true ∧
    S.answer m info.checksumUrl = .body sums true ∧ (X.untar archive).2 = true ∧
    (hits (X.untar archive).1 binaryLoc).getLast? = some entry ∧ entry.data = data ∧ entry.whole = true ∧
    Str.fields (Str.trimSpace (((hits (X.untar archive).1 checksumLoc).getLast?.map (·.data)).getD sums)) =
      hex (X.md5 data) :: rest

/-- The first `k` stages were reported, and only what may be was touched. -/
def Upto (S : Sys) (X : Ext) (info : UpdateInfo) (k : Nat) (w w' : World) : Prop :=
  Foot w.disk.cwd (Touched S X info) (fun _ => True) w w' ∧ stages w'.log = stages w.log ++ List.range' 1 k ∧ Coh w w'

theorem Upto.step {S : Sys} {X : Ext} {info : UpdateInfo} {k : Nat} {w w1 w2 : World} (h : Upto S X info k w w1)
    (h2 : Foot w.disk.cwd (Touched S X info) Quietly w1 w2 ∧ Coh w1 w2) : Upto S X info k w w2 :=
  ⟨(foot_chain _ _ _).trans _ _ _ h.1 (foot_mono (fun _ h => h) (fun _ _ => trivial) h2.1),
    (stages_of_foot (h.1 rfl).1 h2.1).trans h.2.1, coh_chain.trans _ _ _ h.2.2 h2.2⟩

theorem Upto.emit {S : Sys} {X : Ext} {info : UpdateInfo} {k : Nat} {w w1 : World} (h : Upto S X info k w w1) :
    Upto S X info (k + 1) w { w1 with log := w1.log ++ [.stage (k + 1)] } := by
  refine ⟨(foot_chain _ _ _).trans _ _ _ h.1 (foot_emit (e := .stage (k + 1)) _ _ _ (by simp) trivial w1), ?_,
    coh_chain.trans _ _ _ h.2.2 (coh_emit (by simp) w1)⟩
  show stages (w1.log ++ [.stage (k + 1)]) = _
  rw [stages_append, h.2.1, List.range'_1_concat, List.append_assoc, Nat.add_comm 1 k]
  rfl

theorem Upto.cwd {S : Sys} {X : Ext} {info : UpdateInfo} {k : Nat} {w w1 : World} (h : Upto S X info k w w1) :
    w1.disk.cwd = w.disk.cwd := (h.1 rfl).1

/-- What is at most true of an update: where it stopped, and what it has done. -/
structure Installed (S : Sys) (X : Ext) (info : UpdateInfo) (w : World) (o : Out (Except Err Unit)) (w' : World)
    (e data : Bytes) (w1 : World) (w2 : World) : Prop where
  exe : S.exe = some e
  verified : Verified S X info data
  before : Upto S X info 6 w w1
  binary : w1.disk.at? binaryLoc = some (.file data false)
  disk : w2.disk = (w1.disk.del binaryLoc).put (Path.resolve w.disk.cwd e) (.file data false)
  log : w2.log = w1.log ++ [.disk w2.disk, .stage 7]
  after : Foot w.disk.cwd (fun l => cacheLoc <+: l) Quietly w2 w'
  clean : o = .ret (.ok ()) → ∀ l, cacheLoc <+: l → w'.disk.at? l = none
  out : (o = .ret (.ok ())) ∨ ∃ err, o = .ret (.error err)
  device : S.device binaryLoc = S.device (Path.resolve w.disk.cwd e)

theorem emit_bind {β : Type} (e : Ev) (f : Unit → Prog β) (w : World) :
    (Prog.emit e >>= f) w = f () { w with log := w.log ++ [e] } := rfl

/-- An installation up to the check of the checksum, and something else after that. -/
def installWith (S : Sys) (X : Ext) (t : Int) (cb : Nat → Ev) (info : UpdateInfo) (rest : Prog (Except Err Unit)) : Prog (Except Err Unit) := do
  emit (cb 1)
  andThen (Os.removeAll S cacheDir) fun _ =>
    andThen (Os.mkdirAll S cacheDir) fun _ => do
      emit (cb 2)
      andThen (downloadFile S (Path.join [cacheDir, archiveName]) info.archiveUrl t) fun _ => do
        emit (cb 3)
        andThen (downloadFile S (Path.join [cacheDir, checksumName]) info.checksumUrl t) fun _ => do
          emit (cb 4)
          andThen (extractArchive S X (Path.join [cacheDir, archiveName]) cacheDir) fun _ => do
            emit (cb 5)
            andThen (validateChecksum S X (Path.join [cacheDir, appName]) (Path.join [cacheDir, checksumName])) fun _ => rest

/-- What an installation does after the check. -/
def replacing (S : Sys) (cb : Nat → Ev) : Prog (Except Err Unit) := do
  emit (cb 6)
  andThen (replaceBinary S (Path.join [cacheDir, appName])) fun _ => do
    emit (cb 7)
    Os.removeAll S cacheDir

theorem install_with (S : Sys) (X : Ext) (t : Int) (cb : Nat → Ev) (info : UpdateInfo) :
    install S X t cb info = installWith S X t cb info (replacing S cb) := rfl

theorem installWith_trace (S : Sys) (X : Ext) (t : Int) (info : UpdateInfo) (rest : Prog (Except Err Unit)) (w : World) :
    (∃ k, 1 ≤ k ∧ k ≤ 5 ∧ Upto S X info k w (installWith S X t .stage info rest w).2 ∧
      ∀ a, (installWith S X t .stage info rest w).1 ≠ .ret (.ok a)) ∨
    ∃ data w1, Verified S X info data ∧ Upto S X info 5 w w1 ∧ w1.disk.at? binaryLoc = some (.file data false) ∧
      installWith S X t .stage info rest w = rest w1 := by
  have stop : ∀ {k : Nat} {o : Out (Except Err Unit)} {v w1 w2 : World} , 1 ≤ k → k ≤ 5 → Upto S X info k w w1 →
      Foot w.disk.cwd (Touched S X info) Quietly w1 w2 ∧ Coh w1 w2 → v = w2 → (∀ a, o ≠ .ret (.ok a)) →
      (∃ k, 1 ≤ k ∧ k ≤ 5 ∧ Upto S X info k w v ∧ ∀ a, o ≠ .ret (.ok a)) ∨
      ∃ data w1, Verified S X info data ∧ Upto S X info 5 w w1 ∧ w1.disk.at? binaryLoc = some (.file data false) ∧
        (o, v) = rest w1 := by
    intro k o v w1 w2 h1 h2 h3 h4 h5 h6
    subst h5
    exact .inl ⟨k, h1, h2, h3.step h4, h6⟩
  have u0 : Upto S X info 0 w w := ⟨(foot_chain _ _ _).refl w, by simp, coh_chain.refl w⟩
  unfold installWith
  rw [emit_bind]
  have u1 := u0.emit
  generalize { w with log := w.log ++ [Ev.stage (0 + 1)] } = a1 at u1 ⊢
  -- stage 1: removing the cache
  have f1 := And.intro (foot_removeAll w.disk.cwd (Touched S X info) Quietly S cacheDir
    (fun l hl => .inl (by rwa [resolve_cache] at hl)) a1) (coh_removeAll S cacheDir a1)
  rcases andThen_split (Os.removeAll S cacheDir) _ a1 with ⟨⟨⟩, a2, e1, e2⟩ | ⟨-, e1, e2, -⟩
  swap; · exact stop (by omega) (by omega) u1 f1 e1 e2
  rw [e2]; clear e2
  rw [e1] at f1
  have gone : ∀ l, cacheLoc <+: l → a2.disk.at? l = none := by
    obtain ⟨r, ls, h1, -, h3⟩ := Os.removeAll_run S cacheDir a1
    rw [h1] at e1
    have hr := congrArg Prod.fst e1
    have hd := congrArg Prod.snd e1
    rw [resolve_cache] at h3
    intro l hl
    have := h3 (by cases r <;> simp_all) l hl
    rw [show a2 = _ from hd.symm]; exact this
  replace u1 := u1.step f1
  clear f1 e1 a1
  -- making it
  have f2 := And.intro (foot_mkdirAll w.disk.cwd (Touched S X info) Quietly S cacheDir
    (fun l hl _ => .inr (.inl (by rwa [resolve_cache] at hl))) a2) (coh_mkdirAll S cacheDir a2)
  rcases andThen_split (Os.mkdirAll S cacheDir) _ a2 with ⟨⟨⟩, a3, e1, e2⟩ | ⟨-, e1, e2, -⟩
  swap; · exact stop (by omega) (by omega) u1 f2 e1 e2
  rw [e2]; clear e2
  rw [e1] at f2
  have fresh : ∀ l, cacheLoc <+: l → l ≠ cacheLoc → a3.disk.at? l = none := by
    intro l hl hne
    have := (foot_mkdirAll w.disk.cwd (fun l => l <+: cacheLoc) Quietly S cacheDir
      (fun l hl _ => by rwa [resolve_cache] at hl) a2 u1.cwd).2.1 l
      (fun h0 => hne (h0.eq_of_length (Nat.le_antisymm h0.length_le hl.length_le)))
    rw [e1] at this
    rw [this]; exact gone l hl
  replace u1 := u1.step f2
  clear f2 e1 gone a2
  rw [emit_bind]
  have u2 := u1.emit
  replace fresh : ∀ l, cacheLoc <+: l → l ≠ cacheLoc → ({ a3 with log := a3.log ++ [Ev.stage (1 + 1)] } : World).disk.at? l = none := fresh
  generalize { a3 with log := a3.log ++ [Ev.stage (1 + 1)] } = a4 at u2 fresh ⊢
  clear u1 a3
  -- stage 2: the archive
  have f3 := And.intro (foot_downloadFile w.disk.cwd (Touched S X info) Quietly S (Path.join [cacheDir, archiveName]) info.archiveUrl t
    (by rw [resolve_archive]; exact .inl ⟨[b!"1pass.tar.gz"], rfl⟩) (by intro n; simp) a4)
    (rel_downloadFile coh_chain S _ _ t (coh_httpGet S info.archiveUrl t) (fun d c => coh_createWrite S (Path.join [cacheDir, archiveName]) d c) a4)
  rcases andThen_split (downloadFile S (Path.join [cacheDir, archiveName]) info.archiveUrl t) _ a4 with
    ⟨⟨⟩, a5, e1, e2⟩ | ⟨-, e1, e2, -⟩
  swap; · exact stop (by omega) (by omega) u2 f3 e1 e2
  rw [e2]; clear e2
  rw [e1] at f3
  obtain ⟨n, archive, hn, k3, x3, k4, -⟩ := downloadFile_ok e1
  rw [resolve_archive] at k3 k4
  replace u2 := u2.step f3
  replace fresh : ∀ l, cacheLoc <+: l → l ≠ cacheLoc → l ≠ archiveLoc → a5.disk.at? l = none :=
    fun l h1 h2 h3 => (k3 l h3).trans (fresh l h1 h2)
  clear f3 e1 k3 a4
  rw [emit_bind]
  have u3 := u2.emit
  replace fresh : ∀ l, cacheLoc <+: l → l ≠ cacheLoc → l ≠ archiveLoc →
    ({ a5 with log := a5.log ++ [Ev.stage (2 + 1)] } : World).disk.at? l = none := fresh
  replace k4 : ({ a5 with log := a5.log ++ [Ev.stage (2 + 1)] } : World).disk.at? archiveLoc = some (.file archive x3) := k4
  generalize { a5 with log := a5.log ++ [Ev.stage (2 + 1)] } = a6 at u3 fresh k4 ⊢
  clear u2 a5
  -- stage 3: the checksum
  have f4 := And.intro (foot_downloadFile w.disk.cwd (Touched S X info) Quietly S (Path.join [cacheDir, checksumName]) info.checksumUrl t
    (by rw [resolve_checksum]; exact .inl ⟨[b!"checksum.md5"], rfl⟩) (by intro n; simp) a6)
    (rel_downloadFile coh_chain S _ _ t (coh_httpGet S info.checksumUrl t) (fun d c => coh_createWrite S (Path.join [cacheDir, checksumName]) d c) a6)
  rcases andThen_split (downloadFile S (Path.join [cacheDir, checksumName]) info.checksumUrl t) _ a6 with
    ⟨⟨⟩, a7, e1, e2⟩ | ⟨-, e1, e2, -⟩
  swap; · exact stop (by omega) (by omega) u3 f4 e1 e2
  rw [e2]; clear e2
  rw [e1] at f4
  obtain ⟨m, sums, hm, k5, x5, k6, -⟩ := downloadFile_ok e1
  rw [resolve_checksum] at k5 k6
  replace u3 := u3.step f4
  have k7 : a7.disk.at? binaryLoc = none := (k5 _ (by decide +kernel)).trans
    (fresh _ ⟨[b!"1pass"], rfl⟩ (by decide +kernel) (by decide +kernel))
  replace k4 : a7.disk.at? archiveLoc = some (.file archive x3) := (k5 _ (by decide +kernel)).trans k4
  clear f4 e1 k5 fresh a6
  rw [emit_bind]
  have u4 := u3.emit
  replace k7 : ({ a7 with log := a7.log ++ [Ev.stage (3 + 1)] } : World).disk.at? binaryLoc = none := k7
  replace k6 : ({ a7 with log := a7.log ++ [Ev.stage (3 + 1)] } : World).disk.at? checksumLoc = some (.file sums x5) := k6
  replace k4 : ({ a7 with log := a7.log ++ [Ev.stage (3 + 1)] } : World).disk.at? archiveLoc = some (.file archive x3) := k4
  generalize { a7 with log := a7.log ++ [Ev.stage (3 + 1)] } = a8 at u4 k4 k6 k7 ⊢
  clear u3 a7
  -- stage 4: unpacking
  have f5 : Foot w.disk.cwd (Touched S X info) Quietly a8
      (extractArchive S X (Path.join [cacheDir, archiveName]) cacheDir a8).2 ∧
      Coh a8 (extractArchive S X (Path.join [cacheDir, archiveName]) cacheDir a8).2 := by
    refine ⟨?_, rel_extract coh_chain S X _ _ (coh_readFile S _) (fun n d c => coh_createWrite S _ d c) a8⟩
    unfold extractArchive
    rw [andThen_run, Os.readFile_run]
    have : a8.disk.readFile (Path.join [cacheDir, archiveName]) = some archive := by
      unfold Disk.readFile Disk.stat
      rw [if_neg join_archive_ne, resolve_archive, k4]
    rw [this]
    by_cases hf : S.fault a8.tick = none
    · simp only [hf, if_true]
      refine (foot_chain _ _ _).trans _ _ _ (foot_tick _ _ _ a8 1) (foot_extractEntries _ _ _ S _ _ (fun e he hr => ?_) _)
      exact .inr (.inr ⟨n, archive, e, hn, he, hr, rfl⟩)
    · simp only [hf, if_false]
      exact foot_tick _ _ _ a8 1
  rcases andThen_split (extractArchive S X (Path.join [cacheDir, archiveName]) cacheDir) _ a8 with
    ⟨⟨⟩, a9, e1, e2⟩ | ⟨-, e1, e2, -⟩
  swap; · exact stop (by omega) (by omega) u4 f5 e1 e2
  rw [e2]; clear e2
  rw [e1] at f5
  replace u4 := u4.step f5
  obtain ⟨hclean, hwhole, hat⟩ : (X.untar archive).2 = true ∧
      (∀ e ∈ (X.untar archive).1, e.reg = true → e.whole = true) ∧
      ∀ l, match (hits (X.untar archive).1 l).getLast? with
      | none => a9.disk.at? l = a8.disk.at? l
      | some e => ∃ x, a9.disk.at? l = some (.file e.data x) ∧
          (a8.disk.at? l = none ∧ x = false ∨ ∃ old, a8.disk.at? l = some (.file old x)) := by
    unfold extractArchive at e1
    rw [andThen_run, Os.readFile_run] at e1
    have : a8.disk.readFile (Path.join [cacheDir, archiveName]) = some archive := by
      unfold Disk.readFile Disk.stat
      rw [if_neg join_archive_ne, resolve_archive, k4]
    rw [this] at e1
    by_cases hf : S.fault a8.tick = none
    · simp only [hf, if_true] at e1
      have := extractEntries_ok e1
      exact this
    · simp only [hf, if_false] at e1
      cases e1
  clear f5 e1
  have hsum : ∃ x, a9.disk.at? checksumLoc =
      some (.file (((hits (X.untar archive).1 checksumLoc).getLast?.map (·.data)).getD sums) x) := by
    have := hat checksumLoc
    split at this
    · rename_i h0; rw [h0]; exact ⟨x5, this.trans k6⟩
    · rename_i e h0; rw [h0]; obtain ⟨x, h1, -⟩ := this; exact ⟨x, h1⟩
  have hbin : (a9.disk.at? binaryLoc = none) ∨ ∃ e, (hits (X.untar archive).1 binaryLoc).getLast? = some e ∧
      a9.disk.at? binaryLoc = some (.file e.data false) := by
    have := hat binaryLoc
    split at this
    · exact .inl (this.trans k7)
    · rename_i e h0
      obtain ⟨x, h1, h2⟩ := this
      rw [k7] at h2
      rcases h2 with ⟨-, rfl⟩ | ⟨old, h2⟩
      · exact .inr ⟨e, h0, h1⟩
      · cases h2
  obtain ⟨xs, hsum⟩ := hsum
  clear hat k4 k6 k7 a8
  rw [emit_bind]
  have u5 := u4.emit
  replace hsum : ({ a9 with log := a9.log ++ [Ev.stage (4 + 1)] } : World).disk.at? checksumLoc = _ := hsum
  replace hbin : ({ a9 with log := a9.log ++ [Ev.stage (4 + 1)] } : World).disk.at? binaryLoc = none ∨ ∃ e,
      (hits (X.untar archive).1 binaryLoc).getLast? = some e ∧
      ({ a9 with log := a9.log ++ [Ev.stage (4 + 1)] } : World).disk.at? binaryLoc = some (.file e.data false) := hbin
  generalize { a9 with log := a9.log ++ [Ev.stage (4 + 1)] } = b0 at u5 hsum hbin ⊢
  clear u4 a9
  -- stage 5: the check
  have f6 : Rel (Foot w.disk.cwd (Touched S X info) Quietly)
      (validateChecksum S X (Path.join [cacheDir, appName]) (Path.join [cacheDir, checksumName])) := by
    refine Rel.andThen (foot_chain _ _ _) (foot_readFile _ _ _ S _) (fun c => ?_)
    refine Rel.andThen (foot_chain _ _ _) (foot_readFile _ _ _ S _) (fun d => ?_)
    show Rel _ (match Str.fields (Str.trimSpace c) with | [] => Prog.panic | c :: _ => _)
    split
    · exact Rel.lift (foot_chain _ _ _) _
    · exact Rel.pure (foot_chain _ _ _) _
  replace f6 := And.intro (f6 b0) (rel_validate coh_chain S X (Path.join [cacheDir, appName]) (Path.join [cacheDir, checksumName])
    (coh_readFile S) b0)
  rcases andThen_split (validateChecksum S X (Path.join [cacheDir, appName]) (Path.join [cacheDir, checksumName])) _ b0 with
    ⟨⟨⟩, b1, e1, e2⟩ | ⟨-, e1, e2, -⟩
  swap; · exact stop (by omega) (by omega) u5 f6 e1 e2
  rw [e2]; clear e2
  rw [e1] at f6
  replace u5 := u5.step f6
  have hver : ∃ data, Verified S X info data ∧ b1.disk.at? binaryLoc = some (.file data false) := by
    unfold validateChecksum at e1
    rw [andThen_run, Os.readFile_run] at e1
    have hr1 : b0.disk.readFile (Path.join [cacheDir, checksumName]) =
        some (((hits (X.untar archive).1 checksumLoc).getLast?.map (·.data)).getD sums) := by
      unfold Disk.readFile Disk.stat
      rw [if_neg join_checksum_ne, resolve_checksum, hsum]
    rw [hr1] at e1
    by_cases hf : S.fault b0.tick = none
    swap; · simp only [hf, if_false] at e1; cases e1
    simp only [hf, if_true] at e1
    rw [andThen_run, Os.readFile_run] at e1
    simp only at e1
    by_cases hf : S.fault (b0.tick + 1) = none
    swap; · simp only [hf, if_false] at e1; cases e1
    simp only [hf, if_true] at e1
    rcases hbin with hbin | ⟨e, he1, he2⟩
    · have hr2 : b0.disk.readFile (Path.join [cacheDir, appName]) = none := by
        unfold Disk.readFile Disk.stat
        rw [if_neg join_binary_ne, resolve_binary, hbin]
      rw [hr2] at e1; cases e1
    · have hr2 : b0.disk.readFile (Path.join [cacheDir, appName]) = some e.data := by
        unfold Disk.readFile Disk.stat
        rw [if_neg join_binary_ne, resolve_binary, he2]
      rw [hr2] at e1
      simp only at e1
      cases hc : Str.fields (Str.trimSpace (((hits (X.untar archive).1 checksumLoc).getLast?.map (·.data)).getD sums)) with
      | nil => rw [hc] at e1; cases e1
      | cons c r =>
        rw [hc] at e1
        simp only at e1
        by_cases hne : c ≠ hex (X.md5 e.data)
        · rw [if_pos hne] at e1; cases e1
        · rw [if_neg hne] at e1
          rw [not_not] at hne
          subst hne
          have hmem := List.mem_of_getLast? he1
          unfold hits at hmem
          rw [List.mem_filter] at hmem
          refine ⟨e.data, ⟨n, archive, m, sums, e, r, hn, hm, hclean, he1, rfl, hwhole e hmem.1 (by simp_all), hc⟩, ?_⟩
          have := congrArg Prod.snd e1
          simp only [Prog.pure] at this
          rw [← this]; exact he2
  obtain ⟨data, hver, hb⟩ := hver
  exact .inr ⟨data, b1, hver, u5, hb, rfl⟩

theorem install_trace (S : Sys) (X : Ext) (t : Int) (info : UpdateInfo) (w : World) :
    (∃ k, 1 ≤ k ∧ k ≤ 6 ∧ Upto S X info k w (install S X t .stage info w).2 ∧
      ∀ a, (install S X t .stage info w).1 ≠ .ret (.ok a)) ∨
    ∃ e data w1 w2, Installed S X info w (install S X t .stage info w).1 (install S X t .stage info w).2 e data w1 w2 := by
  have stop : ∀ {k : Nat} {o : Out (Except Err Unit)} {v w1 w2 : World} , 1 ≤ k → k ≤ 6 → Upto S X info k w w1 →
      Foot w.disk.cwd (Touched S X info) Quietly w1 w2 ∧ Coh w1 w2 → v = w2 → (∀ a, o ≠ .ret (.ok a)) →
      (∃ k, 1 ≤ k ∧ k ≤ 6 ∧ Upto S X info k w v ∧ ∀ a, o ≠ .ret (.ok a)) ∨
      ∃ e data w1 w2, Installed S X info w o v e data w1 w2 := by
    intro k o v w1 w2 h1 h2 h3 h4 h5 h6
    subst h5
    exact .inl ⟨k, h1, h2, h3.step h4, h6⟩
  rw [install_with]
  rcases installWith_trace S X t info (replacing S .stage) w with ⟨k, h1, h2, h3⟩ | ⟨data, b1, hver, u5, hb, e1⟩
  · exact .inl ⟨k, h1, by omega, h3⟩
  rw [e1]
  clear e1
  unfold replacing
  rw [emit_bind]
  have u6 := u5.emit
  replace hb : ({ b1 with log := b1.log ++ [Ev.stage (5 + 1)] } : World).disk.at? binaryLoc = some (.file data false) := hb
  generalize { b1 with log := b1.log ++ [Ev.stage (5 + 1)] } = b2 at u6 hb ⊢
  clear u5 b1
  -- stage 6: the replacement
  unfold replaceBinary
  cases hexe : S.exe with
  | none => exact stop (by omega) (by omega) u6 ⟨(foot_chain _ _ _).refl b2, coh_chain.refl b2⟩ rfl (by intro a h; cases h)
  | some e =>
    simp only
    rcases Os.rename_run S (Path.join [cacheDir, appName]) e b2 with h1 | ⟨data', x, h1, h2, -, h3, h4⟩
    · rw [andThen_run, h1]
      refine stop (by omega) (by omega) u6 ⟨foot_after _ _ _ 1 (ds := []) (by simp), coh_after b2 []⟩ rfl (by intro a h; cases h)
    · have hst : b2.disk.stat (Path.join [cacheDir, appName]) = some (.file data false) := by
        unfold Disk.stat
        rw [if_neg join_binary_ne, resolve_binary, hb]
      rw [hst] at h1
      obtain ⟨rfl, rfl⟩ := Node.file.inj (Option.some.inj h1)
      rw [andThen_run, h2, resolve_binary]
      simp only
      rw [emit_bind]
      have hcwd := u6.cwd
      rw [hcwd]
      generalize hb3 : ({ Os.after b2 [(b2.disk.del binaryLoc).put (Path.resolve w.disk.cwd e) (.file data false)] with
        log := (Os.after b2 [(b2.disk.del binaryLoc).put (Path.resolve w.disk.cwd e) (.file data false)]).log ++ [.stage 7] } : World) = b3
      have hd : b3.disk = (b2.disk.del binaryLoc).put (Path.resolve w.disk.cwd e) (.file data false) := by rw [← hb3]; rfl
      have hl : b3.log = b2.log ++ [.disk b3.disk, .stage 7] := by rw [hd, ← hb3]; simp [Os.after]
      refine .inr ⟨e, data, b2, b3, hexe, hver, u6, hb, hd, hl, ?_, ?_, ?_, by rw [← resolve_binary b2.disk.cwd, ← hcwd]; exact h4⟩
      · exact foot_removeAll _ _ _ S cacheDir (fun l hl => by rwa [resolve_cache] at hl) b3
      · obtain ⟨r, ls, r1, -, r3⟩ := Os.removeAll_run S cacheDir b3
        rw [r1]
        intro hr l hl
        rw [resolve_cache] at r3
        exact r3 (by cases r <;> simp_all) l hl
      · obtain ⟨r, ls, r1, -⟩ := Os.removeAll_run S cacheDir b3
        rw [r1]
        cases r with
        | ok u => exact .inl rfl
        | error err => exact .inr ⟨err, rfl⟩

end Upd
end OnePass
