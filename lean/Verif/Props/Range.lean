/-
C109: numbers beyond the range of float64.
-/
import Verif.Go.NumberFacts
import Verif.Props.Damaged
import Verif.Props.Release

namespace OnePass
open Json Spec Session ItemSvc

/-- C109, which numbers: every literal stands for exactly one number, and is refused iff that number is at least
2^1024 − 2^970 in absolute value – the numbers from there on are nearer to 2^1024 than to the largest float64. -/
theorem C109_range (t : Bytes) (h : NumR t) :
    ∃ q, NumVal t q ∧ (∀ q', NumVal t q' → q' = q) ∧ (Num.tooBig t = true ↔ (2 : ℚ) ^ 1024 - 2 ^ 970 ≤ |q|) := by
  obtain ⟨q, hq⟩ := Num.numVal_exists h
  exact ⟨q, hq, fun q' h' => (Num.litParts_val h').trans (Num.litParts_val hq).symm, Num.tooBig_val hq⟩

example : Num.tooBig b!"1e308" = false ∧ Num.tooBig b!"-1.8E+308" = true ∧ Num.tooBig b!"0e999" = false ∧
    Num.tooBig b!"1797693134862315807e290" = false ∧ Num.tooBig b!"0.00017976931348623159e312" = true ∧
    Num.tooBig (b!"1" ++ List.replicate 309 48 ++ b!"e-2") = false := by decide +kernel

/-- C109, the profile: one number out of range anywhere in it, and the program ends with a message. -/
theorem C109_profile (d : Disk) (v pre body : Bytes) (last : UInt8) (x : Bool) (hv : v ≠ [])
    (hd : d.at? (Path.resolve d.cwd v) = some .dir)
    (hc : d.at? (Path.resolve d.cwd v ++ [b!"default", b!"profile.js"]) = some (.file (pre ++ body ++ [last]) x))
    (hl : pre.length = 12) (j : Json) (hj : DocR body j) (hf : finite j = false) (s : Session) (hs : s.profile = none) :
    s.validate d v = .fatal := by
  refine ((C103_profile_partial d v _ x hv hd hc s hs).2 pre body last rfl hl).2.2 (fun m hm => ?_) (fun hm => ?_)
  · have := (parse_complete hm.1).symm.trans (parse_complete hj)
    cases this
    rw [hm.2] at hf
    cases hf
  · have := (parse_complete hm).symm.trans (parse_complete hj)
    cases this
    cases hf

/-- C109, the bands: one number out of range anywhere in one of them, and the program ends with a message when the items are
loaded. -/
theorem C109_bands (E : Env) (O : MapOrder) (d : Disk) (v : Bytes) (dir names : List Bytes) (hv : VaultDir d v dir)
    (hn : BandNames d dir names) (ms : List Members)
    (hb : List.Forall₂ (fun n m => ∃ pre w t post x, d.at? (dir ++ [n]) = some (.file (pre ++ w ++ t ++ post) x) ∧
      pre.length = 4 ∧ post.length = 3 ∧ WS w ∧ MemsR 9999 t m) names ms)
    (hf : ∃ m ∈ ms, finiteM m = false) : Repo.loadItems E O d v = .fatal := by
  have : ∃ bodies, List.Forall₂ (fun n b => ∃ pre post x, d.at? (dir ++ [n]) = some (.file (pre ++ b ++ post) x) ∧
      pre.length = 4 ∧ post.length = 3) names bodies ∧ List.Forall₂ Body bodies ms := by
    clear hn hf
    induction hb with
    | nil => exact ⟨[], .nil, .nil⟩
    | cons h1 _ ih =>
      obtain ⟨bodies, h2, h3⟩ := ih
      obtain ⟨pre, w, t, post, x, h4, h5, h6, h7, h8⟩ := h1
      exact ⟨(w ++ t) :: bodies, .cons ⟨pre, post, x, by rw [h4]; simp, h5, h6⟩ h2, .cons ⟨w, t, rfl, h7, h8⟩ h3⟩
  obtain ⟨bodies, h1, h2⟩ := this
  obtain ⟨m, hm, hfm⟩ := hf
  have hne : names ≠ [] := by
    rintro rfl
    cases hb
    cases hm
  have hbe : bodies ≠ [] := by
    rintro rfl
    cases h2
    cases hm
  refine ((C103_bands_partial E O d v dir names hv hn).2 bodies hne h1).1 (fun m' hm' => ?_)
  have hdoc := bandDoc_doc h2 hbe
  rw [bandDoc_eq _ hbe] at hdoc
  have := (parse_complete hm'.1).symm.trans (parse_complete hdoc)
  cases this
  have h3 := hm'.2
  rw [finite, finiteM_flatten] at h3
  rw [h3 m hm] at hfm
  cases hfm

/-- C109, the release server: an answer with a number out of range gives an error, and nothing is installed. -/
theorem C109_release (S : Sys) (X : Ext) (t : Int) (cb : Nat → Ev) (w : World) (body : Bytes)
    (ha : S.answer w.tick Upd.githubReleases = .body body true) (j : Json) (hj : DocR body j) (hf : finite j = false) :
    ∃ e, (Upd.update S X t cb w).1 = .ret (.error e) := by
  refine Upd.C47_error_partial S X t cb w (.inr (.inr ⟨body, ha, .inl fun l hl => ?_⟩))
  have := (parse_complete hl.1).symm.trans (parse_complete hj)
  cases this
  rw [hl.2] at hf
  cases hf

/-- The wish: an item is shown as it was written, whatever numbers its (encrypted) documents have. -/
def C109_wish (E : Env) : Prop :=
  ∀ O keys r ov de i, WrittenAs DocR E keys r ov de → Known r → decodeItem E O Cat.values keys r = .ret (some i) →
    Shows E ov de r i

/-- C109, what is shown: the item as if there were `null` in the place of every number out of range. No message is given. -/
theorem C109_item_partial (E : Env) (O : MapOrder) (reg : List Cat) (hreg : reg.Perm Cat.values) (keys : Keys)
    (r : RawItem) (ov de : Members) (hw : WrittenAs DocR E keys r ov de) (hk : Known r) (i : Item) :
    decodeItem E O reg keys r = .ret (some i) ↔ Shows E (clipM ov) (clipM de) r i :=
  decodeItem_docs hreg (overview_as (fun _ _ => unmarshalQuiet_clip) hw) (details_as (fun _ _ => unmarshalQuiet_clip) hw) hk i

/-- C109: as it was written, if there is no such number. -/
theorem C109_in_range_partial (E : Env) (O : MapOrder) (reg : List Cat) (hreg : reg.Perm Cat.values) (keys : Keys)
    (r : RawItem) (ov de : Members) (hw : WrittenAs DocR E keys r ov de) (hk : Known r) (ho : finiteM ov = true)
    (hd : finiteM de = true) (i : Item) : decodeItem E O reg keys r = .ret (some i) ↔ Shows E ov de r i := by
  rw [C109_item_partial E O reg hreg keys r ov de hw hk, clipM_finite ov ho, clipM_finite de hd]

namespace RangeDemo
open ItemDemo

/-- A credit card with the number 1e309 for its month. -/
def de : Members := [(b!"sections", .arr [.obj [(b!"fields", .arr [
  .obj [(b!"k", .str b!"monthYear"), (b!"t", .str b!"expires"), (b!"v", .num b!"1e309")]])]])]

theorem doc {m : Members} (h : parse (render (.obj m)) = some (.obj m)) : DocR (render (.obj m)) (.obj m) := parse_sound h

theorem written (E : Env) : WrittenAs DocR E keys (write E ov de) ov de where
  overview := ⟨_, _, _, _, (render_doc ov_plain).1, packable _ _ (by simp [ItemDemo.keys]) (by decide +kernel), isBase64_encode _⟩
  details := ⟨List.replicate 32 10, List.replicate 32 11, List.replicate 16 8, List.replicate 32 0, _, _, _, _,
    by simp, by simp, by simp, by simp, by simp [ItemDemo.keys], isBase64_encode _, doc rfl,
    packable _ _ (by simp) (by decide +kernel), isBase64_encode _⟩

/-- The same without the number. -/
def de' : Members := [(b!"sections", .arr [.obj [(b!"fields", .arr [
  .obj [(b!"k", .str b!"monthYear"), (b!"t", .str b!"expires"), (b!"v", .null)]])]])]

theorem clip_de : clipM de = de' := by
  have : Num.tooBig b!"1e309" = true := by decide +kernel
  simp [de, de', clip, clipM, clipL, this]

/-- What should be there, and what is left of it. -/
theorem sections (E : Env) : ∃ s, parseSections E .doc de = .ret [s] ∧ parseSections E .doc (clipM de) = .ret [] := by
  rw [clip_de]
  exact ⟨_, rfl, rfl⟩

end RangeDemo

/-- C109 fails, whatever the primitives: the field with the number disappears from the item. -/
theorem C109_refuted (E : Env) : ¬ C109_wish E := by
  intro h
  obtain ⟨s, h1, h2⟩ := RangeDemo.sections E
  have hk : Known (ItemDemo.write E ItemDemo.ov RangeDemo.de) := ⟨_, List.mem_cons_self, rfl⟩
  have hw := RangeDemo.written E
  have hc : clipM ItemDemo.ov = ItemDemo.ov := rfl
  have hsh : Shows E (clipM ItemDemo.ov) (clipM RangeDemo.de) (ItemDemo.write E ItemDemo.ov RangeDemo.de)
      ⟨.login, 1, [], b!"My \"bank\"", false, none, b!"U", b!"http://b/", 2⟩ := by
    refine ⟨rfl, rfl, rfl, rfl, ⟨rfl, by decide +kernel⟩, .inr (lastEntry_iff.2 rfl), .inr (lastEntry_iff.2 rfl),
      .inl ⟨absent_iff.2 rfl, rfl⟩, [], parseSections_ret.1 h2, rfl⟩
  have hi := (C109_item_partial E .doc Cat.values (.refl _) _ _ _ _ hw hk _).2 hsh
  obtain ⟨l, hl, he⟩ := (h .doc _ _ _ _ _ hw hk hi).sections
  have := (parseSections_ret (O := .doc)).2 hl
  rw [h1] at this
  cases this
  cases he

namespace RangeDemo

/-- A vault with a number out of range in a band or in the profile. -/
def disk (band profile : Bytes) : Disk :=
  { cwd := []
    fs := [([b!"v"], .dir), ([b!"v", b!"default"], .dir),
           ([b!"v", b!"default", b!"band_0.js"], .file band false),
           ([b!"v", b!"default", b!"profile.js"], .file profile false)] }

end RangeDemo

/-- C109: no item in the band, but a number – too large, or just not; the same in the profile. -/
example :
    Repo.loadItems Env.toy .doc (RangeDemo.disk b!"ld({\"A\":{\"tx\":[1e309]}});" []) b!"/v" = .fatal ∧
    Repo.loadItems Env.toy .doc (RangeDemo.disk b!"ld({\"A\":{\"tx\":[1e308]}});" []) b!"/v" = .panic ∧
    Session.init.validate (RangeDemo.disk [] b!"var profile={\"iterations\":1e309};") b!"/v" = .fatal ∧
    (Session.init.validate (RangeDemo.disk [] b!"var profile={\"iterations\":1e308};") b!"/v" matches .ret (.ok (), _)) = true := by
  refine ⟨by decide +kernel, by decide +kernel, ?_, by decide +kernel⟩
  exact C109_profile _ _ b!"var profile=" b!"{\"iterations\":1e309}" 59 false (by decide) rfl rfl rfl
    (.obj [(b!"iterations", .num b!"1e309")]) (parse_sound rfl) (by decide +kernel) _ rfl

/-- C109: the demo item as it is shown. -/
example : decodeItem Env.toy .doc Cat.values ItemDemo.keys (ItemDemo.write Env.toy ItemDemo.ov RangeDemo.de) =
    .ret (some ⟨.login, 1, [], b!"My \"bank\"", false, none, b!"U", b!"http://b/", 2⟩) := by decide +kernel

end OnePass
