/-
What the release server publishes, what version numbers mean, and what a checksum file says.
-/
import Verif.Spec.Answers
import Verif.Go.Float

namespace OnePass
namespace Spec

/-- A published release: tag, changelog, and the assets with name and – if there is one – download URL. -/
structure Release where
  tag : Bytes
  changelog : Bytes
  assets : List (Bytes × Option Bytes)
  deriving DecidableEq, Repr

/-- A JSON value is an asset of this name and URL. -/
def IsAsset (j : Json) (a : Bytes × Option Bytes) : Prop :=
  ∃ m, j = .obj m ∧ Json.field m b!"name" = .str a.1 ∧
    match a.2 with
    | some u => Json.field m b!"browser_download_url" = .str u
    | none => ∀ u, Json.field m b!"browser_download_url" ≠ .str u

/-- An answer of the server is a list of releases with this one at its head. -/
def Publishes (body : Bytes) (r : Release) : Prop :=
  ∃ m rest as, Json.ReadR body (.arr (.obj m :: rest)) ∧ Json.field m b!"tag_name" = .str r.tag ∧
    Json.field m b!"body" = .str r.changelog ∧ Json.field m b!"assets" = .arr as ∧ List.Forall₂ IsAsset as r.assets

/-- The asset is the archive with the program. -/
def IsArchive (a : Bytes × Option Bytes) : Prop := b!".tar.gz" <:+: a.1

/-- The asset is the file with the checksum. -/
def IsChecksum (a : Bytes × Option Bytes) : Prop := ¬ IsArchive a ∧ b!".md5" <:+: a.1

/-- `url` is the URL of the last asset of a kind; nothing if there is none. -/
def LastUrl (kind : Bytes × Option Bytes → Prop) (assets : List (Bytes × Option Bytes)) (url : Bytes) : Prop :=
  (∃ before name after, assets = before ++ (name, some url) :: after ∧ kind (name, some url) ∧ ∀ a ∈ after, ¬ kind a) ∨
  ((∀ a ∈ assets, ¬ kind a) ∧ url = [])

/-- A text without its dots. -/
def dotless (s : Bytes) : Bytes := s.filter (fun b => b ≠ 46)

/-- The text is a numeral of a number above `n` (or begins with one that is out of all range). -/
def Above (n : Int) (s : Bytes) : Prop :=
  ∃ pre v, pre <+: s ∧ Numeral pre v ∧ n < v ∧ (pre = s ∨ 18446744073709551615 < v)

/-- `v` is a version of three components. -/
def IsVersion (v : Bytes) (x y z : Nat) : Prop :=
  ∃ a b c : Bytes, v = a ++ 46 :: (b ++ 46 :: c) ∧ (a ≠ [] ∧ b ≠ [] ∧ c ≠ []) ∧
    (∀ d ∈ a ++ b ++ c, 48 ≤ d ∧ d ≤ 57) ∧ decimal a = x ∧ decimal b = y ∧ decimal c = z

open Str (White utf8)
open Json (utf8Enc)

/-- Nothing but white space. -/
def AllWhite (s : Bytes) : Prop := ∃ ws : List Nat, (∀ c ∈ ws, White c) ∧ s = utf8 ws

/-- The first word of a text: white space, the word, and the end or white space again. -/
def FirstWord (s w : Bytes) : Prop :=
  ∃ (pre : List Nat) (post : Bytes), s = utf8 pre ++ w ++ post ∧ (∀ c ∈ pre, White c) ∧ w ≠ [] ∧
    (∀ c, White c → ¬ utf8Enc c <:+: w) ∧ (post = [] ∨ ∃ c x, White c ∧ post = utf8Enc c ++ x)

/-- Bytes in hexadecimal. -/
def hexText (b : Bytes) : Bytes :=
  b.flatMap (fun x => [(b!"0123456789abcdef").getD (x.toNat / 16) 0, (b!"0123456789abcdef").getD (x.toNat % 16) 0])

end Spec

namespace Num
open Spec

theorem onward_append (m : Nat) (a b : Bytes) : onward m (a ++ b) = onward (onward m a) b := by
  simp [onward, List.foldl_append]

theorem parseDigits_range (m : Nat) (ds : Bytes) (hm : m ≤ maxUint64) :
    parseDigits m ds = .rangeErr ↔ ∃ pre, pre <+: ds ∧ (∀ b ∈ pre, 48 ≤ b ∧ b ≤ 57) ∧ onward m pre > maxUint64 := by
  induction ds generalizing m with
  | nil =>
    simp only [parseDigits, List.prefix_nil]
    constructor
    · intro h; cases h
    · rintro ⟨pre, rfl, -, h⟩; exact absurd h (by simp [onward]; exact hm)
  | cons b r ih =>
    rw [parseDigits]
    by_cases hd : Str.isDigitA b = true
    · rw [if_pos hd]
      have hd' := (isDigitA_iff b).1 hd
      have e : ∀ r, onward m (b :: r) = onward (m * 10 + (b.toNat - 48)) r := by
        intro r
        simp only [onward, List.foldl_cons]; congr 1; omega
      simp only
      by_cases hbig : m * 10 + (b.toNat - 48) > maxUint64
      · rw [if_pos hbig]
        refine ⟨fun _ => ⟨[b], ⟨r, rfl⟩, by simpa using hd', ?_⟩, fun _ => rfl⟩
        rw [e]; exact hbig
      · rw [if_neg hbig, ih _ (by omega)]
        constructor
        · rintro ⟨pre, h1, h2, h3⟩
          exact ⟨b :: pre, List.cons_prefix_cons.2 ⟨rfl, h1⟩, by simpa [hd'] using h2, by rw [e]; exact h3⟩
        · rintro ⟨pre, h1, h2, h3⟩
          cases pre with
          | nil => exact absurd h3 (by simp [onward]; exact hm)
          | cons c pre =>
            obtain ⟨rfl, h4⟩ := List.cons_prefix_cons.1 h1
            rw [e] at h3
            exact ⟨pre, h4, fun x hx => h2 x (by simp [hx]), h3⟩
    · rw [if_neg hd]
      constructor
      · intro h; cases h
      · rintro ⟨pre, h1, h2, h3⟩
        cases pre with
        | nil => exact absurd h3 (by simp [onward]; exact hm)
        | cons c pre =>
          obtain ⟨rfl, -⟩ := List.cons_prefix_cons.1 h1
          exact absurd ((isDigitA_iff c).2 (h2 c (by simp))) hd

/-- Which texts `ParseInt` reads as something above `n`, if errors are ignored. -/
theorem parseInt_above (n : Int) (hn : 0 ≤ n) (hn2 : n < 9223372036854775807) (s : Bytes) :
    (parseInt s).1 > n ↔ Above n s := by
  -- unsigned part
  have pos : ∀ body : Bytes, (match parseUint body with
        | .syntaxErr => ((0 : Int), true)
        | .rangeErr => if false then (-9223372036854775808, true) else (9223372036854775808 - 1, true)
        | .ok un =>
          if !false && un ≥ 9223372036854775808 then (9223372036854775808 - 1, true)
          else if false && un > 9223372036854775808 then (-9223372036854775808, true)
          else (if false then -(un : Int) else un, false)).1 > n ↔
      ∃ ds, ds <+: body ∧ ds ≠ [] ∧ (∀ b ∈ ds, 48 ≤ b ∧ b ≤ 57) ∧ n < decimal ds ∧
        (ds = body ∨ (18446744073709551615 : Int) < decimal ds) := by
    intro body
    have huge : ∀ ds, ds <+: body → ds ≠ [] → (∀ b ∈ ds, 48 ≤ b ∧ b ≤ 57) → (18446744073709551615 : Int) < decimal ds →
        parseUint body = .rangeErr := by
      intro ds h1 h2 h3 h4
      unfold parseUint
      rw [if_neg (by rintro rfl; exact h2 (List.prefix_nil.1 h1))]
      rw [parseDigits_range 0 body (by decide)]
      refine ⟨ds, h1, h3, ?_⟩
      have : onward 0 ds = decimal ds := rfl
      rw [this]; unfold maxUint64; omega
    cases hp : parseUint body with
    | syntaxErr =>
      constructor
      · intro h; simp at h; omega
      · rintro ⟨ds, h1, h2, h3, h4, h5⟩
        exfalso
        rcases h5 with rfl | h5
        · by_cases hb : decimal ds ≤ maxUint64
          · have := (parseUint_iff (decimal ds) ds).2 ⟨h2, h3, rfl, hb⟩
            rw [this] at hp; cases hp
          · rw [huge ds List.prefix_rfl h2 h3 (by unfold maxUint64 at hb; omega)] at hp; cases hp
        · rw [huge ds h1 h2 h3 h5] at hp; cases hp
    | rangeErr =>
      constructor
      · intro _
        unfold parseUint at hp
        split at hp
        · cases hp
        · rw [parseDigits_range 0 body (by decide)] at hp
          obtain ⟨pre, h1, h2, h3⟩ := hp
          have e : onward 0 pre = decimal pre := rfl
          rw [e] at h3
          unfold maxUint64 at h3
          refine ⟨pre, h1, ?_, h2, by omega, .inr (by omega)⟩
          rintro rfl
          exact absurd h3 (by decide)
      · intro _
        show (9223372036854775808 - 1 : Int) > n
        omega
    | ok un =>
      obtain ⟨h1, h2, h3, h4⟩ := (parseUint_iff _ _).1 hp
      subst h3
      simp only [Bool.not_false, Bool.true_and, decide_eq_true_eq, Bool.false_and, Bool.false_eq_true, if_false]
      constructor
      · intro h
        refine ⟨body, List.prefix_rfl, h1, h2, ?_, .inl rfl⟩
        by_cases hb : decimal body ≥ 9223372036854775808
        · omega
        · simp only [hb, if_false] at h; exact h
      · rintro ⟨ds, k1, k2, k3, k4, k5⟩
        rcases k5 with rfl | k5
        · by_cases hb : decimal ds ≥ 9223372036854775808
          · simp only [hb, if_true]; omega
          · simp only [hb, if_false]; exact k4
        · rw [huge ds k1 k2 k3 k5] at hp; cases hp
  unfold parseInt
  split
  rename_i neg body heq
  split at heq
  · rename_i r
    cases heq
    refine Iff.trans (pos _) ?_
    constructor
    · rintro ⟨ds, h1, h2, h3, h4, h5⟩
      exact ⟨43 :: ds, decimal ds, List.cons_prefix_cons.2 ⟨rfl, h1⟩, ⟨ds, h2, h3, .inl ⟨.inr rfl, rfl⟩⟩, h4,
        h5.imp (by rintro rfl; rfl) id⟩
    · rintro ⟨pre, v, h1, ⟨ds, h2, h3, (⟨rfl | rfl, h4⟩ | ⟨rfl, h4⟩)⟩, h5, h6⟩
      · cases pre with
        | nil => exact absurd rfl h2
        | cons c pre =>
          obtain ⟨rfl, -⟩ := List.cons_prefix_cons.1 h1
          exact absurd (h3 43 (by simp)) (by decide)
      · subst h4
        obtain ⟨-, h1⟩ := List.cons_prefix_cons.1 h1
        exact ⟨ds, h1, h2, h3, h5, h6.imp (fun h => (List.cons.inj h).2) id⟩
      · omega
  · rename_i r
    cases heq
    constructor
    · intro h
      exfalso
      have : ∀ o : PU, ¬ (match o with
        | .syntaxErr => ((0 : Int), true)
        | .rangeErr => if true then (-9223372036854775808, true) else (9223372036854775808 - 1, true)
        | .ok un =>
          if !true && un ≥ 9223372036854775808 then (9223372036854775808 - 1, true)
          else if true && un > 9223372036854775808 then (-9223372036854775808, true)
          else (if true then -(un : Int) else un, false)).1 > n := by
        intro o
        cases o with
        | syntaxErr => simp; omega
        | rangeErr => simp; omega
        | ok un => simp; split <;> simp <;> omega
      exact this _ h
    · rintro ⟨pre, v, h1, ⟨ds, h2, h3, (⟨rfl | rfl, h4⟩ | ⟨rfl, h4⟩)⟩, h5, h6⟩
      · cases pre with
        | nil => exact absurd rfl h2
        | cons c pre =>
          obtain ⟨rfl, -⟩ := List.cons_prefix_cons.1 h1
          exact absurd (h3 45 (by simp)) (by decide)
      · exact absurd (List.cons_prefix_cons.1 h1).1 (by decide)
      · omega
  · rename_i n1 n2
    cases heq
    refine Iff.trans (pos _) ?_
    constructor
    · rintro ⟨ds, h1, h2, h3, h4, h5⟩
      exact ⟨ds, decimal ds, h1, ⟨ds, h2, h3, .inl ⟨.inl rfl, rfl⟩⟩, h4, h5⟩
    · rintro ⟨pre, v, h1, ⟨ds, h2, h3, (⟨rfl | rfl, h4⟩ | ⟨rfl, h4⟩)⟩, h5, h6⟩
      · subst h4; exact ⟨pre, h1, h2, h3, h5, h6⟩
      · obtain ⟨t, ht⟩ := h1
        exact absurd ht.symm (n1 _)
      · omega

end Num
end OnePass
