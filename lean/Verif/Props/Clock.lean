/-
The times that are shown, C94.
-/
import Verif.Props.Commands
import Verif.Model.Gui

set_option linter.unusedSimpArgs false

namespace OnePass
open Spec

/-! ### Specification: a clock and a calendar -/

namespace Spec

/-- A date with a time of day. -/
structure Clock where
  date : Time.Date
  hour : Nat
  minute : Nat
  second : Nat

/-- It exists, in the years 0 to 9999. -/
structure Clock.Valid (c : Clock) : Prop where
  date : ValidDate c.date
  hour : c.hour < 24
  minute : c.minute < 60
  second : c.second < 60
  first : 0 ≤ c.date.year
  last : c.date.year ≤ 9999

/-- Seconds since 1970-01-01 00:00:00, by the same clock. -/
def Clock.seconds (c : Clock) : Int := dayNumber c.date * 86400 + c.hour * 3600 + c.minute * 60 + c.second

def digit (n : Nat) : UInt8 := UInt8.ofNat (48 + n)

def two (n : Nat) : Bytes := [digit (n / 10), digit (n % 10)]
def four (n : Nat) : Bytes := two (n / 100) ++ two (n % 100)

/-- `2021-03-31 08:05:00`. -/
def Clock.text (c : Clock) : Bytes :=
  four c.date.year.toNat ++ b!"-" ++ two c.date.month ++ b!"-" ++ two c.date.day ++ b!" " ++
    two c.hour ++ b!":" ++ two c.minute ++ b!":" ++ two c.second

end Spec

namespace Time

theorem appendInt_two : ∀ n : Nat, n < 100 → appendInt n 2 = two n := by
  have : ∀ n : Fin 100, appendInt (n.val : Int) 2 = two n.val := by decide +kernel
  exact fun n h => this ⟨n, h⟩

theorem appendInt_four (n : Nat) (h : n < 10000) : appendInt n 4 = four n := by
  have h0 : ¬ ((n : Int) < 0) := by omega
  unfold appendInt four two
  rw [if_neg h0]
  simp only [Int.natAbs_natCast]
  by_cases h1 : n < 10
  · rw [Num.natDec_lt h1, show n / 100 / 10 = 0 by omega, show n / 100 % 10 = 0 by omega, show n % 100 / 10 = 0 by omega,
      show n % 100 % 10 = n by omega]
    rfl
  · rw [Num.natDec_ge (by omega)]
    by_cases h2 : n / 10 < 10
    · rw [Num.natDec_lt h2, show n / 100 / 10 = 0 by omega, show n / 100 % 10 = 0 by omega, show n % 100 / 10 = n / 10 by omega,
        show n % 100 % 10 = n % 10 by omega]
      rfl
    · rw [Num.natDec_ge (n := n / 10) (by omega)]
      by_cases h3 : n / 10 / 10 < 10
      · rw [Num.natDec_lt h3, show n / 100 / 10 = 0 by omega, show n / 100 % 10 = n / 10 / 10 by omega,
          show n % 100 / 10 = n / 10 % 10 by omega, show n % 100 % 10 = n % 10 by omega]
        rfl
      · rw [Num.natDec_ge (n := n / 10 / 10) (by omega), Num.natDec_lt (n := n / 10 / 10 / 10) (by omega),
          show n / 100 / 10 = n / 10 / 10 / 10 by omega, show n / 100 % 10 = n / 10 / 10 % 10 by omega,
          show n % 100 / 10 = n / 10 % 10 by omega, show n % 100 % 10 = n % 10 by omega]
        rfl

theorem daysIn_le (y : Int) (m : Nat) : daysIn y m ≤ 31 := by
  unfold daysIn
  split <;> split <;> omega

theorem two_inj {a b : Nat} (ha : a < 100) (hb : b < 100) (h : two a = two b) : a = b := by
  have : ∀ a b : Fin 100, two a.val = two b.val → a = b := by decide +kernel
  exact congrArg Fin.val (this ⟨a, ha⟩ ⟨b, hb⟩ h)

end Time

open Time

/-- The years 0 to 9999 by the local clock. -/
def InFourDigits (E : Env) (t : Int) : Prop := -62167219200 ≤ t + E.zone t ∧ t + E.zone t ≤ 253402300799

/-- C94. A time is shown as the date and the time of day that the local clock shows. -/
theorem C94_shown (E : Env) (t : Int) (c : Clock) (hc : c.Valid) (h : c.seconds = t + E.zone t) :
    formatStamp t (E.zone t) = c.text := by
  obtain ⟨h1, h2⟩ := absDate_spec (absSec t (E.zone t))
  have hy : yearStart 0 ≤ yearStart c.date.year := yearStart_mono _ _ hc.first
  have hy' : yearStart c.date.year ≤ yearStart 9999 := yearStart_mono _ _ hc.last
  have y0 : yearStart 0 = -366 := by decide
  have y1 : yearStart 9999 = 3651694 := by decide
  obtain ⟨m1, m2, d1, d2⟩ := hc.date
  have d3 := daysIn_le c.date.year c.date.month
  have hdn : -719528 ≤ dayNumber c.date ∧ dayNumber c.date ≤ 2932897 := by
    have e := dayNumber_eq c.date d1
    have t1 := monthDay_ydayOf (isLeap c.date.year) ⟨c.date.month, by omega⟩ ⟨c.date.day, by omega⟩ m1 d1
      (by have := d2; rw [daysIn_leap] at this; exact this)
    change dayNumber c.date = yearStart c.date.year + _ - _ at e
    have t2 := t1.1
    simp only at t2
    split at t2 <;> omega
  obtain ⟨hh, hm, hs⟩ := (⟨hc.hour, hc.minute, hc.second⟩ : c.hour < 24 ∧ c.minute < 60 ∧ c.second < 60)
  unfold Clock.seconds at h
  have habs : ((absSec t (E.zone t) : Nat) : Int) = t + E.zone t + 9223372028715321600 := by
    unfold absSec unixToAbsolute
    rw [Int.emod_eq_of_lt (by omega) (by omega), Int.toNat_of_nonneg (by omega)]
  generalize ha : absSec t (E.zone t) = a at *
  have hd : absDate a = c.date := by
    refine dayNumber_inj _ _ h1 hc.date ?_
    rw [h2]
    omega
  have e1 : a % 86400 / 3600 = c.hour := by omega
  have e2 : a % 3600 / 60 = c.minute := by omega
  have e3 : a % 60 = c.second := by omega
  unfold formatStamp Clock.text formatDate
  simp only [ha, hd, e1, e2, e3]
  rw [appendInt_two _ (by omega), appendInt_two _ (by omega), appendInt_two _ (by omega), appendInt_two _ (by omega),
    appendInt_two _ (by omega)]
  have hyr : c.date.year = ((c.date.year.toNat : Nat) : Int) := (Int.toNat_of_nonneg hc.first).symm
  rw [show appendInt c.date.year 4 = four c.date.year.toNat by
    conv => lhs; rw [hyr]
    exact appendInt_four _ (by have := hc.last; omega)]
  rfl

/-- C94. In the years 0 to 9999 the local clock shows something. -/
theorem C94_every_time (E : Env) (t : Int) (h : InFourDigits E t) : ∃ c : Clock, c.Valid ∧ c.seconds = t + E.zone t := by
  obtain ⟨hlo, hhi⟩ := h
  obtain ⟨h1, h2⟩ := absDate_spec (absSec t (E.zone t))
  have habs : ((absSec t (E.zone t) : Nat) : Int) = t + E.zone t + 9223372028715321600 := by
    unfold absSec unixToAbsolute
    rw [Int.emod_eq_of_lt (by omega) (by omega), Int.toNat_of_nonneg (by omega)]
  generalize absSec t (E.zone t) = a at *
  have hyear : 0 ≤ (absDate a).year ∧ (absDate a).year ≤ 9999 := by
    obtain ⟨m1, m2, d1, d2⟩ := h1
    have d3 := daysIn_le (absDate a).year (absDate a).month
    have e := dayNumber_eq (absDate a) d1
    have t1 := (monthDay_ydayOf (isLeap (absDate a).year) ⟨(absDate a).month, by omega⟩ ⟨(absDate a).day, by omega⟩ m1 d1
      (by have := d2; rw [daysIn_leap] at this; exact this)).1
    simp only at t1
    change dayNumber (absDate a) = yearStart (absDate a).year + _ - _ at e
    have y0 : yearStart 0 = -366 := by decide
    have y1 : yearStart 10000 = 3652059 := by decide
    have hs := yearStart_succ (absDate a).year
    have ee : ∀ b : Bool, ((if b then 366 else 365 : Int)) = ((if b then 366 else 365 : Nat) : Int) := by decide
    rw [ee] at hs
    constructor
    · by_contra hn
      have := yearStart_mono ((absDate a).year + 1) 0 (by omega)
      omega
    · by_contra hn
      have := yearStart_mono 10000 (absDate a).year (by omega)
      omega
  refine ⟨⟨absDate a, a % 86400 / 3600, a % 3600 / 60, a % 60⟩, ⟨h1, by simp only; omega, by simp only; omega, by simp only; omega, hyear.1, hyear.2⟩, ?_⟩
  unfold Clock.seconds
  simp only
  rw [h2]
  omega

/-- C94. What is shown tells times apart: the text determines the clock, and the seconds counted by it. -/
theorem C94_faithful (c c' : Clock) (h : c.Valid) (h' : c'.Valid) (e : c.text = c'.text) : c = c' := by
  obtain ⟨⟨y, mo, d⟩, ho, mi, se⟩ := c
  obtain ⟨⟨y', mo', d'⟩, ho', mi', se'⟩ := c'
  obtain ⟨⟨m1, m2, d1, d2⟩, a1, a2, a3, a4, a5⟩ := h
  obtain ⟨⟨m1', m2', d1', d2'⟩, a1', a2', a3', a4', a5'⟩ := h'
  have d3 := daysIn_le y mo
  have d3' := daysIn_le y' mo'
  simp only at *
  have key : two (y.toNat / 100) = two (y'.toNat / 100) ∧ two (y.toNat % 100) = two (y'.toNat % 100) ∧ two mo = two mo' ∧
      two d = two d' ∧ two ho = two ho' ∧ two mi = two mi' ∧ two se = two se' := by
    have l1 : b!"-" = [45] := by decide
    have l2 : b!" " = [32] := by decide
    have l3 : b!":" = [58] := by decide
    simp only [Clock.text, l1, l2, l3, four, two, List.cons_append, List.nil_append, List.append_assoc, List.cons.injEq,
      and_true, true_and] at e ⊢
    simp only [e, and_self]
  obtain ⟨k1, k2, k3, k4, k5, k6, k7⟩ := key
  have k1 := two_inj (by omega) (by omega) k1
  have k2 := two_inj (by omega) (by omega) k2
  have k3 := two_inj (by omega) (by omega) k3
  have k4 := two_inj (by omega) (by omega) k4
  have k5 := two_inj (by omega) (by omega) k5
  have k6 := two_inj (by omega) (by omega) k6
  have k7 := two_inj (by omega) (by omega) k7
  have : y = y' := by omega
  subst this k3 k4 k5 k6 k7
  rfl

/-- The line with the times of an item. -/
def timesLine (updated created : Clock) (trashed : Bool) : Bytes :=
  b!"Updated: " ++ updated.text ++ b!"\nCreated: " ++ created.text ++ b!"\nTrashed: " ++ (if trashed then b!"true" else b!"false")

/-- C94. `overview` and `details` show when the item was changed and when it was made. -/
theorem C94_commands (C : Ctx) (hide : Bool) (uid : Bytes) (trashed : Bool) (w : World) (i : Item)
    (h : w.sess.getItem uid trashed = some i) (u c : Clock) (hu : u.Valid) (hc : c.Valid)
    (eu : u.seconds = i.updated + C.env.zone i.updated) (ec : c.seconds = i.created + C.env.zone i.created) :
    ∃ pre post, (Cli.printItem C hide uid trashed w).2.log =
      w.log ++ pre ++ .out (timesLine u c i.trashed ++ [10]) :: post := by
  rw [Cli.printItem_run C hide uid trashed w i h]
  have hl : ∃ rest, Cli.itemLines C.env hide i =
      [[], i.category.name, Cli.rule, i.title, []] ++ timesLine u c i.trashed :: rest := by
    unfold Cli.itemLines timesLine boolText
    rw [C94_shown C.env i.updated u hu eu, C94_shown C.env i.created c hc ec]
    generalize u.text = a
    generalize c.text = b
    simp only [List.cons_append, List.nil_append, List.append_assoc]
    exact ⟨_, rfl⟩
  obtain ⟨rest, hl⟩ := hl
  refine ⟨[[], i.category.name, Cli.rule, i.title, []].map (fun l => .out (l ++ [10])), rest.map (fun l => .out (l ++ [10])), ?_⟩
  simp only [hl, List.map_append, List.map_cons, List.append_assoc]

/-- C94. So does the pane of the GUI, covered or not. -/
theorem C94_gui (E : Env) (i : Item) (u c : Clock) (hu : u.Valid) (hc : c.Valid) (eu : u.seconds = i.updated + E.zone i.updated)
    (ec : c.seconds = i.created + E.zone i.created) :
    ∃ pre post, Gui.detailsHead E i = pre ++ b!"\n" ++ timesLine u c i.trashed ++ b!"\n" ++ post := by
  unfold Gui.detailsHead
  rw [C94_shown E i.updated u hu eu, C94_shown E i.created c hc ec]
  refine ⟨i.category.name ++ b!"\n" ++ Cli.rule ++ b!"\n" ++ i.title ++ b!"\n", ?_, ?_⟩
  rotate_left
  · unfold timesLine boolText
    simp only [List.append_assoc]
    rfl

/-! ### Examples -/

/-- A leap day at one second to midnight. -/
example : (⟨⟨2024, 2, 29⟩, 23, 59, 59⟩ : Clock).Valid ∧ (⟨⟨2024, 2, 29⟩, 23, 59, 59⟩ : Clock).seconds = 1709251199 ∧
    (⟨⟨2024, 2, 29⟩, 23, 59, 59⟩ : Clock).text = b!"2024-02-29 23:59:59" :=
  ⟨⟨⟨by decide, by decide, by decide, by decide⟩, by decide, by decide, by decide, by decide, by decide⟩, by decide, by decide⟩
/-- Seen from two hours further east it is already the next day; before 1970 as well. -/
example : formatStamp 1709251199 7200 = b!"2024-03-01 01:59:59" ∧ formatStamp (-1) 0 = b!"1969-12-31 23:59:59" ∧
    formatStamp 46800 0 = b!"1970-01-01 13:00:00" := by decide +kernel

end OnePass
