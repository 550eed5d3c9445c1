/-
`time.Unix(sec, 0).Format("2006-01-02")` of Go 1.15 (time/time.go `absDate`, time/format.go).
-/
import Verif.Go.Strconv

namespace OnePass
namespace Time

/-- `absoluteZeroYear` of time.go. -/
def absoluteZeroYear : Int := -292277022399

/-- `unixToInternal + internalToAbsolute`: seconds from the start of `absoluteZeroYear` to 1970-01-01. -/
def unixToAbsolute : Int := 9223372028715321600

/-- `Time.abs`: all arithmetic is modulo 2^64. -/
def absSec (sec offset : Int) : Nat := ((sec + offset + unixToAbsolute) % 18446744073709551616).toNat

/-- `daysBefore` of time.go. -/
def daysBefore : List Nat := [0, 31, 59, 90, 120, 151, 181, 212, 243, 273, 304, 334, 365]

/-- `isLeap` of time.go. -/
def isLeap (year : Int) : Bool := year % 4 == 0 && (year % 100 != 0 || year % 400 == 0)

/-- The year part of `absDate`: years since `absoluteZeroYear` and the day of the year, from the days. -/
def yearDay (d : Nat) : Nat × Nat :=
  let n400 := d / 146097
  let d1 := d - 146097 * n400
  let n100 := d1 / 36524 - (d1 / 36524) / 4
  let d2 := d1 - 36524 * n100
  let n4 := d2 / 1461
  let d3 := d2 - 1461 * n4
  let n1 := d3 / 365 - (d3 / 365) / 4
  (400 * n400 + 100 * n100 + 4 * n4 + n1, d3 - 365 * n1)

/-- The month part of `absDate`: month (1-based) and day of the month, from the day of the year. -/
def monthDay (leap : Bool) (yday : Nat) : Nat × Nat :=
  if leap && yday == 59 then (2, 29)
  else
    let day := if leap && yday > 59 then yday - 1 else yday
    let m := day / 31
    let stop := daysBefore.getD (m + 1) 0
    if day ≥ stop then (m + 2, day - stop + 1) else (m + 1, day - daysBefore.getD m 0 + 1)

/-- A calendar date. -/
structure Date where
  year : Int
  month : Nat
  day : Nat
  deriving DecidableEq, Repr

/-- `absDate`. -/
def absDate (abs : Nat) : Date :=
  let yd := yearDay (abs / 86400)
  let year := absoluteZeroYear + yd.1
  let md := monthDay (isLeap year) yd.2
  { year := year, month := md.1, day := md.2 }

/-- `appendInt(b, x, width)` of format.go: zero-padded decimal. -/
def appendInt (x : Int) (width : Nat) : Bytes :=
  let ds := Num.natDec x.natAbs
  let pad := List.replicate (width - ds.length) (48 : UInt8)
  if x < 0 then 45 :: pad ++ ds else pad ++ ds

/-- `Format("2006-01-02")`. -/
def formatDate (d : Date) : Bytes :=
  appendInt d.year 4 ++ [45] ++ appendInt d.month 2 ++ [45] ++ appendInt d.day 2

/-- `time.Unix(sec, 0).Format("2006-01-02")` in a zone with the given offset at that time. -/
def formatUnix (sec offset : Int) : Bytes := formatDate (absDate (absSec sec offset))

end Time

/-! ### Specification: the proleptic Gregorian calendar -/

namespace Spec

def leapYear (y : Int) : Prop := (4 ∣ y ∧ ¬ 100 ∣ y) ∨ 400 ∣ y

instance (y : Int) : Decidable (leapYear y) := by unfold leapYear; infer_instance

/-- Days in a month. -/
def daysIn (y : Int) (m : Nat) : Nat :=
  if m = 2 then (if leapYear y then 29 else 28)
  else if m = 4 ∨ m = 6 ∨ m = 9 ∨ m = 11 then 30 else 31

/-- Days of the year before the month. -/
def daysBeforeMonth (y : Int) (m : Nat) : Nat := ((List.range (m - 1)).map (fun i => daysIn y (i + 1))).sum

/-- A date that exists. -/
def ValidDate (d : Time.Date) : Prop := 1 ≤ d.month ∧ d.month ≤ 12 ∧ 1 ≤ d.day ∧ d.day ≤ daysIn d.year d.month

/-- Days from 1970-01-01 to a date. 719162 days lie between 0001-01-01 and 1970-01-01. -/
def dayNumber (d : Time.Date) : Int :=
  365 * (d.year - 1) + (d.year - 1) / 4 - (d.year - 1) / 100 + (d.year - 1) / 400 +
    daysBeforeMonth d.year d.month + (d.day - 1) - 719162

end Spec

namespace Time
open Spec

theorem leapYear_iff (y : Int) : leapYear y ↔ isLeap y = true := by
  unfold leapYear isLeap
  simp only [Bool.and_eq_true, Bool.or_eq_true, beq_iff_eq, bne_iff_ne, ne_eq]
  constructor
  · rintro (⟨h1, h2⟩ | h) <;> omega
  · intro h; omega

theorem daysIn_leap (y : Int) (m : Nat) : daysIn y m =
    if m = 2 then (if isLeap y then 29 else 28) else if m = 4 ∨ m = 6 ∨ m = 9 ∨ m = 11 then 30 else 31 := by
  unfold daysIn
  by_cases h : isLeap y = true
  · simp [h, (leapYear_iff y).2 h]
  · have h' : ¬ leapYear y := fun h' => h ((leapYear_iff y).1 h')
    simp [h, h']

/-- The month table, all days of both kinds of year. -/
theorem monthDay_table : ∀ (leap : Bool) (yd : Fin 366), (yd.val < 365 ∨ leap = true) →
    let md := monthDay leap yd
    let dim := fun m : Nat => if m = 2 then (if leap then 29 else 28) else
      if m = 4 ∨ m = 6 ∨ m = 9 ∨ m = 11 then 30 else 31
    1 ≤ md.1 ∧ md.1 ≤ 12 ∧ 1 ≤ md.2 ∧ md.2 ≤ dim md.1 ∧
      ((List.range (md.1 - 1)).map (fun i => dim (i + 1))).sum + (md.2 - 1) = yd.val := by
  decide +kernel

theorem yearDay_spec (d : Nat) :
    let yd := yearDay d
    let y : Int := absoluteZeroYear + yd.1
    (yd.2 < 365 ∨ (isLeap y = true ∧ yd.2 = 365)) ∧
    (365 * (y - 1) + (y - 1) / 4 - (y - 1) / 100 + (y - 1) / 400 + yd.2 : Int) = d - 106751990353932 := by
  intro yd y
  obtain ⟨a, r1, ha, h1⟩ : ∃ a r1, d = 146097 * a + r1 ∧ r1 < 146097 :=
    ⟨d / 146097, d % 146097, by omega, by omega⟩
  obtain ⟨b, r2, hb, hb3, h2⟩ : ∃ b r2, r1 = 36524 * b + r2 ∧ b ≤ 3 ∧ (r2 < 36524 ∨ (b = 3 ∧ r2 = 36524)) ∧
      b = r1 / 36524 - (r1 / 36524) / 4 :=
    ⟨r1 / 36524 - (r1 / 36524) / 4, r1 - 36524 * (r1 / 36524 - (r1 / 36524) / 4), by omega, by omega, by omega, rfl⟩
  obtain ⟨h2, eb⟩ := h2
  obtain ⟨c, r3, hc, hc3, h3, ec⟩ : ∃ c r3, r2 = 1461 * c + r3 ∧ c ≤ 24 ∧
      (r3 < 1460 ∨ (r3 = 1460 ∧ (c ≠ 24 ∨ b = 3))) ∧ c = r2 / 1461 :=
    ⟨r2 / 1461, r2 % 1461, by omega, by omega, by omega, rfl⟩
  obtain ⟨e, r4, he, he3, h4, ee⟩ : ∃ e r4, r3 = 365 * e + r4 ∧ e ≤ 3 ∧
      (r4 < 365 ∨ (r4 = 365 ∧ e = 3 ∧ (c ≠ 24 ∨ b = 3))) ∧ e = r3 / 365 - (r3 / 365) / 4 :=
    ⟨r3 / 365 - (r3 / 365) / 4, r3 - 365 * (r3 / 365 - (r3 / 365) / 4), by omega, by omega, by omega, rfl⟩
  have hyd : yd = (400 * a + 100 * b + 4 * c + e, r4) := by
    have e1 : d / 146097 = a := by omega
    have e2 : d - 146097 * a = r1 := by omega
    have e3 : r1 - 36524 * b = r2 := by omega
    have e4 : r2 - 1461 * c = r3 := by omega
    have e5 : r3 - 365 * e = r4 := by omega
    show yearDay d = _
    unfold yearDay
    simp only [e1, e2, ← eb, e3, ← ec, e4, ← ee, e5]
  have hy : y = 1 + 400 * (a - 730692556) + 100 * b + 4 * c + e := by
    show absoluteZeroYear + (yd.1 : Int) = _
    have h0 : absoluteZeroYear = 1 - 400 * 730692556 := by decide
    have h1 : yd.1 = 400 * a + 100 * b + 4 * c + e := by rw [hyd]
    rw [h0]; omega
  rw [hyd]
  clear_value y yd
  clear hyd eb ec ee
  have hl : isLeap y = true ↔ (e = 3 ∧ (c ≠ 24 ∨ b = 3)) := by
    rw [← leapYear_iff]; unfold leapYear; omega
  rw [hl]
  refine ⟨by omega, ?_⟩
  have q4 : (y - 1) / 4 = 100 * (a - 730692556) + 25 * b + c := by omega
  have q100 : (y - 1) / 100 = 4 * (a - 730692556) + b := by omega
  have q400 : (y - 1) / 400 = a - 730692556 := by omega
  rw [q4, q100, q400]
  simp only
  omega

/-- `absDate` gives the existing calendar date that lies the right number of days after 1970-01-01. -/
theorem absDate_spec (abs : Nat) :
    ValidDate (absDate abs) ∧ dayNumber (absDate abs) = (abs / 86400 : Nat) - 106751991073094 := by
  have hy := yearDay_spec (abs / 86400)
  simp only at hy
  generalize hd : abs / 86400 = d at *
  generalize hyd : yearDay d = yd at *
  have hlt : yd.2 < 366 := by omega
  have ht := monthDay_table (isLeap (absoluteZeroYear + yd.1)) ⟨yd.2, hlt⟩
    (by rcases hy.1 with h | h
        · exact Or.inl h
        · exact Or.inr h.1)
  simp only at ht
  have hA : absDate abs = ⟨absoluteZeroYear + yd.1, (monthDay (isLeap (absoluteZeroYear + yd.1)) yd.2).1,
      (monthDay (isLeap (absoluteZeroYear + yd.1)) yd.2).2⟩ := by
    unfold absDate; rw [hd, hyd]
  rw [hA]
  unfold ValidDate dayNumber daysBeforeMonth
  simp only [daysIn_leap]
  obtain ⟨h1, h2, h3, h4, h5⟩ := ht
  refine ⟨⟨h1, h2, h3, h4⟩, ?_⟩
  generalize absoluteZeroYear + (yd.1 : Int) = y at *
  generalize (monthDay (isLeap y) yd.2) = md at *
  generalize hS : List.sum (α := Nat) _ = S at h5 ⊢
  omega

/-- Day of the year (0-based) in terms of the kind of year. -/
def ydayOf (leap : Bool) (m d : Nat) : Nat :=
  ((List.range (m - 1)).map (fun i => if i + 1 = 2 then (if leap then 29 else 28) else
    if i + 1 = 4 ∨ i + 1 = 6 ∨ i + 1 = 9 ∨ i + 1 = 11 then 30 else 31)).sum + (d - 1)

theorem monthDay_ydayOf : ∀ (leap : Bool) (m : Fin 13) (d : Fin 32), 1 ≤ m.val → 1 ≤ d.val →
    d.val ≤ (if m.val = 2 then (if leap then 29 else 28) else
      if m.val = 4 ∨ m.val = 6 ∨ m.val = 9 ∨ m.val = 11 then 30 else 31) →
    ydayOf leap m d < (if leap then 366 else 365) ∧ monthDay leap (ydayOf leap m d) = (m.val, d.val) := by
  decide +kernel

theorem dayNumber_eq (d : Date) (h : 1 ≤ d.day) : dayNumber d =
    365 * (d.year - 1) + (d.year - 1) / 4 - (d.year - 1) / 100 + (d.year - 1) / 400 +
      ydayOf (isLeap d.year) d.month d.day - 719162 := by
  unfold dayNumber daysBeforeMonth ydayOf
  simp only [daysIn_leap]
  generalize hS : List.sum (α := Nat) _ = S
  omega

/-- Days before a year. -/
def yearStart (y : Int) : Int := 365 * (y - 1) + (y - 1) / 4 - (y - 1) / 100 + (y - 1) / 400

theorem yearStart_succ (y : Int) : yearStart (y + 1) = yearStart y + (if isLeap y then 366 else 365) := by
  have l := leapYear_iff y
  unfold leapYear at l
  unfold yearStart
  generalize isLeap y = b at *
  cases b <;> simp only [Bool.false_eq_true, if_false, if_true, iff_false, iff_true] at * <;> omega

theorem yearStart_mono (a b : Int) (h : a ≤ b) : yearStart a ≤ yearStart b := by
  unfold yearStart
  rcases Int.lt_or_eq_of_le h with h | h
  · omega
  · subst h; exact Int.le_refl _

/-- Two existing dates with the same day number are equal. -/
theorem dayNumber_inj (d₁ d₂ : Date) (h₁ : ValidDate d₁) (h₂ : ValidDate d₂) (h : dayNumber d₁ = dayNumber d₂) :
    d₁ = d₂ := by
  obtain ⟨y₁, m₁, a₁⟩ := d₁
  obtain ⟨y₂, m₂, a₂⟩ := d₂
  unfold ValidDate at h₁ h₂
  simp only [daysIn_leap] at h₁ h₂
  obtain ⟨p1, p2, p3, p4⟩ := h₁
  obtain ⟨q1, q2, q3, q4⟩ := h₂
  rw [dayNumber_eq _ p3, dayNumber_eq _ q3] at h
  simp only at h
  have t₁ := monthDay_ydayOf (isLeap y₁) ⟨m₁, by omega⟩ ⟨a₁, by split at p4 <;> split at p4 <;> omega⟩ p1 p3 p4
  have t₂ := monthDay_ydayOf (isLeap y₂) ⟨m₂, by omega⟩ ⟨a₂, by split at q4 <;> split at q4 <;> omega⟩ q1 q3 q4
  simp only at t₁ t₂
  have hy : y₁ = y₂ := by
    have u₁ := t₁.1
    have u₂ := t₂.1
    have s₁ := yearStart_succ y₁
    have s₂ := yearStart_succ y₂
    change yearStart y₁ + _ - 719162 = yearStart y₂ + _ - 719162 at h
    have e : ∀ b : Bool, ((if b then 366 else 365 : Int)) = ((if b then 366 else 365 : Nat) : Int) := by decide
    rw [e] at s₁ s₂
    rcases Int.lt_trichotomy y₁ y₂ with hlt | heq | hgt
    · have := yearStart_mono (y₁ + 1) y₂ (by omega)
      omega
    · exact heq
    · have := yearStart_mono (y₂ + 1) y₁ (by omega)
      omega
  subst hy
  have hu : ydayOf (isLeap y₁) m₁ a₁ = ydayOf (isLeap y₁) m₂ a₂ := by
    clear t₁ t₂ p4 q4
    omega
  have e := t₁.2
  rw [hu, t₂.2] at e
  simp only [Prod.mk.injEq] at e
  simp [e]

/-- In the range the calendar of the Go library covers, no wrap-around happens. -/
theorem absSec_div (t off : Int) (h : -9223372028715321600 ≤ t + off)
    (h' : t + off < 9223372036854775808) :
    ((absSec t off / 86400 : Nat) : Int) - 106751991073094 = (t + off) / 86400 := by
  unfold absSec unixToAbsolute
  rw [Int.emod_eq_of_lt (by omega) (by omega)]
  have : (((t + off + 9223372028715321600).toNat / 86400 : Nat) : Int) = (t + off + 9223372028715321600) / 86400 := by
    rw [Int.natCast_ediv, Int.toNat_of_nonneg (by omega)]; rfl
  rw [this]; omega

end Time
end OnePass
