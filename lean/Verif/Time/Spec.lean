/-
Independent vocabulary for the statements about calendar times: what a valid calendar date is, how much
time has elapsed since year 0 in a calendar of 365-day years, and the day after a given day.
-/
import Verif.Time.Model

namespace Verif.TimeObj

/-- Days before the first of month `m` (0 = January) in a 365-day year. -/
def daysBefore (m : Int) : Int :=
  if m = 0 then 0 else if m = 1 then 31 else if m = 2 then 59 else if m = 3 then 90
  else if m = 4 then 120 else if m = 5 then 151 else if m = 6 then 181 else if m = 7 then 212
  else if m = 8 then 243 else if m = 9 then 273 else if m = 10 then 304 else 334

/-- Length of month `m` (0 = January) in a year that is (not) a leap year. -/
def monthLength (leapYear : Bool) (m : Int) : Int :=
  if m = 0 then 31 else if m = 1 then (if leapYear then 29 else 28) else if m = 2 then 31
  else if m = 3 then 30 else if m = 4 then 31 else if m = 5 then 30 else if m = 6 then 31
  else if m = 7 then 31 else if m = 8 then 30 else if m = 9 then 31 else if m = 10 then 30 else 31

/-- Elapsed whole days since year 0 of a (possibly out of range) year/month/day triple, months being
counted modulo 12. -/
def elapsedDays (y m d : Int) : Int := (y + m / 12) * 365 + daysBefore (m % 12) + d

/-- Elapsed microseconds since year 0 in the calendar without leap years. -/
def elapsedUs (t : Time) : Int :=
  (elapsedDays t.year t.month t.day * 86400 + t.second) * 1000000 + t.usec

/-- The time of day and the date lie in their ranges; `leapYear` says which years are leap years. -/
def ValidFor (leapYear : Int → Bool) (t : Time) : Prop :=
  0 ≤ t.month ∧ t.month ≤ 11 ∧ 0 ≤ t.day ∧ t.day < monthLength (leapYear t.year) t.month ∧
  0 ≤ t.second ∧ t.second < 86400 ∧ 0 ≤ t.usec ∧ t.usec < 1000000

/-- A valid time of the calendar without leap years. -/
def Valid (t : Time) : Prop := t.cal = .noLeap ∧ ValidFor (fun _ => false) t

/-- The Gregorian leap-year rule. -/
def gregorianLeap (y : Int) : Bool := (4 ∣ y) && (!(100 ∣ y) || (400 ∣ y))

/-- The leap-year rule the code uses for its standard calendar: divisible by 4 but not by 1000. -/
def codeLeap (y : Int) : Bool := (4 ∣ y) && !(1000 ∣ y)

/-- Successor date for a given leap-year rule. -/
def nextDate (leapYear : Int → Bool) (p : Int × Int × Int) : Int × Int × Int :=
  let (y, m, d) := p
  if d + 1 < monthLength (leapYear y) m then (y, m, d + 1)
  else if m < 11 then (y, m + 1, 0) else (y + 1, 0, 0)

instance (lr : Int → Bool) (t : Time) : Decidable (ValidFor lr t) := by unfold ValidFor; infer_instance
instance (t : Time) : Decidable (Valid t) := by unfold Valid; infer_instance

end Verif.TimeObj
