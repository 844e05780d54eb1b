/-
Model of the calendar class `Time`  (src/base/TimeObj.h, src/base/TimeObj.cpp).

Simplifications (all definitions of this file): C++ `int` fields are unbounded `Int`; `double`
results are exact rationals; an `_EXCEPTION` is `Except.error`.
-/
import Mathlib.Data.Rat.Defs
import Mathlib.Algebra.Order.Ring.Unbundled.Rat

namespace Verif.TimeObj

/-- `Time::CalendarType`, TimeObj.h:37-41. -/
inductive Calendar
  | none | noLeap | standard
  deriving DecidableEq, Repr

/-- `Time::TimeType`, TimeObj.h:46-49. -/
inductive TimeType
  | fixed | delta
  deriving DecidableEq, Repr

/-- The data members of `Time`, TimeObj.h:415-449.  `month` and `day` are zero based. -/
structure Time where
  year : Int
  month : Int
  day : Int
  second : Int
  usec : Int
  cal : Calendar
  typ : TimeType
  deriving DecidableEq, Repr

/-- The exceptions raised in TimeObj.cpp. -/
inductive Err
  | badCalendar      -- "Invalid CalendarType" 161, 269, 348, 381
  | logic            -- "Logic error" 216, 263
  | notDelta         -- "Argument to AddTime() is not a TimeDelta" 278
  | typeMismatch     -- 43, 86
  | calMismatch      -- 46, 89
  | outOfRange       -- VerifyTime 144-156
  | badString        -- malformed strings
  | notFixed         -- To*String on a delta 393, 408, 423, 438
  deriving DecidableEq, Repr

/-- The test `(year % 4 == 0) && (year % 1000 != 0)` guarded by the calendar, as written at
TimeObj.cpp:137-141, 176-180, 227-233, 247-253.  C++ `%` truncates. -/
def leapRule (cal : Calendar) (year : Int) : Bool :=
  cal == .standard && (year.tmod 4 == 0 && year.tmod 1000 != 0)

/-- The local table `nDaysPerMonth` (TimeObj.cpp:134-135, 173-174, 307-308, 363-364) with its February
entry selected by `leap`.  Reading outside 0..11 is undefined behaviour in C++; the code never does so
(`month` is in range at each use), and the model returns 31 there. -/
def dpm (leap : Bool) (m : Int) : Int :=
  if m = 1 then (if leap then 29 else 28)
  else if m = 3 ∨ m = 5 ∨ m = 8 ∨ m = 10 then 30
  else 31

theorem dpm_pos (leap : Bool) (m : Int) : 28 ≤ dpm leap m := by
  unfold dpm; split_ifs <;> omega

/-- `Time::operator==`, TimeObj.cpp:24-37. -/
def eqOp (a b : Time) : Bool :=
  if a.cal ≠ b.cal ∨ a.typ ≠ b.typ ∨ a.year ≠ b.year ∨ a.month ≠ b.month ∨ a.day ≠ b.day
      ∨ a.second ≠ b.second ∨ a.usec ≠ b.usec then false else true

/-- `Time::operator<`, TimeObj.cpp:41-80. -/
def ltOp (a b : Time) : Except Err Bool :=
  if a.typ ≠ b.typ then .error .typeMismatch
  else if a.cal ≠ b.cal then .error .calMismatch
  else if a.year < b.year then .ok true
  else if a.year > b.year then .ok false
  else if a.month < b.month then .ok true
  else if a.month > b.month then .ok false
  else if a.day < b.day then .ok true
  else if a.day > b.day then .ok false
  else if a.second < b.second then .ok true
  else if a.second > b.second then .ok false
  else if a.usec < b.usec then .ok true
  else if a.usec > b.usec then .ok false
  else .ok false

/-- `Time::operator>`, TimeObj.cpp:84-124. -/
def gtOp (a b : Time) : Except Err Bool :=
  if a.typ ≠ b.typ then .error .typeMismatch
  else if a.cal ≠ b.cal then .error .calMismatch
  else if a.year > b.year then .ok true
  else if a.year < b.year then .ok false
  else if a.month > b.month then .ok true
  else if a.month < b.month then .ok false
  else if a.day > b.day then .ok true
  else if a.day < b.day then .ok false
  else if a.second > b.second then .ok true
  else if a.second < b.second then .ok false
  else if a.usec > b.usec then .ok true
  else if a.usec < b.usec then .ok false
  else .ok false

/-- `Time::operator<=`, TimeObj.h:149-151. -/
def leOp (a b : Time) : Except Err Bool := (gtOp a b).map (! ·)

/-- `Time::operator>=`, TimeObj.h:156-158. -/
def geOp (a b : Time) : Except Err Bool := (ltOp a b).map (! ·)

/-- `Time::VerifyTime`, TimeObj.cpp:128-163 (one error value for the five range messages). -/
def verify (t : Time) : Except Err Unit :=
  if t.cal = .noLeap ∨ t.cal = .standard then
    let leap := leapRule t.cal t.year
    if t.year < 0 ∨ t.year > 9999 then .error .outOfRange
    else if t.month < 0 ∨ t.month > 11 then .error .outOfRange
    else if t.day < 0 ∨ t.day ≥ dpm leap t.month then .error .outOfRange
    else if t.second < 0 ∨ t.second ≥ 86400 then .error .outOfRange
    else if t.usec < 0 ∨ t.usec ≥ 1000000 then .error .outOfRange
    else .ok ()
  else .error .badCalendar

/-- Local state of the month loops of `NormalizeTime`: the February entry of `nDaysPerMonth` and the
three date fields. -/
structure Date where
  leap : Bool
  y : Int
  m : Int
  d : Int
  deriving DecidableEq, Repr

/-- Step back one month, TimeObj.cpp:221-234.  The February entry is recomputed only when the year
changes (227-233); under the no-leap calendar `leapRule` is constantly false, as is the entry. -/
def prevMonth (cal : Calendar) (s : Date) : Date :=
  if s.m - 1 < 0 then ⟨leapRule cal (s.y - 1), s.y - 1, 11, s.d⟩ else ⟨s.leap, s.y, s.m - 1, s.d⟩

/-- Step forward one month, TimeObj.cpp:241-254. -/
def nextMonth (cal : Calendar) (s : Date) : Date :=
  if s.m + 1 > 11 then ⟨leapRule cal (s.y + 1), s.y + 1, 0, s.d⟩ else ⟨s.leap, s.y, s.m + 1, s.d⟩

theorem prevMonth_d (cal : Calendar) (s : Date) : (prevMonth cal s).d = s.d := by
  unfold prevMonth; split_ifs <;> rfl

theorem nextMonth_d (cal : Calendar) (s : Date) : (nextMonth cal s).d = s.d := by
  unfold nextMonth; split_ifs <;> rfl

/-- "Subtract months" loop, TimeObj.cpp:220-236. -/
def subMonths (cal : Calendar) (s : Date) : Date :=
  if s.d < 0 then
    subMonths cal { prevMonth cal s with
      d := s.d + dpm (prevMonth cal s).leap (prevMonth cal s).m }
  else s
termination_by (-s.d).toNat
decreasing_by
  have h1 := dpm_pos (prevMonth cal s).leap (prevMonth cal s).m
  omega

/-- "Add months" loop, TimeObj.cpp:239-255. -/
def addMonths (cal : Calendar) (s : Date) : Date :=
  if s.d ≥ dpm s.leap s.m then
    addMonths cal { nextMonth cal s with d := s.d - dpm s.leap s.m }
  else s
termination_by s.d.toNat
decreasing_by
  have h1 := dpm_pos s.leap s.m
  omega

/-- Carry from microseconds to seconds: `nAddedSeconds`, TimeObj.cpp:183-189.  Line 188 reads
`m_iSecond` where `m_iMicroSecond` is meant; the model keeps it.  In C++ the unary minus binds tighter
than `/`, and `/` truncates. -/
def addedSeconds (second usec : Int) : Int :=
  if usec ≥ 1000000 then usec.tdiv 1000000
  else if usec < 0 then (-(1000000 - second)).tdiv 1000000
  else 0

/-- Carry from seconds to days: `nAddedDays`, TimeObj.cpp:194-200. -/
def addedDays (second : Int) : Int :=
  if second ≥ 86400 then second.tdiv 86400
  else if second < 0 then (-(86400 - second)).tdiv 86400
  else 0

/-- Carry from months to years: `nAddedYears`, TimeObj.cpp:206-211. -/
def addedYears (month : Int) : Int :=
  if month ≥ 12 then month.tdiv 12
  else if month < 0 then (-(12 - month)).tdiv 12
  else 0

/-- `Time::NormalizeTime`, TimeObj.cpp:167-271.  The February entry used by the loops is computed from
the year *before* the month-to-year carry (176-180), as in the code. -/
def normalize (t : Time) : Except Err Time :=
  if t.cal = .noLeap ∨ t.cal = .standard then
    let leap := leapRule t.cal t.year
    let ds := addedSeconds t.second t.usec
    let usec := t.usec - ds * 1000000
    let second := t.second + ds
    let dd := addedDays second
    let second := second - dd * 86400
    let day := t.day + dd
    let dy := addedYears t.month
    let month := t.month - dy * 12
    let year := t.year + dy
    if month < 0 ∨ month ≥ 12 then .error .logic
    else
      let s := addMonths t.cal (subMonths t.cal ⟨leap, year, month, day⟩)
      if s.m < 0 ∨ s.m ≥ 12 ∨ s.d < 0 ∨ s.d ≥ dpm s.leap s.m
          ∨ second < 0 ∨ second ≥ 86400 ∨ usec < 0 ∨ usec ≥ 1000000 then .error .logic
      else .ok { t with year := s.y, month := s.m, day := s.d, second := second, usec := usec }
  else .error .badCalendar

/-- `Time::AddTime` / `operator+=(Time)`, TimeObj.cpp:275-288, TimeObj.h:180-183. -/
def addTime (t d : Time) : Except Err Time :=
  if d.typ ≠ .delta then .error .notDelta
  else normalize { t with year := t.year + d.year, month := t.month + d.month, day := t.day + d.day,
                          second := t.second + d.second, usec := t.usec + d.usec }

/-- `Time::AddSeconds` / `operator+=(int)`, TimeObj.h:188-200. -/
def addSeconds (t : Time) (n : Int) : Except Err Time := normalize { t with second := t.second + n }

/-- `Time::AddDays`, TimeObj.h:205-209. -/
def addDays (t : Time) (n : Int) : Except Err Time := normalize { t with day := t.day + n }

/-- `Time::AddMonths`, TimeObj.h:214-218. -/
def addMonthsOp (t : Time) (n : Int) : Except Err Time := normalize { t with month := t.month + n }

/-- `Time::AddYears`, TimeObj.h:223-227. -/
def addYears (t : Time) (n : Int) : Except Err Time := normalize { t with year := t.year + n }

/-- The constructor from five fields, TimeObj.h:71-89. -/
def mkTime (y m d s u : Int) (cal : Calendar) (typ : TimeType) : Except Err Time :=
  normalize ⟨y, m, d, s, u, cal, typ⟩

/-- The loop `for (int i = lo; i < hi; i++) acc += 86400.0 * nDaysPerMonth[i]` used at
TimeObj.cpp:323-326, 335-338, 374-377 (no-leap table), as the accumulated sum. -/
def monthSum (lo : Int) (n : Nat) : ℚ :=
  match n with
  | 0 => 0
  | n + 1 => monthSum lo n + (dpm false (lo + n) : ℚ) * 86400

/-- `Time::operator-`, TimeObj.cpp:300-352, exact rational instead of double. -/
def sub (a b : Time) : Except Err ℚ :=
  if a.cal = .noLeap then
    let base : ℚ := ((a.year - b.year : Int) : ℚ) * 31536000 + ((a.second - b.second : Int) : ℚ)
      + ((a.usec - b.usec : Int) : ℚ) * (1 / 1000000)
    if a.month > b.month then
      .ok (base + (86400 * ((dpm false b.month - b.day : Int) : ℚ) + 86400 * (a.day : ℚ))
        + monthSum (b.month + 1) (a.month - (b.month + 1)).toNat)
    else if a.month < b.month then
      .ok (base - (86400 * ((dpm false a.month - a.day : Int) : ℚ) + 86400 * (b.day : ℚ))
        - monthSum (a.month + 1) (b.month - (a.month + 1)).toNat)
    else .ok (base + 86400 * ((a.day - b.day : Int) : ℚ))
  else .error .badCalendar

/-- `Time::GetSeconds`, TimeObj.cpp:356-385. -/
def getSeconds (a : Time) : Except Err ℚ :=
  if a.cal = .noLeap then
    .ok ((a.year : ℚ) * 31536000 + (a.day : ℚ) * 86400 + (a.second : ℚ)
      + (a.usec : ℚ) * (1 / 1000000) + monthSum 0 a.month.toNat)
  else .error .badCalendar

/-- `Time::IsZero`, TimeObj.h:250-261. -/
def isZero (t : Time) : Bool :=
  if t.year = 0 ∧ t.month = 0 ∧ t.day = 0 ∧ t.second = 0 ∧ t.usec = 0 then true else false

/-- Default constructor, TimeObj.h:55-66. -/
def zeroTime (cal : Calendar := .noLeap) (typ : TimeType := .fixed) : Time := ⟨0, 0, 0, 0, 0, cal, typ⟩

end Verif.TimeObj
