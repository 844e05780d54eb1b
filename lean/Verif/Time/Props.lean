/-
Properties C01-C04 and C07: calendar times.  Vocabulary in `Verif.Time.Spec`.
-/
import Verif.Time.Lemmas

namespace Verif.TimeObj

/-- A concrete no-leap time, 31 December 1999 23:59:59.999999. -/
def exT : Time := ⟨1999, 11, 30, 86399, 999999, .noLeap, .fixed⟩
/-- A concrete duration, 40 days, 100000 s and 1 µs. -/
def exD : Time := ⟨0, 0, 40, 100000, 1, .noLeap, .delta⟩

/-! ### C01 -/

/-- C01, no-leap calendar: whatever the start (even an invalid one) and whatever the (signed) duration, if
adding it returns, the result is a valid calendar time. -/
theorem C01_add_result_valid_noLeap (t d t' : Time) (hc : t.cal = .noLeap)
    (h : addTime t d = .ok t') : Valid t' := by
  unfold addTime at h
  split_ifs at h
  exact (normalize_noLeap_ok _ t' (by exact hc) h).1

example : ∃ t', exT.cal = .noLeap ∧ addTime exT exD = .ok t' := by
  refine ⟨⟨2000, 1, 10, 13600, 0, .noLeap, .fixed⟩, rfl, ?_⟩; decide +kernel

/-- C01, no-leap calendar, the single-unit operations. -/
theorem C01_unit_adds_valid_noLeap (t t' : Time) (n : Int) (hc : t.cal = .noLeap)
    (h : addSeconds t n = .ok t' ∨ addDays t n = .ok t' ∨ addMonthsOp t n = .ok t' ∨ addYears t n = .ok t') :
    Valid t' := by
  rcases h with h | h | h | h <;> exact (normalize_noLeap_ok _ t' (by exact hc) h).1

example : ∃ t', addMonthsOp exT (-13) = .ok t' := 
  ⟨⟨1998, 11, 0, 86399, 999999, .noLeap, .fixed⟩, by decide +kernel⟩

/-- C01, no-leap calendar: adding a non-negative duration to a valid time never throws. -/
theorem C01_nonneg_add_succeeds (t d : Time) (hv : Valid t) (hd : d.typ = .delta)
    (hm : 0 ≤ d.month) (hs : 0 ≤ d.second) (hu : 0 ≤ d.usec) :
    ∃ t', addTime t d = .ok t' ∧ Valid t' := by
  obtain ⟨hc, v1, v2, v3, v4, v5, v6, v7, v8⟩ := hv
  unfold addTime
  rw [if_neg (by simp [hd])]
  have := (normalize_noLeap ⟨t.year + d.year, t.month + d.month, t.day + d.day, t.second + d.second,
      t.usec + d.usec, t.cal, t.typ⟩ hc (by simp only; omega)).2 (by
        unfold Rejected totalSec
        simp only
        omega)
  obtain ⟨t', h1, h2, _⟩ := this
  exact ⟨t', h1, h2⟩

example : Valid exT ∧ exD.typ = .delta ∧ 0 ≤ exD.month ∧ 0 ≤ exD.second ∧ 0 ≤ exD.usec := by decide

/-- C01 supplement: exactly when adding a signed number of seconds is refused.  From a valid time the call
fails if and only if the target falls before midnight of the same day by a whole number of days. -/
theorem C01_addSeconds_refused_iff (t : Time) (n : Int) (hv : Valid t) :
    addSeconds t n = .error .logic ↔ t.second + n < 0 ∧ (86400 : Int) ∣ t.second + n := by
  obtain ⟨hc, v1, v2, v3, v4, v5, v6, v7, v8⟩ := hv
  have := normalize_noLeap { t with second := t.second + n } hc (by simp only; omega)
  unfold addSeconds
  constructor
  · intro h
    by_contra hcon
    obtain ⟨t', h1, _⟩ := this.2 (by unfold Rejected totalSec; simp only; omega)
    rw [h1] at h; cases h
  · intro h
    exact this.1 (by unfold Rejected totalSec; simp only; omega)

/-- The refusal does occur: one day back from midnight. -/
example : Valid ⟨2000, 0, 5, 0, 0, .noLeap, .fixed⟩ ∧
    addSeconds ⟨2000, 0, 5, 0, 0, .noLeap, .fixed⟩ (-86400) = .error .logic := by decide +kernel

/-- C01 is false for the standard calendar: 29 February 2004 plus twelve months is accepted as the
non-existent 29 February 2005. -/
theorem C01_standard_false : ∃ t t' : Time, t.cal = .standard ∧ ValidFor codeLeap t ∧
    addMonthsOp t 12 = .ok t' ∧ ¬ ValidFor codeLeap t' ∧ ¬ ValidFor gregorianLeap t' :=
  ⟨⟨2004, 1, 28, 0, 0, .standard, .fixed⟩, ⟨2005, 1, 28, 0, 0, .standard, .fixed⟩, by decide +kernel⟩

/-- C01, both calendars, partial: the result is valid (for the code's leap years) provided the month sum
does not leave the year (missing: month carries in the standard calendar, false by `C01_standard_false`). -/
theorem C01_add_valid_any_calendar_partial (t d t' : Time) (hm0 : 0 ≤ t.month + d.month)
    (hm1 : t.month + d.month ≤ 11) (h : addTime t d = .ok t') :
    ValidFor (if t.cal = .standard then codeLeap else fun _ => false) t' := by
  unfold addTime at h
  split_ifs at h
  have hc : t.cal = .noLeap ∨ t.cal = .standard := by
    by_contra hcon
    unfold normalize at h
    rw [if_neg hcon] at h; cases h
  have := (normalize_any _ (by exact hc) (by exact hm0) (by exact hm1)).1 t' h
  rcases hc with hc | hc
  · simp only [hc] at this ⊢
    have e : leapRule Calendar.noLeap = fun _ => false := by funext y; rfl
    rw [e] at this
    simpa using this
  · simp only [hc] at this ⊢
    have e : leapRule Calendar.standard = codeLeap := by funext y; exact leapRule_standard y
    rw [e] at this
    simpa using this

example : ∃ t t' : Time, t.cal = .standard ∧ 0 ≤ t.month + exD.month ∧ t.month + exD.month ≤ 11 ∧
    addTime t exD = .ok t' :=
  ⟨⟨2004, 1, 28, 0, 0, .standard, .fixed⟩, ⟨2004, 3, 9, 13600, 1, .standard, .fixed⟩, by decide +kernel⟩

/-- C01, both calendars: adding days, hours, seconds never throws for non-negative amounts. -/
theorem C01_nonneg_add_succeeds_any_calendar (t d : Time)
    (hc : t.cal = .noLeap ∨ t.cal = .standard) (hd : d.typ = .delta)
    (hm0 : 0 ≤ t.month + d.month) (hm1 : t.month + d.month ≤ 11)
    (hs : 0 ≤ t.second + d.second) (hu : 0 ≤ t.usec + d.usec) : ∃ t', addTime t d = .ok t' := by
  unfold addTime
  rw [if_neg (by simp [hd])]
  exact (normalize_any _ (by exact hc) (by exact hm0) (by exact hm1)).2 hs hu

example : exD.typ = .delta ∧ (0 : Int) ≤ 1 + exD.month ∧ 1 + exD.month ≤ 11 := by decide

/-! ### C02 -/

/-- C02: in the no-leap calendar every successful addition of days, seconds and microseconds (of either
sign, from any start) moves elapsed time by exactly the duration. -/
theorem C02_add_exact (t d t' : Time) (hc : t.cal = .noLeap) (hy : d.year = 0) (hm : d.month = 0)
    (h : addTime t d = .ok t') :
    elapsedUs t' = elapsedUs t + (d.day * 86400 + d.second) * 1000000 + d.usec := by
  unfold addTime at h
  split_ifs at h
  rw [(normalize_noLeap_ok _ t' (by exact hc) h).2.1]
  unfold elapsedUs elapsedDays
  simp only [hy, hm]
  ring_nf

example : ∃ t', addTime exT exD = .ok t' ∧ exD.year = 0 ∧ exD.month = 0 :=
  ⟨⟨2000, 1, 10, 13600, 0, .noLeap, .fixed⟩, by decide +kernel⟩

/-- C02: from a valid time, adding any non-negative duration of days, seconds and microseconds succeeds and
is exact; calendar and type are kept. -/
theorem C02_add_total_exact (t d : Time) (hv : Valid t) (hd : d.typ = .delta) (hy : d.year = 0)
    (hm : d.month = 0) (hs : 0 ≤ d.second) (hu : 0 ≤ d.usec) :
    ∃ t', addTime t d = .ok t' ∧ Valid t' ∧ t'.typ = t.typ ∧
      elapsedUs t' = elapsedUs t + (d.day * 86400 + d.second) * 1000000 + d.usec := by
  obtain ⟨t', h1, h2⟩ := C01_nonneg_add_succeeds t d hv hd (by omega) hs hu
  refine ⟨t', h1, h2, ?_, C02_add_exact t d t' hv.1 hy hm h1⟩
  unfold addTime at h1
  split_ifs at h1
  exact (normalize_cal _ _ h1).2

example : Valid exT ∧ exD.typ = .delta ∧ exD.year = 0 ∧ exD.month = 0 := by decide

/-- C02: `AddDays` with any signed count never fails from a valid time and is exact. -/
theorem C02_addDays_exact (t : Time) (n : Int) (hv : Valid t) :
    ∃ t', addDays t n = .ok t' ∧ Valid t' ∧ elapsedUs t' = elapsedUs t + n * 86400 * 1000000 := by
  obtain ⟨hc, v1, v2, v3, v4, v5, v6, v7, v8⟩ := hv
  obtain ⟨t', h1, h2, h3, _⟩ := (normalize_noLeap { t with day := t.day + n } hc (by simp only; omega)).2 (by
    unfold Rejected totalSec; simp only; omega)
  refine ⟨t', h1, h2, ?_⟩
  rw [h3]; unfold elapsedUs elapsedDays; simp only; ring

example : Valid exT := by decide

/-- C02: `AddYears` with any signed count never fails from a valid time and moves by 365 days per year. -/
theorem C02_addYears_exact (t : Time) (n : Int) (hv : Valid t) :
    ∃ t', addYears t n = .ok t' ∧ Valid t' ∧ elapsedUs t' = elapsedUs t + n * 365 * 86400 * 1000000 := by
  obtain ⟨hc, v1, v2, v3, v4, v5, v6, v7, v8⟩ := hv
  obtain ⟨t', h1, h2, h3, _⟩ := (normalize_noLeap { t with year := t.year + n } hc (by simp only; omega)).2 (by
    unfold Rejected totalSec; simp only; omega)
  refine ⟨t', h1, h2, ?_⟩
  rw [h3]; unfold elapsedUs elapsedDays; simp only; ring

/-- C02, both calendars: adding `n` days is `n` applications of "the next day", the time of day is kept. -/
theorem C02_addDays_is_n_next_days (t : Time) (n : ℕ) (hc : t.cal = .noLeap ∨ t.cal = .standard)
    (hv : ValidFor (if t.cal = .standard then codeLeap else fun _ => false) t) :
    ∃ t', addDays t n = .ok t' ∧ t'.second = t.second ∧ t'.usec = t.usec ∧
      (t'.year, t'.month, t'.day) =
        (nextDate (if t.cal = .standard then codeLeap else fun _ => false))^[n] (t.year, t.month, t.day) := by
  have e : (if t.cal = .standard then codeLeap else fun _ => false) = leapRule t.cal := by
    rcases hc with hc | hc
    · rw [hc]; funext y; rfl
    · rw [hc]; funext y; rw [if_pos rfl]; exact (leapRule_standard y).symm
  rw [e] at hv ⊢
  exact addDays_iter t n hc hv

example : ValidFor codeLeap ⟨2004, 1, 28, 0, 0, .standard, .fixed⟩ := by decide

/-- C02 is not total for negative durations: stepping back one microsecond from five seconds past midnight
throws, because the carry is computed from the wrong field. -/
theorem C02_negative_usec_false : ∃ t d : Time, Valid t ∧ d.typ = .delta ∧ d.year = 0 ∧ d.month = 0 ∧
    d.day = 0 ∧ d.second = 0 ∧ d.usec = -1 ∧ addTime t d = .error .logic :=
  ⟨⟨2000, 0, 0, 5, 0, .noLeap, .fixed⟩, ⟨0, 0, 0, 0, -1, .noLeap, .delta⟩, by decide +kernel⟩

/-! ### C03 -/

/-- C03: for times of the same calendar and type exactly one of `<`, `==`, `>` holds. -/
theorem C03_trichotomy (a b : Time) (ht : a.typ = b.typ) (hc : a.cal = b.cal) :
    (ltOp a b = .ok true ∧ eqOp a b = false ∧ gtOp a b = .ok false) ∨
    (ltOp a b = .ok false ∧ eqOp a b = true ∧ gtOp a b = .ok false) ∨
    (ltOp a b = .ok false ∧ eqOp a b = false ∧ gtOp a b = .ok true) := by
  have hE := eqOp_iff a b
  have irr : ∀ x : Time, ¬ lexLt x x := by intro x; unfold lexLt; omega
  have asym : lexLt a b → ¬ lexLt b a := by unfold lexLt; omega
  have tri := lexLt_trichotomy a b ht hc
  have hne : lexLt a b ∨ lexLt b a → a ≠ b := by
    intro h e; subst e; exact irr a (h.elim id id)
  rcases ltOp_spec a b ht hc with ⟨h1, h2⟩ | ⟨h1, h2⟩ <;>
    rcases gtOp_spec a b ht hc with ⟨g1, g2⟩ | ⟨g1, g2⟩
  · exact absurd g2 (asym h2)
  · left; refine ⟨h1, ?_, g1⟩
    rw [← Bool.not_eq_true, hE]; exact hne (Or.inl h2)
  · right; right; refine ⟨h1, ?_, g1⟩
    rw [← Bool.not_eq_true, hE]; exact hne (Or.inr g2)
  · right; left; refine ⟨h1, ?_, g1⟩
    rw [hE]
    rcases tri with t | t | t
    · exact absurd t h2
    · exact t
    · exact absurd t g2

/-- C03: `==` is equality of all fields. -/
theorem C03_eq (a b : Time) : eqOp a b = true ↔ a = b := eqOp_iff a b

/-- C03: `<` is transitive. -/
theorem C03_lt_trans (a b c : Time) (h1 : ltOp a b = .ok true) (h2 : ltOp b c = .ok true) :
    ltOp a c = .ok true := by
  have aux : ∀ x y : Time, ltOp x y = .ok true → x.typ = y.typ ∧ x.cal = y.cal := by
    intro x y h
    by_cases h3 : x.typ = y.typ
    · by_cases h4 : x.cal = y.cal
      · exact ⟨h3, h4⟩
      · unfold ltOp at h; rw [if_neg (not_not.mpr h3), if_pos h4] at h; cases h
    · unfold ltOp at h; rw [if_pos h3] at h; cases h
  have ⟨t1, c1⟩ := aux a b h1
  have ⟨t2, c2⟩ := aux b c h2
  have l1 : lexLt a b := by
    rcases ltOp_spec a b t1 c1 with ⟨_, h⟩ | ⟨h, _⟩
    · exact h
    · rw [h] at h1; cases h1
  have l2 : lexLt b c := by
    rcases ltOp_spec b c t2 c2 with ⟨_, h⟩ | ⟨h, _⟩
    · exact h
    · rw [h] at h2; cases h2
  have l3 : lexLt a c := by unfold lexLt at *; omega
  rcases ltOp_spec a c (t1.trans t2) (c1.trans c2) with ⟨h, _⟩ | ⟨_, h⟩
  · exact h
  · exact absurd l3 h

example : ltOp ⟨1, 2, 3, 4, 5, .noLeap, .fixed⟩ ⟨1, 2, 4, 0, 0, .noLeap, .fixed⟩ = .ok true ∧
    ltOp ⟨1, 2, 4, 0, 0, .noLeap, .fixed⟩ ⟨1, 3, 0, 0, 0, .noLeap, .fixed⟩ = .ok true := by decide

/-- C03: `a > b` is `b < a`, and `<=`, `>=` are the negations of `>` and `<`. -/
theorem C03_derived_ops (a b : Time) (ht : a.typ = b.typ) (hc : a.cal = b.cal) :
    gtOp a b = ltOp b a ∧
    (leOp a b = .ok true ↔ ¬ gtOp a b = .ok true) ∧ (leOp a b = .ok false ↔ gtOp a b = .ok true) ∧
    (geOp a b = .ok true ↔ ¬ ltOp a b = .ok true) ∧ (geOp a b = .ok false ↔ ltOp a b = .ok true) := by
  have h1 := ltOp_spec b a ht.symm hc.symm
  have h2 := gtOp_spec a b ht hc
  have h3 := ltOp_spec a b ht hc
  unfold leOp geOp
  refine ⟨?_, ?_⟩
  · rcases h1 with ⟨x, hx⟩ | ⟨x, hx⟩ <;> rcases h2 with ⟨y, hy⟩ | ⟨y, hy⟩ <;>
      first | exact absurd hx hy | exact absurd hy hx | rw [x, y]
  · rcases h2 with ⟨y, -⟩ | ⟨y, -⟩ <;> rcases h3 with ⟨x, -⟩ | ⟨x, -⟩ <;> rw [x, y] <;> simp [Except.map]

/-- C03: times of different kinds or calendars are never ordered: the comparison throws. -/
theorem C03_mismatch_throws (a b : Time) (h : a.typ ≠ b.typ ∨ a.cal ≠ b.cal) :
    (∃ e, ltOp a b = .error e) ∧ (∃ e, gtOp a b = .error e) := by
  unfold ltOp gtOp
  by_cases ht : a.typ = b.typ
  · have hc : a.cal ≠ b.cal := h.resolve_left (by simp [ht])
    simp [ht, hc]
  · simp [ht]

example : exT.typ ≠ exD.typ ∨ exT.cal ≠ exD.cal := by decide

/-- C03: for valid no-leap times of one type, `<` is the order of elapsed time and `==` is equality of
elapsed time. -/
theorem C03_order_is_elapsed_time (a b : Time) (ha : Valid a) (hb : Valid b) (ht : a.typ = b.typ) :
    ltOp a b = .ok (decide (elapsedUs a < elapsedUs b)) ∧
    gtOp a b = .ok (decide (elapsedUs a > elapsedUs b)) ∧
    eqOp a b = decide (elapsedUs a = elapsedUs b) := by
  have hc : a.cal = b.cal := ha.1.trans hb.1.symm
  have e1 := lexLt_iff_elapsed ha hb ht
  have e2 := lexLt_iff_elapsed hb ha ht.symm
  refine ⟨?_, ?_, ?_⟩
  · rcases ltOp_spec a b ht hc with ⟨x, hx⟩ | ⟨x, hx⟩ <;> rw [x] <;> simp [← e1, hx]
  · rcases gtOp_spec a b ht hc with ⟨x, hx⟩ | ⟨x, hx⟩ <;> rw [x] <;> simp [← e2, hx]
  · rw [Bool.eq_iff_iff, eqOp_iff, decide_eq_true_iff]
    constructor
    · rintro rfl; rfl
    · intro h
      rcases lexLt_trichotomy a b ht hc with t | t | t
      · rw [e1] at t; omega
      · exact t
      · rw [e2] at t; omega

example : Valid exT ∧ Valid ⟨2000, 1, 10, 13600, 0, .noLeap, .fixed⟩ := by decide

/-! ### C04 -/

/-- C04: `GetSeconds` is the elapsed time in seconds and `a - b` the difference of elapsed times. -/
theorem C04_sub_is_elapsed_difference (a b : Time) (ha : Valid a) (hb : Valid b) :
    sub a b = .ok (((elapsedUs a - elapsedUs b : Int) : ℚ) / 1000000) ∧
    getSeconds a = .ok ((elapsedUs a : ℚ) / 1000000) :=
  ⟨sub_eq a b ha hb, getSeconds_eq a ha⟩

example : Valid exT := by decide

/-- C04: `a - a = 0`, antisymmetry and additivity of differences. -/
theorem C04_sub_laws (a b c : Time) (ha : Valid a) (hb : Valid b) (hc : Valid c) :
    sub a a = .ok 0 ∧
    (∃ x, sub a b = .ok x ∧ sub b a = .ok (-x)) ∧
    (∃ x y, sub a b = .ok x ∧ sub b c = .ok y ∧ sub a c = .ok (x + y)) := by
  rw [sub_eq a a ha ha, sub_eq a b ha hb, sub_eq b a hb ha, sub_eq b c hb hc, sub_eq a c ha hc]
  refine ⟨?_, ⟨_, rfl, ?_⟩, ⟨_, _, rfl, rfl, ?_⟩⟩ <;> congr 1 <;> push_cast <;> ring

/-- C04: adding a duration and subtracting the start gives the duration back, in seconds. -/
theorem C04_sub_recovers_duration (t d t' : Time) (hv : Valid t) (hy : d.year = 0) (hm : d.month = 0)
    (h : addTime t d = .ok t') :
    sub t' t = .ok ((d.day : ℚ) * 86400 + d.second + (d.usec : ℚ) / 1000000) := by
  rw [sub_eq t' t (C01_add_result_valid_noLeap t d t' hv.1 h) hv, C02_add_exact t d t' hv.1 hy hm h]
  congr 1; push_cast; ring

example : ∃ t', Valid exT ∧ addTime exT exD = .ok t' ∧ exD.year = 0 ∧ exD.month = 0 :=
  ⟨⟨2000, 1, 10, 13600, 0, .noLeap, .fixed⟩, by decide +kernel⟩

/-- C04: subtraction is not available outside the no-leap calendar: it throws. -/
theorem C04_standard_throws (a b : Time) (h : a.cal ≠ .noLeap) :
    sub a b = .error .badCalendar ∧ getSeconds a = .error .badCalendar := by
  unfold sub getSeconds; rw [if_neg h, if_neg h]; exact ⟨rfl, rfl⟩

example : (⟨0, 0, 0, 0, 0, .standard, .fixed⟩ : Time).cal ≠ .noLeap := by decide

/-! ### C07 -/

/-- C07 is false: the standard calendar accepts 29 February 1900 (not a Gregorian leap year) and rejects
29 February 2000 (a Gregorian leap year). -/
theorem C07_gregorian_false :
    (∃ t : Time, t.cal = .standard ∧ verify t = .ok () ∧ ¬ ValidFor gregorianLeap t) ∧
    (∃ t : Time, t.cal = .standard ∧ ValidFor gregorianLeap t ∧ 0 ≤ t.year ∧ t.year ≤ 9999 ∧
      verify t = .error .outOfRange) :=
  ⟨⟨⟨1900, 1, 28, 0, 0, .standard, .fixed⟩, by decide +kernel⟩,
   ⟨⟨2000, 1, 28, 0, 0, .standard, .fixed⟩, by decide +kernel⟩⟩

/-- C07 partial: outside century years a standard-calendar time with year 0..9999 is accepted exactly when it
is a valid Gregorian time (missing: century years, where the rule differs). -/
theorem C07_gregorian_partial (t : Time) (hc : t.cal = .standard) (hy : ¬ (100 : Int) ∣ t.year) :
    verify t = .ok () ↔ ValidFor gregorianLeap t ∧ 0 ≤ t.year ∧ t.year ≤ 9999 := by
  have hl : leapRule t.cal t.year = gregorianLeap t.year := by
    rw [hc, leapRule_standard]
    unfold codeLeap gregorianLeap
    have h10 : ¬ (1000 : Int) ∣ t.year := by omega
    simp [hy, h10]
  unfold verify ValidFor
  simp only [hc, or_true, if_true]
  rw [hc] at hl
  rw [hl]
  by_cases hm : 0 ≤ t.month ∧ t.month ≤ 11
  · rw [dpm_eq _ _ hm.1 hm.2]
    split_ifs <;> simp only [true_iff, false_iff] <;> omega
  · constructor
    · intro h; split_ifs at h <;> omega
    · intro h; omega

example : ¬ (100 : Int) ∣ 2004 ∧ ValidFor gregorianLeap ⟨2004, 1, 28, 0, 0, .standard, .fixed⟩ := by decide

end Verif.TimeObj
