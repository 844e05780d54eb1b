/-
Properties C05, C06, C62, C63: times and durations as text.
-/
import Verif.Time.StringLemmas
import Verif.Time.Props

namespace Verif.TimeObj

/-- The leap-year rule that goes with a calendar: none, or the code's own rule. -/
def rule (c : Calendar) : Int → Bool := if c = .standard then codeLeap else fun _ => false

theorem rule_eq (c : Calendar) (hc : c = .noLeap ∨ c = .standard) : rule c = leapRule c := by
  unfold rule
  rcases hc with hc | hc
  · subst hc; funext y; rfl
  · subst hc; funext y; rw [if_pos rfl]; exact (leapRule_standard y).symm

/-- C05: writing a valid time in the long format and reading it back (into any object of the same
calendar) gives the same time; both calendars, years 0..9999. -/
theorem C05_long_round_trip (t r : Time) (hc : t.cal = .noLeap ∨ t.cal = .standard)
    (hv : ValidFor (rule t.cal) t) (hy : 0 ≤ t.year ∧ t.year ≤ 9999) (ht : t.typ = .fixed)
    (hr : r.cal = t.cal ∧ r.typ = .fixed) :
    ∃ s, toLongString t = .ok s ∧ fromLongString r s = .ok t :=
  fromLong_toLong t r hc (by rw [← rule_eq _ hc]; exact hv) hy ht hr

example : ValidFor (rule .standard) ⟨2004, 1, 28, 86399, 17, .standard, .fixed⟩ := by decide
example : toLongString ⟨2004, 1, 28, 86399, 17, .standard, .fixed⟩ = .ok "2004-02-29-86399-000017".toList := by
  decide +kernel

/-- C05: reading any text in the long format either fails or yields a time within its calendar ranges. -/
theorem C05_long_read_valid (r t : Time) (s : List Char) (h : fromLongString r s = .ok t) :
    ValidFor (rule t.cal) t ∧ 0 ≤ t.year ∧ t.year ≤ 9999 ∧ t.cal = r.cal ∧ t.typ = r.typ := by
  unfold fromLongString at h
  split_ifs at h
  simp only at h
  split at h
  · rename_i u hu
    simp only [Except.ok.injEq] at h
    rw [h] at hu
    have e1 : t.cal = r.cal := by rw [← h]
    have e2 : t.typ = r.typ := by rw [← h]
    unfold verify at hu
    simp only at hu
    split_ifs at hu with hcal h1 h2 h3 h4 h5
    rw [rule_eq _ hcal]
    rw [dpm_eq _ _ (by omega) (by omega)] at h3
    refine ⟨?_, by omega, by omega, e1, e2⟩
    unfold ValidFor
    omega
  · cases h

example : ∃ t, fromLongString (zeroTime) "1234-05-06-00007-000008".toList = .ok t :=
  ⟨⟨1234, 4, 5, 7, 8, .noLeap, .fixed⟩, by decide +kernel⟩

/-- C06: a normalised duration with non-negative fields, not all zero, written in the free format and read
back (by any object of that calendar) is the same duration. -/
theorem C06_free_round_trip (t r : Time) (hc : t.cal = .noLeap ∨ t.cal = .standard) (hy : 0 ≤ t.year)
    (hv : ValidFor (rule t.cal) t) (hz : isZero t = false) (ht : t.typ = .delta) (hr : r.cal = t.cal) :
    fromFormattedString r (toFreeString t) = .ok t := by
  have hn := normalize_of_valid t hc (by rw [← rule_eq _ hc]; exact hv)
  obtain ⟨v1, v2, v3, v4, v5, v6, v7, v8⟩ := hv
  rw [fromFormatted_toFree t r hy v1 v3 v5 v7 hz, hr, ← ht]
  exact hn

example : let t : Time := ⟨2, 0, 20, 0, 5, .noLeap, .delta⟩
    ValidFor (rule t.cal) t ∧ isZero t = false ∧ toFreeString t = "2y20d5u".toList := by decide +kernel

/-- C06, durations that are not normalised: reading back always succeeds and keeps the length of the
duration (in a 365-day calendar, months taken from January on). -/
theorem C06_free_round_trip_length (t r : Time) (hc : r.cal = .noLeap) (h1 : 0 ≤ t.year) (h2 : 0 ≤ t.month)
    (h3 : 0 ≤ t.day) (h4 : 0 ≤ t.second) (h5 : 0 ≤ t.usec) (hz : isZero t = false) :
    ∃ t', fromFormattedString r (toFreeString t) = .ok t' ∧ t'.typ = .delta ∧ Valid t' ∧
      elapsedUs t' = elapsedUs t := by
  rw [fromFormatted_toFree t r h1 h2 h3 h4 h5 hz]
  obtain ⟨t', e1, e2, e3, e4⟩ := (normalize_noLeap ⟨t.year, t.month, t.day, t.second, t.usec, r.cal, .delta⟩ hc
    h5).2 (by unfold Rejected totalSec; simp only; omega)
  exact ⟨t', e1, e4, e2, by rw [e3]; rfl⟩

example : isZero ⟨0, 0, 45, 0, 0, .noLeap, .delta⟩ = false := by decide

/-- C06 fails for durations that are not normalised: 45 days set through `SetDay` come back as one month
and fourteen days. -/
theorem C06_free_round_trip_false : ∃ t t' : Time, t.cal = .noLeap ∧ t.typ = .delta ∧ 0 ≤ t.day ∧
    fromFormattedString t (toFreeString t) = .ok t' ∧ t' ≠ t :=
  ⟨⟨0, 0, 45, 0, 0, .noLeap, .delta⟩, ⟨0, 1, 14, 0, 0, .noLeap, .delta⟩, by decide +kernel⟩

/-- C62: a duration of `n ≤ 30` whole days written `<n>d` advances every valid time by exactly `n` days
(missing: longer durations, for which it is false). -/
theorem C62_day_duration_partial (t r : Time) (n : Int) (hv : Valid t) (hr : r.cal = .noLeap)
    (h0 : 0 ≤ n) (h1 : n ≤ 30) :
    ∃ d t', fromFormattedString r (fmtInt n ++ ['d']) = .ok d ∧ addTime t d = .ok t' ∧
      elapsedUs t' = elapsedUs t + n * 86400 * 1000000 := by
  have hd : normalize ⟨0, 0, n, 0, 0, r.cal, .delta⟩ = .ok ⟨0, 0, n, 0, 0, r.cal, .delta⟩ := by
    apply normalize_of_valid _ (Or.inl (by exact hr))
    unfold ValidFor monthLength
    simp; omega
  refine ⟨⟨0, 0, n, 0, 0, r.cal, .delta⟩, ?_⟩
  obtain ⟨t', e1, _, _, e3⟩ := C02_add_total_exact t ⟨0, 0, n, 0, 0, r.cal, .delta⟩ hv rfl rfl rfl
    (le_refl _) (le_refl _)
  exact ⟨t', by rw [fromFormatted_days n h0, hd], e1, by rw [e3]; ring⟩

example : Valid exT := by decide

/-- C62 is false beyond 30 days: the duration `45d` added to 1 February moves time by 42 days, because the
duration itself is stored as one month and fourteen days. -/
theorem C62_day_duration_false : ∃ t d t' : Time, Valid t ∧
    fromFormattedString (zeroTime .noLeap .delta) "45d".toList = .ok d ∧ addTime t d = .ok t' ∧
    elapsedUs t' = elapsedUs t + 42 * 86400 * 1000000 :=
  ⟨⟨2000, 1, 0, 0, 0, .noLeap, .fixed⟩, ⟨0, 1, 14, 0, 0, .noLeap, .delta⟩,
    ⟨2000, 2, 14, 0, 0, .noLeap, .fixed⟩, by decide +kernel⟩

theorem seconds_add (t r : Time) (n : Int) (hv : Valid t) (hr : r.cal = .noLeap)
    (h0 : 0 ≤ n) (h1 : n < 31 * 86400) :
    ∃ d t', normalize ⟨0, 0, 0, n, 0, r.cal, .delta⟩ = .ok d ∧ addTime t d = .ok t' ∧
      elapsedUs t' = elapsedUs t + n * 1000000 := by
  obtain ⟨d, e1, e2, e3, e4⟩ := (normalize_noLeap ⟨0, 0, 0, n, 0, r.cal, .delta⟩ hr (le_refl _)).2 (by
    unfold Rejected totalSec; simp only; omega)
  have hd : d.year = 0 ∧ d.month = 0 := by
    obtain ⟨_, v1, v2, v3, v4, v5, v6, v7, v8⟩ := e2
    unfold elapsedUs at e3
    rw [elapsedDays_valid v1 v2, elapsedDays_valid (by simp) (by simp)] at e3
    have hb := daysBefore_bound v1 v2
    simp only [daysBefore_0] at e3 v4
    by_cases hm : d.month = 0
    · refine ⟨?_, hm⟩
      rw [hm] at e3; simp only [daysBefore_0] at e3; rw [hm] at v4
      have : monthLength false 0 = 31 := rfl
      omega
    · exfalso
      have h31 : 31 ≤ daysBefore d.month := by
        have := daysBefore_lt (m := 0) (n := d.month) (by omega) (by omega) v2
        have e31 : monthLength false 0 = 31 := rfl
        rw [daysBefore_0] at this
        omega
      omega
  obtain ⟨t', f1, f2, f3, f4⟩ := C02_add_total_exact t d hv e4 hd.1 hd.2 e2.2.2.2.2.2.1 e2.2.2.2.2.2.2.2.1
  refine ⟨d, t', ?_, f1, ?_⟩
  · rw [e1]
  · rw [f4]
    have e5 : elapsedUs d = (d.day * 86400 + d.second) * 1000000 + d.usec := by
      unfold elapsedUs elapsedDays; rw [hd.1, hd.2]; simp [daysBefore_0]
    rw [e3] at e5
    have e6 : elapsedUs ⟨0, 0, 0, n, 0, r.cal, .delta⟩ = n * 1000000 := by
      unfold elapsedUs elapsedDays; simp [daysBefore_0]
    rw [e6] at e5
    omega

/-- C63: the display format `YYYY-MM-DD hh:mm:ss[.uuuuuu]` can be read back without loss. -/
theorem C63_display_round_trip (t r : Time) (hc : t.cal = .noLeap ∨ t.cal = .standard)
    (hv : ValidFor (rule t.cal) t) (hy : 0 ≤ t.year) (ht : t.typ = .fixed) (hr : r.cal = t.cal) :
    ∃ s, toStringOp t = .ok s ∧ fromFormattedString r s = .ok t :=
  fromFormatted_toString t r hc (by rw [← rule_eq _ hc]; exact hv) hy ht hr

/-- C62: a duration given in seconds, up to 31 days, is exact on every valid time. -/
theorem C62_second_duration_partial (t r : Time) (n : Int) (hv : Valid t) (hr : r.cal = .noLeap)
    (h0 : 0 ≤ n) (h1 : n < 31 * 86400) :
    ∃ d t', fromFormattedString r (fmtInt n ++ ['s']) = .ok d ∧ addTime t d = .ok t' ∧
      elapsedUs t' = elapsedUs t + n * 1000000 := by
  rw [fromFormatted_seconds n h0]; exact seconds_add t r n hv hr h0 h1

/-- C62: a duration given as hours, minutes and seconds is exact on every valid time (below 31 days). -/
theorem C62_hms_duration_partial (t r : Time) (h m s : Int) (hv : Valid t) (hr : r.cal = .noLeap)
    (h1 : 0 ≤ h) (h2 : 0 ≤ m) (h3 : 0 ≤ s) (hlt : 3600 * h + 60 * m + s < 31 * 86400) :
    ∃ d t', fromFormattedString r (fmtInt h ++ 'h' :: (fmtInt m ++ 'm' :: (fmtInt s ++ ['s']))) = .ok d ∧
      addTime t d = .ok t' ∧ elapsedUs t' = elapsedUs t + (3600 * h + 60 * m + s) * 1000000 := by
  rw [fromFormatted_hms h m s h1 h2 h3]; exact seconds_add t r _ hv hr (by omega) hlt

example : toStringOp exT = .ok "1999-12-31 23:59:59.999999".toList ∧ ValidFor (rule exT.cal) exT := by
  decide +kernel

/-- C63: the short format `YYYY-MM-DD-SSSSS` can be read back up to the microseconds it omits. -/
theorem C63_short_round_trip (t r : Time) (hc : t.cal = .noLeap ∨ t.cal = .standard)
    (hv : ValidFor (rule t.cal) t) (hy : 0 ≤ t.year) (ht : t.typ = .fixed) (hr : r.cal = t.cal) :
    ∃ s, toShortString t = .ok s ∧ fromFormattedString r s = .ok { t with usec := 0 } :=
  fromFormatted_toShort t r hc (by rw [← rule_eq _ hc]; exact hv) hy ht hr

/-- C63: hence two valid times of a calendar with the same short text (used in output file names) agree to
the second. -/
theorem C63_short_injective (a b : Time) (s : List Char) (hc : a.cal = .noLeap ∨ a.cal = .standard)
    (hab : b.cal = a.cal) (ha : ValidFor (rule a.cal) a) (hb : ValidFor (rule b.cal) b)
    (ya : 0 ≤ a.year) (yb : 0 ≤ b.year) (ta : a.typ = .fixed) (tb : b.typ = .fixed)
    (sa : toShortString a = .ok s) (sb : toShortString b = .ok s) :
    { a with usec := 0 } = ({ b with usec := 0 } : Time) := by
  obtain ⟨s1, h1, h2⟩ := C63_short_round_trip a a hc ha ya ta rfl
  obtain ⟨s2, h3, h4⟩ := C63_short_round_trip b a (by rw [hab]; exact hc) hb yb tb hab.symm
  rw [sa] at h1; rw [sb] at h3
  simp only [Except.ok.injEq] at h1 h3
  subst h1; rw [← h3, h2] at h4
  simpa using h4

example : toShortString exT = .ok "1999-12-31-86399".toList := by decide +kernel

/-- C63: a bare date, and a date followed by hours and minutes, are read as the time they denote. -/
theorem C63_date_and_minutes_read (t r : Time) (h m : Int) (hc : t.cal = .noLeap ∨ t.cal = .standard)
    (hv : ValidFor (rule t.cal) t) (hy : 0 ≤ t.year) (ht : t.typ = .fixed) (hr : r.cal = t.cal)
    (h0 : 0 ≤ h) (m0 : 0 ≤ m) (hs : t.second = 3600 * h + 60 * m) (hu : t.usec = 0) :
    ∃ d, toDateString t = .ok d ∧
      fromFormattedString r (d ++ ' ' :: (fmtPad 2 h ++ ':' :: fmtPad 2 m)) = .ok t ∧
      (t.second = 0 → fromFormattedString r d = .ok t) := by
  have hv' : ValidFor (leapRule t.cal) t := by rw [← rule_eq _ hc]; exact hv
  obtain ⟨d, d1, d2⟩ := fromFormatted_minutes t r h m hc hv' hy ht hr h0 m0 hs hu
  refine ⟨d, d1, d2, ?_⟩
  intro hz
  obtain ⟨d', e1, e2⟩ := fromFormatted_date t r hc hv' hy ht hr hz hu
  rw [d1] at e1
  simp only [Except.ok.injEq] at e1
  rw [e1]; exact e2

example : ∃ t : Time, ValidFor (rule t.cal) t ∧ t.cal = .noLeap ∧ t.second = 3600 * 7 + 60 * 5 ∧ t.usec = 0 :=
  ⟨⟨2003, 4, 17, 25500, 0, .noLeap, .fixed⟩, by decide, rfl, rfl, rfl⟩

/-- C63 stops there: the long format is *not* readable by the general parser. -/
theorem C63_long_not_general : ∃ t : Time, Valid t ∧ ∃ s, toLongString t = .ok s ∧
    fromFormattedString t s = .error .badString :=
  ⟨exT, by decide, "1999-12-31-86399-999999".toList, by decide +kernel⟩

end Verif.TimeObj
