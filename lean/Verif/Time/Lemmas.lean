import Verif.Time.Spec
import Mathlib.Tactic.Ring
import Mathlib.Tactic.Linarith
import Mathlib.Tactic.NormNum
import Mathlib.Tactic.SplitIfs
import Mathlib.Tactic.IntervalCases
import Mathlib.Logic.Function.Iterate

namespace Verif.TimeObj

theorem dpm_eq (leap : Bool) (m : Int) (h0 : 0 ≤ m) (h1 : m ≤ 11) :
    dpm leap m = monthLength leap m := by
  interval_cases m <;> cases leap <;> decide

theorem daysBefore_succ (m : Int) (h0 : 0 ≤ m) (h1 : m < 11) :
    daysBefore (m + 1) = daysBefore m + dpm false m := by
  interval_cases m <;> decide

/-- Elapsed days of the loop state. -/
def Date.el (s : Date) : Int := s.y * 365 + daysBefore s.m + s.d

theorem leapRule_noLeap (y : Int) : leapRule .noLeap y = false := by
  simp [leapRule]

theorem daysBefore_11 : daysBefore 11 = 334 := by decide
theorem daysBefore_0 : daysBefore 0 = 0 := by decide
theorem dpm_11 (b : Bool) : dpm b 11 = 31 := by cases b <;> decide

theorem addMonths_noLeap (s : Date) (hl : s.leap = false) (h0 : 0 ≤ s.m) (h1 : s.m ≤ 11) :
    let r := addMonths .noLeap s
    r.leap = false ∧ 0 ≤ r.m ∧ r.m ≤ 11 ∧ r.d < dpm false r.m ∧ r.el = s.el ∧ (0 ≤ s.d → 0 ≤ r.d) := by
  fun_induction addMonths .noLeap s with
  | case1 s hd ih =>
    simp only [hl] at hd ih ⊢
    by_cases hm : s.m = 11
    · have hn : nextMonth .noLeap s = ⟨false, s.y + 1, 0, s.d⟩ := by
        unfold nextMonth; rw [if_pos (by omega), leapRule_noLeap]
      simp only [hn] at ih ⊢
      obtain ⟨i1, i2, i3, i4, i5, i6⟩ := ih trivial (by omega) (by omega)
      refine ⟨i1, i2, i3, i4, ?_, fun h => i6 (by omega)⟩
      rw [i5]; simp only [Date.el, hm, daysBefore_11, daysBefore_0, dpm_11]; omega
    · have hn : nextMonth .noLeap s = ⟨false, s.y, s.m + 1, s.d⟩ := by
        unfold nextMonth; rw [if_neg (by omega), hl]
      simp only [hn] at ih ⊢
      obtain ⟨i1, i2, i3, i4, i5, i6⟩ := ih trivial (by omega) (by omega)
      refine ⟨i1, i2, i3, i4, ?_, fun h => i6 (by omega)⟩
      have := daysBefore_succ s.m h0 (by omega)
      rw [i5]; simp only [Date.el]; omega
  | case2 s hd =>
    simp only [hl] at hd
    exact ⟨hl, h0, h1, by omega, rfl, id⟩

theorem subMonths_noLeap (s : Date) (hl : s.leap = false) (h0 : 0 ≤ s.m) (h1 : s.m ≤ 11) :
    let r := subMonths .noLeap s
    r.leap = false ∧ 0 ≤ r.m ∧ r.m ≤ 11 ∧ 0 ≤ r.d ∧ r.el = s.el := by
  fun_induction subMonths .noLeap s with
  | case1 s hd ih =>
    by_cases hm : s.m = 0
    · have hn : prevMonth .noLeap s = ⟨false, s.y - 1, 11, s.d⟩ := by
        unfold prevMonth; rw [if_pos (by omega), leapRule_noLeap]
      simp only [hn, dpm_11] at ih ⊢
      obtain ⟨i1, i2, i3, i4, i5⟩ := ih trivial (by omega) (by omega)
      refine ⟨i1, i2, i3, i4, ?_⟩
      rw [i5]; simp only [Date.el, hm, daysBefore_11, daysBefore_0]; omega
    · have hn : prevMonth .noLeap s = ⟨false, s.y, s.m - 1, s.d⟩ := by
        unfold prevMonth; rw [if_neg (by omega), hl]
      simp only [hn] at ih ⊢
      obtain ⟨i1, i2, i3, i4, i5⟩ := ih trivial (by omega) (by omega)
      refine ⟨i1, i2, i3, i4, ?_⟩
      have := daysBefore_succ (s.m - 1) (by omega) (by omega)
      have e : s.m - 1 + 1 = s.m := by omega
      rw [e] at this
      rw [i5]; simp only [Date.el]; omega
  | case2 s hd => exact ⟨hl, h0, h1, by omega, rfl⟩

/-- For every calendar: the add loop ends in range, keeps the February entry consistent, and never
makes a non-negative day negative. -/
theorem addMonths_any (cal : Calendar) (s : Date) (h0 : 0 ≤ s.m) (h1 : s.m ≤ 11)
    (hl : s.leap = leapRule cal s.y) (hd : 0 ≤ s.d) :
    let r := addMonths cal s
    0 ≤ r.m ∧ r.m ≤ 11 ∧ r.d < dpm r.leap r.m ∧ 0 ≤ r.d ∧ r.leap = leapRule cal r.y := by
  fun_induction addMonths cal s with
  | case1 s hge ih =>
    by_cases hm : s.m + 1 > 11
    · have hn : nextMonth cal s = ⟨leapRule cal (s.y + 1), s.y + 1, 0, s.d⟩ := by
        unfold nextMonth; rw [if_pos hm]
      simp only [hn] at ih ⊢
      exact ih (by omega) (by omega) trivial (by omega)
    · have hn : nextMonth cal s = ⟨s.leap, s.y, s.m + 1, s.d⟩ := by
        unfold nextMonth; rw [if_neg hm]
      simp only [hn] at ih ⊢
      exact ih (by omega) (by omega) hl (by omega)
  | case2 s hge => exact ⟨h0, h1, by omega, hd, hl⟩

theorem subMonths_any (cal : Calendar) (s : Date) (h0 : 0 ≤ s.m) (h1 : s.m ≤ 11)
    (hl : s.leap = leapRule cal s.y) :
    let r := subMonths cal s
    0 ≤ r.m ∧ r.m ≤ 11 ∧ 0 ≤ r.d ∧ r.leap = leapRule cal r.y := by
  fun_induction subMonths cal s with
  | case1 s hlt ih =>
    by_cases hm : s.m - 1 < 0
    · have hn : prevMonth cal s = ⟨leapRule cal (s.y - 1), s.y - 1, 11, s.d⟩ := by
        unfold prevMonth; rw [if_pos hm]
      simp only [hn] at ih ⊢
      exact ih (by omega) (by omega) trivial
    · have hn : prevMonth cal s = ⟨s.leap, s.y, s.m - 1, s.d⟩ := by
        unfold prevMonth; rw [if_neg hm]
      simp only [hn] at ih ⊢
      exact ih (by omega) (by omega) hl
  | case2 s hlt => exact ⟨h0, h1, by omega, hl⟩

theorem addMonths_of_lt (cal : Calendar) (s : Date) (h : s.d < dpm s.leap s.m) : addMonths cal s = s := by
  unfold addMonths; rw [if_neg (by omega)]

theorem subMonths_of_nonneg (cal : Calendar) (s : Date) (h : 0 ≤ s.d) : subMonths cal s = s := by
  unfold subMonths; rw [if_neg (by omega)]

theorem addedDays_spec (s : Int) :
    (¬ (s < 0 ∧ s % 86400 = 0) → 0 ≤ s - addedDays s * 86400 ∧ s - addedDays s * 86400 < 86400) ∧
    ((s < 0 ∧ s % 86400 = 0) → s - addedDays s * 86400 = 86400) := by
  unfold addedDays
  split_ifs with h1 h2
  · rw [Int.tdiv_eq_ediv_of_nonneg (by omega)]; omega
  · rw [Int.neg_tdiv, Int.tdiv_eq_ediv_of_nonneg (by omega)]; omega
  · omega

theorem addedYears_spec (s : Int) :
    (¬ (s < 0 ∧ s % 12 = 0) → addedYears s = s / 12) ∧
    ((s < 0 ∧ s % 12 = 0) → s - addedYears s * 12 = 12) := by
  unfold addedYears
  split_ifs with h1 h2
  · rw [Int.tdiv_eq_ediv_of_nonneg (by omega)]; omega
  · rw [Int.neg_tdiv, Int.tdiv_eq_ediv_of_nonneg (by omega)]; omega
  · omega

theorem addedSeconds_nonneg (s u : Int) (h : 0 ≤ u) : addedSeconds s u = u / 1000000 := by
  unfold addedSeconds
  split_ifs with h1 h2
  · rw [Int.tdiv_eq_ediv_of_nonneg (by omega)]
  · omega
  · omega

/-- Whole seconds after the microsecond carry. -/
def totalSec (t : Time) : Int := t.second + t.usec / 1000000

/-- The inputs with non-negative microseconds that `NormalizeTime` rejects under the no-leap calendar. -/
def Rejected (t : Time) : Prop :=
  (totalSec t < 0 ∧ totalSec t % 86400 = 0) ∨ (t.month < 0 ∧ t.month % 12 = 0)

instance (t : Time) : Decidable (Rejected t) := by unfold Rejected; infer_instance

theorem normalize_noLeap (t : Time) (hc : t.cal = .noLeap) (hu : 0 ≤ t.usec) :
    (Rejected t → normalize t = .error .logic) ∧
    (¬ Rejected t → ∃ t', normalize t = .ok t' ∧ Valid t' ∧ elapsedUs t' = elapsedUs t ∧ t'.typ = t.typ) := by
  obtain ⟨y, m, d, s, u, cal, typ⟩ := t
  simp only at hc hu; subst hc
  unfold Rejected totalSec normalize
  simp only [addedSeconds_nonneg s u hu, leapRule_noLeap, true_or, if_true]
  have hS := addedDays_spec (s + u / 1000000)
  have hY := addedYears_spec m
  generalize hsd : addedDays (s + u / 1000000) = dd at *
  by_cases hbm : m < 0 ∧ m % 12 = 0
  · have h12 := hY.2 hbm
    constructor
    · intro _; rw [if_pos (by omega)]
    · intro h; exact absurd (Or.inr hbm) h
  · have hy := hY.1 hbm
    rw [hy]
    rw [if_neg (by omega)]
    have A := subMonths_noLeap ⟨false, y + m / 12, m - m / 12 * 12, d + dd⟩ rfl (by simp only; omega)
      (by simp only; omega)
    generalize subMonths .noLeap ⟨false, y + m / 12, m - m / 12 * 12, d + dd⟩ = r at A
    have B := addMonths_noLeap r A.1 A.2.1 A.2.2.1
    generalize addMonths .noLeap r = q at B
    obtain ⟨b1, b2, b3, b4, b5, b6⟩ := B
    obtain ⟨a1, a2, a3, a4, a5⟩ := A
    have hqd := b6 a4
    by_cases hbs : (s + u / 1000000 < 0 ∧ (s + u / 1000000) % 86400 = 0)
    · have := hS.2 hbs
      constructor
      · intro _; rw [if_pos (by omega)]
      · intro h; exact absurd (Or.inl hbs) h
    · have hs := hS.1 hbs
      constructor
      · intro h; rcases h with h | h
        · exact absurd h hbs
        · exact absurd h hbm
      · intro _
        rw [if_neg (by rw [b1]; omega)]
        refine ⟨_, rfl, ⟨rfl, ?_⟩, ?_, rfl⟩
        · unfold ValidFor
          simp only
          rw [← dpm_eq false q.m b2 b3]
          omega
        · unfold elapsedUs elapsedDays
          simp only
          have e1 : q.m / 12 = 0 := by omega
          have e2 : q.m % 12 = q.m := by omega
          have e3 : m - m / 12 * 12 = m % 12 := by omega
          rw [a5] at b5
          simp only [Date.el, e3] at b5
          rw [e1, e2]
          have : (q.y + 0) * 365 + daysBefore q.m + q.d = (y + m / 12) * 365 + daysBefore (m % 12) + (d + dd) := by
            omega
          rw [this]
          have hu2 : u = u / 1000000 * 1000000 + u % 1000000 := by omega
          ring_nf

end Verif.TimeObj

namespace Verif.TimeObj

/-- Whatever the input, a successful no-leap normalisation is valid and keeps the elapsed time. -/
theorem normalize_noLeap_ok (t t' : Time) (hc : t.cal = .noLeap) (h : normalize t = .ok t') :
    Valid t' ∧ elapsedUs t' = elapsedUs t ∧ t'.typ = t.typ := by
  obtain ⟨y, m, d, s, u, cal, typ⟩ := t
  simp only at hc; subst hc
  unfold normalize at h
  simp only [leapRule_noLeap, true_or, if_true] at h
  have hY := addedYears_spec m
  generalize addedSeconds s u = ds at *
  generalize addedDays (s + ds) = dd at *
  by_cases hbm : m < 0 ∧ m % 12 = 0
  · have h12 := hY.2 hbm
    rw [if_pos (by omega)] at h; cases h
  · have hy := hY.1 hbm
    rw [hy] at h
    rw [if_neg (by omega)] at h
    have A := subMonths_noLeap ⟨false, y + m / 12, m - m / 12 * 12, d + dd⟩ rfl (by simp only; omega)
      (by simp only; omega)
    generalize subMonths .noLeap ⟨false, y + m / 12, m - m / 12 * 12, d + dd⟩ = r at A h
    have B := addMonths_noLeap r A.1 A.2.1 A.2.2.1
    generalize addMonths .noLeap r = q at B h
    obtain ⟨b1, b2, b3, b4, b5, b6⟩ := B
    obtain ⟨a1, a2, a3, a4, a5⟩ := A
    split_ifs at h with hh
    simp only [Except.ok.injEq] at h
    subst h
    refine ⟨⟨rfl, ?_⟩, ?_, rfl⟩
    · unfold ValidFor
      simp only
      rw [← dpm_eq false q.m b2 b3]
      rw [b1] at hh
      omega
    · unfold elapsedUs elapsedDays
      simp only
      have e1 : q.m / 12 = 0 := by omega
      have e2 : q.m % 12 = q.m := by omega
      have e3 : m - m / 12 * 12 = m % 12 := by omega
      rw [a5] at b5
      simp only [Date.el, e3] at b5
      rw [e1, e2]
      have : (q.y + 0) * 365 + daysBefore q.m + q.d = (y + m / 12) * 365 + daysBefore (m % 12) + (d + dd) := by
        omega
      rw [this]
      ring

theorem normalize_cal (t t' : Time) (h : normalize t = .ok t') : t'.cal = t.cal ∧ t'.typ = t.typ := by
  unfold normalize at h
  split_ifs at h with h1
  simp only at h
  split_ifs at h
  simp only [Except.ok.injEq] at h
  subst h; exact ⟨rfl, rfl⟩

theorem tmod_eq_zero_iff (a b : Int) : a.tmod b = 0 ↔ b ∣ a := (Int.dvd_iff_tmod_eq_zero).symm

theorem leapRule_standard (y : Int) : leapRule .standard y = codeLeap y := by
  unfold leapRule codeLeap
  have h1 := tmod_eq_zero_iff y 4
  have h2 := tmod_eq_zero_iff y 1000
  by_cases a : (4 : Int) ∣ y <;> by_cases b : (1000 : Int) ∣ y <;> simp_all

/-- The leap-year rule in force for a calendar. -/
def calLeap (cal : Calendar) : Int → Bool := leapRule cal

theorem normalize_any (t : Time) (hc : t.cal = .noLeap ∨ t.cal = .standard)
    (hm0 : 0 ≤ t.month) (hm1 : t.month ≤ 11) :
    (∀ t', normalize t = .ok t' → ValidFor (leapRule t.cal) t') ∧
    (0 ≤ t.second → 0 ≤ t.usec → ∃ t', normalize t = .ok t') := by
  obtain ⟨y, m, d, s, u, cal, typ⟩ := t
  simp only at hc hm0 hm1
  have hy : addedYears m = 0 := by unfold addedYears; rw [if_neg (by omega), if_neg (by omega)]
  unfold normalize
  simp only [hc, if_true, hy, Int.add_zero, Int.zero_mul, Int.sub_zero]
  rw [if_neg (by omega)]
  generalize hds : addedSeconds s u = ds at *
  generalize hdd : addedDays (s + ds) = dd at *
  have A := subMonths_any cal ⟨leapRule cal y, y, m, d + dd⟩ hm0 hm1 rfl
  generalize subMonths cal ⟨leapRule cal y, y, m, d + dd⟩ = r at A
  have B := addMonths_any cal r A.1 A.2.1 A.2.2.2 A.2.2.1
  generalize addMonths cal r = q at B
  obtain ⟨b1, b2, b3, b4, b5⟩ := B
  constructor
  · intro t' h
    split_ifs at h with hh
    simp only [Except.ok.injEq] at h
    subst h
    unfold ValidFor
    simp only
    rw [← dpm_eq _ q.m b1 b2, ← b5]
    omega
  · intro hs hu
    rw [addedSeconds_nonneg s u hu] at hds
    have := (addedDays_spec (s + ds)).1 (by omega)
    rw [hdd] at this
    rw [if_neg (by omega)]
    exact ⟨_, rfl⟩

theorem nextDate_iter_in_month (lr : Int → Bool) (y m : Int) (k : ℕ) (hk : (k : Int) < monthLength (lr y) m) :
    (nextDate lr)^[k] (y, m, 0) = (y, m, (k : Int)) := by
  induction k with
  | zero => rfl
  | succ k ih =>
    rw [Function.iterate_succ_apply', ih (by push_cast at hk; omega)]
    unfold nextDate; simp only; rw [if_pos (by push_cast at hk; omega)]
    push_cast; rfl

theorem monthLength_pos (b : Bool) (m : Int) (h0 : 0 ≤ m) (h1 : m ≤ 11) : 28 ≤ monthLength b m := by
  rw [← dpm_eq b m h0 h1]; exact dpm_pos b m

/-- The add loop walks the calendar day by day. -/
theorem addMonths_iter (cal : Calendar) (s : Date) (h0 : 0 ≤ s.m) (h1 : s.m ≤ 11)
    (hl : s.leap = leapRule cal s.y) (hd : 0 ≤ s.d) :
    ((addMonths cal s).y, (addMonths cal s).m, (addMonths cal s).d)
      = (nextDate (leapRule cal))^[s.d.toNat] (s.y, s.m, 0) := by
  fun_induction addMonths cal s with
  | case1 s hge ih =>
    have hL := dpm_eq s.leap s.m h0 h1
    have hpos := dpm_pos s.leap s.m
    have hsplit : s.d.toNat = (s.d - dpm s.leap s.m).toNat + ((dpm s.leap s.m - 1).toNat + 1) := by omega
    have hmid : (nextDate (leapRule cal))^[(dpm s.leap s.m - 1).toNat] (s.y, s.m, 0)
        = (s.y, s.m, dpm s.leap s.m - 1) := by
      rw [nextDate_iter_in_month]
      · congr 2; omega
      · rw [← hl, ← hL]; omega
    rw [hsplit, Function.iterate_add_apply, Function.iterate_succ_apply', hmid]
    by_cases hm : s.m + 1 > 11
    · have hn : nextMonth cal s = ⟨leapRule cal (s.y + 1), s.y + 1, 0, s.d⟩ := by
        unfold nextMonth; rw [if_pos hm]
      simp only [hn] at ih ⊢
      rw [ih (by omega) (by omega) trivial (by omega)]
      congr 1
      unfold nextDate; simp only
      rw [if_neg (by rw [← hl, ← hL]; omega), if_neg (by omega)]
    · have hn : nextMonth cal s = ⟨s.leap, s.y, s.m + 1, s.d⟩ := by
        unfold nextMonth; rw [if_neg hm]
      simp only [hn] at ih ⊢
      rw [ih (by omega) (by omega) hl (by omega)]
      congr 1
      unfold nextDate; simp only
      rw [if_neg (by rw [← hl, ← hL]; omega), if_pos (by omega)]
  | case2 s hge =>
    rw [nextDate_iter_in_month]
    · congr 2; omega
    · rw [← hl, ← dpm_eq s.leap s.m h0 h1]; omega

theorem normalize_of_valid (t : Time) (hc : t.cal = .noLeap ∨ t.cal = .standard)
    (hv : ValidFor (leapRule t.cal) t) : normalize t = .ok t := by
  obtain ⟨y, m, d, s, u, cal, typ⟩ := t
  obtain ⟨v1, v2, v3, v4, v5, v6, v7, v8⟩ := hv
  simp only at *
  have hy : addedYears m = 0 := by unfold addedYears; rw [if_neg (by omega), if_neg (by omega)]
  have hs : addedSeconds s u = 0 := by unfold addedSeconds; rw [if_neg (by omega), if_neg (by omega)]
  have hd : addedDays s = 0 := by unfold addedDays; rw [if_neg (by omega), if_neg (by omega)]
  unfold normalize
  simp only [hc, if_true, hy, hs, hd, Int.add_zero, Int.zero_mul, Int.sub_zero]
  rw [if_neg (by omega)]
  rw [← dpm_eq _ m v1 v2] at v4
  rw [subMonths_of_nonneg _ _ v3, addMonths_of_lt _ _ v4]
  simp only
  rw [if_neg (by omega)]

theorem addDays_iter (t : Time) (n : ℕ) (hc : t.cal = .noLeap ∨ t.cal = .standard)
    (hv : ValidFor (leapRule t.cal) t) :
    ∃ t', addDays t n = .ok t' ∧ t'.second = t.second ∧ t'.usec = t.usec ∧
      (t'.year, t'.month, t'.day) = (nextDate (leapRule t.cal))^[n] (t.year, t.month, t.day) := by
  obtain ⟨y, m, d, s, u, cal, typ⟩ := t
  obtain ⟨v1, v2, v3, v4, v5, v6, v7, v8⟩ := hv
  simp only at *
  have hy : addedYears m = 0 := by unfold addedYears; rw [if_neg (by omega), if_neg (by omega)]
  have hs : addedSeconds s u = 0 := by unfold addedSeconds; rw [if_neg (by omega), if_neg (by omega)]
  have hd : addedDays s = 0 := by unfold addedDays; rw [if_neg (by omega), if_neg (by omega)]
  unfold addDays normalize
  simp only [hc, if_true, hy, hs, hd, Int.add_zero, Int.zero_mul, Int.sub_zero]
  rw [if_neg (by omega)]
  rw [subMonths_of_nonneg _ _ (by simp only; omega)]
  have B := addMonths_any cal ⟨leapRule cal y, y, m, d + n⟩ v1 v2 rfl (by simp only; omega)
  have C := addMonths_iter cal ⟨leapRule cal y, y, m, d + n⟩ v1 v2 rfl (by simp only; omega)
  generalize addMonths cal ⟨leapRule cal y, y, m, d + n⟩ = q at B C
  obtain ⟨b1, b2, b3, b4, b5⟩ := B
  rw [if_neg (by omega)]
  refine ⟨_, rfl, rfl, rfl, ?_⟩
  simp only at C ⊢
  rw [C]
  have : (d + (n : Int)).toNat = n + d.toNat := by omega
  rw [this, Function.iterate_add_apply, nextDate_iter_in_month]
  · congr 2; congr 1; omega
  · omega

/-- Lexicographic comparison of the five fields. -/
def lexLt (a b : Time) : Prop :=
  a.year < b.year ∨ (a.year = b.year ∧ (a.month < b.month ∨ (a.month = b.month ∧ (a.day < b.day ∨
    (a.day = b.day ∧ (a.second < b.second ∨ (a.second = b.second ∧ a.usec < b.usec)))))))

theorem ltOp_spec (a b : Time) (ht : a.typ = b.typ) (hc : a.cal = b.cal) :
    (ltOp a b = .ok true ∧ lexLt a b) ∨ (ltOp a b = .ok false ∧ ¬ lexLt a b) := by
  unfold ltOp lexLt
  rw [if_neg (by simp [ht]), if_neg (by simp [hc])]
  split_ifs
  all_goals first
    | (left; refine ⟨rfl, ?_⟩; omega)
    | (right; refine ⟨rfl, ?_⟩; omega)

theorem gtOp_spec (a b : Time) (ht : a.typ = b.typ) (hc : a.cal = b.cal) :
    (gtOp a b = .ok true ∧ lexLt b a) ∨ (gtOp a b = .ok false ∧ ¬ lexLt b a) := by
  unfold gtOp lexLt
  rw [if_neg (by simp [ht]), if_neg (by simp [hc])]
  split_ifs
  all_goals first
    | (left; refine ⟨rfl, ?_⟩; omega)
    | (right; refine ⟨rfl, ?_⟩; omega)

theorem eqOp_iff (a b : Time) : eqOp a b = true ↔ a = b := by
  obtain ⟨_, _, _, _, _, _, _⟩ := a
  obtain ⟨_, _, _, _, _, _, _⟩ := b
  unfold eqOp
  simp only [Time.mk.injEq]
  split_ifs with h
  · simp only [false_iff]; tauto
  · simp only [true_iff]; tauto

theorem daysBefore_lt {m n : Int} (h0 : 0 ≤ m) (h : m < n) (h1 : n ≤ 11) :
    daysBefore m + monthLength false m ≤ daysBefore n := by
  have : m ≤ 10 := by omega
  interval_cases m <;> interval_cases n <;> decide

theorem daysBefore_bound {m : Int} (h0 : 0 ≤ m) (h1 : m ≤ 11) :
    0 ≤ daysBefore m ∧ daysBefore m + monthLength false m ≤ 365 := by
  interval_cases m <;> decide

theorem elapsedDays_valid {y m d : Int} (h0 : 0 ≤ m) (h1 : m ≤ 11) :
    elapsedDays y m d = y * 365 + daysBefore m + d := by
  unfold elapsedDays
  have e1 : m / 12 = 0 := by omega
  have e2 : m % 12 = m := by omega
  rw [e1, e2]; omega

theorem lexLt_imp_elapsed {a b : Time} (ha : Valid a) (hb : Valid b) (h : lexLt a b) :
    elapsedUs a < elapsedUs b := by
  obtain ⟨_, a1, a2, a3, a4, a5, a6, a7, a8⟩ := ha
  obtain ⟨_, b1, b2, b3, b4, b5, b6, b7, b8⟩ := hb
  unfold elapsedUs
  rw [elapsedDays_valid a1 a2, elapsedDays_valid b1 b2]
  have hA := daysBefore_bound a1 a2
  have hB := daysBefore_bound b1 b2
  simp only at a4 b4
  unfold lexLt at h
  rcases h with h | ⟨hy, h | ⟨hm, h | ⟨hd, h | ⟨hs, h⟩⟩⟩⟩
  · omega
  · have := daysBefore_lt a1 h b2; omega
  · rw [hm]; omega
  · rw [hm]; omega
  · rw [hm]; omega

theorem lexLt_trichotomy (a b : Time) (ht : a.typ = b.typ) (hc : a.cal = b.cal) :
    lexLt a b ∨ a = b ∨ lexLt b a := by
  obtain ⟨_, _, _, _, _, _, _⟩ := a
  obtain ⟨_, _, _, _, _, _, _⟩ := b
  simp only at ht hc
  subst ht hc
  unfold lexLt
  simp only [Time.mk.injEq, and_true]
  omega

theorem lexLt_iff_elapsed {a b : Time} (ha : Valid a) (hb : Valid b) (ht : a.typ = b.typ) :
    lexLt a b ↔ elapsedUs a < elapsedUs b := by
  constructor
  · exact lexLt_imp_elapsed ha hb
  · intro h
    rcases lexLt_trichotomy a b ht (ha.1.trans hb.1.symm) with h' | h' | h'
    · exact h'
    · subst h'; omega
    · have := lexLt_imp_elapsed hb ha h'; omega

theorem monthSum_eq (lo : Int) (n : ℕ) (h0 : 0 ≤ lo) (h1 : lo + n ≤ 11) :
    monthSum lo n = ((daysBefore (lo + n) - daysBefore lo : Int) : ℚ) * 86400 := by
  induction n with
  | zero => simp [monthSum]
  | succ n ih =>
    rw [monthSum, ih (by push_cast at h1; omega)]
    have := daysBefore_succ (lo + n) (by omega) (by push_cast at h1; omega)
    have e : lo + ((n + 1 : ℕ) : Int) = lo + n + 1 := by push_cast; ring
    rw [e, this]
    push_cast; ring

theorem getSeconds_eq (a : Time) (hv : Valid a) : getSeconds a = .ok ((elapsedUs a : ℚ) / 1000000) := by
  obtain ⟨hc, a1, a2, a3, a4, a5, a6, a7, a8⟩ := hv
  unfold getSeconds elapsedUs
  rw [if_pos hc, elapsedDays_valid a1 a2, monthSum_eq 0 _ (by omega) (by omega)]
  have e : (0 : Int) + (a.month.toNat : Int) = a.month := by omega
  rw [e, daysBefore_0]
  congr 1; push_cast; ring

theorem sub_eq (a b : Time) (ha : Valid a) (hb : Valid b) :
    sub a b = .ok (((elapsedUs a - elapsedUs b : Int) : ℚ) / 1000000) := by
  obtain ⟨hc, a1, a2, a3, a4, a5, a6, a7, a8⟩ := ha
  obtain ⟨_, b1, b2, b3, b4, b5, b6, b7, b8⟩ := hb
  unfold sub elapsedUs
  rw [if_pos hc, elapsedDays_valid a1 a2, elapsedDays_valid b1 b2]
  simp only
  split_ifs with h1 h2
  · rw [monthSum_eq _ _ (by omega) (by omega)]
    have e : b.month + 1 + ((a.month - (b.month + 1)).toNat : Int) = a.month := by omega
    have := daysBefore_succ b.month b1 (by omega)
    rw [e, this]
    congr 1; push_cast; ring
  · rw [monthSum_eq _ _ (by omega) (by omega)]
    have e : a.month + 1 + ((b.month - (a.month + 1)).toNat : Int) = b.month := by omega
    have := daysBefore_succ a.month a1 (by omega)
    rw [e, this]
    congr 1; push_cast; ring
  · have e : a.month = b.month := by omega
    rw [e]
    congr 1; push_cast; ring

end Verif.TimeObj
