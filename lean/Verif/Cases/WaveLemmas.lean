import Mathlib.Analysis.Convex.SpecificFunctions.Basic
import Mathlib.Tactic.LinearCombination
import Verif.Cases.Lemmas

/-!
# Lemmas on the inertia gravity wave and the baroclinic wave
-/

namespace Verif.Cases

open Verif.Thermo

/-! ### The inertia gravity wave -/

theorem gravityTemperature_eq (c : Constants) (n : ℝ) : gravityTemperature c n = c.g ^ 2 / (n ^ 2 * c.cp) := by
  unfold gravityTemperature
  rw [← pow_two, ← pow_two]

theorem cos_double_sub (lat : ℝ) : Real.cos (2 * lat) - 1 = -2 * Real.sin lat ^ 2 := by
  rw [Real.cos_two_mul, Real.cos_sq']
  ring

theorem surfaceTemperature_eq (c : Constants) (n u0 teq lat : ℝ) :
    surfaceTemperature c n u0 teq lat = buoyant c n u0 teq 0 lat := by
  unfold surfaceTemperature buoyant
  rw [gravityTemperature_eq, cos_double_sub]
  congr 3
  ring

theorem temperature_eq (c : Constants) (n u0 teq z lat : ℝ) :
    gravityTemperature c n + (surfaceTemperature c n u0 teq lat - gravityTemperature c n) * Real.exp (n * n * z / c.g) =
      buoyant c n u0 teq z lat := by
  rw [surfaceTemperature_eq, gravityTemperature_eq]
  unfold buoyant
  rw [add_sub_cancel_left, mul_assoc, ← Real.exp_add]
  congr 3
  ring

/-- The logarithm of pressure over the reference pressure. -/
noncomputable def waveLog (c : Constants) (n u0 teq z lat : ℝ) : ℝ :=
  -(u0 / (2 * (c.g ^ 2 / (n ^ 2 * c.cp)) * c.r) * (u0 + 2 * c.omega * c.earthRadius) * Real.sin lat ^ 2) +
    c.cp / c.r * (-(n ^ 2 / c.g * z) + Real.log (buoyant c n u0 teq z lat) - Real.log teq)

section

variable {c : Constants} (h : Proper c)

include h

theorem wavePressure_eq (n u0 teq z lat : ℝ) (ht : 0 < teq) (hs : 0 < buoyant c n u0 teq 0 lat)
    (hT : 0 < buoyant c n u0 teq z lat) : wavePressure c n u0 teq z lat = c.p0 * Real.exp (waveLog c n u0 teq z lat) := by
  have hr := h.r
  have hc := h.cp_pos
  have hk : 1 / c.kappa = c.cp / c.r := by rw [h.kappa, one_div_div]
  have hT' := hT
  rw [← temperature_eq, surfaceTemperature_eq] at hT'
  have hE := Real.exp_pos (n * n * z / c.g)
  have hEn : Real.exp (-n * n * z / c.g) = (Real.exp (n * n * z / c.g))⁻¹ := by
    rw [← Real.exp_neg]
    congr 1
    ring
  have hbase : gravityTemperature c n / buoyant c n u0 teq 0 lat * Real.exp (-n * n * z / c.g) + 1 -
      gravityTemperature c n / buoyant c n u0 teq 0 lat =
      Real.exp (-n * n * z / c.g) * buoyant c n u0 teq z lat / buoyant c n u0 teq 0 lat := by
    rw [← temperature_eq c n u0 teq z lat, surfaceTemperature_eq, hEn]
    field_simp
    ring
  unfold wavePressure surfacePressure
  rw [surfaceTemperature_eq, hbase, hk, mul_assoc, ← Real.mul_rpow (by positivity) (by positivity)]
  have hprod : buoyant c n u0 teq 0 lat / teq *
      (Real.exp (-n * n * z / c.g) * buoyant c n u0 teq z lat / buoyant c n u0 teq 0 lat) =
      Real.exp (-n * n * z / c.g) * buoyant c n u0 teq z lat / teq := by
    field_simp
  have hpos : 0 < Real.exp (-n * n * z / c.g) * buoyant c n u0 teq z lat / teq := by positivity
  rw [hprod, Real.rpow_def_of_pos hpos, mul_assoc, ← Real.exp_add]
  congr 2
  unfold waveLog
  rw [Real.log_div (by positivity) ht.ne', Real.log_mul (Real.exp_pos _).ne' hT.ne', Real.log_exp, cos_double_sub,
    gravityTemperature_eq]
  ring

theorem inertiaGravity_eq (n u0 teq z lat : ℝ) (ht : 0 < teq) (hs : 0 < buoyant c n u0 teq 0 lat)
    (hT : 0 < buoyant c n u0 teq z lat) :
    inertiaGravity c n u0 teq z lat = some (ofPressure c (u0 * Real.cos lat) (c.p0 * Real.exp (waveLog c n u0 teq z lat))
      (c.p0 * Real.exp (waveLog c n u0 teq z lat) / (c.r * buoyant c n u0 teq z lat))) := by
  have h0 := h.p0
  unfold inertiaGravity
  simp only
  rw [temperature_eq, wavePressure_eq h n u0 teq z lat ht hs hT, if_neg (by simp only [not_lt]; positivity)]

end

theorem buoyant_z (c : Constants) (n u0 teq z lat : ℝ) :
    HasDerivAt (fun z => buoyant c n u0 teq z lat)
      ((buoyant c n u0 teq z lat - c.g ^ 2 / (n ^ 2 * c.cp)) * (n ^ 2 / c.g)) z := by
  have hd := (((((hasDerivAt_id z).const_mul (n ^ 2 / c.g)).add_const
    (u0 * n ^ 2 / (2 * c.g ^ 2) * (u0 + 2 * c.omega * c.earthRadius) * Real.sin lat ^ 2)).exp).const_mul
      (teq - c.g ^ 2 / (n ^ 2 * c.cp))).const_add (c.g ^ 2 / (n ^ 2 * c.cp))
  refine hd.congr_deriv ?_
  simp only [id]
  unfold buoyant
  ring

theorem buoyant_lat (c : Constants) (n u0 teq z lat : ℝ) :
    HasDerivAt (fun lat => buoyant c n u0 teq z lat)
      ((buoyant c n u0 teq z lat - c.g ^ 2 / (n ^ 2 * c.cp)) *
        (u0 * n ^ 2 / c.g ^ 2 * (u0 + 2 * c.omega * c.earthRadius) * Real.sin lat * Real.cos lat)) lat := by
  have hd := (((((Real.hasDerivAt_sin lat).pow 2).const_mul
    (u0 * n ^ 2 / (2 * c.g ^ 2) * (u0 + 2 * c.omega * c.earthRadius))).const_add (n ^ 2 / c.g * z)).exp.const_mul
      (teq - c.g ^ 2 / (n ^ 2 * c.cp))).const_add (c.g ^ 2 / (n ^ 2 * c.cp))
  refine hd.congr_deriv ?_
  unfold buoyant
  simp only [Pi.pow_apply]
  push_cast
  have e : u0 * n ^ 2 / (2 * c.g ^ 2) = u0 * n ^ 2 / c.g ^ 2 / 2 := by rw [div_div, mul_comm 2]
  rw [e]
  ring

/-! ### The baroclinic wave -/

namespace Wave

theorem intTau1_deriv (q : Wave) (c : Constants) (z : ℝ) : HasDerivAt (q.intTau1 c) (q.tau1 c z) z := by
  have hs : HasDerivAt (q.scaled c) (1 / (q.b * (c.r * q.t0 / c.g))) z :=
    (hasDerivAt_id z).div_const (q.b * (c.r * q.t0 / c.g))
  have h1 := (((hasDerivAt_id z).const_mul (q.lapse / q.t0)).exp.sub_const 1).const_mul q.constA
  have h2 := (((hasDerivAt_id z).const_mul q.constB)).mul ((hs.neg.mul hs).exp)
  refine (h1.add h2).congr_deriv ?_
  unfold tau1
  simp only [id, Pi.neg_apply, Pi.mul_apply]
  have e : 1 / (q.b * (c.r * q.t0 / c.g)) * z = q.scaled c z := by
    unfold scaled
    ring
  linear_combination (-2 * q.constB * q.scaled c z * Real.exp (-q.scaled c z * q.scaled c z)) * e

theorem intTau2_deriv (q : Wave) (c : Constants) (z : ℝ) : HasDerivAt (q.intTau2 c) (q.tau2 c z) z := by
  have hs : HasDerivAt (q.scaled c) (1 / (q.b * (c.r * q.t0 / c.g))) z :=
    (hasDerivAt_id z).div_const (q.b * (c.r * q.t0 / c.g))
  have h2 := (((hasDerivAt_id z).const_mul q.constC)).mul ((hs.neg.mul hs).exp)
  refine h2.congr_deriv ?_
  unfold tau2
  simp only [id, Pi.neg_apply, Pi.mul_apply]
  have e : 1 / (q.b * (c.r * q.t0 / c.g)) * z = q.scaled c z := by
    unfold scaled
    ring
  linear_combination (-2 * q.constC * q.scaled c z * Real.exp (-q.scaled c z * q.scaled c z)) * e

/-- `(1 - 2 x²) exp (-x²)` is between minus one and one. -/
theorem bell_bound (x : ℝ) : -1 ≤ (1 - 2 * x * x) * Real.exp (-x * x) ∧ (1 - 2 * x * x) * Real.exp (-x * x) ≤ 1 := by
  have hE := Real.exp_pos (-x * x)
  have h1 : Real.exp (-x * x) ≤ 1 := Real.exp_le_one_iff.2 (by nlinarith [mul_self_nonneg x])
  have h2 := Real.add_one_le_exp (x * x / 2)
  have h3 : Real.exp (x * x / 2) * Real.exp (x * x / 2) * Real.exp (-x * x) = 1 := by
    rw [← Real.exp_add, ← Real.exp_add]
    have : x * x / 2 + x * x / 2 + -x * x = 0 := by ring
    rw [this, Real.exp_zero]
  have hx := mul_self_nonneg x
  constructor
  · have h4 : (x * x / 2 + 1) * (x * x / 2 + 1) ≤ Real.exp (x * x / 2) * Real.exp (x * x / 2) :=
      mul_self_le_mul_self (by positivity) h2
    have h5 : (2 * x * x - 1) ≤ Real.exp (x * x / 2) * Real.exp (x * x / 2) := by
      nlinarith [mul_self_nonneg (x * x / 2 - 1)]
    have h6 : (2 * x * x - 1) * Real.exp (-x * x) ≤
        Real.exp (x * x / 2) * Real.exp (x * x / 2) * Real.exp (-x * x) := mul_le_mul_of_nonneg_right h5 hE.le
    rw [h3] at h6
    linarith
  · nlinarith

theorem ratio_shallow (c : Constants) (z : ℝ) : ratio c false z = 1 := rfl

theorem interior_bounds (q : Wave) (hq : q.Mild) (c : Constants) (z lat : ℝ) (hl : 0 ≤ Real.cos lat) :
    0 ≤ q.interior c false z lat ∧ q.interior c false z lat ≤ 2 / (q.k + 2) := by
  have hk := hq.k
  unfold interior
  rw [ratio_shallow, one_mul]
  have hx1 := Real.cos_le_one lat
  generalize Real.cos lat = x at hl hx1
  have e2 : x ^ (q.k + 2) = x ^ q.k * x ^ 2 := by
    rw [Real.rpow_add_of_nonneg hl hk.le (by norm_num)]
    norm_num
  have hX0 : 0 ≤ x ^ q.k := Real.rpow_nonneg hl _
  constructor
  · rw [e2]
    have h1 : x ^ q.k * x ^ 2 ≤ x ^ q.k := by
      have : x ^ 2 ≤ 1 := by nlinarith
      nlinarith
    have h2 : q.k / (q.k + 2) ≤ 1 := by
      rw [div_le_one (by linarith)]
      linarith
    have h3 : q.k / (q.k + 2) * (x ^ q.k * x ^ 2) ≤ 1 * (x ^ q.k * x ^ 2) :=
      mul_le_mul_of_nonneg_right h2 (by positivity)
    linarith
  · have hyoung : x ^ q.k * (q.k + 2) ≤ 2 + q.k * x ^ (q.k + 2) := by
      have hb := rpow_one_add_le_one_add_mul_self (s := x ^ (q.k + 2) - 1)
        (by have := Real.rpow_nonneg hl (q.k + 2); linarith) (p := q.k / (q.k + 2)) (by positivity)
        (by rw [div_le_one (by linarith)]; linarith)
      have e3 : (1 + (x ^ (q.k + 2) - 1)) ^ (q.k / (q.k + 2)) = x ^ q.k := by
        rw [add_sub_cancel, ← Real.rpow_mul hl]
        congr 1
        field_simp
      rw [e3] at hb
      have e4 : (1 + q.k / (q.k + 2) * (x ^ (q.k + 2) - 1)) * (q.k + 2) = 2 + q.k * x ^ (q.k + 2) := by
        field_simp
        ring
      rw [← e4]
      exact mul_le_mul_of_nonneg_right hb (by linarith)
    rw [le_div_iff₀ (by linarith)]
    have : (x ^ q.k - q.k / (q.k + 2) * x ^ (q.k + 2)) * (q.k + 2) = x ^ q.k * (q.k + 2) - q.k * x ^ (q.k + 2) := by
      field_simp
    rw [this]
    linarith

theorem t0_pos (q : Wave) (hq : q.Mild) : 0 < q.t0 := by
  have h1 := hq.pole
  have h2 := hq.order
  unfold t0
  norm_num
  linarith

theorem tau_pos (q : Wave) (hq : q.Mild) (c : Constants) (z lat : ℝ) (hz : 0 ≤ z) (hl : 0 ≤ Real.cos lat) :
    0 < q.tau1 c z - q.tau2 c z * q.interior c false z lat := by
  have h1 := hq.pole
  have h2 := hq.order
  have h3 := hq.gap
  have h4 := hq.lapse
  have h5 := hq.k
  have hT := q.t0_pos hq
  have hE : 0 < q.t0E := h1.trans_le h2
  obtain ⟨i1, i2⟩ := q.interior_bounds hq c z lat hl
  obtain ⟨b1, b2⟩ := bell_bound (q.scaled c z)
  have hexp : 1 ≤ Real.exp (q.lapse / q.t0 * z) := Real.one_le_exp (by positivity)
  have e0 : q.tau1 c z - q.tau2 c z * q.interior c false z lat = 1 / q.t0 * Real.exp (q.lapse / q.t0 * z) +
      (q.constB - q.constC * q.interior c false z lat) *
        ((1 - 2 * q.scaled c z * q.scaled c z) * Real.exp (-q.scaled c z * q.scaled c z)) := by
    unfold tau1 tau2 constA
    field_simp
    ring
  rw [e0]
  generalize (1 - 2 * q.scaled c z * q.scaled c z) * Real.exp (-q.scaled c z * q.scaled c z) = Y at b1 b2
  generalize q.interior c false z lat = I at i1 i2
  have e2 : 2 * q.t0 = q.t0E + q.t0P := by
    unfold t0
    norm_num
    ring
  have eB : q.constB = (q.t0E - q.t0P) / (2 * q.t0 * q.t0P) := by
    unfold constB
    rw [div_eq_div_iff (by positivity) (by positivity)]
    linear_combination (q.t0 * q.t0P) * e2
  have hC : 0 ≤ q.constC := by
    unfold constC
    have : 0 ≤ q.t0E - q.t0P := by linarith
    positivity
  have hCI : q.constC * I ≤ (q.t0E - q.t0P) / (q.t0E * q.t0P) := by
    refine (mul_le_mul_of_nonneg_left i2 hC).trans (le_of_eq ?_)
    unfold constC
    rw [show (0.5 : ℝ) = 1 / 2 by norm_num]
    field_simp
  have hCI0 : 0 ≤ q.constC * I := mul_nonneg hC i1
  have hM : 0 ≤ (q.t0E - q.t0P) / (2 * q.t0 * q.t0P) := div_nonneg (by linarith) (by positivity)
  have hlow : -((q.t0E - q.t0P) / (2 * q.t0 * q.t0P)) ≤ q.constB - q.constC * I := by
    have e3 : (q.t0E - q.t0P) / (2 * q.t0 * q.t0P) - (q.t0E - q.t0P) / (q.t0E * q.t0P) =
        -((q.t0E - q.t0P) / (2 * q.t0 * q.t0E)) := by
      field_simp
      linear_combination (-(q.t0E - q.t0P)) * e2
    have e4 : (q.t0E - q.t0P) / (2 * q.t0 * q.t0E) ≤ (q.t0E - q.t0P) / (2 * q.t0 * q.t0P) := by
      apply div_le_div_of_nonneg_left (by linarith) (by positivity)
      exact mul_le_mul_of_nonneg_left h2 (by positivity)
    rw [eB]
    linarith
  have hup : q.constB - q.constC * I ≤ (q.t0E - q.t0P) / (2 * q.t0 * q.t0P) := by
    rw [eB]
    linarith
  have habs : -((q.t0E - q.t0P) / (2 * q.t0 * q.t0P)) ≤ (q.constB - q.constC * I) * Y := by
    generalize q.constB - q.constC * I = D at hlow hup
    generalize (q.t0E - q.t0P) / (2 * q.t0 * q.t0P) = M at hlow hup hM
    nlinarith [mul_nonneg (sub_nonneg.2 hup) (sub_nonneg.2 b2), mul_nonneg (sub_nonneg.2 hup) (neg_le_iff_add_nonneg.1 b1),
      mul_nonneg (neg_le_iff_add_nonneg.1 hlow) (sub_nonneg.2 b2), mul_nonneg (neg_le_iff_add_nonneg.1 hlow) (neg_le_iff_add_nonneg.1 b1)]
  have hfirst : 1 / q.t0 ≤ 1 / q.t0 * Real.exp (q.lapse / q.t0 * z) := le_mul_of_one_le_right (by positivity) hexp
  have hgap : 0 < 1 / q.t0 - (q.t0E - q.t0P) / (2 * q.t0 * q.t0P) := by
    have : 1 / q.t0 - (q.t0E - q.t0P) / (2 * q.t0 * q.t0P) = (3 * q.t0P - q.t0E) / (2 * q.t0 * q.t0P) := by
      field_simp
      ring
    rw [this]
    exact div_pos (by linarith) (by positivity)
  linarith

theorem temperature_pos (q : Wave) (hq : q.Mild) (c : Constants) (z lat : ℝ) (hz : 0 ≤ z) (hl : 0 ≤ Real.cos lat) :
    0 < q.temperature c false z lat := by
  unfold temperature
  rw [ratio_shallow]
  exact div_pos (by norm_num) (q.tau_pos hq c z lat hz hl)

theorem intTau2_nonneg (q : Wave) (hq : q.Mild) (c : Constants) (z : ℝ) (hz : 0 ≤ z) : 0 ≤ q.intTau2 c z := by
  have h1 := hq.pole
  have h2 := hq.order
  have h5 := hq.k
  have hE : 0 < q.t0E := h1.trans_le h2
  have h3 : 0 ≤ q.t0E - q.t0P := by linarith
  unfold intTau2 constC
  positivity

theorem discriminant_nonneg (q : Wave) (hq : q.Mild) (c : Constants) (hg : 0 ≤ c.g) (ha : 0 < c.earthRadius) (z lat : ℝ)
    (hz : 0 ≤ z) (hl : 0 ≤ Real.cos lat) : 0 ≤ q.discriminant c false z lat := by
  have hk := hq.k
  have hT := q.temperature_pos hq c z lat hz hl
  have hI := q.intTau2_nonneg hq c z hz
  have hR : rCosLat c false z lat = c.earthRadius * Real.cos lat := rfl
  unfold discriminant
  rw [hR]
  rcases hl.lt_or_eq with hpos | hzero
  · have hU : 0 ≤ q.bigU c false z lat := by
      unfold bigU
      rw [ratio_shallow, one_mul]
      have hd : Real.cos lat ^ (q.k + 1) ≤ Real.cos lat ^ (q.k - 1) :=
        Real.rpow_le_rpow_of_exponent_ge hpos (Real.cos_le_one lat) (by linarith)
      have hd' : 0 ≤ Real.cos lat ^ (q.k - 1) - Real.cos lat ^ (q.k + 1) := by linarith
      positivity
    have h1 := mul_self_nonneg (c.omega * (c.earthRadius * Real.cos lat))
    positivity
  · rw [← hzero]
    simp

end Wave

end Verif.Cases
