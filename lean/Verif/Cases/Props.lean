import Verif.Cases.Lemmas

/-!
# C112: the states of the nonhydrostatic test cases are in hydrostatic balance and fit the equation of state

Every statement is for all proper constants, parameters of the test case and heights within the stated range.
-/

namespace Verif.Cases

open Verif.Thermo

variable {c : Constants} (h : Proper c)

include h

/-! ### Test cases in a box -/

/-- **C112 (bubbles and density current, reference state).**  Below the height at which pressure would vanish the
reference state is at rest, has the given potential temperature, the temperature of the dry adiabat and is balanced. -/
theorem C112_neutral (thetaBar z : ℝ) (ht : 0 < thetaBar) (hz : c.g * z < c.cp * thetaBar) :
    AtRest (neutral c thetaBar z) ∧ (neutral c thetaBar z).theta = thetaBar ∧
      Has c (thetaBar - c.g / c.cp * z) (neutral c thetaBar z) ∧ Hydrostatic c (neutral c thetaBar) z := by
  have hc := h.cp_pos
  have he : 0 < neutralExner c thetaBar z := by
    have e : neutralExner c thetaBar z = (c.cp * thetaBar - c.g * z) / (c.cp * thetaBar) := by
      unfold neutralExner
      field_simp
      ring
    rw [e]
    exact div_pos (by linarith) (by positivity)
  have et : thetaBar - c.g / c.cp * z = thetaBar * neutralExner c thetaBar z := by
    unfold neutralExner
    field_simp
    ring
  refine ⟨⟨rfl, rfl, rfl⟩, rfl, ?_, ?_⟩
  · rw [et]
    exact has_exner h ht he
  · refine hydrostatic_exner h (fun _ => 0) (fun _ => thetaBar) (neutralExner c thetaBar) z ht continuousAt_const he ?_
    have := ((hasDerivAt_id z).const_mul (-c.g / (c.cp * thetaBar))).add_const 1
    exact this.congr_deriv (by ring)

/-- **C112 (uniform stratification).**  The state of the mountain waves and the reference state of the inertia gravity
wave: uniform wind, potential temperature that grows by the factor `exp (n² z / g)`, balanced, with the temperature
that belongs to it. -/
theorem C112_stratified (u0 nbar theta0 z : ℝ) (ht : 0 < theta0) (hn : nbar ≠ 0) (hg : c.g ≠ 0)
    (hz : c.g ^ 2 * (1 - Real.exp (-(nbar ^ 2 / c.g * z))) < c.cp * theta0 * nbar ^ 2) :
    (stratified c u0 nbar theta0 z).u = u0 ∧ (stratified c u0 nbar theta0 z).v = 0 ∧
      (stratified c u0 nbar theta0 z).w = 0 ∧
      (stratified c u0 nbar theta0 z).theta = theta0 * Real.exp (nbar ^ 2 / c.g * z) ∧
      Has c (c.g ^ 2 / (c.cp * nbar ^ 2) + (theta0 - c.g ^ 2 / (c.cp * nbar ^ 2)) * Real.exp (nbar ^ 2 / c.g * z))
        (stratified c u0 nbar theta0 z) ∧
      Hydrostatic c (stratified c u0 nbar theta0) z := by
  have hc := h.cp_pos
  have hn2 : 0 < nbar ^ 2 := by positivity
  have e1 : -nbar * nbar / c.g * z = -(nbar ^ 2 / c.g * z) := by ring
  have e2 : nbar * nbar / c.g * z = nbar ^ 2 / c.g * z := by ring
  have he : 0 < stratifiedExner c nbar theta0 z := by
    have e : stratifiedExner c nbar theta0 z =
        (c.cp * theta0 * nbar ^ 2 - c.g ^ 2 * (1 - Real.exp (-(nbar ^ 2 / c.g * z)))) / (c.cp * theta0 * nbar ^ 2) := by
      unfold stratifiedExner
      rw [e1]
      field_simp
      ring
    rw [e]
    exact div_pos (by linarith) (by positivity)
  have hth : 0 < stratifiedTheta c nbar theta0 z := by
    unfold stratifiedTheta
    positivity
  have et : c.g ^ 2 / (c.cp * nbar ^ 2) + (theta0 - c.g ^ 2 / (c.cp * nbar ^ 2)) * Real.exp (nbar ^ 2 / c.g * z) =
      stratifiedTheta c nbar theta0 z * stratifiedExner c nbar theta0 z := by
    unfold stratifiedTheta stratifiedExner
    rw [e1, e2, Real.exp_neg]
    have hx := Real.exp_pos (nbar ^ 2 / c.g * z)
    generalize Real.exp (nbar ^ 2 / c.g * z) = X at hx ⊢
    field_simp
    ring
  refine ⟨rfl, rfl, rfl, ?_, ?_, ?_⟩
  · show stratifiedTheta c nbar theta0 z = _
    unfold stratifiedTheta
    rw [e2]
  · rw [et]
    exact has_exner h hth he
  · refine hydrostatic_exner h (fun _ => u0) (stratifiedTheta c nbar theta0) (stratifiedExner c nbar theta0) z hth ?_ he ?_
    · unfold stratifiedTheta
      fun_prop
    · have hd := ((((hasDerivAt_id z).const_mul (-nbar * nbar / c.g)).exp.sub_const 1).const_mul
        (c.g * c.g / (c.cp * theta0 * nbar * nbar))).add_const 1
      refine hd.congr_deriv ?_
      simp only [id]
      unfold stratifiedTheta
      rw [e1, e2, Real.exp_neg]
      have hx := Real.exp_pos (nbar ^ 2 / c.g * z)
      generalize Real.exp (nbar ^ 2 / c.g * z) = X at hx ⊢
      field_simp

omit h in
/-- **C112 (mountain waves, reference state).**  With gravity the reference state is the initial state, so that the flow
starts without any difference from it. -/
theorem C112_mountain (u0 nbar theta0 z : ℝ) (hg : c.g ≠ 0) :
    mountainReference c u0 nbar theta0 z = stratified c u0 nbar theta0 z := by
  unfold mountainReference
  rw [if_neg hg]

/-- **C112 (mountain waves without gravity, false).**  The reference state for zero gravity is meant to be air of 300 K at
the reference pressure, as its density is; its potential temperature is too large by a power of the pressure, so that it
has neither that pressure nor that temperature. -/
theorem C112_weightless_false (u0 nbar theta0 z : ℝ) (hg : c.g = 0) (hp : 1 < c.p0) :
    c.p0 < pressure c (mountainReference c u0 nbar theta0 z) ∧ ¬ Has c 300 (mountainReference c u0 nbar theta0 z) := by
  have hr := h.r
  have h0 := h.p0
  have hc := h.cp_pos
  have hv := h.cv_pos
  have e : c.p0 < pressure c (mountainReference c u0 nbar theta0 z) := by
    unfold mountainReference
    rw [if_pos hg]
    unfold pressure
    simp only
    have e1 : c.r * (c.p0 / (c.r * 300) * (300 * c.p0 ^ (c.r / c.cp))) / c.p0 = c.p0 ^ (c.r / c.cp) := by
      field_simp
    rw [e1]
    have h1 : 1 < c.p0 ^ (c.r / c.cp) := Real.one_lt_rpow hp (by positivity)
    have h2 : 1 < (c.p0 ^ (c.r / c.cp)) ^ (c.cp / (c.cp - c.r)) := Real.one_lt_rpow h1 (by positivity)
    nlinarith
  refine ⟨e, fun hh => ?_⟩
  have g := hh.gas
  rw [g] at e
  unfold mountainReference at e
  rw [if_pos hg] at e
  simp only at e
  have e2 : c.p0 / (c.r * 300) * c.r * 300 = c.p0 := by field_simp
  rw [e2] at e
  exact lt_irrefl _ e

/-- **C112 (hydrostatic mountain).**  Uniform wind, the given temperature everywhere, balanced. -/
theorem C112_hydrostatic_mountain (t0 u0 z : ℝ) (ht : 0 < t0) (hg : c.g ≠ 0) :
    (hydrostaticMountain c t0 u0 z).u = u0 ∧ (hydrostaticMountain c t0 u0 z).v = 0 ∧
      (hydrostaticMountain c t0 u0 z).w = 0 ∧
      Has c t0 (hydrostaticMountain c t0 u0 z) ∧ Hydrostatic c (hydrostaticMountain c t0 u0) z := by
  have hc := h.cp_pos
  have hq : c.g / Real.sqrt (c.cp * t0) * (c.g / Real.sqrt (c.cp * t0)) / c.g = c.g / (c.cp * t0) := by
    have hs : Real.sqrt (c.cp * t0) * Real.sqrt (c.cp * t0) = c.cp * t0 := Real.mul_self_sqrt (by positivity)
    rw [div_mul_div_comm, hs]
    field_simp
  have hth : ∀ z, 0 < t0 * Real.exp (c.g / (c.cp * t0) * z) := fun z => by positivity
  have e : hydrostaticMountain c t0 u0 = fun z =>
      { u := u0, v := 0, w := 0, theta := t0 * Real.exp (c.g / (c.cp * t0) * z), rho := c.p0 /
        (c.r * (t0 * Real.exp (c.g / (c.cp * t0) * z))) * Real.exp (-c.g / (c.cp * t0) * z) ^ (getCv c / c.r) } := by
    funext z
    unfold hydrostaticMountain
    simp only [hq]
  refine ⟨rfl, rfl, rfl, ?_, ?_⟩
  · rw [e]
    have et : t0 = t0 * Real.exp (c.g / (c.cp * t0) * z) * Real.exp (-c.g / (c.cp * t0) * z) := by
      rw [mul_assoc, ← Real.exp_add]
      have : c.g / (c.cp * t0) * z + -c.g / (c.cp * t0) * z = 0 := by ring
      rw [this, Real.exp_zero, mul_one]
    have k := has_exner h (u := u0) (v := 0) (w := 0) (hth z) (Real.exp_pos (-c.g / (c.cp * t0) * z))
    rw [← et] at k
    exact k
  · rw [e]
    refine hydrostatic_exner h (fun _ => u0) (fun z => t0 * Real.exp (c.g / (c.cp * t0) * z))
      (fun z => Real.exp (-c.g / (c.cp * t0) * z)) z (hth z) (by fun_prop) (Real.exp_pos _) ?_
    have hd := ((hasDerivAt_id z).const_mul (-c.g / (c.cp * t0))).exp
    refine hd.congr_deriv ?_
    simp only [id]
    have e1 : -c.g / (c.cp * t0) * z = -(c.g / (c.cp * t0) * z) := by ring
    rw [e1, Real.exp_neg]
    have hx := Real.exp_pos (c.g / (c.cp * t0) * z)
    generalize Real.exp (c.g / (c.cp * t0) * z) = X at hx ⊢
    field_simp

/-! ### Test cases on the sphere -/

/-- **C112 (Held and Suarez).**  The reference state is at rest, has the given temperature and is balanced. -/
theorem C112_held_suarez (t0 z : ℝ) (ht : 0 < t0) (hg : 0 < c.g) :
    AtRest (heldSuarez c t0 z) ∧ Has c t0 (heldSuarez c t0 z) ∧ Hydrostatic c (heldSuarez c t0) z := by
  have hr := h.r
  have h0 := h.p0
  have e : heldSuarez c t0 = fun z => ofPressure c 0 (c.p0 * Real.exp (-z / (c.r * t0 / c.g)))
      (c.p0 * Real.exp (-z / (c.r * t0 / c.g)) / (c.r * t0)) := by
    funext z
    unfold heldSuarez
    simp only
    congr 1
    field_simp
  rw [e]
  refine ⟨⟨rfl, rfl, rfl⟩, has_ofPressure h (by positivity) ht, ?_⟩
  refine hydrostatic_ofPressure h (fun _ => 0) _ (fun _ => t0) z (by positivity) ht continuousAt_const ?_
  refine ((((hasDerivAt_id z).neg.div_const (c.r * t0 / c.g)).exp).const_mul c.p0).congr_deriv ?_
  simp only [Pi.neg_apply, id]
  field_simp

/-- **C112 (gravity wave of Baldauf, reference state).**  At rest, the given temperature, balanced. -/
theorem C112_baldauf_reference (t0 z : ℝ) (ht : 0 < t0) :
    AtRest (baldaufReference c t0 z) ∧ Has c t0 (baldaufReference c t0 z) ∧
      Hydrostatic c (baldaufReference c t0) z := by
  have hr := h.r
  have h0 := h.p0
  refine ⟨⟨rfl, rfl, rfl⟩, has_ofPressure h (by positivity) ht, ?_⟩
  refine hydrostatic_ofPressure h (fun _ => 0) (fun z => c.p0 * Real.exp (-c.g * z / c.r / t0)) (fun _ => t0) z
    (by positivity) ht continuousAt_const ?_
  refine (((((hasDerivAt_id z).const_mul (-c.g)).div_const c.r).div_const t0).exp.const_mul c.p0).congr_deriv ?_
  simp only [id]
  field_simp

/-- **C112 (gravity wave of Baldauf, initial state).**  The initial state is at rest and has the pressure of the
reference state; its temperature differs by the given warm or cold bell. -/
theorem C112_baldauf (t0 magnitude ztop z lat : ℝ) (ht : 0 < t0)
    (hw : 0 < t0 + magnitude * Real.exp (-100 * lat ^ 2) * Real.sin (Real.pi * z / ztop)) :
    AtRest (baldauf c t0 magnitude ztop z lat) ∧
      pressure c (baldauf c t0 magnitude ztop z lat) = pressure c (baldaufReference c t0 z) ∧
      Has c (t0 + magnitude * Real.exp (-100 * lat ^ 2) * Real.sin (Real.pi * z / ztop))
        (baldauf c t0 magnitude ztop z lat) := by
  have hr := h.r
  have h0 := h.p0
  have hp : 0 < c.p0 * Real.exp (-c.g * z / (c.r * t0)) := by positivity
  have e : baldauf c t0 magnitude ztop z lat = ofPressure c 0 (c.p0 * Real.exp (-c.g * z / (c.r * t0)))
      (c.p0 * Real.exp (-c.g * z / (c.r * t0)) /
        (c.r * (t0 + magnitude * Real.exp (-100 * lat ^ 2) * Real.sin (Real.pi * z / ztop)))) := by
    unfold baldauf
    simp only
    have e1 : c.p0 * Real.exp (-c.g * z / (c.r * t0)) /
        (c.p0 * Real.exp (-c.g * z / (c.r * t0)) / (c.r * t0) * c.r) = t0 := by
      field_simp
    have e2 : -100 * lat * lat = -100 * lat ^ 2 := by ring
    rw [e1, e2]
  rw [e]
  refine ⟨⟨rfl, rfl, rfl⟩, ?_, has_ofPressure h hp hw⟩
  rw [pressure_ofPressure h hp (by positivity)]
  unfold baldaufReference
  simp only
  rw [pressure_ofPressure h (by positivity) (by positivity)]
  congr 2
  field_simp

/-- **C112 (mountain and Rossby waves).**  The given temperature everywhere, balanced. -/
theorem C112_mountain_rossby (t0 u0 pp z lat : ℝ) (ht : 0 < t0) (hp : 0 < pp) :
    (mountainRossby c t0 u0 pp z lat).u = u0 * Real.cos lat ∧ Has c t0 (mountainRossby c t0 u0 pp z lat) ∧
      Hydrostatic c (fun z => mountainRossby c t0 u0 pp z lat) z := by
  have hr := h.r
  refine ⟨rfl, has_ofPressure h (by positivity) ht, ?_⟩
  refine hydrostatic_ofPressure h (fun _ => u0 * Real.cos lat) (fun z => pp * Real.exp (-u0 / (2 * c.r * t0) *
      (Real.sin lat * Real.sin lat - 1) * (u0 + 2 * c.omega * c.earthRadius) - c.g * z / (c.r * t0))) (fun _ => t0) z
    (by positivity) ht continuousAt_const ?_
  refine (((((hasDerivAt_id z).const_mul c.g).div_const (c.r * t0)).const_sub _).exp.const_mul pp).congr_deriv ?_
  simp only [id]
  field_simp

/-- **C112 (mountain waves on the sphere).**  The given temperature everywhere, balanced. -/
theorem C112_mountain_wave (t0 u0 z lat : ℝ) (ht : 0 < t0) (hg : 0 < c.g) :
    (mountainWave c t0 u0 z lat).u = u0 * Real.cos lat ∧ Has c t0 (mountainWave c t0 u0 z lat) ∧
      Hydrostatic c (fun z => mountainWave c t0 u0 z lat) z := by
  have hr := h.r
  have h0 := h.p0
  have hgh : c.g * (c.r * t0 / c.g) = c.r * t0 := by field_simp
  unfold mountainWave
  simp only [hgh]
  refine ⟨rfl, has_ofPressure h (by positivity) ht, ?_⟩
  refine hydrostatic_ofPressure h (fun _ => u0 * Real.cos lat) (fun z => c.p0 * Real.exp (-z / (c.r * t0 / c.g)) *
      Real.exp (-0.5 * (u0 * u0 / (c.r * t0)) * (1 + 2 * c.earthRadius * c.omega / u0) * Real.sin lat * Real.sin lat))
    (fun _ => t0) z (by positivity) ht continuousAt_const ?_
  refine (((((hasDerivAt_id z).neg.div_const (c.r * t0 / c.g)).exp).const_mul c.p0).mul_const _).congr_deriv ?_
  simp only [Pi.neg_apply, id]
  generalize Real.exp (-0.5 * (u0 * u0 / (c.r * t0)) * (1 + 2 * c.earthRadius * c.omega / u0) * Real.sin lat *
    Real.sin lat) = X
  field_simp

/-- **C112 (Schaer mountain on the sphere).**  The given temperature depends on latitude only; balanced. -/
theorem C112_schar (teq ueq cs z lat : ℝ) (ht : 0 < teq) (hw : cs * ueq ^ 2 / c.g * Real.sin lat ^ 2 < 1) :
    Has c (teq * (1 - cs * ueq ^ 2 / c.g * Real.sin lat ^ 2)) (schar c teq ueq cs z lat) ∧
      Hydrostatic c (fun z => schar c teq ueq cs z lat) z := by
  have hr := h.r
  have h0 := h.p0
  have et : teq * (1 - cs * ueq ^ 2 / c.g * Real.sin lat ^ 2) = scharTemperature c teq ueq cs lat := by
    unfold scharTemperature
    ring
  have hT : 0 < scharTemperature c teq ueq cs lat := by
    rw [← et]
    exact mul_pos ht (by linarith)
  rw [et]
  refine ⟨has_ofPressure h (by positivity) hT, ?_⟩
  refine hydrostatic_ofPressure h (fun z => ueq * Real.cos lat *
      Real.sqrt (2 * teq / scharTemperature c teq ueq cs lat * cs * z + scharTemperature c teq ueq cs lat / teq))
    (fun z => c.p0 * Real.exp (-ueq * ueq / (2 * c.r * teq) * (Real.sin lat * Real.sin lat) -
      c.g * z / (c.r * scharTemperature c teq ueq cs lat))) (fun _ => scharTemperature c teq ueq cs lat) z
    (by positivity) hT continuousAt_const ?_
  refine (((((hasDerivAt_id z).const_mul c.g).div_const (c.r * scharTemperature c teq ueq cs lat)).const_sub _).exp.const_mul
    c.p0).congr_deriv ?_
  simp only [id]
  field_simp

/-- **C112 (flow over mountains at rest).**  Below the height at which the temperature would vanish: at rest,
temperature with the given lapse rate, balanced. -/
theorem C112_stationary (t0 lapse z : ℝ) (ht : 0 < t0) (hl : lapse ≠ 0) (hz : lapse * z < t0) :
    AtRest (stationary c t0 lapse z) ∧ Has c (t0 - lapse * z) (stationary c t0 lapse z) ∧
      Hydrostatic c (stationary c t0 lapse) z := by
  have hr := h.r
  have h0 := h.p0
  have hT : 0 < t0 - lapse * z := by linarith
  have hb : 0 < 1 - lapse / t0 * z := by
    have e : 1 - lapse / t0 * z = (t0 - lapse * z) / t0 := by field_simp
    rw [e]
    positivity
  have hpow := Real.rpow_pos_of_pos hb (c.g / (c.r * lapse))
  refine ⟨⟨rfl, rfl, rfl⟩, has_ofPressure h (by positivity) hT, ?_⟩
  refine hydrostatic_ofPressure h (fun _ => 0) (fun z => c.p0 * (1 - lapse / t0 * z) ^ (c.g / (c.r * lapse)))
    (fun z => t0 - lapse * z) z (by positivity) hT (by fun_prop) ?_
  have hd : HasDerivAt (fun z => 1 - lapse / t0 * z) (-(lapse / t0 * 1)) z :=
    ((hasDerivAt_id z).const_mul (lapse / t0)).const_sub 1
  refine ((hd.rpow_const (p := c.g / (c.r * lapse)) (Or.inl hb.ne')).const_mul c.p0).congr_deriv ?_
  have es : (1 - lapse / t0 * z) ^ (c.g / (c.r * lapse) - 1) =
      (1 - lapse / t0 * z) ^ (c.g / (c.r * lapse)) / ((t0 - lapse * z) / t0) := by
    rw [Real.rpow_sub hb, Real.rpow_one]
    congr 1
    field_simp
  rw [es]
  have hx := hpow
  generalize (1 - lapse / t0 * z) ^ (c.g / (c.r * lapse)) = X at hx ⊢
  field_simp

end Verif.Cases
