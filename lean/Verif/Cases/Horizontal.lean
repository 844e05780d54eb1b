import Verif.Cases.PropsWave

/-!
# C113: the zonal flows of the nonhydrostatic test cases on the sphere are in balance along the meridians
-/

namespace Verif.Cases

open Verif.Thermo

variable {c : Constants} (h : Proper c)

include h

/-- **C113 (mountain and Rossby waves).** -/
theorem C113_mountain_rossby (t0 u0 pp z lat : ℝ) (ht : 0 < t0) (hp : 0 < pp) (ha : 0 < c.earthRadius)
    (hl : Real.cos lat ≠ 0) : Meridional c (fun lat => mountainRossby c t0 u0 pp z lat) lat := by
  have hr := h.r
  have hd := (((((((Real.hasDerivAt_sin lat).mul (Real.hasDerivAt_sin lat)).sub_const 1).const_mul
    (-u0 / (2 * c.r * t0))).mul_const (u0 + 2 * c.omega * c.earthRadius)).sub_const
      (c.g * z / (c.r * t0))).exp).const_mul pp
  refine meridional_ofPressure h (fun lat => u0 * Real.cos lat) (fun lat => pp * Real.exp (-u0 / (2 * c.r * t0) *
      (Real.sin lat * Real.sin lat - 1) * (u0 + 2 * c.omega * c.earthRadius) - c.g * z / (c.r * t0))) (fun _ => t0) lat
    _ (by positivity) ht continuousAt_const hd ?_
  simp only [Pi.mul_apply]
  rw [Real.tan_eq_sin_div_cos]
  have hX := Real.exp_pos (-u0 / (2 * c.r * t0) *
      (Real.sin lat * Real.sin lat - 1) * (u0 + 2 * c.omega * c.earthRadius) - c.g * z / (c.r * t0))
  generalize Real.exp (-u0 / (2 * c.r * t0) *
      (Real.sin lat * Real.sin lat - 1) * (u0 + 2 * c.omega * c.earthRadius) - c.g * z / (c.r * t0)) = X at hX ⊢
  field_simp
  ring

/-- **C113 (mountain waves on the sphere).**  Without wind the code divides by zero. -/
theorem C113_mountain_wave (t0 u0 z lat : ℝ) (ht : 0 < t0) (hg : 0 < c.g) (hu : u0 ≠ 0) (ha : 0 < c.earthRadius)
    (hl : Real.cos lat ≠ 0) : Meridional c (fun lat => mountainWave c t0 u0 z lat) lat := by
  have hr := h.r
  have h0 := h.p0
  have hgh : c.g * (c.r * t0 / c.g) = c.r * t0 := by field_simp
  unfold mountainWave
  simp only [hgh]
  have hd := (((((Real.hasDerivAt_sin lat).const_mul (-0.5 * (u0 * u0 / (c.r * t0)) *
    (1 + 2 * c.earthRadius * c.omega / u0))).mul (Real.hasDerivAt_sin lat)).exp).const_mul
      (c.p0 * Real.exp (-z / (c.r * t0 / c.g))))
  refine meridional_ofPressure h (fun lat => u0 * Real.cos lat) (fun lat => c.p0 * Real.exp (-z / (c.r * t0 / c.g)) *
      Real.exp (-0.5 * (u0 * u0 / (c.r * t0)) * (1 + 2 * c.earthRadius * c.omega / u0) * Real.sin lat * Real.sin lat))
    (fun _ => t0) lat _ (by positivity) ht continuousAt_const hd ?_
  simp only [Pi.mul_apply]
  rw [Real.tan_eq_sin_div_cos]
  have hX := Real.exp_pos (-0.5 * (u0 * u0 / (c.r * t0)) * (1 + 2 * c.earthRadius * c.omega / u0) * Real.sin lat *
    Real.sin lat)
  generalize Real.exp (-0.5 * (u0 * u0 / (c.r * t0)) * (1 + 2 * c.earthRadius * c.omega / u0) * Real.sin lat *
    Real.sin lat) = X at hX ⊢
  have hY := Real.exp_pos (-z / (c.r * t0 / c.g))
  generalize Real.exp (-z / (c.r * t0 / c.g)) = Y at hY ⊢
  rw [show (0.5 : ℝ) = 1 / 2 by norm_num]
  field_simp
  ring

/-- **C113 (inertia gravity wave).** -/
theorem C113_inertia_gravity (n u0 teq z lat : ℝ) (ht : 0 < teq) (hn : n ≠ 0) (hg : c.g ≠ 0) (ha : 0 < c.earthRadius)
    (hs : 0 < buoyant c n u0 teq 0 lat) (hT : 0 < buoyant c n u0 teq z lat) (hl : Real.cos lat ≠ 0) :
    MeridionalNear c (fun lat => inertiaGravity c n u0 teq z lat) lat := by
  have hr := h.r
  have h0 := h.p0
  have hc := h.cp_pos
  have hd := buoyant_lat c n u0 teq z lat
  have hd0 := buoyant_lat c n u0 teq 0 lat
  refine ⟨fun lat => ofPressure c (u0 * Real.cos lat) (c.p0 * Real.exp (waveLog c n u0 teq z lat))
      (c.p0 * Real.exp (waveLog c n u0 teq z lat) / (c.r * buoyant c n u0 teq z lat)), ?_, ?_⟩
  · filter_upwards [hd.continuousAt.eventually (lt_mem_nhds hT), hd0.continuousAt.eventually (lt_mem_nhds hs)]
      with x hx hy
    exact inertiaGravity_eq h n u0 teq z x ht hy hx
  · have hL := ((((Real.hasDerivAt_sin lat).pow 2).const_mul
        (u0 / (2 * (c.g ^ 2 / (n ^ 2 * c.cp)) * c.r) * (u0 + 2 * c.omega * c.earthRadius))).neg).add
      ((((hd.log hT.ne').const_add (-(n ^ 2 / c.g * z))).sub_const (Real.log teq)).const_mul (c.cp / c.r))
    have hP : HasDerivAt (fun lat => c.p0 * Real.exp (waveLog c n u0 teq z lat))
        (-(c.p0 * Real.exp (waveLog c n u0 teq z lat) / (c.r * buoyant c n u0 teq z lat) *
          (u0 * (u0 + 2 * c.omega * c.earthRadius) * Real.sin lat * Real.cos lat))) lat := by
      refine (hL.exp.const_mul c.p0).congr_deriv ?_
      have e : ((-fun y : ℝ => u0 / (2 * (c.g ^ 2 / (n ^ 2 * c.cp)) * c.r) * (u0 + 2 * c.omega * c.earthRadius) *
          (Real.sin ^ 2) y) + fun y : ℝ => c.cp / c.r * (-(n ^ 2 / c.g * z) + Real.log (buoyant c n u0 teq z y) -
            Real.log teq) : ℝ → ℝ) lat = waveLog c n u0 teq z lat := rfl
      rw [e]
      generalize Real.exp (waveLog c n u0 teq z lat) = X
      generalize buoyant c n u0 teq z lat = T at hT
      push_cast
      field_simp
      ring
    refine meridional_ofPressure h (fun lat => u0 * Real.cos lat) (fun lat => c.p0 * Real.exp (waveLog c n u0 teq z lat))
      (fun lat => buoyant c n u0 teq z lat) lat _ (by positivity) hT hd.continuousAt hP ?_
    rw [Real.tan_eq_sin_div_cos]
    have hX := Real.exp_pos (waveLog c n u0 teq z lat)
    generalize Real.exp (waveLog c n u0 teq z lat) = X at hX ⊢
    generalize buoyant c n u0 teq z lat = T at hT
    field_simp
    ring

/-- What is left over along a meridian in the Schaer mountain case: the Coriolis force of the whole flow. -/
theorem schar_residual (teq ueq cs z lat : ℝ) (ht : 0 < teq) (hg : c.g ≠ 0) (ha : 0 < c.earthRadius)
    (hw : cs * ueq ^ 2 / c.g * Real.sin lat ^ 2 < 1) (hz : 0 ≤ cs * z) :
    ∃ slope, HasDerivAt (fun lat => pressure c (schar c teq ueq cs z lat)) slope lat ∧
      (schar c teq ueq cs z lat).u ^ 2 * Real.tan lat / c.earthRadius +
        slope / ((schar c teq ueq cs z lat).rho * c.earthRadius) = 0 := by
  have hr := h.r
  have h0 := h.p0
  have hT : 0 < scharTemperature c teq ueq cs lat := by
    have et : scharTemperature c teq ueq cs lat = teq * (1 - cs * ueq ^ 2 / c.g * Real.sin lat ^ 2) := by
      unfold scharTemperature
      ring
    rw [et]
    exact mul_pos ht (by linarith)
  have hdT : HasDerivAt (scharTemperature c teq ueq cs)
      (-(2 * teq * cs * ueq ^ 2 / c.g * Real.sin lat * Real.cos lat)) lat := by
    refine (((((Real.hasDerivAt_sin lat).mul (Real.hasDerivAt_sin lat)).const_mul
      (cs * ueq * ueq / c.g)).const_sub 1).const_mul teq).congr_deriv ?_
    ring
  have hE := ((((Real.hasDerivAt_sin lat).mul (Real.hasDerivAt_sin lat)).const_mul
    (-ueq * ueq / (2 * c.r * teq))).sub
      ((hasDerivAt_const lat (c.g * z)).div (hdT.const_mul c.r) (by positivity))).exp.const_mul c.p0
  refine ⟨_, hE.congr_of_eventuallyEq ?_, ?_⟩
  · filter_upwards [hdT.continuousAt.eventually (lt_mem_nhds hT)] with x hx
    have h2 : 0 < scharTemperature c teq ueq cs x := hx
    exact pressure_ofPressure h (by positivity) (by positivity)
  · have hs : 0 ≤ 2 * teq / scharTemperature c teq ueq cs lat * cs * z + scharTemperature c teq ueq cs lat / teq := by
      have e : 2 * teq / scharTemperature c teq ueq cs lat * cs * z =
          2 * teq / scharTemperature c teq ueq cs lat * (cs * z) := by ring
      rw [e]
      positivity
    have eu : (schar c teq ueq cs z lat).u ^ 2 = ueq ^ 2 * Real.cos lat ^ 2 *
        (2 * teq / scharTemperature c teq ueq cs lat * cs * z + scharTemperature c teq ueq cs lat / teq) := by
      show (ueq * Real.cos lat * Real.sqrt _) ^ 2 = _
      rw [mul_pow, Real.sq_sqrt hs]
      ring
    rw [eu, Real.tan_eq_sin_div_cos]
    show _ + _ / (c.p0 * Real.exp (-ueq * ueq / (2 * c.r * teq) * (Real.sin lat * Real.sin lat) -
      c.g * z / (c.r * scharTemperature c teq ueq cs lat)) / (c.r * scharTemperature c teq ueq cs lat) *
        c.earthRadius) = 0
    simp only [Pi.mul_apply, Pi.sub_apply, Pi.div_apply]
    have hX := Real.exp_pos (-ueq * ueq / (2 * c.r * teq) * (Real.sin lat * Real.sin lat) -
      c.g * z / (c.r * scharTemperature c teq ueq cs lat))
    generalize Real.exp (-ueq * ueq / (2 * c.r * teq) * (Real.sin lat * Real.sin lat) -
      c.g * z / (c.r * scharTemperature c teq ueq cs lat)) = X at hX ⊢
    generalize scharTemperature c teq ueq cs lat = T at hT ⊢
    field_simp
    ring

/-- **C113 (Schaer mountain on the sphere).**  Without rotation of the planet the flow is in balance. -/
theorem C113_schar (teq ueq cs z lat : ℝ) (ht : 0 < teq) (hg : c.g ≠ 0) (ha : 0 < c.earthRadius)
    (hw : cs * ueq ^ 2 / c.g * Real.sin lat ^ 2 < 1) (hz : 0 ≤ cs * z) (ho : c.omega = 0) :
    Meridional c (fun lat => schar c teq ueq cs z lat) lat := by
  obtain ⟨slope, hd, he⟩ := schar_residual h teq ueq cs z lat ht hg ha hw hz
  refine ⟨slope, hd, ?_⟩
  rw [ho]
  linarith

/-- **C113 (Schaer mountain on a rotating sphere, false).**  The case has an option for the speed of rotation; with
rotation the flow is not in balance anywhere outside the equator and the poles. -/
theorem C113_schar_rotating_false (teq ueq cs z lat : ℝ) (ht : 0 < teq) (hg : c.g ≠ 0) (ha : 0 < c.earthRadius)
    (hw : cs * ueq ^ 2 / c.g * Real.sin lat ^ 2 < 1) (hz : 0 ≤ cs * z) (hl : Real.cos lat ≠ 0)
    (hs : Real.sin lat ≠ 0) (hu : ueq ≠ 0) (ho : c.omega ≠ 0) :
    ¬ Meridional c (fun lat => schar c teq ueq cs z lat) lat := by
  obtain ⟨slope, hd, he⟩ := schar_residual h teq ueq cs z lat ht hg ha hw hz
  rintro ⟨slope', hd', he'⟩
  rw [hd'.unique hd] at he'
  have hz0 : 2 * c.omega * Real.sin lat * (schar c teq ueq cs z lat).u = 0 := by
    simp only at he'
    linarith
  have hT : 0 < scharTemperature c teq ueq cs lat := by
    have et : scharTemperature c teq ueq cs lat = teq * (1 - cs * ueq ^ 2 / c.g * Real.sin lat ^ 2) := by
      unfold scharTemperature
      ring
    rw [et]
    exact mul_pos ht (by linarith)
  have hpos : 0 < 2 * teq / scharTemperature c teq ueq cs lat * cs * z + scharTemperature c teq ueq cs lat / teq := by
    have e : 2 * teq / scharTemperature c teq ueq cs lat * cs * z =
        2 * teq / scharTemperature c teq ueq cs lat * (cs * z) := by ring
    rw [e]
    positivity
  have hu' : (schar c teq ueq cs z lat).u ≠ 0 :=
    mul_ne_zero (mul_ne_zero hu hl) (Real.sqrt_pos.2 hpos).ne'
  exact mul_ne_zero (mul_ne_zero (mul_ne_zero two_ne_zero ho) hs) hu' hz0

namespace Wave

omit h in
/-- The derivative of the interior term along a meridian. -/
theorem interior_lat (q : Wave) (deep : Bool) (z lat : ℝ) (hk : 0 < q.k) (hx : 0 < ratio c deep z * Real.cos lat) :
    HasDerivAt (fun lat => q.interior c deep z lat) (-(ratio c deep z * Real.sin lat) * q.k *
      ((ratio c deep z * Real.cos lat) ^ (q.k - 1) - (ratio c deep z * Real.cos lat) ^ (q.k + 1))) lat := by
  have hc := (Real.hasDerivAt_cos lat).const_mul (ratio c deep z)
  have h1 := hc.rpow_const (p := q.k) (Or.inl hx.ne')
  have h2 := (hc.rpow_const (p := q.k + 2) (Or.inl hx.ne')).const_mul (q.k / (q.k + 2))
  refine (h1.sub h2).congr_deriv ?_
  rw [show q.k + 2 - 1 = q.k + 1 by ring]
  field_simp
  ring

omit h in
/-- What the wind of the initial state solves. -/
theorem wind_solves (q : Wave) (deep : Bool) (z lat : ℝ) (hd : 0 ≤ q.discriminant c deep z lat) :
    (-(c.omega * rCosLat c deep z lat) + Real.sqrt (q.discriminant c deep z lat)) ^ 2 +
      2 * c.omega * rCosLat c deep z lat *
        (-(c.omega * rCosLat c deep z lat) + Real.sqrt (q.discriminant c deep z lat)) =
      rCosLat c deep z lat * q.bigU c deep z lat := by
  have hs := Real.sq_sqrt hd
  have hD : q.discriminant c deep z lat = (c.omega * rCosLat c deep z lat) ^ 2 +
      rCosLat c deep z lat * q.bigU c deep z lat := by
    unfold discriminant
    ring
  generalize Real.sqrt (q.discriminant c deep z lat) = s at hs ⊢
  rw [hD] at hs
  linear_combination hs

/-- **C113 (baroclinic wave, shallow atmosphere).** -/
theorem C113_wave (q : Wave) (hq : q.Mild) (hg : 0 ≤ c.g) (ha : 0 < c.earthRadius) (z lat : ℝ) (hz : 0 ≤ z)
    (hl : 0 < Real.cos lat) : MeridionalNear c (fun lat => q.state c false z lat) lat := by
  have hr := h.r
  have h0 := h.p0
  have hT := q.temperature_pos hq c z lat hz hl.le
  have hp : 0 < q.pressure c false z lat := by
    unfold Wave.pressure
    positivity
  have hcos : ∀ᶠ x in nhds lat, 0 < Real.cos x := (Real.continuous_cos.continuousAt).eventually (lt_mem_nhds hl)
  have hI := q.interior_lat (c := c) false z lat hq.k (by rw [ratio_shallow, one_mul]; exact hl)
  rw [ratio_shallow] at hI
  refine ⟨fun x => ofPressure c (-(c.omega * rCosLat c false z x) + Real.sqrt (q.discriminant c false z x))
    (q.pressure c false z x) (q.pressure c false z x / (c.r * q.temperature c false z x)), ?_, ?_⟩
  · filter_upwards [hcos] with x hx
    unfold state
    rw [if_neg (not_lt.2 (q.discriminant_nonneg hq c hg ha z x hz hx.le))]
  · have hP := (((hI.const_mul (q.intTau2 c z)).const_sub (q.intTau1 c z)).const_mul (-c.g / c.r)).exp.const_mul c.p0
    have hdisc := q.discriminant_nonneg hq c hg ha z lat hz hl.le
    refine meridional_ofPressure h _ (fun x => q.pressure c false z x) (fun x => q.temperature c false z x) lat _ hp hT
      ?_ hP ?_
    · have e : (fun x => q.temperature c false z x) =
          fun x => 1 / (1 * 1) / (q.tau1 c z - q.tau2 c z * q.interior c false z x) := by
        funext x
        unfold temperature
        rw [ratio_shallow]
      rw [e]
      have hc := hI.continuousAt
      refine ContinuousAt.div continuousAt_const ?_ (q.tau_pos hq c z lat hz hl.le).ne'
      exact continuousAt_const.sub (continuousAt_const.mul hc)
    · have e : Real.exp (-c.g / c.r * (q.intTau1 c z - q.intTau2 c z * q.interior c false z lat)) =
          q.pressure c false z lat / c.p0 := by
        unfold Wave.pressure
        field_simp
      have hw := q.wind_solves (c := c) false z lat hdisc
      have hR : rCosLat c false z lat = c.earthRadius * Real.cos lat := rfl
      have hU : q.bigU c false z lat = c.g / c.earthRadius * q.k * q.intTau2 c z *
        ((1 * Real.cos lat) ^ (q.k - 1) - (1 * Real.cos lat) ^ (q.k + 1)) * q.temperature c false z lat := rfl
      rw [hU] at hw
      rw [e, Real.tan_eq_sin_div_cos]
      generalize (1 * Real.cos lat) ^ (q.k - 1) - (1 * Real.cos lat) ^ (q.k + 1) = D at hw ⊢
      generalize -(c.omega * rCosLat c false z lat) + Real.sqrt (q.discriminant c false z lat) = U at hw ⊢
      rw [hR] at hw
      generalize q.pressure c false z lat = P at hp ⊢
      generalize q.temperature c false z lat = T at hT hw ⊢
      have e1 : U ^ 2 * (Real.sin lat / Real.cos lat) / c.earthRadius + 2 * c.omega * Real.sin lat * U =
          Real.sin lat / (c.earthRadius * Real.cos lat) * (U ^ 2 + 2 * c.omega * (c.earthRadius * Real.cos lat) * U) := by
        field_simp
      rw [e1, hw]
      field_simp
      ring

/-- **C113 (baroclinic wave, deep atmosphere).**  Wherever the temperature is positive and the radicand of the wind too,
the state is given without an exception, and in balance with the gravity, the Coriolis and the centrifugal force of a
deep atmosphere in both directions. -/
theorem C113_wave_deep (q : Wave) (hk : 0 < q.k) (ha : 0 < c.earthRadius) (z lat : ℝ) (hz : -c.earthRadius < z)
    (hl : 0 < Real.cos lat) (hT : 0 < q.temperature c true z lat) (hD : 0 < q.discriminant c true z lat) :
    ∃ air, q.state c true z lat = some (air z lat) ∧
      (∀ᶠ x in nhds z, q.state c true x lat = some (air x lat)) ∧
      (∀ᶠ x in nhds lat, q.state c true z x = some (air z x)) ∧ Deep c air z lat := by
  have hr := h.r
  have h0 := h.p0
  have hR : 0 < c.earthRadius + z := by linarith
  have hrat : ∀ x, ratio c true x = (x + c.earthRadius) / c.earthRadius := fun x => rfl
  have hrc : ∀ x y, rCosLat c true x y = (x + c.earthRadius) * Real.cos y := fun x y => rfl
  have hX : 0 < ratio c true z * Real.cos lat := by
    rw [hrat]
    have : 0 < z + c.earthRadius := by linarith
    positivity
  have hp : ∀ x y, 0 < q.pressure c true x y := by
    intro x y
    unfold Wave.pressure
    positivity
  have htau : 0 < q.tau1 c z - q.tau2 c z * q.interior c true z lat := by
    have hr2 : 0 < ratio c true z := by
      rw [hrat]
      have : 0 < z + c.earthRadius := by linarith
      positivity
    by_contra hn
    have : q.temperature c true z lat ≤ 0 := by
      unfold temperature
      exact div_nonpos_of_nonneg_of_nonpos (by positivity) (not_lt.1 hn)
    linarith
  have hIlat := q.interior_lat (c := c) true z lat hk hX
  have hIz : HasDerivAt (fun z => q.interior c true z lat) (Real.cos lat / c.earthRadius * q.k *
      ((ratio c true z * Real.cos lat) ^ (q.k - 1) - (ratio c true z * Real.cos lat) ^ (q.k + 1))) z := by
    have hc : HasDerivAt (fun z => ratio c true z * Real.cos lat) (1 / c.earthRadius * Real.cos lat) z :=
      (((hasDerivAt_id z).add_const c.earthRadius).div_const c.earthRadius).mul_const (Real.cos lat)
    have h1 := hc.rpow_const (p := q.k) (Or.inl hX.ne')
    have h2 := (hc.rpow_const (p := q.k + 2) (Or.inl hX.ne')).const_mul (q.k / (q.k + 2))
    refine (h1.sub h2).congr_deriv ?_
    rw [show q.k + 2 - 1 = q.k + 1 by ring]
    field_simp
  have h1 := q.intTau1_deriv c z
  have h2 := q.intTau2_deriv c z
  have ct1 : Continuous (q.tau1 c) := by
    unfold tau1 scaled
    fun_prop
  have ct2 : Continuous (q.tau2 c) := by
    unfold tau2 scaled
    fun_prop
  have ci2 : Continuous (q.intTau2 c) := by
    unfold intTau2 scaled
    fun_prop
  have crat : Continuous (ratio c true) := by
    have : ratio c true = fun x => (x + c.earthRadius) / c.earthRadius := rfl
    rw [this]
    fun_prop
  have hTz : ContinuousAt (fun x => q.temperature c true x lat) z := by
    unfold temperature
    have hri : ratio c true z * ratio c true z ≠ 0 := by
      have : ratio c true z ≠ 0 := fun e => by rw [e, zero_mul] at hX; exact lt_irrefl _ hX
      exact mul_ne_zero this this
    refine ContinuousAt.div (ContinuousAt.div continuousAt_const (crat.mul crat).continuousAt hri) ?_ htau.ne'
    exact ct1.continuousAt.sub (ct2.continuousAt.mul hIz.continuousAt)
  have hTl : ContinuousAt (fun x => q.temperature c true z x) lat := by
    unfold temperature
    refine ContinuousAt.div continuousAt_const ?_ htau.ne'
    exact continuousAt_const.sub (continuousAt_const.mul hIlat.continuousAt)
  have hDz : ContinuousAt (fun x => q.discriminant c true x lat) z := by
    unfold discriminant bigU
    have a1 : ContinuousAt (fun x => rCosLat c true x lat) z := by
      simp only [hrc]
      fun_prop
    have a2 : ContinuousAt (fun x => (ratio c true x * Real.cos lat) ^ (q.k - 1)) z :=
      (crat.continuousAt.mul continuousAt_const).rpow_const (Or.inl hX.ne')
    have a3 : ContinuousAt (fun x => (ratio c true x * Real.cos lat) ^ (q.k + 1)) z :=
      (crat.continuousAt.mul continuousAt_const).rpow_const (Or.inl hX.ne')
    have a4 := ci2.continuousAt (x := z)
    fun_prop
  have hDl : ContinuousAt (fun x => q.discriminant c true z x) lat := by
    unfold discriminant bigU
    have a1 : ContinuousAt (fun x => rCosLat c true z x) lat := by
      simp only [hrc]
      fun_prop
    have a2 : ContinuousAt (fun x => (ratio c true z * Real.cos x) ^ (q.k - 1)) lat :=
      (continuousAt_const.mul Real.continuous_cos.continuousAt).rpow_const (Or.inl hX.ne')
    have a3 : ContinuousAt (fun x => (ratio c true z * Real.cos x) ^ (q.k + 1)) lat :=
      (continuousAt_const.mul Real.continuous_cos.continuousAt).rpow_const (Or.inl hX.ne')
    fun_prop
  have key : ∀ x y, 0 ≤ q.discriminant c true x y → q.state c true x y =
      some (ofPressure c (-(c.omega * rCosLat c true x y) + Real.sqrt (q.discriminant c true x y))
        (q.pressure c true x y) (q.pressure c true x y / (c.r * q.temperature c true x y))) := by
    intro x y hxy
    unfold state
    rw [if_neg (not_lt.2 hxy)]
  have hpr : ∀ x y, 0 < q.temperature c true x y →
      Cases.pressure c (ofPressure c (-(c.omega * rCosLat c true x y) + Real.sqrt (q.discriminant c true x y))
        (q.pressure c true x y) (q.pressure c true x y / (c.r * q.temperature c true x y))) =
          q.pressure c true x y := by
    intro x y hxy
    have := hp x y
    exact pressure_ofPressure h this (by positivity)
  refine ⟨fun x y => ofPressure c (-(c.omega * rCosLat c true x y) + Real.sqrt (q.discriminant c true x y))
        (q.pressure c true x y) (q.pressure c true x y / (c.r * q.temperature c true x y)), key z lat hD.le, ?_, ?_, ?_⟩
  · filter_upwards [hDz.eventually (lt_mem_nhds hD)] with x hx
    exact key x lat (le_of_lt hx)
  · filter_upwards [hDl.eventually (lt_mem_nhds hD)] with x hx
    exact key z x (le_of_lt hx)
  · have hPz := ((h1.sub (h2.mul hIz)).const_mul (-c.g / c.r)).exp.const_mul c.p0
    have hPl := (((hIlat.const_mul (q.intTau2 c z)).const_sub (q.intTau1 c z)).const_mul (-c.g / c.r)).exp.const_mul c.p0
    refine ⟨_, _, hPz.congr_of_eventuallyEq ?_, hPl.congr_of_eventuallyEq ?_, ?_, ?_⟩
    · filter_upwards [hTz.eventually (lt_mem_nhds hT)] with x hx
      exact hpr x lat hx
    · filter_upwards [hTl.eventually (lt_mem_nhds hT)] with x hx
      exact hpr z x hx
    · have hw := q.wind_solves (c := c) true z lat hD.le
      have e : c.p0 * (Real.exp (-c.g / c.r *
          ((q.intTau1 c - q.intTau2 c * fun z => q.interior c true z lat) z))) = q.pressure c true z lat := rfl
      have eT : q.tau1 c z = 1 / (ratio c true z * ratio c true z) / q.temperature c true z lat +
          q.tau2 c z * q.interior c true z lat := by
        have : ratio c true z ≠ 0 := fun e => by rw [e, zero_mul] at hX; exact lt_irrefl _ hX
        unfold temperature
        field_simp
        ring
      have hU : q.bigU c true z lat = c.g / c.earthRadius * q.k * q.intTau2 c z *
        ((ratio c true z * Real.cos lat) ^ (q.k - 1) - (ratio c true z * Real.cos lat) ^ (q.k + 1)) *
          q.temperature c true z lat := rfl
      rw [hU] at hw
      rw [← mul_assoc, e, eT, hrat]
      show _ / (q.pressure c true z lat / (c.r * q.temperature c true z lat)) + _ =
        (-(c.omega * rCosLat c true z lat) + Real.sqrt (q.discriminant c true z lat)) ^ 2 / _ + _ *
          (-(c.omega * rCosLat c true z lat) + Real.sqrt (q.discriminant c true z lat))
      rw [hrat] at hw
      have hPP := hp z lat
      generalize ((z + c.earthRadius) / c.earthRadius * Real.cos lat) ^ (q.k - 1) -
        ((z + c.earthRadius) / c.earthRadius * Real.cos lat) ^ (q.k + 1) = D at hw ⊢
      generalize -(c.omega * rCosLat c true z lat) + Real.sqrt (q.discriminant c true z lat) = U at hw ⊢
      rw [hrc] at hw
      generalize q.pressure c true z lat = P at hPP ⊢
      generalize q.temperature c true z lat = T at hT hw ⊢
      have e1 : U ^ 2 / (c.earthRadius + z) + 2 * c.omega * Real.cos lat * U =
          (U ^ 2 + 2 * c.omega * ((z + c.earthRadius) * Real.cos lat) * U) / (c.earthRadius + z) := by
        field_simp
        ring
      have hR' : z + c.earthRadius ≠ 0 := by linarith
      rw [e1, hw, add_comm c.earthRadius z]
      field_simp
      ring
    · have hw := q.wind_solves (c := c) true z lat hD.le
      have e : c.p0 * Real.exp (-c.g / c.r * (q.intTau1 c z - q.intTau2 c z * q.interior c true z lat)) =
          q.pressure c true z lat := rfl
      have hU : q.bigU c true z lat = c.g / c.earthRadius * q.k * q.intTau2 c z *
        ((ratio c true z * Real.cos lat) ^ (q.k - 1) - (ratio c true z * Real.cos lat) ^ (q.k + 1)) *
          q.temperature c true z lat := rfl
      rw [hU] at hw
      rw [← mul_assoc, e, Real.tan_eq_sin_div_cos]
      show (-(c.omega * rCosLat c true z lat) + Real.sqrt (q.discriminant c true z lat)) ^ 2 * _ / _ + _ *
          (-(c.omega * rCosLat c true z lat) + Real.sqrt (q.discriminant c true z lat)) +
        _ / (q.pressure c true z lat / (c.r * q.temperature c true z lat) * _) = 0
      have hPP := hp z lat
      generalize (ratio c true z * Real.cos lat) ^ (q.k - 1) -
        (ratio c true z * Real.cos lat) ^ (q.k + 1) = D at hw ⊢
      generalize -(c.omega * rCosLat c true z lat) + Real.sqrt (q.discriminant c true z lat) = U at hw ⊢
      rw [hrc] at hw
      rw [hrat]
      generalize q.pressure c true z lat = P at hPP ⊢
      generalize q.temperature c true z lat = T at hT hw ⊢
      have hR' : z + c.earthRadius ≠ 0 := by linarith
      have e1 : U ^ 2 * (Real.sin lat / Real.cos lat) / (c.earthRadius + z) + 2 * c.omega * Real.sin lat * U =
          Real.sin lat / ((z + c.earthRadius) * Real.cos lat) *
            (U ^ 2 + 2 * c.omega * ((z + c.earthRadius) * Real.cos lat) * U) := by
        rw [add_comm c.earthRadius z]
        field_simp
      rw [e1, hw, add_comm c.earthRadius z]
      field_simp
      ring

end Wave

end Verif.Cases
