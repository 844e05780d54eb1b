import Verif.Cases.WaveLemmas

/-!
# C112 for the inertia gravity wave and the baroclinic wave on the sphere
-/

namespace Verif.Cases

open Verif.Thermo

variable {c : Constants} (h : Proper c)

include h

/-- **C112 (inertia gravity wave).**  Wherever the temperature of the case and that of the ground below are positive the
reference state is given without an exception, has that temperature and is balanced. -/
theorem C112_inertia_gravity (n u0 teq z lat : ℝ) (ht : 0 < teq) (hn : n ≠ 0) (hg : c.g ≠ 0)
    (hs : 0 < buoyant c n u0 teq 0 lat) (hT : 0 < buoyant c n u0 teq z lat) :
    (∃ a, inertiaGravity c n u0 teq z lat = some a ∧ a.u = u0 * Real.cos lat ∧ a.v = 0 ∧ a.w = 0 ∧
      Has c (buoyant c n u0 teq z lat) a) ∧
    HydrostaticNear c (fun z => inertiaGravity c n u0 teq z lat) z := by
  have hr := h.r
  have h0 := h.p0
  have hc := h.cp_pos
  have hd := buoyant_z c n u0 teq z lat
  refine ⟨⟨_, inertiaGravity_eq h n u0 teq z lat ht hs hT, rfl, rfl, rfl, has_ofPressure h (by positivity) hT⟩, ?_⟩
  refine ⟨fun z => ofPressure c (u0 * Real.cos lat) (c.p0 * Real.exp (waveLog c n u0 teq z lat))
      (c.p0 * Real.exp (waveLog c n u0 teq z lat) / (c.r * buoyant c n u0 teq z lat)), ?_, ?_⟩
  · filter_upwards [hd.continuousAt.eventually (lt_mem_nhds hT)] with x hx
    exact inertiaGravity_eq h n u0 teq x lat ht hs hx
  · refine hydrostatic_ofPressure h (fun _ => u0 * Real.cos lat) (fun z => c.p0 * Real.exp (waveLog c n u0 teq z lat))
      (fun z => buoyant c n u0 teq z lat) z (by positivity) hT hd.continuousAt ?_
    have hL := (((((hasDerivAt_id z).const_mul (n ^ 2 / c.g)).neg.add (hd.log hT.ne')).sub_const
      (Real.log teq)).const_mul (c.cp / c.r)).const_add
        (-(u0 / (2 * (c.g ^ 2 / (n ^ 2 * c.cp)) * c.r) * (u0 + 2 * c.omega * c.earthRadius) * Real.sin lat ^ 2))
    refine (hL.exp.const_mul c.p0).congr_deriv ?_
    have eL : -(u0 / (2 * (c.g ^ 2 / (n ^ 2 * c.cp)) * c.r) * (u0 + 2 * c.omega * c.earthRadius) * Real.sin lat ^ 2) +
        c.cp / c.r * (((-fun y : ℝ => n ^ 2 / c.g * id y) + fun y : ℝ => Real.log (buoyant c n u0 teq y lat) : ℝ → ℝ) z -
          Real.log teq) = waveLog c n u0 teq z lat := rfl
    rw [eL]
    generalize Real.exp (waveLog c n u0 teq z lat) = X
    generalize buoyant c n u0 teq z lat = T at hT
    field_simp
    ring

namespace Wave

/-- **C112 (baroclinic wave, shallow atmosphere).**  At every latitude and height above the ground the reference state is
at rest, of positive temperature and balanced. -/
theorem C112_wave_reference (q : Wave) (hq : q.Mild) (z lat : ℝ) (hz : 0 ≤ z) (hl : 0 ≤ Real.cos lat) :
    AtRest (q.reference c false z lat) ∧ (∃ t, Has c t (q.reference c false z lat)) ∧
      Hydrostatic c (fun z => q.reference c false z lat) z := by
  have hr := h.r
  have h0 := h.p0
  have hT := q.temperature_pos hq c z lat hz hl
  have hp : 0 < q.pressure c false z lat := by
    unfold Wave.pressure
    positivity
  have hi : ∀ x, q.interior c false x lat = q.interior c false z lat := fun x => rfl
  refine ⟨⟨rfl, rfl, rfl⟩, ⟨_, has_ofPressure h hp hT⟩, ?_⟩
  have h1 := q.intTau1_deriv c z
  have h2 := q.intTau2_deriv c z
  have htau := q.tau_pos hq c z lat hz hl
  refine hydrostatic_ofPressure h (fun _ => 0) (fun z => q.pressure c false z lat)
    (fun z => q.temperature c false z lat) z hp hT ?_ ?_
  · have e : (fun z => q.temperature c false z lat) =
        fun x => 1 / (1 * 1) / (q.tau1 c x - q.tau2 c x * q.interior c false z lat) := by
      funext x
      unfold temperature
      rw [ratio_shallow, hi x]
    rw [e]
    refine ContinuousAt.div continuousAt_const ?_ htau.ne'
    have ct1 : Continuous (q.tau1 c) := by
      unfold tau1 scaled
      fun_prop
    have ct2 : Continuous (q.tau2 c) := by
      unfold tau2 scaled
      fun_prop
    fun_prop
  · have hd := (((h1.sub (h2.mul_const (q.interior c false z lat))).const_mul (-c.g / c.r)).exp.const_mul c.p0)
    refine hd.congr_deriv ?_
    have e : c.p0 * Real.exp (-c.g / c.r * ((q.intTau1 c - fun y => q.intTau2 c y * q.interior c false z lat) z)) =
        q.pressure c false z lat := rfl
    rw [← mul_assoc, e]
    unfold temperature
    rw [ratio_shallow]
    generalize q.pressure c false z lat = P
    field_simp

/-- **C112 (baroclinic wave, initial state of a shallow atmosphere).**  At every latitude and height above the ground the
initial state is given without an exception; it differs from the reference state by a zonal wind alone and is
balanced. -/
theorem C112_wave (q : Wave) (hq : q.Mild) (hg : 0 ≤ c.g) (ha : 0 < c.earthRadius) (z lat : ℝ) (hz : 0 < z)
    (hl : 0 ≤ Real.cos lat) :
    (∃ u, q.state c false z lat = some { q.reference c false z lat with u := u }) ∧
      HydrostaticNear c (fun z => q.state c false z lat) z := by
  have key : ∀ x, 0 < x → q.state c false x lat = some { q.reference c false x lat with
      u := -(c.omega * rCosLat c false x lat) + Real.sqrt (q.discriminant c false x lat) } := by
    intro x hx
    unfold state
    rw [if_neg (not_lt.2 (q.discriminant_nonneg hq c hg ha x lat hx.le hl))]
    rfl
  refine ⟨⟨_, key z hz⟩, fun x => { q.reference c false x lat with
    u := -(c.omega * rCosLat c false x lat) + Real.sqrt (q.discriminant c false x lat) }, ?_, ?_⟩
  · filter_upwards [lt_mem_nhds hz] with x hx
    exact key x hx
  · exact (q.C112_wave_reference h hq z lat hz.le hl).2.2

/-- **C112 (baroclinic wave at the ground).**  At the ground the pressure is the reference pressure, there is no wind,
and the temperature is the given one at the pole and at the equator. -/
theorem C112_wave_ground (q : Wave) (hq : q.Mild) (hg : 0 ≤ c.g) (ha : 0 < c.earthRadius) (ho : 0 ≤ c.omega) (lat : ℝ)
    (hl : 0 ≤ Real.cos lat) :
    (∃ a, q.state c false 0 lat = some a ∧ AtRest a ∧ Cases.pressure c a = c.p0) ∧
      (Real.cos lat = 0 → Has c q.t0P (q.reference c false 0 lat)) ∧
      (Real.cos lat = 1 → Has c q.t0E (q.reference c false 0 lat)) := by
  have hr := h.r
  have h0 := h.p0
  have h1 := hq.pole
  have h2 := hq.order
  have hk := hq.k
  have hL := hq.lapse
  have hE : 0 < q.t0E := h1.trans_le h2
  have hT0 := q.t0_pos hq
  have hs0 : q.scaled c 0 = 0 := by
    unfold scaled
    rw [zero_div]
  have i1 : q.intTau1 c 0 = 0 := by
    unfold intTau1
    simp
  have i2 : q.intTau2 c 0 = 0 := by
    unfold intTau2
    simp
  have hp : q.pressure c false 0 lat = c.p0 := by
    unfold Wave.pressure
    rw [i1, i2]
    simp
  have hT := q.temperature_pos hq c 0 lat le_rfl hl
  have t1 : q.tau1 c 0 = 1 / q.t0P := by
    unfold tau1 constA constB
    rw [hs0]
    simp only [mul_zero, Real.exp_zero, sub_zero, mul_one]
    field_simp
    ring
  have t2 : q.tau2 c 0 = q.constC := by
    unfold tau2
    rw [hs0]
    simp
  have hhas : Has c (q.temperature c false 0 lat) (q.reference c false 0 lat) :=
    has_ofPressure h (by rw [hp]; exact h0) hT
  refine ⟨⟨{ q.reference c false 0 lat with
      u := -(c.omega * rCosLat c false 0 lat) + Real.sqrt (q.discriminant c false 0 lat) }, ?_, ?_, ?_⟩, ?_, ?_⟩
  · unfold state
    rw [if_neg (not_lt.2 (q.discriminant_nonneg hq c hg ha 0 lat le_rfl hl))]
    rfl
  · refine ⟨?_, rfl, rfl⟩
    simp only
    have hU : q.bigU c false 0 lat = 0 := by
      unfold bigU
      rw [i2]
      ring
    have hR : 0 ≤ c.omega * rCosLat c false 0 lat := by
      have : rCosLat c false 0 lat = c.earthRadius * Real.cos lat := rfl
      rw [this]
      positivity
    unfold discriminant
    rw [hU, mul_zero, add_zero, Real.sqrt_mul_self hR]
    ring
  · have e : Cases.pressure c (q.reference c false 0 lat) = q.pressure c false 0 lat :=
      pressure_ofPressure h (by rw [hp]; exact h0) (by rw [hp]; positivity)
    rw [← hp, ← e]
    rfl
  · intro hcos
    have e : q.temperature c false 0 lat = q.t0P := by
      unfold temperature interior
      rw [ratio_shallow, t1, t2, hcos, mul_zero, Real.zero_rpow hk.ne', Real.zero_rpow (by linarith)]
      simp
    rw [← e]
    exact hhas
  · intro hcos
    have e : q.temperature c false 0 lat = q.t0E := by
      unfold temperature interior
      rw [ratio_shallow, t1, t2, hcos, one_mul, Real.one_rpow, Real.one_rpow]
      have ed : 1 / q.t0P - q.constC * (1 - q.k / (q.k + 2) * 1) = 1 / q.t0E := by
        unfold constC
        rw [show (0.5 : ℝ) = 1 / 2 by norm_num]
        field_simp
        ring
      rw [ed]
      simp
    rw [← e]
    exact hhas

omit h in
/-- The parameters the constructor sets are of this kind. -/
example : Wave.standard.Mild := by
  constructor <;> norm_num [Wave.standard]

end Wave

end Verif.Cases
