import Verif.Cases.Shallow

/-!
# C113 for the shallow water test cases on the sphere
-/

namespace Verif.Cases

open Verif.Thermo Real

variable (c : Constants) (h0 u0 alpha lon lat : ℝ)

/-- **C113 (zonal flow of water, any inclination).**  With the axis of the planet inclined by the same angle the flow is
steady. -/
theorem C113_zonal_inclined (ha : 0 < c.earthRadius) (hg : c.g ≠ 0) (hp : AwayFromPoles lat) (hl : 0 < cos lat) :
    Steady c (2 * c.omega * (sin lat * cos alpha - cos lon * cos lat * sin alpha)) (zonal c h0 u0 alpha)
      (fun lon lat => (zonal c h0 u0 alpha lon lat).height) lon lat := by
  have hn := zonal_near c h0 u0 alpha hp
  refine Steady.congr hn (by filter_upwards [hn] with x hx; intro l; exact congrArg Water.height (hx l)) ?_
  obtain ⟨ul, up, vl, vp, hl', hp', ml, mp, k1, k2, k3, k4, k5, k6, k7, k8, e1, e2, e3⟩ := zonal'_steady c h0 u0 alpha lon lat
    (2 * c.omega * (sin lat * cos alpha - cos lon * cos lat * sin alpha)) hl ha hg
  have ef : 2 * c.omega * heightTrig alpha lon lat -
      2 * c.omega * (sin lat * cos alpha - cos lon * cos lat * sin alpha) = 0 := by
    unfold heightTrig
    ring
  refine ⟨ul, up, vl, vp, hl', hp', ml, mp, k1, k2, k3, k4, k5, k6, k7, k8, ?_, ?_, e3⟩
  · rw [e1, ef, zero_mul]
  · rw [e2, ← neg_sub, ef, neg_zero, zero_mul]

/-- **C113 (zonal flow of water).**  Without inclination the flow is steady with the Coriolis parameter of the model, which
is `2 omega sin lat` (src/atm/GridPatchCSGLL.cpp, `Metric.sphereCoriolis`). -/
theorem C113_zonal (ha : 0 < c.earthRadius) (hg : c.g ≠ 0) (hp : AwayFromPoles lat) (hl : 0 < cos lat) :
    (∀ lon, (zonal c h0 u0 0 lon lat).u = u0 * cos lat ∧ (zonal c h0 u0 0 lon lat).v = 0) ∧
    Steady c (2 * c.omega * sin lat) (zonal c h0 u0 0)
      (fun lon lat => (zonal c h0 u0 0 lon lat).height) lon lat := by
  refine ⟨fun x => ?_, ?_⟩
  · unfold zonal
    rw [offPole_eq hp]
    simp
  · have k := C113_zonal_inclined c h0 u0 0 lon lat ha hg hp hl
    have e : 2 * c.omega * (sin lat * cos 0 - cos lon * cos lat * sin 0) = 2 * c.omega * sin lat := by
      rw [cos_zero, sin_zero, mul_one, mul_zero, sub_zero]
    rw [e] at k
    exact k

/-- **C113 (zonal flow of water with inclination, false).**  The Coriolis parameter of the model does not depend on the
inclination, so that with an inclination on a rotating planet the flow is not steady, for instance at the equator in the
longitude of 45 degrees. -/
theorem C113_zonal_inclined_false (ha : 0 < c.earthRadius) (hg : c.g ≠ 0) (ho : c.omega ≠ 0) (hu : u0 ≠ 0)
    (hs : sin alpha ≠ 0) (depth : ℝ → ℝ → ℝ) :
    ¬ Steady c (2 * c.omega * sin 0) (zonal c h0 u0 alpha) depth (π / 4) 0 := by
  intro hst
  have hp : AwayFromPoles 0 := by
    have := two_le_pi
    constructor
    · rw [zero_sub, abs_neg, abs_of_pos (by positivity)]
      norm_num
      linarith
    · rw [zero_add, abs_of_pos (by positivity)]
      norm_num
      linarith
  have hn := zonal_near c h0 u0 alpha hp
  have hs' : Steady c (2 * c.omega * sin 0) (zonal' c h0 u0 alpha) depth (π / 4) 0 := by
    refine Steady.congr ?_ (Filter.Eventually.of_forall fun _ _ => rfl) hst
    filter_upwards [hn] with x hx
    intro l
    exact (hx l).symm
  obtain ⟨ul, up, vl, vp, hl', hp', ml, mp, k1, k2, k3, k4, k5, k6, -, -, e1, -, -⟩ := zonal'_steady c h0 u0 alpha (π / 4) 0
    (2 * c.omega * sin 0) (by rw [cos_zero]; norm_num) ha hg
  obtain ⟨ul', up', vl', vp', hl'', hp'', ml', mp', j1, j2, j3, j4, j5, j6, -, -, d1, -, -⟩ := hs'
  rw [j1.unique k1, j2.unique k2, j5.unique k5, e1] at d1
  have hc : cos (π / 4) ≠ 0 := by
    rw [cos_pi_div_four]
    positivity
  have hsn : sin (π / 4) ≠ 0 := by
    rw [sin_pi_div_four]
    positivity
  have e : 2 * c.omega * heightTrig alpha (π / 4) 0 - 2 * c.omega * sin 0 =
      -(2 * c.omega * cos (π / 4) * sin alpha) := by
    unfold heightTrig
    rw [cos_zero, sin_zero]
    ring
  have ev : (zonal' c h0 u0 alpha (π / 4) 0).v = -u0 * sin (π / 4) * sin alpha := rfl
  rw [e, ev] at d1
  have : c.omega * cos (π / 4) * sin alpha * (u0 * sin (π / 4) * sin alpha) = 0 := by linarith
  exact mul_ne_zero (mul_ne_zero (mul_ne_zero ho hc) hs) (mul_ne_zero (mul_ne_zero hu hsn) hs) this

/-- **C113 (Rossby-Haurwitz wave).**  The wind has no divergence. -/
theorem C113_haurwitz (r w k : ℝ) (hp : AwayFromPoles lat) (hl : 0 < cos lat) :
    Solenoidal (haurwitz c h0 r w k) lon lat :=
  haurwitz_solenoidal c h0 r w k lon lat hp hl

/-- Points away from the poles: a quarter of the way to the pole. -/
example : AwayFromPoles (π / 4) ∧ 0 < cos (π / 4) := by
  have := two_le_pi
  refine ⟨⟨?_, ?_⟩, ?_⟩
  · rw [show π / 4 - π / 2 = -(π / 4) by ring, abs_neg, abs_of_pos (by positivity)]
    norm_num
    linarith
  · rw [abs_of_pos (by positivity)]
    norm_num
    linarith
  · rw [cos_pi_div_four]
    positivity

end Verif.Cases
