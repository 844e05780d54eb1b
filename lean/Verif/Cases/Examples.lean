import Verif.Cases.Props
import Verif.Cases.Horizontal
import Verif.Cases.ShallowProps

/-!
# The hypotheses of C112 and C113 can be met

With the constants the constructor of `PhysicalConstants` sets and the default options of the test cases.
-/

namespace Verif.Cases

open Verif.Thermo Real

theorem proper_initial : Proper (after []) := by
  refine proper_after [] ⟨?_, ?_, ?_⟩ <;> simp only [latest_nil, fresh] <;> norm_num

theorem initial_g : (after []).g = 9.80616 := (C85_values [] .g).trans (by simp only [latest_nil, fresh]; norm_num)
theorem initial_cp : (after []).cp = 1004.5 := (C85_values [] .cp).trans (by simp only [latest_nil, fresh]; norm_num)

/-- The reference state of a bubble 10 km above the ground. -/
example : Hydrostatic (after []) (neutral (after []) 300) 10000 :=
  (C112_neutral proper_initial 300 10000 (by norm_num) (by rw [initial_g, initial_cp]; norm_num)).2.2.2

/-- Uniform stratification 20 km above the ground. -/
example : Hydrostatic (after []) (stratified (after []) 10 0.01 280) 20000 := by
  refine (C112_stratified proper_initial 10 0.01 280 20000 (by norm_num) (by norm_num) (by rw [initial_g]; norm_num)
    ?_).2.2.2.2.2
  rw [initial_g, initial_cp]
  have := one_sub_le_exp_neg ((0.01 : ℝ) ^ 2 / 9.80616 * 20000)
  have h2 : (1 : ℝ) - exp (-((0.01 : ℝ) ^ 2 / 9.80616 * 20000)) ≤ (0.01 : ℝ) ^ 2 / 9.80616 * 20000 := by linarith
  have h3 := mul_le_mul_of_nonneg_left h2 (show (0 : ℝ) ≤ 9.80616 ^ 2 by norm_num)
  refine h3.trans_lt ?_
  norm_num

/-- The inertia gravity wave at the equator, 9.8 km above the ground. -/
example : 0 < buoyant (after []) 0.01 20 300 0 0 ∧ 0 < buoyant (after []) 0.01 20 300 9806.16 0 := by
  unfold buoyant
  rw [sin_zero, initial_g, initial_cp]
  constructor
  · norm_num
  · have h1 := one_sub_le_exp_neg (0.1 : ℝ)
    have h2 : exp (0.1 : ℝ) * exp (-0.1) = 1 := by
      rw [← exp_add]
      norm_num
    have h3 : exp (0.1 : ℝ) ≤ 10 / 9 := by
      have hp := exp_pos (0.1 : ℝ)
      nlinarith
    have e : (0.01 : ℝ) ^ 2 / 9.80616 * 9806.16 + 20 * 0.01 ^ 2 / (2 * 9.80616 ^ 2) *
        (20 + 2 * (after []).omega * (after []).earthRadius) * 0 ^ 2 = 0.1 := by norm_num
    rw [e]
    norm_num at h3 ⊢
    nlinarith

/-- The baroclinic wave 10 km above 60 degrees of latitude. -/
example : HydrostaticNear (after []) (fun z => Wave.standard.state (after []) false z (π / 3)) 10000 ∧
    MeridionalNear (after []) (fun lat => Wave.standard.state (after []) false 10000 lat) (π / 3) := by
  have hm : Wave.standard.Mild := by constructor <;> norm_num [Wave.standard]
  have ha : (after []).earthRadius = 6371220 := C85_values [] .earthRadius
  have hg : 0 ≤ (after []).g := by rw [initial_g]; norm_num
  have hr : 0 < (after []).earthRadius := by rw [ha]; norm_num
  have hc : 0 < cos (π / 3) := by rw [cos_pi_div_three]; norm_num
  exact ⟨(Wave.standard.C112_wave proper_initial hm hg hr 10000 (π / 3) (by norm_num) hc.le).2,
    Wave.standard.C113_wave proper_initial hm hg hr 10000 (π / 3) (by norm_num) hc⟩

/-- The baroclinic wave in a deep atmosphere at the ground, 60 degrees north. -/
example : 0 < Wave.standard.temperature (after []) true 0 (π / 3) ∧
    0 < Wave.standard.discriminant (after []) true 0 (π / 3) := by
  have hm : Wave.standard.Mild := by constructor <;> norm_num [Wave.standard]
  have ha : (after []).earthRadius = 6371220 := C85_values [] .earthRadius
  have ho : (after []).omega = 0.0000729212 := (C85_values [] .omega).trans (by simp only [latest_nil, fresh]; norm_num)
  have hr : (after []).earthRadius ≠ 0 := by rw [ha]; norm_num
  have hc : 0 < cos (π / 3) := by rw [cos_pi_div_three]; norm_num
  have er : Wave.ratio (after []) true 0 = Wave.ratio (after []) false 0 := by
    show (0 + (after []).earthRadius) / (after []).earthRadius = 1
    rw [zero_add, div_self hr]
  have e : Wave.standard.temperature (after []) true 0 (π / 3) = Wave.standard.temperature (after []) false 0 (π / 3) := by
    unfold Wave.temperature Wave.interior
    rw [er]
  refine ⟨?_, ?_⟩
  · rw [e]
    exact Wave.standard.temperature_pos hm (after []) 0 (π / 3) le_rfl hc.le
  · have hi : Wave.standard.intTau2 (after []) 0 = 0 := by
      unfold Wave.intTau2
      simp
    have hR : Wave.rCosLat (after []) true 0 (π / 3) = (0 + (after []).earthRadius) * cos (π / 3) := rfl
    unfold Wave.discriminant Wave.bigU
    rw [hi, hR, ha, ho, cos_pi_div_three]
    norm_num

end Verif.Cases
