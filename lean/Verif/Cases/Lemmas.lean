import Mathlib.Analysis.SpecialFunctions.Pow.Deriv
import Mathlib.Analysis.SpecialFunctions.Sqrt
import Mathlib.Analysis.SpecialFunctions.Trigonometric.Deriv
import Mathlib.Analysis.SpecialFunctions.Trigonometric.Arctan
import Verif.Cases.Spec

/-!
# Lemmas on the states of the test cases
-/

namespace Verif.Cases

open Verif.Thermo

/-- Every history of calls of setters that ends with the constants of a gas gives proper constants. -/
theorem proper_after (calls : List (Quantity × ℝ)) (h : Gas calls) : Proper (after calls) := by
  obtain ⟨e1, e2, e3, -⟩ := C85_derived calls
  have er : (after calls).r = latest calls .r := C85_values calls .r
  have ec : (after calls).cp = latest calls .cp := C85_values calls .cp
  have ep : (after calls).p0 = latest calls .p0 := C85_values calls .p0
  constructor
  · rw [er]; exact h.r
  · rw [er, ec]; exact h.cp
  · rw [ep]; exact h.p0
  · rw [e1, er, ec]
  · rw [e2, er, ec]
  · rw [e3, er, ec, ep]

section

variable {c : Constants} (h : Proper c)

include h

theorem Proper.cp_pos : 0 < c.cp := h.r.trans h.cp

theorem Proper.cv_pos : 0 < c.cp - c.r := sub_pos.2 h.cp

/-- Density times potential temperature as the code computes it from pressure has that pressure. -/
theorem pressure_product {p : ℝ} (hp : 0 < p) :
    c.p0 * (c.r * rhoThetaFromPressure c p / c.p0) ^ (c.cp / (c.cp - c.r)) = p := by
  have hr := h.r
  have h0 := h.p0
  have hv := h.cv_pos
  have hc := h.cp_pos
  have hs : 0 < c.scaling := by
    rw [h.scaling]
    exact mul_pos h0 (Real.rpow_pos_of_pos (div_pos hr h0) _)
  have hg : 0 < c.gamma := by
    rw [h.gamma]
    exact div_pos hc hv
  have hx : 0 < rhoThetaFromPressure c p := Real.exp_pos _
  have e : c.r * rhoThetaFromPressure c p / c.p0 = c.r / c.p0 * rhoThetaFromPressure c p := by ring
  rw [e, Real.mul_rpow (div_pos hr h0).le hx.le, ← mul_assoc, ← h.scaling, ← h.gamma]
  unfold rhoThetaFromPressure
  rw [← Real.exp_mul, div_mul_cancel₀ _ hg.ne', Real.exp_log (div_pos hp hs), mul_div_cancel₀ _ hs.ne']

theorem pressure_ofPressure {u p rho : ℝ} (hp : 0 < p) (hrho : rho ≠ 0) : pressure c (ofPressure c u p rho) = p := by
  unfold pressure ofPressure
  simp only
  rw [mul_div_cancel₀ _ hrho]
  exact pressure_product h hp

theorem has_ofPressure {u p t : ℝ} (hp : 0 < p) (ht : 0 < t) : Has c t (ofPressure c u p (p / (c.r * t))) := by
  have hr := h.r
  have hrho : 0 < p / (c.r * t) := by positivity
  refine ⟨hrho, div_pos (Real.exp_pos _) hrho, ht, ?_⟩
  rw [pressure_ofPressure h hp hrho.ne']
  show p = p / (c.r * t) * c.r * t
  field_simp

/-- A column given by pressure and temperature is balanced if pressure decreases by the weight of the air. -/
theorem hydrostatic_ofPressure (u p t : ℝ → ℝ) (z : ℝ) (hp : 0 < p z) (ht : 0 < t z) (htc : ContinuousAt t z)
    (hd : HasDerivAt p (-(p z / (c.r * t z) * c.g)) z) :
    Hydrostatic c (fun z => ofPressure c (u z) (p z) (p z / (c.r * t z))) z := by
  have hr := h.r
  refine hd.congr_of_eventuallyEq ?_
  filter_upwards [hd.continuousAt.eventually (lt_mem_nhds hp), htc.eventually (lt_mem_nhds ht)] with x hx hy
  have h1 : (0 : ℝ) < p x := hx
  have h2 : (0 : ℝ) < t x := hy
  exact pressure_ofPressure h h1 (by positivity)

/-- The same along a meridian. -/
theorem meridional_ofPressure (u p t : ℝ → ℝ) (lat slope : ℝ) (hp : 0 < p lat) (ht : 0 < t lat)
    (htc : ContinuousAt t lat) (hd : HasDerivAt p slope lat)
    (he : u lat ^ 2 * Real.tan lat / c.earthRadius + 2 * c.omega * Real.sin lat * u lat +
      slope / (p lat / (c.r * t lat) * c.earthRadius) = 0) :
    Meridional c (fun lat => ofPressure c (u lat) (p lat) (p lat / (c.r * t lat))) lat := by
  have hr := h.r
  refine ⟨slope, hd.congr_of_eventuallyEq ?_, he⟩
  filter_upwards [hd.continuousAt.eventually (lt_mem_nhds hp), htc.eventually (lt_mem_nhds ht)] with x hx hy
  have h1 : (0 : ℝ) < p x := hx
  have h2 : (0 : ℝ) < t x := hy
  exact pressure_ofPressure h h1 (by positivity)

/-- The pressure of air given by potential temperature and Exner pressure. -/
theorem pressure_exner {u v w theta e : ℝ} (ht : 0 < theta) (he : 0 < e) :
    pressure c { u := u, v := v, w := w, theta := theta, rho := c.p0 / (c.r * theta) * e ^ (getCv c / c.r) } =
      c.p0 * e ^ (c.cp / c.r) := by
  have hr := h.r
  have h0 := h.p0
  have hv := h.cv_pos
  unfold pressure getCv
  simp only
  have e1 : c.r * (c.p0 / (c.r * theta) * e ^ ((c.cp - c.r) / c.r) * theta) / c.p0 = e ^ ((c.cp - c.r) / c.r) := by
    field_simp
  rw [e1, ← Real.rpow_mul he.le]
  congr 2
  field_simp

theorem has_exner {u v w theta e : ℝ} (ht : 0 < theta) (he : 0 < e) :
    Has c (theta * e)
      { u := u, v := v, w := w, theta := theta, rho := c.p0 / (c.r * theta) * e ^ (getCv c / c.r) } := by
  have hr := h.r
  have h0 := h.p0
  have hpow : 0 < e ^ (getCv c / c.r) := Real.rpow_pos_of_pos he _
  refine ⟨?_, ht, mul_pos ht he, ?_⟩
  · show 0 < c.p0 / (c.r * theta) * e ^ (getCv c / c.r)
    positivity
  · rw [pressure_exner h ht he]
    have es : c.cp / c.r = getCv c / c.r + 1 := by
      unfold getCv
      field_simp
      ring
    rw [es, Real.rpow_add he, Real.rpow_one]
    simp only
    field_simp

/-- A column given by potential temperature and Exner pressure is balanced if the Exner pressure decreases by
`g / (cp theta)`. -/
theorem hydrostatic_exner (u theta e : ℝ → ℝ) (z : ℝ) (ht : 0 < theta z) (htc : ContinuousAt theta z) (he : 0 < e z)
    (hd : HasDerivAt e (-c.g / (c.cp * theta z)) z) :
    Hydrostatic c (fun z =>
      { u := u z, v := 0, w := 0, theta := theta z, rho := c.p0 / (c.r * theta z) * e z ^ (getCv c / c.r) }) z := by
  have hr := h.r
  have hc := h.cp_pos
  have hP : HasDerivAt (fun z => c.p0 * e z ^ (c.cp / c.r))
      (-(c.p0 / (c.r * theta z) * e z ^ (getCv c / c.r) * c.g)) z := by
    refine ((hd.rpow_const (p := c.cp / c.r) (Or.inl he.ne')).const_mul c.p0).congr_deriv ?_
    have es : c.cp / c.r - 1 = getCv c / c.r := by
      unfold getCv
      field_simp
    rw [es]
    field_simp
  refine hP.congr_of_eventuallyEq ?_
  filter_upwards [hd.continuousAt.eventually (lt_mem_nhds he), htc.eventually (lt_mem_nhds ht)] with x hx hy
  exact pressure_exner h (show (0 : ℝ) < theta x from hy) (show (0 : ℝ) < e x from hx)

end

end Verif.Cases
