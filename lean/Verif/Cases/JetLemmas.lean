import Mathlib.Analysis.Calculus.InverseFunctionTheorem.Deriv
import Mathlib.Analysis.Calculus.MeanValue
import Mathlib.Analysis.SpecialFunctions.Log.Deriv
import Verif.Cases.Lemmas
import Verif.Cases.Jet

/-!
# Lemmas on the test cases in pressure coordinates
-/

namespace Verif.Cases

open Verif.Thermo Real

/-- What Newton's iteration returns, in terms of the last iterate. -/
theorem newton_spec (c : Constants) (column : ℝ → ℝ × ℝ) (z : ℝ) (n : Nat) (eta : ℝ) (r : ℝ × ℝ)
    (h : newton c column z n eta = some r) :
    ∃ last, r.2 = (column last).2 ∧ r.1 = last - ((column last).1 - c.g * z) / (-c.r / last * (column last).2) ∧
      |last - r.1| < 1e-13 := by
  induction n generalizing eta with
  | zero => simp [newton] at h
  | succ n ih =>
    rw [newton] at h
    split at h
    · rename_i hlt
      cases h
      refine ⟨eta, rfl, ?_, hlt⟩
      congr 2
      ring
    · exact ih _ h

section

variable {c : Constants} (h : Proper c)

include h

/-- A column whose pressure coordinate solves the equation of the geopotential exactly is balanced. -/
theorem hydrostatic_ofEta (u eta : ℝ → ℝ) (phi temp : ℝ → ℝ) (z : ℝ) (hg : c.g ≠ 0) (hpos : 0 < eta z)
    (ht : 0 < temp (eta z)) (hc : ContinuousAt eta z) (htc : ContinuousAt temp (eta z))
    (hphi : HasDerivAt phi (-(c.r * temp (eta z) / eta z)) (eta z)) (hsol : ∀ᶠ x in nhds z, phi (eta x) = c.g * x) :
    Hydrostatic c (fun z => ofEta c (u z) (eta z) (temp (eta z))) z := by
  have hr := h.r
  have h0 := h.p0
  have hd : HasDerivAt eta (-(c.r * temp (eta z) / eta z) / c.g)⁻¹ z := by
    refine HasDerivAt.of_local_left_inverse (f := fun x => phi x / c.g) hc (hphi.div_const c.g) ?_ ?_
    · have : 0 < c.r * temp (eta z) / eta z := by positivity
      exact div_ne_zero (neg_ne_zero.2 this.ne') hg
    · filter_upwards [hsol] with x hx
      rw [hx]
      field_simp
  refine hydrostatic_ofPressure h u (fun z => c.p0 * eta z) (fun z => temp (eta z)) z (by positivity) ht
    (ContinuousAt.comp (f := eta) htc hc) ?_
  refine (hd.const_mul c.p0).congr_deriv ?_
  field_simp

omit h in
/-- Near a pressure coordinate of positive temperature the equation of the geopotential can be solved exactly. -/
theorem exists_eta (phi temp : ℝ → ℝ) (e : ℝ) (hg : c.g ≠ 0) (hr : 0 < c.r) (hpos : 0 < e) (ht : 0 < temp e)
    (htc : ContinuousAt temp e) (hphi : ∀ᶠ x in nhds e, HasDerivAt phi (-(c.r * temp x / x)) x) :
    ∃ eta : ℝ → ℝ, eta (phi e / c.g) = e ∧ ContinuousAt eta (phi e / c.g) ∧
      ∀ᶠ x in nhds (phi e / c.g), phi (eta x) = c.g * x := by
  have hs : HasStrictDerivAt (fun x => phi x / c.g) (-(c.r * temp e / e) / c.g) e := by
    refine hasStrictDerivAt_of_hasDerivAt_of_continuousAt (f' := fun x => -(c.r * temp x / x) / c.g) ?_ ?_
    · filter_upwards [hphi] with x hx
      exact hx.div_const c.g
    · have : ContinuousAt (fun x : ℝ => x) e := continuousAt_id
      exact (((continuousAt_const.mul htc).div this hpos.ne').neg).div_const c.g
  have hne : -(c.r * temp e / e) / c.g ≠ 0 := by
    have : 0 < c.r * temp e / e := by positivity
    exact div_ne_zero (neg_ne_zero.2 this.ne') hg
  refine ⟨hs.localInverse _ _ _ hne, ?_, ?_, ?_⟩
  · exact HasStrictFDerivAt.localInverse_apply_image (hs.hasStrictFDerivAt_equiv hne)
  · exact HasStrictFDerivAt.localInverse_continuousAt (hs.hasStrictFDerivAt_equiv hne)
  · have k := HasStrictFDerivAt.eventually_right_inverse (hs.hasStrictFDerivAt_equiv hne)
    filter_upwards [k] with x hx
    have hx' : phi (hs.localInverse _ _ _ hne x) / c.g = x := hx
    exact ((div_eq_iff hg).1 hx').trans (mul_comm _ _)

omit h in
/-- The slope of pressure along a level surface. -/
theorem slope_eta {eta' r T e phi' : ℝ} (he : 0 < e) (hT : 0 < T) (hr : 0 < r)
    (hsol : -(r * T / e) * eta' + phi' = 0) : eta' = e * phi' / (r * T) := by
  field_simp at hsol ⊢
  linarith

end

namespace Jet

variable (q : Jet) (c : Constants)

theorem aux_deriv (eta : ℝ) : HasDerivAt q.aux (π / 2) eta := by
  refine (((hasDerivAt_id eta).sub_const q.eta0).const_mul (0.5 * π)).congr_deriv ?_
  ring

theorem power_deriv (eta : ℝ) (hcos : 0 < cos (q.aux eta)) :
    HasDerivAt (fun eta => cos (q.aux eta) ^ (1.5 : ℝ)) (-(0.75 * π * sin (q.aux eta) * sqrt (cos (q.aux eta)))) eta := by
  refine ((q.aux_deriv eta).cos.rpow_const (p := (1.5 : ℝ)) (Or.inl hcos.ne')).congr_deriv ?_
  rw [show (1.5 : ℝ) - 1 = 1 / 2 by norm_num, ← sqrt_eq_rpow]
  ring

/-- The part of the geopotential above the tropopause. -/
noncomputable def cap (eta : ℝ) : ℝ :=
  (log (eta / q.tropopause) + 137 / 60) * q.tropopause ^ 5 - 5 * q.tropopause ^ 4 * eta +
      5 * q.tropopause ^ 3 * eta ^ 2 - 10 / 3 * q.tropopause ^ 2 * eta ^ 3 + 5 / 4 * q.tropopause * eta ^ 4 -
        1 / 5 * eta ^ 5

theorem cap_deriv (ht : 0 < q.tropopause) (eta : ℝ) (he : 0 < eta) :
    HasDerivAt q.cap ((q.tropopause - eta) ^ 5 / eta) eta := by
  have hi := hasDerivAt_id eta
  have h1 := (((hi.div_const q.tropopause).log (by simp only [id]; positivity)).add_const (137 / 60)).mul_const (q.tropopause ^ 5)
  have h2 := hi.const_mul (5 * q.tropopause ^ 4)
  have h3 := (hi.pow 2).const_mul (5 * q.tropopause ^ 3)
  have h4 := (hi.pow 3).const_mul (10 / 3 * q.tropopause ^ 2)
  have h5 := (hi.pow 4).const_mul (5 / 4 * q.tropopause)
  have h6 := (hi.pow 5).const_mul (1 / 5)
  refine (((((h1.sub h2).add h3).sub h4).add h5).sub h6).congr_deriv ?_
  simp only [id]
  push_cast
  field_simp
  ring

theorem cap_tropopause (ht : 0 < q.tropopause) : q.cap q.tropopause = 0 := by
  unfold cap
  rw [div_self ht.ne', log_one]
  ring

/-- The part of geopotential and temperature above the tropopause fit, also at the tropopause itself. -/
theorem upper_deriv (ht : 0 < q.tropopause) (eta : ℝ) (he : 0 < eta) :
    HasDerivAt (fun eta => if eta < q.tropopause then c.r * q.deltaT * q.cap eta else 0)
      (c.r * (if eta < q.tropopause then q.deltaT * (q.tropopause - eta) ^ (5 : ℝ) else 0) / eta) eta := by
  have h5 : ∀ x : ℝ, x ^ (5 : ℝ) = x ^ 5 := fun x => by
    rw [show (5 : ℝ) = ((5 : ℕ) : ℝ) by norm_num, rpow_natCast]
  have hC := (q.cap_deriv ht eta he).const_mul (c.r * q.deltaT)
  rcases lt_trichotomy eta q.tropopause with hlt | heq | hgt
  · rw [if_pos hlt, h5]
    have k : HasDerivAt (fun eta => c.r * q.deltaT * q.cap eta) (c.r * (q.deltaT * (q.tropopause - eta) ^ 5) / eta) eta :=
      hC.congr_deriv (by ring)
    refine k.congr_of_eventuallyEq ?_
    filter_upwards [gt_mem_nhds hlt] with x hx
    rw [if_pos hx]
  · have hnot : ¬ eta < q.tropopause := by rw [heq]; exact lt_irrefl _
    rw [if_neg hnot, mul_zero, zero_div, ← hasDerivWithinAt_univ, ← Set.Iic_union_Ici (a := eta)]
    refine HasDerivWithinAt.union ?_ ?_
    · have k : HasDerivWithinAt (fun eta => c.r * q.deltaT * q.cap eta) 0 (Set.Iic eta) eta := by
        refine (hC.congr_deriv ?_).hasDerivWithinAt
        rw [heq, sub_self]
        ring
      refine k.congr ?_ ?_
      · intro x hx
        by_cases hxl : x < q.tropopause
        · rw [if_pos hxl]
        · have : x = q.tropopause := le_antisymm (by rw [← heq]; exact hx) (not_lt.1 hxl)
          rw [if_neg hxl, this, q.cap_tropopause ht, mul_zero]
      · rw [if_neg hnot, heq, q.cap_tropopause ht, mul_zero]
    · refine (hasDerivWithinAt_const eta _ (0 : ℝ)).congr ?_ ?_
      · intro x hx
        rw [if_neg (not_lt.2 (by rw [← heq]; exact hx))]
      · rw [if_neg hnot]
  · have hnot : ¬ eta < q.tropopause := not_lt.2 hgt.le
    rw [if_neg hnot, mul_zero, zero_div]
    refine (hasDerivAt_const eta (0 : ℝ)).congr_of_eventuallyEq ?_
    filter_upwards [lt_mem_nhds hgt] with x hx
    rw [if_neg (not_lt.2 (le_of_lt hx))]

/-- Geopotential and temperature fit: the derivative of geopotential is minus the gas constant times temperature over
`eta`. -/
theorem geopotential_deriv (hr : 0 < c.r) (hg : c.g ≠ 0) (hl : q.lapse ≠ 0) (ht : 0 < q.tropopause) (eta lat : ℝ)
    (he : 0 < eta) (hcos : 0 < cos (q.aux eta)) :
    HasDerivAt (fun eta => q.geopotential c eta lat) (-(c.r * q.temperature c eta lat / eta)) eta := by
  have h1 := (((hasDerivAt_id eta).rpow_const (p := c.r * q.lapse / c.g) (Or.inl he.ne')).const_sub 1).const_mul
    (q.t0 * c.g / q.lapse)
  have h2 := q.upper_deriv c ht eta he
  have hp := q.power_deriv eta hcos
  have h3 := (hp.const_mul q.u0).mul (((hp.const_mul q.u0).mul_const
    (-2 * sin lat ^ 6 * (cos lat ^ 2 + 1 / 3) + 10 / 63)).add_const (profile2 c lat))
  refine ((h1.sub h2).add h3).congr_deriv ?_
  have e : (id eta) ^ (c.r * q.lapse / c.g - 1) = eta ^ (c.r * q.lapse / c.g) / eta := by
    rw [rpow_sub_one (by simpa using he.ne')]
    rfl
  rw [e]
  unfold temperature avgTemperature profile1
  rw [show (0.75 : ℝ) = 3 / 4 by norm_num]
  generalize (if eta < q.tropopause then q.deltaT * (q.tropopause - eta) ^ (5 : ℝ) else 0) = D
  field_simp
  ring

theorem temperature_continuous (eta lat : ℝ) (he : 0 < eta) (hcos : 0 < cos (q.aux eta)) :
    ContinuousAt (fun eta => q.temperature c eta lat) eta := by
  have hu : (fun eta => if eta < q.tropopause then q.deltaT * (q.tropopause - eta) ^ (5 : ℝ) else 0) =
      fun eta => q.deltaT * max (q.tropopause - eta) 0 ^ (5 : ℝ) := by
    funext x
    split
    · rename_i hx
      rw [max_eq_left (by linarith)]
    · rename_i hx
      rw [max_eq_right (by linarith), zero_rpow (by norm_num), mul_zero]
  have h1 : ContinuousAt (fun eta => if eta < q.tropopause then q.deltaT * (q.tropopause - eta) ^ (5 : ℝ) else 0) eta := by
    rw [hu]
    have k : ContinuousAt (fun eta : ℝ => max (q.tropopause - eta) 0) eta := by fun_prop
    exact continuousAt_const.mul (k.rpow_const (Or.inr (by norm_num)))
  have h2 : ContinuousAt (fun eta : ℝ => q.t0 * eta ^ (c.r * q.lapse / c.g)) eta :=
    continuousAt_const.mul (continuousAt_id.rpow_const (Or.inl he.ne'))
  have h3 := (q.power_deriv eta hcos).continuousAt
  have h4 := (q.aux_deriv eta).continuousAt
  have h5 : ContinuousAt (fun eta => sin (q.aux eta)) eta := by fun_prop
  have h6 : ContinuousAt (fun eta => sqrt (cos (q.aux eta))) eta := by fun_prop
  unfold temperature avgTemperature profile1
  fun_prop

/-- The derivative of the first profile along a meridian. -/
theorem shape1_deriv (lat : ℝ) : HasDerivAt (fun lat => -2 * sin lat ^ 6 * (cos lat ^ 2 + 1 / 3) + 10 / 63)
    (-(16 * sin lat ^ 5 * cos lat ^ 3)) lat := by
  have hs := hasDerivAt_sin lat
  have hc := hasDerivAt_cos lat
  refine ((((hs.pow 6).const_mul (-2)).mul ((hc.pow 2).add_const (1 / 3))).add_const (10 / 63)).congr_deriv ?_
  have e : sin lat ^ 7 = sin lat ^ 5 * (1 - cos lat ^ 2) := by
    rw [← sin_sq]
    ring
  simp only [Pi.pow_apply]
  push_cast
  linear_combination (4 * cos lat) * e

/-- The derivative of the second profile along a meridian. -/
theorem profile2_deriv (lat : ℝ) :
    HasDerivAt (profile2 c) (-(c.earthRadius * c.omega * (8 * sin lat ^ 3 * cos lat ^ 2))) lat := by
  have hs := hasDerivAt_sin lat
  have hc := hasDerivAt_cos lat
  refine (((((hc.pow 3).const_mul (8 / 5)).mul ((hs.pow 2).add_const (2 / 3))).sub_const (0.25 * π)).const_mul
    (c.earthRadius * c.omega)).congr_deriv ?_
  have e : cos lat ^ 2 = 1 - sin lat ^ 2 := cos_sq' lat
  have e4 : cos lat ^ 4 = cos lat ^ 2 * (1 - sin lat ^ 2) := by
    rw [← e]
    ring
  simp only [Pi.pow_apply]
  push_cast
  linear_combination (c.earthRadius * c.omega * (16 / 5) * sin lat) * e4

/-- The derivative of the geopotential along a curve in latitude and pressure. -/
theorem geopotential_total (hr : 0 < c.r) (hg : c.g ≠ 0) (hl : q.lapse ≠ 0) (ht : 0 < q.tropopause) (eta : ℝ → ℝ)
    (eta' lat : ℝ) (he : 0 < eta lat) (hcos : 0 < cos (q.aux (eta lat))) (hd : HasDerivAt eta eta' lat) :
    HasDerivAt (fun lat => q.geopotential c (eta lat) lat)
      (-(c.r * q.temperature c (eta lat) lat / eta lat) * eta' +
        q.u0 * cos (q.aux (eta lat)) ^ (1.5 : ℝ) * (q.u0 * cos (q.aux (eta lat)) ^ (1.5 : ℝ) *
          -(16 * sin lat ^ 5 * cos lat ^ 3) + -(c.earthRadius * c.omega * (8 * sin lat ^ 3 * cos lat ^ 2)))) lat := by
  have hp := (q.power_deriv (eta lat) hcos).comp lat hd
  have ha := (((hasDerivAt_id (eta lat)).rpow_const (p := c.r * q.lapse / c.g) (Or.inl he.ne')).const_sub 1).const_mul
    (q.t0 * c.g / q.lapse)
  have hb := (ha.sub (q.upper_deriv c ht (eta lat) he)).comp lat hd
  have h3 := (hp.const_mul q.u0).mul (((hp.const_mul q.u0).mul (shape1_deriv lat)).add (profile2_deriv c lat))
  refine (hb.add h3).congr_deriv ?_
  have e : (id (eta lat)) ^ (c.r * q.lapse / c.g - 1) = eta lat ^ (c.r * q.lapse / c.g) / eta lat := by
    rw [rpow_sub_one (by simpa using he.ne')]
    rfl
  rw [e]
  simp only [Pi.mul_apply, Pi.add_apply, Function.comp]
  unfold temperature avgTemperature profile1
  rw [show (0.75 : ℝ) = 3 / 4 by norm_num]
  generalize (if eta lat < q.tropopause then q.deltaT * (q.tropopause - eta lat) ^ (5 : ℝ) else 0) = D
  field_simp
  ring

end Jet

end Verif.Cases
