import Verif.Cases.JetLemmas

/-!
# Lemmas on the baroclinic wave in a channel
-/

namespace Verif.Cases.Channel

open Verif.Thermo Real

variable (q : Channel) (c : Constants)

theorem decay_deriv (hb : q.b ≠ 0) (eta : ℝ) (he : 0 < eta) :
    HasDerivAt q.decay (-(2 * log eta / (q.b ^ 2 * eta)) * q.decay eta) eta := by
  have hl := (hasDerivAt_log he.ne').div_const q.b
  refine (hl.neg.mul hl).exp.congr_deriv ?_
  simp only [Pi.mul_apply, Pi.neg_apply]
  have e : exp (-(log eta / q.b) * (log eta / q.b)) = q.decay eta := rfl
  rw [e]
  field_simp
  ring

theorem across_deriv (hy : q.ymax - q.ymin ≠ 0) (radius y : ℝ) :
    HasDerivAt (q.across c radius) (q.u0 * sin (π * y / q.ly) ^ 2 *
      (2 * c.omega * sin q.refLat + 2 * c.omega * cos q.refLat / radius * (y - (q.ymax - q.ymin) / 2))) y := by
  have hL : q.ly ≠ 0 := hy
  have hpi : π ≠ 0 := pi_ne_zero
  have hi := hasDerivAt_id y
  have ha := (hi.const_mul (2 * π)).div_const q.ly
  have h1 := (hi.sub_const q.y0).sub (ha.sin.const_mul (q.y0 / π))
  have h2 := (((((hi.mul hi).sub (((hi.const_mul q.ly).div_const π).mul ha.sin)).sub
    (ha.cos.const_mul (0.5 * q.ly * q.ly / (π * π)))).sub_const (q.ly * q.ly / 3)).sub_const
      (0.5 * q.ly * q.ly / (π * π)))
  have h3 := ((h1.const_mul (q.f0 c - q.beta c radius * q.y0)).add (h2.const_mul (0.5 * q.beta c radius))).const_mul
    (0.5 * q.u0)
  refine h3.congr_deriv ?_
  have e2 : cos (2 * π * y / q.ly) = 1 - 2 * sin (π * y / q.ly) ^ 2 := by
    rw [show 2 * π * y / q.ly = 2 * (π * y / q.ly) by ring, cos_two_mul, cos_sq']
    ring
  have ey : q.y0 = q.ly / 2 := by
    unfold y0 ly
    ring
  have el : q.ymax - q.ymin = q.ly := rfl
  simp only [id, Pi.mul_apply]
  rw [e2, ey, el]
  unfold f0 beta
  rw [show (0.5 : ℝ) = 1 / 2 by norm_num]
  field_simp
  ring

theorem geopotential_deriv (hr : 0 < c.r) (hg : c.g ≠ 0) (hl : q.lapse ≠ 0) (hb : q.b ≠ 0) (radius eta y : ℝ)
    (he : 0 < eta) :
    HasDerivAt (fun eta => q.geopotential c radius eta y) (-(c.r * q.temperature c radius eta y / eta)) eta := by
  have h1 := (((hasDerivAt_id eta).rpow_const (p := c.r * q.lapse / c.g) (Or.inl he.ne')).const_sub 1).const_mul
    (q.t0 * c.g / q.lapse)
  have h2 := ((hasDerivAt_log he.ne').const_mul (q.across c radius y)).mul (q.decay_deriv hb eta he)
  refine (h1.add h2).congr_deriv ?_
  have e : (id eta) ^ (c.r * q.lapse / c.g - 1) = eta ^ (c.r * q.lapse / c.g) / eta := by
    rw [rpow_sub_one (by simpa using he.ne')]
    rfl
  rw [e]
  unfold temperature
  field_simp
  ring

theorem temperature_continuous (hb : q.b ≠ 0) (radius eta y : ℝ) (he : 0 < eta) :
    ContinuousAt (fun eta => q.temperature c radius eta y) eta := by
  have h1 : ContinuousAt (fun eta : ℝ => eta ^ (c.r * q.lapse / c.g)) eta := continuousAt_id.rpow_const (Or.inl he.ne')
  have h2 := (hasDerivAt_log he.ne').continuousAt
  have h3 := (q.decay_deriv hb eta he).continuousAt
  unfold temperature
  fun_prop

/-- The derivative of the geopotential along a curve across the channel. -/
theorem geopotential_total (hr : 0 < c.r) (hg : c.g ≠ 0) (hl : q.lapse ≠ 0) (hb : q.b ≠ 0) (hy : q.ymax - q.ymin ≠ 0)
    (radius : ℝ) (eta : ℝ → ℝ) (eta' y : ℝ) (he : 0 < eta y) (hd : HasDerivAt eta eta' y) :
    HasDerivAt (fun y => q.geopotential c radius (eta y) y)
      (-(c.r * q.temperature c radius (eta y) y / eta y) * eta' + q.u0 * sin (π * y / q.ly) ^ 2 *
        (2 * c.omega * sin q.refLat + 2 * c.omega * cos q.refLat / radius * (y - (q.ymax - q.ymin) / 2)) *
          log (eta y) * q.decay (eta y)) y := by
  have h1 := ((((hasDerivAt_id (eta y)).rpow_const (p := c.r * q.lapse / c.g) (Or.inl he.ne')).const_sub 1).const_mul
    (q.t0 * c.g / q.lapse)).comp y hd
  have h2 := ((q.across_deriv c hy radius y).mul ((hasDerivAt_log he.ne').comp y hd)).mul
    ((q.decay_deriv hb (eta y) he).comp y hd)
  refine (h1.add h2).congr_deriv ?_
  have e : (id (eta y)) ^ (c.r * q.lapse / c.g - 1) = eta y ^ (c.r * q.lapse / c.g) / eta y := by
    rw [rpow_sub_one (by simpa using he.ne')]
    rfl
  rw [e]
  simp only [Pi.mul_apply, Function.comp]
  unfold temperature
  generalize 2 * c.omega * sin q.refLat + 2 * c.omega * cos q.refLat / radius * (y - (q.ymax - q.ymin) / 2) = F
  field_simp
  ring

/-- The derivative of the geopotential of the variant with a ridge along a column in the middle of the channel. -/
theorem ridge_total (hr : 0 < c.r) (hg : c.g ≠ 0) (hl : q.lapse ≠ 0) (hb : q.b ≠ 0) (hy : q.ymax - q.ymin ≠ 0)
    (eta : ℝ → ℝ) (eta' z : ℝ) (hR : c.earthRadius + z ≠ 0) (he : 0 < eta z) (hd : HasDerivAt eta eta' z) :
    HasDerivAt (fun z => q.geopotential c (c.earthRadius + z) (eta z) (q.ly / 2))
      (-(c.r * q.temperature c (c.earthRadius + z) (eta z) (q.ly / 2) / eta z) * eta' +
        c.omega * cos q.refLat * q.u0 * q.ly ^ 2 / (24 * (c.earthRadius + z) ^ 2) * log (eta z) * q.decay (eta z)) z := by
  have hL : q.ly ≠ 0 := hy
  have hpi : π ≠ 0 := pi_ne_zero
  have h1 := ((((hasDerivAt_id (eta z)).rpow_const (p := c.r * q.lapse / c.g) (Or.inl he.ne')).const_sub 1).const_mul
    (q.t0 * c.g / q.lapse)).comp z hd
  have ey : q.y0 = q.ly / 2 := by
    unfold y0 ly
    ring
  have ea : ∀ radius, q.across c radius (q.ly / 2) = -(c.omega * cos q.refLat * q.u0 * q.ly ^ 2 / 24) / radius := by
    intro radius
    have e1 : 2 * π * (q.ly / 2) / q.ly = π := by field_simp
    unfold across bowl beta
    rw [e1, sin_pi, cos_pi, ey]
    rw [show (0.5 : ℝ) = 1 / 2 by norm_num]
    field_simp
    ring
  have ha : HasDerivAt (fun z => q.across c (c.earthRadius + z) (q.ly / 2))
      (c.omega * cos q.refLat * q.u0 * q.ly ^ 2 / (24 * (c.earthRadius + z) ^ 2)) z := by
    simp only [ea]
    refine ((hasDerivAt_const z (-(c.omega * cos q.refLat * q.u0 * q.ly ^ 2 / 24))).div
      ((hasDerivAt_id z).const_add c.earthRadius) hR).congr_deriv ?_
    simp only [id]
    field_simp
    ring
  have h2 := (ha.mul ((hasDerivAt_log he.ne').comp z hd)).mul ((q.decay_deriv hb (eta z) he).comp z hd)
  refine (h1.add h2).congr_deriv ?_
  have e : (id (eta z)) ^ (c.r * q.lapse / c.g - 1) = eta z ^ (c.r * q.lapse / c.g) / eta z := by
    rw [rpow_sub_one (by simpa using he.ne')]
    rfl
  rw [e]
  simp only [Pi.mul_apply, Function.comp]
  unfold temperature
  generalize q.across c (c.earthRadius + z) (q.ly / 2) = A
  field_simp
  ring

end Verif.Cases.Channel
