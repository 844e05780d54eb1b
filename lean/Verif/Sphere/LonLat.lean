/-
Sines and cosines of the longitudes and latitudes of the model, in terms of the panel coordinates.
-/
import Verif.Sphere.PanelLemmas

namespace Verif.Sphere

open Real

/-- The three square roots in the formulas. -/
structure Roots (X Y c d R : ℝ) : Prop where
  c_pos : 0 < c
  d_pos : 0 < d
  R_nonneg : 0 ≤ R
  cc : c * c = 1 + X * X
  dd : d * d = 1 + X * X + Y * Y
  RR : R * R = X * X + Y * Y

theorem roots (X Y : ℝ) : Roots X Y (√(1 + X * X)) (√(1 + X * X + Y * Y)) (√(X * X + Y * Y)) where
  c_pos := Real.sqrt_pos.2 (by nlinarith [mul_self_nonneg X])
  d_pos := Real.sqrt_pos.2 (delta_pos X Y)
  R_nonneg := Real.sqrt_nonneg _
  cc := Real.mul_self_sqrt (by nlinarith [mul_self_nonneg X])
  dd := Real.mul_self_sqrt (delta_pos X Y).le
  RR := Real.mul_self_sqrt (by nlinarith [mul_self_nonneg X, mul_self_nonneg Y])

theorem cos_arctan' (X : ℝ) : cos (arctan X) = 1 / √(1 + X * X) := by rw [Real.cos_arctan, pow_two]

theorem sin_arctan' (X : ℝ) : sin (arctan X) = X / √(1 + X * X) := by rw [Real.sin_arctan, pow_two]

theorem sqrt_quot (X Y : ℝ) : √(1 + Y / √(1 + X * X) * (Y / √(1 + X * X))) = √(1 + X * X + Y * Y) / √(1 + X * X) := by
  have h := roots X Y
  rw [← Real.sqrt_div (delta_pos X Y).le]
  congr 1
  have hc := h.c_pos
  generalize √(1 + X * X) = c at *
  rw [← h.cc]
  field_simp

theorem cos_latEq (X Y : ℝ) : cos (latEq X Y) = √(1 + X * X) / √(1 + X * X + Y * Y) := by
  unfold latEq
  rw [cos_arctan', sqrt_quot, one_div_div]

theorem sin_latEq (X Y : ℝ) : sin (latEq X Y) = Y / √(1 + X * X + Y * Y) := by
  unfold latEq
  rw [sin_arctan', sqrt_quot]
  have h := roots X Y
  have := h.c_pos
  have := h.d_pos
  field_simp

theorem sqrt_R (X Y : ℝ) : √(1 + √(X * X + Y * Y) * √(X * X + Y * Y)) = √(1 + X * X + Y * Y) := by
  rw [(roots X Y).RR, ← add_assoc]

theorem cos_latNorth (X Y : ℝ) : cos (latNorth X Y) = √(X * X + Y * Y) / √(1 + X * X + Y * Y) := by
  unfold latNorth
  rw [show 1 / 2 * π = π / 2 by ring, Real.cos_pi_div_two_sub, sin_arctan', sqrt_R]

theorem sin_latNorth (X Y : ℝ) : sin (latNorth X Y) = 1 / √(1 + X * X + Y * Y) := by
  unfold latNorth
  rw [show 1 / 2 * π = π / 2 by ring, Real.sin_pi_div_two_sub, cos_arctan', sqrt_R]

theorem latSouth_eq (X Y : ℝ) : latSouth X Y = -latNorth X Y := by unfold latSouth latNorth; ring

theorem cos_latSouth (X Y : ℝ) : cos (latSouth X Y) = √(X * X + Y * Y) / √(1 + X * X + Y * Y) := by
  rw [latSouth_eq, Real.cos_neg, cos_latNorth]

theorem sin_latSouth (X Y : ℝ) : sin (latSouth X Y) = -(1 / √(1 + X * X + Y * Y)) := by
  rw [latSouth_eq, Real.sin_neg, sin_latNorth]

theorem cos_wrapLon (t : ℝ) : cos (wrapLon t) = cos t := by
  unfold wrapLon; split
  · exact Real.cos_add_two_pi t
  · rfl

theorem sin_wrapLon (t : ℝ) : sin (wrapLon t) = sin t := by
  unfold wrapLon; split
  · exact Real.sin_add_two_pi t
  · rfl

/-- The longitude of a point of a polar panel is exact where the code does not replace it by 0 or π. -/
def LonExact (X : ℝ) : Prop := X = 0 ∨ dblEpsilon < |X|

theorem norm_pair (x y : ℝ) : ‖(⟨x, y⟩ : ℂ)‖ = √(x * x + y * y) := by
  rw [Complex.norm_def, Complex.normSq_apply]

theorem northLon_spec {X Y : ℝ} (h : LonExact X) :
    √(X * X + Y * Y) * cos (northLon X Y) = -Y ∧ √(X * X + Y * Y) * sin (northLon X Y) = X := by
  unfold northLon
  rcases h with rfl | h
  · have : ¬ |(0 : ℝ)| > dblEpsilon := by simp [dblEpsilon]
    rw [if_neg this]
    have e : √(0 * 0 + Y * Y) = |Y| := by rw [← Real.sqrt_sq_eq_abs]; congr 1; ring
    rw [e]
    by_cases hy : Y ≤ 0
    · rw [if_pos hy, abs_of_nonpos hy]; simp
    · rw [if_neg hy, abs_of_pos (not_le.1 hy)]; simp
  · rw [if_pos h]
    have hX : X ≠ 0 := by
      intro e; rw [e] at h; simp [dblEpsilon] at h; norm_num at h
    have hz : (⟨-Y, X⟩ : ℂ) ≠ 0 := by
      intro e
      exact hX (congrArg Complex.im e)
    have hn := norm_pair (-Y) X
    have hR : √(-Y * -Y + X * X) = √(X * X + Y * Y) := by congr 1; ring
    rw [hR] at hn
    have hpos : ‖(⟨-Y, X⟩ : ℂ)‖ ≠ 0 := norm_ne_zero_iff.2 hz
    unfold atan2
    rw [Complex.cos_arg hz, Complex.sin_arg, ← hn]
    constructor <;> field_simp

theorem southLon_spec {X Y : ℝ} (h : LonExact X) :
    √(X * X + Y * Y) * cos (southLon X Y) = Y ∧ √(X * X + Y * Y) * sin (southLon X Y) = X := by
  unfold southLon
  rcases h with rfl | h
  · have : ¬ |(0 : ℝ)| > dblEpsilon := by simp [dblEpsilon]
    rw [if_neg this]
    have e : √(0 * 0 + Y * Y) = |Y| := by rw [← Real.sqrt_sq_eq_abs]; congr 1; ring
    rw [e]
    by_cases hy : Y > 0
    · rw [if_pos hy, abs_of_pos hy]; simp
    · rw [if_neg hy, abs_of_nonpos (not_lt.1 hy)]; simp
  · rw [if_pos h]
    have hX : X ≠ 0 := by
      intro e; rw [e] at h; simp [dblEpsilon] at h; norm_num at h
    have hz : (⟨Y, X⟩ : ℂ) ≠ 0 := by
      intro e
      exact hX (congrArg Complex.im e)
    have hn := norm_pair Y X
    have hR : √(Y * Y + X * X) = √(X * X + Y * Y) := by congr 1; ring
    rw [hR] at hn
    have hpos : ‖(⟨Y, X⟩ : ℂ)‖ ≠ 0 := norm_ne_zero_iff.2 hz
    unfold atan2
    rw [Complex.cos_arg hz, Complex.sin_arg, ← hn]
    constructor <;> field_simp

end Verif.Sphere
