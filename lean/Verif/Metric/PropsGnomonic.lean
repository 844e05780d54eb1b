import Mathlib.Analysis.SpecialFunctions.Trigonometric.InverseDeriv
import Mathlib.Analysis.SpecialFunctions.Integrals.Basic
import Mathlib.MeasureTheory.Integral.IntervalIntegral.FundThmCalculus
import Verif.Metric.Gnomonic
import Verif.Metric.Props

/-!
# C82: areas of regions of the cubed sphere
-/

namespace Verif.Metric

open Real Verif.Sphere

/-- **C82 (angle).**  The angle of the grid at a point is the angle between the two tangents of the grid lines through it. -/
theorem C82_angle (p : Int) (hp : IsPanel p) (X Y : ℝ) :
    gridAngle X Y = arccos (dot (tangentA p X Y) (tangentB p X Y) /
      (√(dot (tangentA p X Y) (tangentA p X Y)) * √(dot (tangentB p X Y) (tangentB p X Y)))) := by
  obtain ⟨h1, h2, h3⟩ := dot_tangents p hp X Y
  have hx : 0 < 1 + X * X := by nlinarith [mul_self_nonneg X]
  have hy : 0 < 1 + Y * Y := by nlinarith [mul_self_nonneg Y]
  have hk := delta_pos X Y
  have hc : 0 < (1 + X * X) * (1 + Y * Y) / ((1 + X * X + Y * Y) * (1 + X * X + Y * Y)) := by positivity
  rw [h1, h2, h3]
  generalize (1 + X * X) * (1 + Y * Y) / ((1 + X * X + Y * Y) * (1 + X * X + Y * Y)) = c at hc
  rw [Real.sqrt_mul hc.le, Real.sqrt_mul hc.le]
  unfold gridAngle
  congr 1
  have hs : √c * √c = c := Real.mul_self_sqrt hc.le
  have hx' : 0 < √(1 + X * X) := Real.sqrt_pos.2 hx
  have hy' : 0 < √(1 + Y * Y) := Real.sqrt_pos.2 hy
  have hc' : 0 < √c := Real.sqrt_pos.2 hc
  have e : √c * √(1 + X * X) * (√c * √(1 + Y * Y)) = c * (√(1 + X * X) * √(1 + Y * Y)) := by
    rw [show √c * √(1 + X * X) * (√c * √(1 + Y * Y)) = (√c * √c) * (√(1 + X * X) * √(1 + Y * Y)) by ring, hs]
  rw [e, mul_div_mul_left _ _ hc.ne']
  congr 1; ring

/-! ### Derivatives -/

theorem hasDerivAt_ratio (X : ℝ) : HasDerivAt (fun x => x / √(1 + x * x)) (1 / (√(1 + X * X) * (1 + X * X))) X := by
  have hx : 0 < 1 + X * X := by nlinarith [mul_self_nonneg X]
  have h0 : HasDerivAt (fun x : ℝ => 1 + x * x) (X + X) X := by
    have := ((hasDerivAt_id X).mul (hasDerivAt_id X)).const_add 1
    simpa using this
  have h1 := h0.sqrt hx.ne'
  have hs : 0 < √(1 + X * X) := Real.sqrt_pos.2 hx
  have hss : √(1 + X * X) * √(1 + X * X) = 1 + X * X := Real.mul_self_sqrt hx.le
  refine ((hasDerivAt_id X).div h1 hs.ne').congr_deriv ?_
  simp only [id]
  generalize √(1 + X * X) = d at *
  rw [← hss]
  field_simp
  nlinarith

theorem hasDerivAt_gridAngle (X Y : ℝ) :
    HasDerivAt (fun x => gridAngle x Y) (Y / ((1 + X * X) * √(1 + X * X + Y * Y))) X := by
  have hx : 0 < 1 + X * X := by nlinarith [mul_self_nonneg X]
  have hy : 0 < 1 + Y * Y := by nlinarith [mul_self_nonneg Y]
  have hk := delta_pos X Y
  have hsx : 0 < √(1 + X * X) := Real.sqrt_pos.2 hx
  have hsy : 0 < √(1 + Y * Y) := Real.sqrt_pos.2 hy
  have hsk : 0 < √(1 + X * X + Y * Y) := Real.sqrt_pos.2 hk
  have ex : √(1 + X * X) * √(1 + X * X) = 1 + X * X := Real.mul_self_sqrt hx.le
  have ey : √(1 + Y * Y) * √(1 + Y * Y) = 1 + Y * Y := Real.mul_self_sqrt hy.le
  have ek : √(1 + X * X + Y * Y) * √(1 + X * X + Y * Y) = 1 + X * X + Y * Y := Real.mul_self_sqrt hk.le
  set u : ℝ := X / √(1 + X * X) * (-Y / √(1 + Y * Y)) with hu
  have h1u : 1 - u ^ 2 = (√(1 + X * X + Y * Y) / (√(1 + X * X) * √(1 + Y * Y))) ^ 2 := by
    have : u ^ 2 = X * X * (Y * Y) / ((1 + X * X) * (1 + Y * Y)) := by
      rw [hu, mul_pow, div_pow, div_pow, pow_two (√(1 + X * X)), pow_two (√(1 + Y * Y)), ex, ey]
      field_simp
    rw [this, div_pow, mul_pow, pow_two (√(1 + X * X + Y * Y)), pow_two (√(1 + X * X)), pow_two (√(1 + Y * Y)), ek, ex, ey]
    field_simp
    ring
  have hpos : 0 < √(1 + X * X + Y * Y) / (√(1 + X * X) * √(1 + Y * Y)) := by positivity
  have hlt : 0 < 1 - u ^ 2 := by rw [h1u]; positivity
  have hne1 : u ≠ -1 := by intro e; rw [e] at hlt; norm_num at hlt
  have hne2 : u ≠ 1 := by intro e; rw [e] at hlt; norm_num at hlt
  have hr := (hasDerivAt_ratio X).mul_const (-Y / √(1 + Y * Y))
  have hd := (Real.hasDerivAt_arccos hne1 hne2).comp X hr
  have hf : (fun x => gridAngle x Y) = (arccos ∘ fun x => x / √(1 + x * x) * (-Y / √(1 + Y * Y))) := by
    funext x
    simp only [gridAngle, Function.comp]
    congr 1
    have hx2 : 0 < √(1 + x * x) := Real.sqrt_pos.2 (by nlinarith [mul_self_nonneg x])
    field_simp
  rw [hf]
  refine hd.congr_deriv ?_
  rw [h1u, Real.sqrt_sq hpos.le]
  generalize √(1 + X * X + Y * Y) = k at *
  generalize √(1 + Y * Y) = q at *
  generalize √(1 + X * X) = r at *
  rw [← ex]
  field_simp

theorem hasDerivAt_inner (X Y : ℝ) :
    HasDerivAt (fun y => y / ((1 + X * X) * √(1 + X * X + y * y))) (1 / √(1 + X * X + Y * Y) ^ 3) Y := by
  have hx : 0 < 1 + X * X := by nlinarith [mul_self_nonneg X]
  have hk := delta_pos X Y
  have hsk : 0 < √(1 + X * X + Y * Y) := Real.sqrt_pos.2 hk
  have ek : √(1 + X * X + Y * Y) * √(1 + X * X + Y * Y) = 1 + X * X + Y * Y := Real.mul_self_sqrt hk.le
  have h0 : HasDerivAt (fun y : ℝ => 1 + X * X + y * y) (Y + Y) Y := by
    have := ((hasDerivAt_id Y).mul (hasDerivAt_id Y)).const_add (1 + X * X)
    simpa using this
  have h1 := (h0.sqrt hk.ne').const_mul (1 + X * X)
  refine ((hasDerivAt_id Y).div h1 (by positivity)).congr_deriv ?_
  simp only [id]
  generalize √(1 + X * X + Y * Y) = k at *
  field_simp
  nlinarith

theorem hasDerivAt_tan' (α : ℝ) (h : cos α ≠ 0) : HasDerivAt tan (1 + tan α * tan α) α := by
  refine (Real.hasDerivAt_tan h).congr_deriv ?_
  rw [Real.tan_eq_sin_div_cos]
  have := Real.sin_sq_add_cos_sq α
  field_simp
  linarith

theorem cos_ne (α : ℝ) (h : α ∈ Set.Ioo (-(π / 2)) (π / 2)) : cos α ≠ 0 := (Real.cos_pos_of_mem_Ioo h).ne'

theorem uIcc_sub (a b : ℝ) (ha : a ∈ Set.Ioo (-(π / 2)) (π / 2)) (hb : b ∈ Set.Ioo (-(π / 2)) (π / 2)) (s : ℝ)
    (hs : s ∈ Set.uIcc a b) : s ∈ Set.Ioo (-(π / 2)) (π / 2) := by
  rw [Set.mem_uIcc] at hs
  rcases hs with h | h
  · exact ⟨by linarith [ha.1, h.1], by linarith [hb.2, h.2]⟩
  · exact ⟨by linarith [hb.1, h.1], by linarith [ha.2, h.2]⟩

/-- **C82 (area).**  The area of a region between two lines of each family is the integral over it, in the two angles of
the grid, of the area element the grid uses. -/
theorem C82_area (R α₀ α₁ β₀ β₁ : ℝ) (ha₀ : |α₀| < π / 2) (ha₁ : |α₁| < π / 2) (hb₀ : |β₀| < π / 2) (hb₁ : |β₁| < π / 2) :
    elementArea (tan α₀) (tan α₁ - tan α₀) (tan β₀) (tan β₁ - tan β₀) R =
      ∫ α in α₀..α₁, ∫ β in β₀..β₁, (sphereFlat R (tan α) (tan β)).jac := by
  rw [abs_lt] at ha₀ ha₁ hb₀ hb₁
  have inner : ∀ α, ∫ β in β₀..β₁, (sphereFlat R (tan α) (tan β)).jac =
      R * R * (1 + tan α * tan α) * (tan β₁ / ((1 + tan α * tan α) * √(1 + tan α * tan α + tan β₁ * tan β₁)) -
        tan β₀ / ((1 + tan α * tan α) * √(1 + tan α * tan α + tan β₀ * tan β₀))) := by
    intro α
    have hd : ∀ β ∈ Set.uIcc β₀ β₁, HasDerivAt (fun s => R * R * (1 + tan α * tan α) *
        (tan s / ((1 + tan α * tan α) * √(1 + tan α * tan α + tan s * tan s))))
        ((sphereFlat R (tan α) (tan β)).jac) β := by
      intro β hβ
      have hc := cos_ne β (uIcc_sub _ _ hb₀ hb₁ β hβ)
      have := ((hasDerivAt_inner (tan α) (tan β)).comp β (hasDerivAt_tan' β hc)).const_mul (R * R * (1 + tan α * tan α))
      refine this.congr_deriv ?_
      have hk := delta_pos (tan α) (tan β)
      have hsk : 0 < √(1 + tan α * tan α + tan β * tan β) := Real.sqrt_pos.2 hk
      simp only [sphereFlat]
      generalize √(1 + tan α * tan α + tan β * tan β) = k at *
      field_simp
    have hcont : ContinuousOn (fun β => (sphereFlat R (tan α) (tan β)).jac) (Set.uIcc β₀ β₁) := by
      have ht : ContinuousOn tan (Set.uIcc β₀ β₁) := fun β hβ =>
        (hasDerivAt_tan' β (cos_ne β (uIcc_sub _ _ hb₀ hb₁ β hβ))).continuousAt.continuousWithinAt
      have hs : ContinuousOn (fun β => √(1 + tan α * tan α + tan β * tan β)) (Set.uIcc β₀ β₁) :=
        (continuousOn_const.add (ht.mul ht)).sqrt
      have hne : ∀ β ∈ Set.uIcc β₀ β₁, √(1 + tan α * tan α + tan β * tan β) * √(1 + tan α * tan α + tan β * tan β) *
          √(1 + tan α * tan α + tan β * tan β) ≠ 0 := by
        intro β _
        have hsk : 0 < √(1 + tan α * tan α + tan β * tan β) := Real.sqrt_pos.2 (delta_pos (tan α) (tan β))
        positivity
      exact ((continuousOn_const.mul (continuousOn_const.add (ht.mul ht))).div ((hs.mul hs).mul hs) hne).mul
        continuousOn_const
    rw [intervalIntegral.integral_eq_sub_of_hasDerivAt hd hcont.intervalIntegrable]
    ring
  simp only [inner]
  have hd : ∀ α ∈ Set.uIcc α₀ α₁, HasDerivAt (fun s => R * R * (gridAngle (tan s) (tan β₁) - gridAngle (tan s) (tan β₀)))
      (R * R * (1 + tan α * tan α) * (tan β₁ / ((1 + tan α * tan α) * √(1 + tan α * tan α + tan β₁ * tan β₁)) -
        tan β₀ / ((1 + tan α * tan α) * √(1 + tan α * tan α + tan β₀ * tan β₀)))) α := by
    intro α hα
    have hc := cos_ne α (uIcc_sub _ _ ha₀ ha₁ α hα)
    have h1 := (hasDerivAt_gridAngle (tan α) (tan β₁)).comp α (hasDerivAt_tan' α hc)
    have h0 := (hasDerivAt_gridAngle (tan α) (tan β₀)).comp α (hasDerivAt_tan' α hc)
    refine ((h1.sub h0).const_mul (R * R)).congr_deriv ?_
    ring
  have hcont : ContinuousOn (fun α => R * R * (1 + tan α * tan α) *
      (tan β₁ / ((1 + tan α * tan α) * √(1 + tan α * tan α + tan β₁ * tan β₁)) -
        tan β₀ / ((1 + tan α * tan α) * √(1 + tan α * tan α + tan β₀ * tan β₀)))) (Set.uIcc α₀ α₁) := by
    have ht : ContinuousOn tan (Set.uIcc α₀ α₁) := fun α hα =>
      (hasDerivAt_tan' α (cos_ne α (uIcc_sub _ _ ha₀ ha₁ α hα))).continuousAt.continuousWithinAt
    have hq : ContinuousOn (fun α => 1 + tan α * tan α) (Set.uIcc α₀ α₁) := continuousOn_const.add (ht.mul ht)
    have piece : ∀ y : ℝ, ContinuousOn (fun α => y / ((1 + tan α * tan α) * √(1 + tan α * tan α + y * y)))
        (Set.uIcc α₀ α₁) := by
      intro y
      refine continuousOn_const.div (hq.mul (hq.add continuousOn_const).sqrt) ?_
      intro α _
      have h1 : 0 < √(1 + tan α * tan α + y * y) := Real.sqrt_pos.2 (delta_pos (tan α) y)
      have h2 : 0 < 1 + tan α * tan α := by nlinarith [mul_self_nonneg (tan α)]
      positivity
    exact (continuousOn_const.mul hq).mul ((piece _).sub (piece _))
  rw [intervalIntegral.integral_eq_sub_of_hasDerivAt hd hcont.intervalIntegrable]
  unfold elementArea
  rw [add_sub_cancel, add_sub_cancel]
  ring

/-- **C82 (additive).**  Cutting a region along a line of either family splits its area, whatever the region. -/
theorem C82_additive (X dX dX' Y dY dY' R : ℝ) :
    elementArea X (dX + dX') Y dY R = elementArea X dX Y dY R + elementArea (X + dX) dX' Y dY R ∧
    elementArea X dX Y (dY + dY') R = elementArea X dX Y dY R + elementArea X dX (Y + dY) dY' R := by
  unfold elementArea
  constructor <;> (simp only [← add_assoc]; ring)

/-- **C82 (rows).**  The areas of the rectangles into which any two sequences of grid lines cut a panel add up to the area
between the first and the last lines. -/
theorem C82_tiles (m n : Nat) (x y : Nat → ℝ) (R : ℝ) :
    ∑ i ∈ Finset.range m, ∑ j ∈ Finset.range n, elementArea (x i) (x (i + 1) - x i) (y j) (y (j + 1) - y j) R =
      elementArea (x 0) (x m - x 0) (y 0) (y n - y 0) R := by
  have row : ∀ i, ∑ j ∈ Finset.range n, elementArea (x i) (x (i + 1) - x i) (y j) (y (j + 1) - y j) R =
      elementArea (x i) (x (i + 1) - x i) (y 0) (y n - y 0) R := by
    intro i
    have := Finset.sum_range_sub (fun j => R * R * (gridAngle (x (i + 1)) (y j) - gridAngle (x i) (y j))) n
    unfold elementArea
    simp only [add_sub_cancel]
    rw [show R * R * (gridAngle (x i) (y 0) - gridAngle (x (i + 1)) (y 0) - gridAngle (x i) (y n) +
      gridAngle (x (i + 1)) (y n)) = R * R * (gridAngle (x (i + 1)) (y n) - gridAngle (x i) (y n)) -
      R * R * (gridAngle (x (i + 1)) (y 0) - gridAngle (x i) (y 0)) by ring, ← this]
    exact Finset.sum_congr rfl (fun j _ => by ring)
  simp only [row]
  have := Finset.sum_range_sub (fun i => R * R * (gridAngle (x i) (y n) - gridAngle (x i) (y 0))) m
  unfold elementArea
  simp only [add_sub_cancel]
  rw [show R * R * (gridAngle (x 0) (y 0) - gridAngle (x m) (y 0) - gridAngle (x 0) (y n) +
    gridAngle (x m) (y n)) = R * R * (gridAngle (x m) (y n) - gridAngle (x m) (y 0)) -
    R * R * (gridAngle (x 0) (y n) - gridAngle (x 0) (y 0)) by ring, ← this]
  exact Finset.sum_congr rfl (fun i _ => by ring)

/-- **C82 (sphere).**  Six panels cover the sphere: the areas of the rectangles of any two sequences of grid lines from one
edge of the panel to the other are a sixth of the area of the sphere. -/
theorem C82_total (m n : Nat) (x y : Nat → ℝ) (R : ℝ) (hx : x 0 = -1 ∧ x m = 1) (hy : y 0 = -1 ∧ y n = 1) :
    6 * ∑ i ∈ Finset.range m, ∑ j ∈ Finset.range n, elementArea (x i) (x (i + 1) - x i) (y j) (y (j + 1) - y j) R =
      4 * π * R ^ 2 := by
  rw [C82_tiles, hx.1, hx.2, hy.1, hy.2]
  have e2 : √(1 + 1) * √(1 + 1) = (2 : ℝ) := by rw [Real.mul_self_sqrt (by norm_num)]; norm_num
  have p1 : gridAngle (-1) (-1) = 2 * π / 3 := by
    unfold gridAngle
    norm_num only [neg_mul_neg, mul_one, neg_neg, one_mul]
    rw [show (√2 * √2 : ℝ) = 2 by rw [Real.mul_self_sqrt (by norm_num)]]
    rw [show (-1 / 2 : ℝ) = -(1 / 2) by norm_num, Real.arccos_neg, ← Real.cos_pi_div_three,
      Real.arccos_cos (by positivity) (by linarith [Real.pi_pos])]
    ring
  have p2 : gridAngle 1 1 = 2 * π / 3 := by
    rw [← p1]; unfold gridAngle; norm_num
  have p3 : gridAngle 1 (-1) = π / 3 := by
    unfold gridAngle
    norm_num only [neg_mul_neg, mul_one, neg_neg, one_mul]
    rw [show (√2 * √2 : ℝ) = 2 by rw [Real.mul_self_sqrt (by norm_num)]]
    rw [← Real.cos_pi_div_three,
      Real.arccos_cos (by positivity) (by linarith [Real.pi_pos])]
  have p4 : gridAngle (-1) 1 = π / 3 := by
    rw [← p3]; unfold gridAngle; norm_num
  unfold elementArea
  rw [add_sub_cancel, p1, p2, p3, p4]
  ring

/-- **C82 (positive).**  A region of positive extent in both directions has a positive area. -/
theorem C82_positive (X dX Y dY R : ℝ) (hX : 0 < dX) (hY : 0 < dY) (hR : R ≠ 0) : 0 < elementArea X dX Y dY R := by
  have inner : ∀ x, StrictMono (fun y => y / ((1 + x * x) * √(1 + x * x + y * y))) := fun x =>
    strictMono_of_hasDerivAt_pos (fun y => hasDerivAt_inner x y) (fun y => by
      have : 0 < √(1 + x * x + y * y) := Real.sqrt_pos.2 (delta_pos x y)
      positivity)
  have outer : StrictMono (fun x => gridAngle x (Y + dY) - gridAngle x Y) :=
    strictMono_of_hasDerivAt_pos (fun x => (hasDerivAt_gridAngle x (Y + dY)).sub (hasDerivAt_gridAngle x Y)) (fun x => by
      have := inner x (show Y < Y + dY by linarith)
      simpa using this)
  have := outer (show X < X + dX by linarith)
  unfold elementArea
  have hRR : 0 < R * R := mul_self_pos.2 hR
  exact mul_pos hRR (by simp only at this; linarith)

/-- The quarter panel at the centre has an area. -/
example : 0 < elementArea 0 1 0 1 2 := C82_positive 0 1 0 1 2 one_pos one_pos two_ne_zero

example : 6 * ∑ i ∈ Finset.range 2, ∑ j ∈ Finset.range 2,
    elementArea ((i : ℝ) - 1) (((i + 1 : Nat) : ℝ) - 1 - (i - 1)) ((j : ℝ) - 1) (((j + 1 : Nat) : ℝ) - 1 - (j - 1)) 3 =
      4 * π * 3 ^ 2 :=
  C82_total 2 2 (fun i => (i : ℝ) - 1) (fun i => (i : ℝ) - 1) 3 (by norm_num) (by norm_num)

end Verif.Metric
