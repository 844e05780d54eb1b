/-
C34: conversion of vector and covector components between longitude-latitude and panel coordinates.
-/
import Mathlib.Tactic.Module
import Verif.Sphere.LonLat
import Verif.Sphere.PropsPanel

namespace Verif.Sphere

open Real

theorem atPole_polar {X Y : ℝ} {p : Int} (h : p = 0 ∨ p = 1 ∨ p = 2 ∨ p = 3) : ¬ atPole X Y p := by
  rintro ⟨h', -⟩; omega

/-- On a polar panel, away from the pole the radius is positive. -/
theorem radius_pos {X Y : ℝ} (h : X ≠ 0 ∨ Y ≠ 0) : 0 < √(X * X + Y * Y) := by
  apply Real.sqrt_pos.2
  rcases h with h | h
  · have := mul_self_pos.2 h; nlinarith [mul_self_nonneg Y]
  · have := mul_self_pos.2 h; nlinarith [mul_self_nonneg X]

/-- Sine and cosine of the longitude on the equatorial panels, for `c = √(1 + X²)`. -/
theorem lon_trig (X : ℝ) :
    (cos (wrapLon (arctan X)) = 1 / √(1 + X * X) ∧ sin (wrapLon (arctan X)) = X / √(1 + X * X)) ∧
    (cos (wrapLon (arctan X + 1 / 2 * π)) = -(X / √(1 + X * X)) ∧ sin (wrapLon (arctan X + 1 / 2 * π)) = 1 / √(1 + X * X)) ∧
    (cos (wrapLon (arctan X + π)) = -(1 / √(1 + X * X)) ∧ sin (wrapLon (arctan X + π)) = -(X / √(1 + X * X))) ∧
    (cos (wrapLon (arctan X + 3 / 2 * π)) = X / √(1 + X * X) ∧
      sin (wrapLon (arctan X + 3 / 2 * π)) = -(1 / √(1 + X * X))) := by
  simp only [cos_wrapLon, sin_wrapLon]
  rw [show arctan X + 3 / 2 * π = arctan X + π / 2 + π by ring, show arctan X + 1 / 2 * π = arctan X + π / 2 by ring]
  simp only [Real.cos_add_pi, Real.sin_add_pi, Real.cos_add_pi_div_two, Real.sin_add_pi_div_two, cos_arctan',
    sin_arctan', neg_neg, and_self]

/-- Convertibility to spherical components at a point: the longitude is exact (on the polar panels). -/
def LonOK (p : Int) (X : ℝ) : Prop := p = 4 ∨ p = 5 → LonExact X

/-- East and north at a point of a panel. -/
theorem eastNorth_eq (X Y lon lat : ℝ) (p : Int) (hp : p = 0 ∨ p = 1 ∨ p = 2 ∨ p = 3)
    (h : rllFromXYP X Y p = some (lon, lat)) :
    east lon = (1 / √(1 + X * X)) • (axisA p - X • centre p) ∧
    north lon lat = (1 / (√(1 + X * X) * √(1 + X * X + Y * Y))) •
      ((-(X * Y)) • axisA p + (1 + X * X) • axisB p - Y • centre p) := by
  have hr := roots X Y
  have hc := hr.c_pos
  have hd := hr.d_pos
  have hcc := hr.cc
  obtain ⟨⟨a1, a2⟩, ⟨b1, b2⟩, ⟨c1, c2⟩, ⟨d1, d2⟩⟩ := lon_trig X
  have l1 := cos_latEq X Y
  have l2 := sin_latEq X Y
  unfold latEq at l1 l2
  rcases hp with rfl | rfl | rfl | rfl <;> simp [rllFromXYP] at h <;> obtain ⟨rfl, rfl⟩ := h
  · simp only [east, north, l1, l2, a1, a2]
    generalize √(1 + X * X) = c at *
    generalize √(1 + X * X + Y * Y) = d at *
    rw [← hcc]
    simp [centre, axisA, axisB]
    field_simp
    simp
  · simp only [one_div] at b1 b2
    simp only [east, north, l1, l2, b1, b2]
    generalize √(1 + X * X) = c at *
    generalize √(1 + X * X + Y * Y) = d at *
    rw [← hcc]
    simp [centre, axisA, axisB]
    field_simp
    simp
  · simp only [east, north, l1, l2, c1, c2]
    generalize √(1 + X * X) = c at *
    generalize √(1 + X * X + Y * Y) = d at *
    rw [← hcc]
    simp [centre, axisA, axisB]
    field_simp
    simp
  · simp only [east, north, l1, l2, d1, d2]
    generalize √(1 + X * X) = c at *
    generalize √(1 + X * X + Y * Y) = d at *
    rw [← hcc]
    simp [centre, axisA, axisB]
    field_simp
    simp

theorem eastNorth_north (X Y lon lat : ℝ) (hx : LonExact X) (h0 : X ≠ 0 ∨ Y ≠ 0)
    (h : rllFromXYP X Y 4 = some (lon, lat)) :
    east lon = (1 / √(X * X + Y * Y)) • ((-Y) • axisA 4 + X • axisB 4) ∧
    north lon lat = (1 / (√(X * X + Y * Y) * √(1 + X * X + Y * Y))) •
      ((-X) • axisA 4 + (-Y) • axisB 4 + (X * X + Y * Y) • centre 4) := by
  have hr := roots X Y
  have hd := hr.d_pos
  have hRR := hr.RR
  have hR := radius_pos h0
  obtain ⟨g1, g2⟩ := northLon_spec (Y := Y) hx
  have l1 := cos_latNorth X Y
  have l2 := sin_latNorth X Y
  unfold latNorth at l1 l2
  simp only [rllFromXYP] at h
  norm_num at h
  obtain ⟨rfl, rfl⟩ := h
  rw [show (1 / 2 * π : ℝ) = 2⁻¹ * π by ring] at *
  simp only [east, north, cos_wrapLon, sin_wrapLon]
  try rw [l1, l2]
  generalize √(X * X + Y * Y) = R at *
  generalize √(1 + X * X + Y * Y) = d at *
  have e1 : cos (northLon X Y) = -Y / R := by field_simp; linarith
  have e2 : sin (northLon X Y) = X / R := by field_simp; linarith
  rw [e1, e2, ← hRR]
  simp [centre, axisA, axisB]
  refine ⟨⟨?_, ?_⟩, ?_, ?_, ?_⟩ <;> field_simp

theorem eastNorth_south (X Y lon lat : ℝ) (hx : LonExact X) (h0 : X ≠ 0 ∨ Y ≠ 0)
    (h : rllFromXYP X Y 5 = some (lon, lat)) :
    east lon = (1 / √(X * X + Y * Y)) • (Y • axisA 5 + (-X) • axisB 5) ∧
    north lon lat = (1 / (√(X * X + Y * Y) * √(1 + X * X + Y * Y))) •
      (X • axisA 5 + Y • axisB 5 + (-(X * X + Y * Y)) • centre 5) := by
  have hr := roots X Y
  have hd := hr.d_pos
  have hRR := hr.RR
  have hR := radius_pos h0
  obtain ⟨g1, g2⟩ := southLon_spec (Y := Y) hx
  have l1 := cos_latSouth X Y
  have l2 := sin_latSouth X Y
  unfold latSouth at l1 l2
  simp only [rllFromXYP] at h
  norm_num at h
  obtain ⟨rfl, rfl⟩ := h
  rw [show (1 / 2 * π : ℝ) = 2⁻¹ * π by ring] at *
  simp only [east, north, cos_wrapLon, sin_wrapLon]
  try rw [l1, l2]
  generalize √(X * X + Y * Y) = R at *
  generalize √(1 + X * X + Y * Y) = d at *
  have e1 : cos (southLon X Y) = Y / R := by field_simp; linarith
  have e2 : sin (southLon X Y) = X / R := by field_simp; linarith
  rw [e1, e2, ← hRR]
  simp [centre, axisA, axisB]
  refine ⟨⟨?_, ?_⟩, ?_, ?_, ?_⟩ <;> field_simp

/-- A vector given by its coordinates along the axes of a face. -/
noncomputable def frame (p : Int) (x y z : ℝ) : Vec3 := x • axisA p + y • axisB p + z • centre p

theorem frame_congr {p : Int} {x y z x' y' z' : ℝ} (hx : x = x') (hy : y = y') (hz : z = z') :
    frame p x y z = frame p x' y' z' := by rw [hx, hy, hz]

theorem dot_frame {p : Int} (hp : IsPanel p) (x y z x' y' z' : ℝ) :
    dot (frame p x y z) (frame p x' y' z') = x * x' + y * y' + z * z' := by
  rcases hp with rfl | rfl | rfl | rfl | rfl | rfl <;> simp [frame, dot, centre, axisA, axisB] <;> ring

theorem tangentA_frame (p : Int) (X Y : ℝ) : tangentA p X Y =
    frame p ((1 + X * X) * (1 / √(1 + X * X + Y * Y)) ^ 3 * (1 + Y * Y))
      ((1 + X * X) * (1 / √(1 + X * X + Y * Y)) ^ 3 * -(X * Y))
      ((1 + X * X) * (1 / √(1 + X * X + Y * Y)) ^ 3 * -X) := by
  unfold tangentA frame; module

theorem tangentB_frame (p : Int) (X Y : ℝ) : tangentB p X Y =
    frame p ((1 + Y * Y) * (1 / √(1 + X * X + Y * Y)) ^ 3 * -(X * Y))
      ((1 + Y * Y) * (1 / √(1 + X * X + Y * Y)) ^ 3 * (1 + X * X))
      ((1 + Y * Y) * (1 / √(1 + X * X + Y * Y)) ^ 3 * -Y) := by
  unfold tangentB frame; module

theorem physical_frame (p : Int) (X Y a b : ℝ) : physical p X Y a b =
    frame p ((1 / √(1 + X * X + Y * Y)) ^ 3 * (a * (1 + X * X) * (1 + Y * Y) - b * (1 + Y * Y) * (X * Y)))
      ((1 / √(1 + X * X + Y * Y)) ^ 3 * (b * (1 + Y * Y) * (1 + X * X) - a * (1 + X * X) * (X * Y)))
      ((1 / √(1 + X * X + Y * Y)) ^ 3 * (-(a * (1 + X * X) * X) - b * (1 + Y * Y) * Y)) := by
  unfold physical tangentA tangentB frame; module

/-- East and north along the axes of the face, in the three cases. -/
theorem eastNorth (X Y lon lat : ℝ) (p : Int) (hp : IsPanel p) (hx : LonOK p X) (h0 : p = 4 ∨ p = 5 → X ≠ 0 ∨ Y ≠ 0)
    (h : rllFromXYP X Y p = some (lon, lat)) :
    ((p = 0 ∨ p = 1 ∨ p = 2 ∨ p = 3) ∧ east lon = frame p (1 / √(1 + X * X)) 0 (-X / √(1 + X * X)) ∧
      north lon lat = frame p (-(X * Y) / (√(1 + X * X) * √(1 + X * X + Y * Y)))
        ((1 + X * X) / (√(1 + X * X) * √(1 + X * X + Y * Y))) (-Y / (√(1 + X * X) * √(1 + X * X + Y * Y)))) ∨
    (p = 4 ∧ 0 < √(X * X + Y * Y) ∧ east lon = frame p (-Y / √(X * X + Y * Y)) (X / √(X * X + Y * Y)) 0 ∧
      north lon lat = frame p (-X / (√(X * X + Y * Y) * √(1 + X * X + Y * Y)))
        (-Y / (√(X * X + Y * Y) * √(1 + X * X + Y * Y)))
        ((X * X + Y * Y) / (√(X * X + Y * Y) * √(1 + X * X + Y * Y)))) ∨
    (p = 5 ∧ 0 < √(X * X + Y * Y) ∧ east lon = frame p (Y / √(X * X + Y * Y)) (-X / √(X * X + Y * Y)) 0 ∧
      north lon lat = frame p (X / (√(X * X + Y * Y) * √(1 + X * X + Y * Y)))
        (Y / (√(X * X + Y * Y) * √(1 + X * X + Y * Y)))
        (-(X * X + Y * Y) / (√(X * X + Y * Y) * √(1 + X * X + Y * Y)))) := by
  by_cases he : p = 0 ∨ p = 1 ∨ p = 2 ∨ p = 3
  · obtain ⟨h1, h2⟩ := eastNorth_eq X Y lon lat p he h
    refine Or.inl ⟨he, ?_, ?_⟩
    · rw [h1]; unfold frame; module
    · rw [h2]; unfold frame; module
  · have h45 : p = 4 ∨ p = 5 := by unfold IsPanel at hp; tauto
    have h0' := h0 h45
    have hR := radius_pos h0'
    have hx' := hx h45
    rcases h45 with rfl | rfl
    · obtain ⟨h1, h2⟩ := eastNorth_north X Y lon lat hx' h0' h
      refine Or.inr (Or.inl ⟨rfl, hR, ?_, ?_⟩)
      · rw [h1]; unfold frame; module
      · rw [h2]; unfold frame; module
    · obtain ⟨h1, h2⟩ := eastNorth_south X Y lon lat hx' h0' h
      refine Or.inr (Or.inr ⟨rfl, hR, ?_, ?_⟩)
      · rw [h1]; unfold frame; module
      · rw [h2]; unfold frame; module

theorem wind_frame {lon lat ulon ulat x y z x' y' z' : ℝ} {p : Int} (h1 : east lon = frame p x y z)
    (h2 : north lon lat = frame p x' y' z') :
    wind lon lat ulon ulat = frame p (ulon * x + ulat * x') (ulon * y + ulat * y') (ulon * z + ulat * z') := by
  rw [wind, h1, h2]; unfold frame; module

theorem notPole_ne {X Y : ℝ} {p : Int} (h : ¬ atPole X Y p) : p = 4 ∨ p = 5 → X ≠ 0 ∨ Y ≠ 0 := by
  intro h45
  by_contra hn
  rw [not_or, not_not, not_not] at hn
  apply h
  rw [hn.1, hn.2]
  exact ⟨by omega, by norm_num, by norm_num⟩

/-- **C34 (vectors to panel components).**  At every point of a panel that is not treated as a pole, the panel
components computed from an eastward and a northward component denote the same vector of three-dimensional space.
On the polar panels the longitude must be exact (`X = 0` or `|X|` above `DBL_EPSILON`). -/
theorem C34_vector_from (X Y ulon ulat lon lat : ℝ) (p : Int) (hp : IsPanel p) (hx : LonOK p X) (hpole : ¬ atPole X Y p)
    (h : rllFromXYP X Y p = some (lon, lat)) :
    ∃ a b, vecABPFromRLL X Y p ulon ulat = some (a, b) ∧ physical p X Y a b = wind lon lat ulon ulat := by
  have hr := roots X Y
  have hc := hr.c_pos
  have hd := hr.d_pos
  have hcc := hr.cc
  have hdd := hr.dd
  have hRR := hr.RR
  have e2 := one_add_sq_ne Y
  have e1 := one_add_sq_ne X
  rcases eastNorth X Y lon lat p hp hx (notPole_ne hpole) h with ⟨he, h1, h2⟩ | ⟨rfl, hR, h1, h2⟩ | ⟨rfl, hR, h1, h2⟩
  · refine ⟨_, _, by unfold vecABPFromRLL; simp only [if_neg hpole, if_pos he]; rfl, ?_⟩
    rw [physical_frame, wind_frame h1 h2, cos_latEq]
    generalize √(1 + X * X) = c at *
    generalize √(1 + X * X + Y * Y) = d at *
    apply frame_congr <;> field_simp <;> grind
  · refine ⟨_, _, by unfold vecABPFromRLL; norm_num [hpole]; exact ⟨rfl, rfl⟩, ?_⟩
    rw [physical_frame, wind_frame h1 h2, cos_latNorth]
    generalize √(X * X + Y * Y) = R at *
    generalize √(1 + X * X + Y * Y) = d at *
    apply frame_congr <;> field_simp <;> grind
  · refine ⟨_, _, by unfold vecABPFromRLL; norm_num [hpole]; exact ⟨rfl, rfl⟩, ?_⟩
    rw [physical_frame, wind_frame h1 h2, cos_latSouth]
    generalize √(X * X + Y * Y) = R at *
    generalize √(1 + X * X + Y * Y) = d at *
    apply frame_congr <;> field_simp <;> grind

/-- **C34 (vectors from panel components).**  At every point of a panel other than the pole itself, the eastward and
northward components computed from panel components denote the same vector. -/
theorem C34_vector_to (X Y a b lon lat : ℝ) (p : Int) (hp : IsPanel p) (hx : LonOK p X)
    (h0 : p = 4 ∨ p = 5 → X ≠ 0 ∨ Y ≠ 0) (h : rllFromXYP X Y p = some (lon, lat)) :
    ∃ ulon ulat, vecRLLFromABP X Y p a b = some (ulon, ulat) ∧ physical p X Y a b = wind lon lat ulon ulat := by
  have hr := roots X Y
  have hc := hr.c_pos
  have hd := hr.d_pos
  have hcc := hr.cc
  have hdd := hr.dd
  have hRR := hr.RR
  have e2 := one_add_sq_ne Y
  have e1 := one_add_sq_ne X
  rcases eastNorth X Y lon lat p hp hx h0 h with ⟨he, h1, h2⟩ | ⟨rfl, hR, h1, h2⟩ | ⟨rfl, hR, h1, h2⟩
  · refine ⟨_, _, by unfold vecRLLFromABP; simp only [if_pos he]; rfl, ?_⟩
    rw [physical_frame, wind_frame h1 h2, cos_latEq]
    generalize √(1 + X * X) = c at *
    generalize √(1 + X * X + Y * Y) = d at *
    apply frame_congr <;> field_simp <;> grind
  · refine ⟨_, _, by unfold vecRLLFromABP; norm_num; exact ⟨rfl, rfl⟩, ?_⟩
    rw [physical_frame, wind_frame h1 h2, cos_latNorth]
    generalize √(X * X + Y * Y) = R at *
    generalize √(1 + X * X + Y * Y) = d at *
    apply frame_congr <;> field_simp <;> grind
  · refine ⟨_, _, by unfold vecRLLFromABP; norm_num; exact ⟨rfl, rfl⟩, ?_⟩
    rw [physical_frame, wind_frame h1 h2, cos_latSouth]
    generalize √(X * X + Y * Y) = R at *
    generalize √(1 + X * X + Y * Y) = d at *
    apply frame_congr <;> field_simp <;> grind

/-- **C34 (covectors to panel components).**  The panel components computed from the eastward and northward components
of a vector are its covariant components: its inner products with the two coordinate directions. -/
theorem C34_covector_from (X Y ulon ulat lon lat : ℝ) (p : Int) (hp : IsPanel p) (hx : LonOK p X)
    (hpole : ¬ atPole X Y p) (h : rllFromXYP X Y p = some (lon, lat)) :
    coVecABPFromRLL X Y p ulon ulat = some (dot (wind lon lat ulon ulat) (tangentA p X Y),
      dot (wind lon lat ulon ulat) (tangentB p X Y)) := by
  have hr := roots X Y
  have hc := hr.c_pos
  have hd := hr.d_pos
  have hcc := hr.cc
  have hdd := hr.dd
  have hRR := hr.RR
  have e2 := one_add_sq_ne Y
  have e1 := one_add_sq_ne X
  rcases eastNorth X Y lon lat p hp hx (notPole_ne hpole) h with ⟨he, h1, h2⟩ | ⟨rfl, hR, h1, h2⟩ | ⟨rfl, hR, h1, h2⟩
  · unfold coVecABPFromRLL
    simp only [if_neg hpole, if_pos he]
    rw [wind_frame h1 h2, tangentA_frame, tangentB_frame, dot_frame hp, dot_frame hp, cos_latEq]
    generalize √(1 + X * X) = c at *
    generalize √(1 + X * X + Y * Y) = d at *
    refine congrArg some (Prod.ext ?_ ?_) <;> simp only [] <;> field_simp <;> grind
  · unfold coVecABPFromRLL
    simp only [if_neg hpole, if_neg (show ¬ ((4 : Int) = 0 ∨ (4 : Int) = 1 ∨ (4 : Int) = 2 ∨ (4 : Int) = 3) by decide), if_true]
    rw [wind_frame h1 h2, tangentA_frame, tangentB_frame, dot_frame hp, dot_frame hp, cos_latNorth]
    generalize √(X * X + Y * Y) = R at *
    generalize √(1 + X * X + Y * Y) = d at *
    refine congrArg some (Prod.ext ?_ ?_) <;> simp only [] <;> field_simp <;> grind
  · unfold coVecABPFromRLL
    simp only [if_neg hpole, if_neg (show ¬ ((5 : Int) = 0 ∨ (5 : Int) = 1 ∨ (5 : Int) = 2 ∨ (5 : Int) = 3) by decide), if_neg (show ¬ ((5 : Int) = 4) by decide), if_true]
    rw [wind_frame h1 h2, tangentA_frame, tangentB_frame, dot_frame hp, dot_frame hp, cos_latSouth]
    generalize √(X * X + Y * Y) = R at *
    generalize √(1 + X * X + Y * Y) = d at *
    refine congrArg some (Prod.ext ?_ ?_) <;> simp only [] <;> field_simp <;> grind

/-- **C34 (covectors from panel components).**  From the covariant components of a vector tangent to the sphere, its
inner products with the two coordinate directions, the eastward and northward components of that vector are
recovered. -/
theorem C34_covector_to (X Y ulon ulat lon lat : ℝ) (p : Int) (hp : IsPanel p) (hx : LonOK p X)
    (hpole : ¬ atPole X Y p) (h : rllFromXYP X Y p = some (lon, lat)) :
    coVecRLLFromABP X Y p (dot (wind lon lat ulon ulat) (tangentA p X Y))
      (dot (wind lon lat ulon ulat) (tangentB p X Y)) = some (ulon, ulat) := by
  have hr := roots X Y
  have hc := hr.c_pos
  have hd := hr.d_pos
  have hcc := hr.cc
  have hdd := hr.dd
  have hRR := hr.RR
  have e2 := one_add_sq_ne Y
  have e1 := one_add_sq_ne X
  rcases eastNorth X Y lon lat p hp hx (notPole_ne hpole) h with ⟨he, h1, h2⟩ | ⟨rfl, hR, h1, h2⟩ | ⟨rfl, hR, h1, h2⟩
  · unfold coVecRLLFromABP
    simp only [if_neg hpole, if_pos he]
    rw [wind_frame h1 h2, tangentA_frame, tangentB_frame, dot_frame hp, dot_frame hp, cos_latEq]
    generalize √(1 + X * X) = c at *
    generalize √(1 + X * X + Y * Y) = d at *
    refine congrArg some (Prod.ext ?_ ?_) <;> simp only [] <;> field_simp <;> grind
  · unfold coVecRLLFromABP
    simp only [if_neg hpole, if_neg (show ¬ ((4 : Int) = 0 ∨ (4 : Int) = 1 ∨ (4 : Int) = 2 ∨ (4 : Int) = 3) by decide), if_true]
    rw [wind_frame h1 h2, tangentA_frame, tangentB_frame, dot_frame hp, dot_frame hp, cos_latNorth]
    generalize √(X * X + Y * Y) = R at *
    generalize √(1 + X * X + Y * Y) = d at *
    refine congrArg some (Prod.ext ?_ ?_) <;> simp only [] <;> field_simp <;> grind
  · unfold coVecRLLFromABP
    simp only [if_neg hpole, if_neg (show ¬ ((5 : Int) = 0 ∨ (5 : Int) = 1 ∨ (5 : Int) = 2 ∨ (5 : Int) = 3) by decide), if_neg (show ¬ ((5 : Int) = 4) by decide), if_true]
    rw [wind_frame h1 h2, tangentA_frame, tangentB_frame, dot_frame hp, dot_frame hp, cos_latNorth]
    generalize √(X * X + Y * Y) = R at *
    generalize √(1 + X * X + Y * Y) = d at *
    refine congrArg some (Prod.ext ?_ ?_) <;> simp only [] <;> field_simp <;> grind

end Verif.Sphere
