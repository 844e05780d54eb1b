/-
C33: panel coordinates to points of the sphere.
-/
import Mathlib.Tactic.FieldSimp
import Mathlib.Tactic.Ring
import Mathlib.Tactic.Linarith
import Mathlib.Tactic.Positivity
import Verif.Sphere.Model
import Verif.Sphere.Spec

namespace Verif.Sphere

open Real

theorem delta_pos (X Y : ℝ) : 0 < 1 + X * X + Y * Y := by nlinarith [mul_self_nonneg X, mul_self_nonneg Y]

/-- `1 / √(1 + X² + Y²)` is positive and its square is `1 / (1 + X² + Y²)`. -/
theorem scale_spec (X Y : ℝ) : 0 < 1 / √(1 + X * X + Y * Y) ∧
    (1 / √(1 + X * X + Y * Y)) ^ 2 * (1 + X * X + Y * Y) = 1 := by
  have h := delta_pos X Y
  have hs : 0 < √(1 + X * X + Y * Y) := Real.sqrt_pos.2 h
  refine ⟨by positivity, ?_⟩
  rw [div_pow, Real.sq_sqrt h.le]
  field_simp


/-- **C33 (central projection).**  The conversion to Cartesian coordinates accepts exactly the panels 0 to 5, and
gives the central projection of the point of the face onto the unit sphere. -/
theorem C33_projection (X Y : ℝ) (p : Int) :
    (IsPanel p → xyzFromXYP X Y p = some (image p X Y)) ∧ (¬ IsPanel p → xyzFromXYP X Y p = none) := by
  constructor
  · intro h
    rcases h with rfl | rfl | rfl | rfl | rfl | rfl <;>
      simp [xyzFromXYP, toGlobal, image, centre, axisA, axisB]
  · intro h
    simp only [IsPanel, not_or] at h
    obtain ⟨h0, h1, h2, h3, h4, h5⟩ := h
    simp [xyzFromXYP, toGlobal, h0, h1, h2, h3, h4, h5]

/-- **C33 (unit sphere).**  The point lies on the unit sphere, on the ray through the point of the face. -/
theorem C33_unit (X Y : ℝ) (p : Int) (v : Vec3) (h : xyzFromXYP X Y p = some v) :
    dot v v = 1 ∧ ∃ r : ℝ, 0 < r ∧ v = r • (centre p + X • axisA p + Y • axisB p) := by
  have hp : IsPanel p := by
    by_contra hp
    rw [(C33_projection X Y p).2 hp] at h; cases h
  rw [(C33_projection X Y p).1 hp] at h
  cases h
  obtain ⟨h0, h1⟩ := scale_spec X Y
  refine ⟨?_, _, h0, rfl⟩
  unfold image
  generalize 1 / √(1 + X * X + Y * Y) = s at *
  rcases hp with rfl | rfl | rfl | rfl | rfl | rfl <;>
    simp [dot, centre, axisA, axisB] <;> linarith

/-- The three coordinates of a point relative to a face. -/
noncomputable def rel (p : Int) (v : Vec3) : Vec3 := (dot v (axisA p), dot v (axisB p), dot v (centre p))

theorem toLocal_rel (p : Int) (hp : IsPanel p) (v : Vec3) : toLocal p v.1 v.2.1 v.2.2 = some (rel p v) := by
  rcases hp with rfl | rfl | rfl | rfl | rfl | rfl <;>
    simp [toLocal, rel, dot, centre, axisA, axisB]

theorem rel_image (p : Int) (hp : IsPanel p) (X Y : ℝ) :
    rel p (image p X Y) = (1 / √(1 + X * X + Y * Y) * X, 1 / √(1 + X * X + Y * Y) * Y, 1 / √(1 + X * X + Y * Y)) := by
  rcases hp with rfl | rfl | rfl | rfl | rfl | rfl <;>
    simp [rel, image, dot, centre, axisA, axisB]

theorem of_rel (p : Int) (hp : IsPanel p) (v : Vec3) :
    v = (rel p v).1 • axisA p + (rel p v).2.1 • axisB p + (rel p v).2.2 • centre p := by
  obtain ⟨x, y, z⟩ := v
  rcases hp with rfl | rfl | rfl | rfl | rfl | rfl <;>
    simp [rel, dot, centre, axisA, axisB]

theorem dot_rel (p : Int) (hp : IsPanel p) (v : Vec3) : dot (rel p v) (rel p v) = dot v v := by
  obtain ⟨x, y, z⟩ := v
  rcases hp with rfl | rfl | rfl | rfl | rfl | rfl <;>
    simp [rel, dot, centre, axisA, axisB] <;> ring

/-- A unit vector in front of a face is the image of the quotient coordinates. -/
theorem image_of_unit (p : Int) (hp : IsPanel p) (v : Vec3) (hv : dot v v = 1) (hz : 0 < (rel p v).2.2) :
    image p ((rel p v).1 / (rel p v).2.2) ((rel p v).2.1 / (rel p v).2.2) = v ∧
    1 / √(1 + (rel p v).1 / (rel p v).2.2 * ((rel p v).1 / (rel p v).2.2) +
      (rel p v).2.1 / (rel p v).2.2 * ((rel p v).2.1 / (rel p v).2.2)) = (rel p v).2.2 := by
  have hd := dot_rel p hp v
  rw [hv] at hd
  have hv' := of_rel p hp v
  generalize rel p v = w at *
  obtain ⟨x, y, z⟩ := w
  simp only [dot] at hd
  simp only at *
  have hz' : z ≠ 0 := ne_of_gt hz
  have h1 : 1 + x / z * (x / z) + y / z * (y / z) = (1 / z) ^ 2 := by
    field_simp; nlinarith
  have h2 : 1 / √(1 + x / z * (x / z) + y / z * (y / z)) = z := by
    rw [h1, Real.sqrt_sq (by positivity)]; field_simp
  refine ⟨?_, h2⟩
  unfold image
  rw [h2, hv', smul_add, smul_add, smul_smul, smul_smul]
  rw [show z * (x / z) = x by field_simp, show z * (y / z) = y by field_simp]
  abel

theorem image_unit (p : Int) (hp : IsPanel p) (X Y : ℝ) : dot (image p X Y) (image p X Y) = 1 :=
  (C33_unit X Y p _ ((C33_projection X Y p).1 hp)).1

/-- What the panel-to-panel conversion computes. -/
theorem xyp_eq (X Y : ℝ) (p q : Int) (hp : IsPanel p) (hq : IsPanel q) :
    xypFromXYP X Y p q = if (rel q (image p X Y)).2.2 ≤ 0 then none else
      some ((rel q (image p X Y)).1 / (rel q (image p X Y)).2.2,
        (rel q (image p X Y)).2.1 / (rel q (image p X Y)).2.2) := by
  have h := (C33_projection X Y p).1 hp
  unfold xyzFromXYP at h
  unfold xypFromXYP
  simp only at h ⊢
  rw [h]
  simp only [toLocal_rel q hq]

/-- **C33 (panel to panel).**  Between existing panels the conversion gives coordinates exactly when the point is in
front of the destination face, and the coordinates it gives are the ones, and the only ones, that denote the same
point of the sphere there. -/
theorem C33_panels (X Y X' Y' : ℝ) (p q : Int) (hp : IsPanel p) (hq : IsPanel q) :
    xypFromXYP X Y p q = some (X', Y') ↔ image p X Y = image q X' Y' := by
  rw [xyp_eq X Y p q hp hq]
  constructor
  · intro h
    by_cases hz : (rel q (image p X Y)).2.2 ≤ 0
    · rw [if_pos hz] at h; cases h
    · rw [if_neg hz] at h
      simp only [Option.some.injEq, Prod.mk.injEq] at h
      rw [← h.1, ← h.2]
      exact (image_of_unit q hq _ (image_unit p hp X Y) (not_le.1 hz)).1.symm
  · intro h
    rw [h, rel_image q hq]
    have h0 := (scale_spec X' Y').1
    simp only
    rw [if_neg (not_le.2 h0)]
    generalize 1 / √(1 + X' * X' + Y' * Y') = s at *
    have : s ≠ 0 := ne_of_gt h0
    simp only [Option.some.injEq, Prod.mk.injEq]
    constructor <;> field_simp

/-- **C33 (refusal).**  The conversion is refused exactly for points not in front of the destination face, and for
panels that do not exist. -/
theorem C33_refused (X Y : ℝ) (p q : Int) :
    xypFromXYP X Y p q = none ↔ ¬ IsPanel p ∨ ¬ IsPanel q ∨ dot (image p X Y) (centre q) ≤ 0 := by
  by_cases hp : IsPanel p
  · by_cases hq : IsPanel q
    · rw [xyp_eq X Y p q hp hq]
      simp only [hp, hq, not_true, false_or]
      have : (rel q (image p X Y)).2.2 = dot (image p X Y) (centre q) := rfl
      rw [this]
      split <;> simp_all
    · simp only [hq, not_false_eq_true, true_or, or_true, iff_true]
      unfold xypFromXYP
      have h := (C33_projection X Y p).1 hp
      unfold xyzFromXYP at h
      simp only at h ⊢
      rw [h]
      simp only [IsPanel, not_or] at hq
      obtain ⟨h0, h1, h2, h3, h4, h5⟩ := hq
      simp [toLocal, h0, h1, h2, h3, h4, h5]
  · simp only [hp, not_false_eq_true, true_or, iff_true]
    have h := (C33_projection X Y p).2 hp
    unfold xyzFromXYP at h
    unfold xypFromXYP
    simp only at h ⊢
    rw [h]

/-- **C33 (round trip).**  Converting to another panel and back gives the coordinates back, and converting by way of
a third panel gives the same as converting directly. -/
theorem C33_roundtrip (X Y X' Y' X'' Y'' : ℝ) (p q r : Int) (hp : IsPanel p) (hq : IsPanel q) (hr : IsPanel r)
    (h : xypFromXYP X Y p q = some (X', Y')) :
    xypFromXYP X' Y' q p = some (X, Y) ∧
    (xypFromXYP X' Y' q r = some (X'', Y'') ↔ xypFromXYP X Y p r = some (X'', Y'')) := by
  rw [C33_panels _ _ _ _ _ _ hp hq] at h
  rw [C33_panels _ _ _ _ _ _ hq hp, C33_panels _ _ _ _ _ _ hq hr, C33_panels _ _ _ _ _ _ hp hr, h]
  exact ⟨rfl, Iff.rfl⟩

/-- **C33 (injectivity).**  On one panel, different coordinates denote different points. -/
theorem C33_injective (X Y X' Y' : ℝ) (p : Int) (hp : IsPanel p) (h : xyzFromXYP X Y p = xyzFromXYP X' Y' p) :
    X = X' ∧ Y = Y' := by
  rw [(C33_projection X Y p).1 hp, (C33_projection X' Y' p).1 hp, Option.some.injEq] at h
  have h1 := (C33_panels X Y X Y p p hp hp).2 rfl
  have h2 := (C33_panels X Y X' Y' p p hp hp).2 h
  rw [h1] at h2
  simpa using h2

/-- The corner of panel 0 next to panels 1 and 4, seen from panel 1. -/
example : xypFromXYP 1 1 0 1 = some (-1, 1) := by
  rw [C33_panels _ _ _ _ _ _ (by simp [IsPanel]) (by simp [IsPanel])]
  simp [image, centre, axisA, axisB]

end Verif.Sphere
