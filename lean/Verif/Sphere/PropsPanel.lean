/-
C35: panel-to-panel transforms of vector and covector components.
-/
import Verif.Sphere.PanelLemmas

namespace Verif.Sphere

open Real

/-- **C35 (which panels).**  The transforms are defined for panels sharing an edge and for no other pair. -/
theorem C35_defined (p q : Int) (hp : IsPanel p) (hq : IsPanel q) (a b X Y : ℝ) :
    ((vecPanelTrans p q a b X Y).isSome ↔ Adjacent p q) ∧ ((coVecPanelTrans p q a b X Y).isSome ↔ Adjacent p q) := by
  rcases hp with rfl | rfl | rfl | rfl | rfl | rfl <;> rcases hq with rfl | rfl | rfl | rfl | rfl | rfl <;>
    simp [vecPanelTrans, coVecPanelTrans, Adjacent, IsPanel, dot, centre]

/-- **C35 (vectors).**  For panels sharing an edge and a point in front of both, the components computed for the
destination panel denote the same vector of three-dimensional space as the given components on the source panel. -/
theorem C35_vector (X Y Xs Ys a b a' b' : ℝ) (p q : Int) (hadj : Adjacent p q)
    (hpt : xypFromXYP X Y q p = some (Xs, Ys)) (h : vecPanelTrans p q a b X Y = some (a', b')) :
    physical q X Y a' b' = physical p Xs Ys a b := by
  have := vec_same X Y Xs Ys a b p q hadj hpt
  rw [h] at this
  simpa using this

/-- **C35 (covectors).**  For panels sharing an edge and a point in front of both, if the given components are those
of `W` along the coordinate lines of the source panel, the components computed are those of `W` along the coordinate
lines of the destination panel. -/
theorem C35_covector (X Y Xs Ys a b a' b' : ℝ) (W : Vec3) (p q : Int) (hadj : Adjacent p q)
    (hpt : xypFromXYP X Y q p = some (Xs, Ys)) (ha : a = dot W (tangentA p Xs Ys)) (hb : b = dot W (tangentB p Xs Ys))
    (h : coVecPanelTrans p q a b X Y = some (a', b')) :
    a' = dot W (tangentA q X Y) ∧ b' = dot W (tangentB q X Y) := by
  rw [ha, hb, coVec_same X Y Xs Ys W p q hadj hpt] at h
  simp only [Option.some.injEq, Prod.mk.injEq] at h
  exact ⟨h.1.symm, h.2.symm⟩

theorem adjacent_symm {p q : Int} (h : Adjacent p q) : Adjacent q p := by
  obtain ⟨h1, h2, h3, h4⟩ := h
  refine ⟨h2, h1, Ne.symm h3, ?_⟩
  rw [← h4]; simp only [dot]; ring

/-- Components are determined by the vector. -/
theorem physical_injective {p : Int} (hp : IsPanel p) {X Y a b c d : ℝ}
    (h : physical p X Y a b = physical p X Y c d) : a = c ∧ b = d := by
  have hs := (scale_spec X Y).1
  have hD := delta_pos X Y
  have e1 := one_add_sq_ne X
  have e2 := one_add_sq_ne Y
  unfold physical tangentA tangentB at h
  generalize 1 / √(1 + X * X + Y * Y) = s at *
  have hs3 : s ^ 3 ≠ 0 := by positivity
  have hu := congrArg (fun w => dot w (axisA p) - X * dot w (centre p)) h
  have hv := congrArg (fun w => dot w (axisB p) - Y * dot w (centre p)) h
  have hu' : a * ((1 + X * X) * s ^ 3 * (1 + X * X + Y * Y)) = c * ((1 + X * X) * s ^ 3 * (1 + X * X + Y * Y)) := by
    rcases hp with rfl | rfl | rfl | rfl | rfl | rfl <;>
      simp [dot, centre, axisA, axisB] at hu <;> linarith
  have hv' : b * ((1 + Y * Y) * s ^ 3 * (1 + X * X + Y * Y)) = d * ((1 + Y * Y) * s ^ 3 * (1 + X * X + Y * Y)) := by
    rcases hp with rfl | rfl | rfl | rfl | rfl | rfl <;>
      simp [dot, centre, axisA, axisB] at hv <;> linarith
  exact ⟨mul_right_cancel₀ (by positivity) hu', mul_right_cancel₀ (by positivity) hv'⟩

/-- Any two numbers are covector components of some vector. -/
theorem exists_covector {p : Int} (hp : IsPanel p) (X Y a b : ℝ) :
    ∃ W : Vec3, a = dot W (tangentA p X Y) ∧ b = dot W (tangentB p X Y) := by
  have hs := (scale_spec X Y).1
  have hD := ne_of_gt (delta_pos X Y)
  have e1 := one_add_sq_ne X
  have e2 := one_add_sq_ne Y
  unfold tangentA tangentB
  generalize 1 / √(1 + X * X + Y * Y) = s at *
  have hs3 : s ≠ 0 := ne_of_gt hs
  refine ⟨(((1 + X * X) * (a / ((1 + X * X) * s ^ 3)) + X * Y * (b / ((1 + Y * Y) * s ^ 3))) / (1 + X * X + Y * Y)) •
    axisA p + ((X * Y * (a / ((1 + X * X) * s ^ 3)) + (1 + Y * Y) * (b / ((1 + Y * Y) * s ^ 3))) / (1 + X * X + Y * Y)) •
    axisB p, ?_, ?_⟩ <;>
  rcases hp with rfl | rfl | rfl | rfl | rfl | rfl <;>
    simp [dot, centre, axisA, axisB] <;> field_simp <;> ring

/-- **C35 (round trip).**  Transforming components to a neighbouring panel and back gives them back, for vectors and
for covectors. -/
theorem C35_roundtrip (X Y Xs Ys a b : ℝ) (p q : Int) (hadj : Adjacent p q) (hpt : xypFromXYP X Y q p = some (Xs, Ys)) :
    (∃ a' b', vecPanelTrans p q a b X Y = some (a', b') ∧ vecPanelTrans q p a' b' Xs Ys = some (a, b)) ∧
    (∃ a' b', coVecPanelTrans p q a b X Y = some (a', b') ∧ coVecPanelTrans q p a' b' Xs Ys = some (a, b)) := by
  have hadj' := adjacent_symm hadj
  have hpt' : xypFromXYP Xs Ys p q = some (X, Y) :=
    (C33_roundtrip X Y Xs Ys 0 0 q p q hadj.2.1 hadj.1 hadj.2.1 hpt).1
  constructor
  · obtain ⟨⟨a', b'⟩, h1⟩ := Option.isSome_iff_exists.1 ((C35_defined p q hadj.1 hadj.2.1 a b X Y).1.2 hadj)
    obtain ⟨⟨a'', b''⟩, h2⟩ := Option.isSome_iff_exists.1 ((C35_defined q p hadj.2.1 hadj.1 a' b' Xs Ys).1.2 hadj')
    have e1 := C35_vector X Y Xs Ys a b a' b' p q hadj hpt h1
    have e2 := C35_vector Xs Ys X Y a' b' a'' b'' q p hadj' hpt' h2
    have := physical_injective hadj.1 (e2.trans e1)
    refine ⟨a', b', h1, ?_⟩
    rw [h2, this.1, this.2]
  · obtain ⟨W, hA, hB⟩ := exists_covector hadj.1 Xs Ys a b
    refine ⟨_, _, ?_, coVec_same Xs Ys X Y W q p hadj' hpt' |>.trans ?_⟩
    · rw [hA, hB]; exact coVec_same X Y Xs Ys W p q hadj hpt
    · rw [← hA, ← hB]

/-- A point of panel 1 near its left edge, also in front of panel 0, and the transform of a vector to it. -/
example : Adjacent 0 1 ∧ xypFromXYP (-1) (1 / 2) 1 0 = some (1, 1 / 2) ∧
    vecPanelTrans 0 1 3 4 (-1) (1 / 2) = some (3, 8 / 5) := by
  refine ⟨⟨by simp [IsPanel], by simp [IsPanel], by decide, by simp [dot, centre]⟩, ?_, ?_⟩
  · rw [C33_panels _ _ _ _ _ _ (by simp [IsPanel]) (by simp [IsPanel])]
    simp [image, centre, axisA, axisB]
  · simp [vecPanelTrans, vecToP2FromP1]; norm_num

end Verif.Sphere
