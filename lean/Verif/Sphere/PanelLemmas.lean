/-
Lemmas for C35: each pair of adjacent panels, by computation.
-/
import Verif.Sphere.PropsPoint

namespace Verif.Sphere

open Real

/-- Coordinates on panel `p` of the point `(X, Y)` of panel `q`, as multiples of `X`, `Y` and 1. -/
theorem source_coords {X Y Xs Ys : ℝ} {p q : Int} (hp : IsPanel p) (hq : IsPanel q)
    (h : xypFromXYP X Y q p = some (Xs, Ys)) {u v w : ℝ}
    (hrel : rel p (image q X Y) = (1 / √(1 + X * X + Y * Y) * u, 1 / √(1 + X * X + Y * Y) * v,
      1 / √(1 + X * X + Y * Y) * w)) :
    0 < w ∧ Xs = u / w ∧ Ys = v / w ∧ 1 / √(1 + Xs * Xs + Ys * Ys) = 1 / √(1 + X * X + Y * Y) * w := by
  rw [xyp_eq X Y q p hq hp] at h
  have h0 := (scale_spec X Y).1
  by_cases hz : (rel p (image q X Y)).2.2 ≤ 0
  · rw [if_pos hz] at h; cases h
  · rw [if_neg hz] at h
    have h1 := (image_of_unit p hp _ (image_unit q hq X Y) (not_le.1 hz)).2
    rw [hrel] at h h1 hz
    simp only [Option.some.injEq, Prod.mk.injEq] at h h1 hz
    generalize 1 / √(1 + X * X + Y * Y) = s at *
    have hw : 0 < w := by
      by_contra hw
      exact hz (mul_nonpos_of_nonneg_of_nonpos h0.le (not_lt.1 hw))
    have hs : s ≠ 0 := ne_of_gt h0
    have hw' : w ≠ 0 := ne_of_gt hw
    refine ⟨hw, ?_, ?_, ?_⟩
    · rw [← h.1]; field_simp
    · rw [← h.2]; field_simp
    · rw [← h.1, ← h.2]; exact h1

/-- Adjacent panels, one by one. -/
theorem adjacent_cases {p q : Int} (h : Adjacent p q) :
    (p = 0 ∧ q = 1) ∨ (p = 1 ∧ q = 2) ∨ (p = 2 ∧ q = 3) ∨ (p = 3 ∧ q = 0) ∨
    (p = 1 ∧ q = 0) ∨ (p = 2 ∧ q = 1) ∨ (p = 3 ∧ q = 2) ∨ (p = 0 ∧ q = 3) ∨
    (p = 4 ∧ q = 0) ∨ (p = 4 ∧ q = 1) ∨ (p = 4 ∧ q = 2) ∨ (p = 4 ∧ q = 3) ∨
    (p = 0 ∧ q = 4) ∨ (p = 1 ∧ q = 4) ∨ (p = 2 ∧ q = 4) ∨ (p = 3 ∧ q = 4) ∨
    (p = 5 ∧ q = 0) ∨ (p = 5 ∧ q = 1) ∨ (p = 5 ∧ q = 2) ∨ (p = 5 ∧ q = 3) ∨
    (p = 0 ∧ q = 5) ∨ (p = 1 ∧ q = 5) ∨ (p = 2 ∧ q = 5) ∨ (p = 3 ∧ q = 5) := by
  obtain ⟨hp, hq, hne, hd⟩ := h
  rcases hp with rfl | rfl | rfl | rfl | rfl | rfl <;> rcases hq with rfl | rfl | rfl | rfl | rfl | rfl <;>
    first
    | simp; done
    | exact absurd rfl hne
    | (exfalso; revert hd; simp [dot, centre])

/-- Nonzero coordinate from a positive multiple. -/
theorem ne_of_pos {x : ℝ} (h : 0 < x) : x ≠ 0 := ne_of_gt h

theorem ne_of_neg_pos {x : ℝ} (h : 0 < -x) : x ≠ 0 := by intro e; rw [e] at h; simp at h

theorem one_add_sq_ne (x : ℝ) : 1 + x * x ≠ 0 := by nlinarith [mul_self_nonneg x]

theorem sq_add_one_ne (x : ℝ) : x * x + 1 ≠ 0 := by nlinarith [mul_self_nonneg x]

theorem sq_add_sq_ne_left {x y : ℝ} (h : x ≠ 0) : x * x + y * y ≠ 0 := by
  have := mul_self_pos.2 h
  nlinarith [mul_self_nonneg y]

theorem sq_add_sq_ne_right {x y : ℝ} (h : y ≠ 0) : x * x + y * y ≠ 0 := by
  have := mul_self_pos.2 h
  nlinarith [mul_self_nonneg x]

theorem sq_add_sq_ne_swap {x y : ℝ} (h : x ≠ 0) : y * y + x * x ≠ 0 := sq_add_sq_ne_right h

set_option hygiene false in
/-- One pair of panels: `u`, `v`, `w` are the coordinates on the source panel, up to scale. -/
macro "panel_case" u:term:max v:term:max w:term:max z:ident : tactic => `(tactic| (
  obtain ⟨h1, h2, h3, h4⟩ := source_coords (u := $u) (v := $v) (w := $w) ha.1 ha.2.1 h
    (by simp [rel, image, dot, centre, axisA, axisB])
  have hs := (scale_spec X Y).1
  simp only [physical, tangentA, tangentB, h4] at ha ⊢
  subst h2 h3
  generalize 1 / √(1 + X * X + Y * Y) = s at *
  have hz : $z ≠ 0 := by
    first
    | exact ne_of_pos h1
    | exact ne_of_neg_pos h1
  have e1 := one_add_sq_ne X
  have e2 := one_add_sq_ne Y
  have e3 := sq_add_one_ne X
  have e4 := sq_add_one_ne Y
  simp [vecPanelTrans, vecToP2FromP1, vecToP1FromP2, vecToP1FromP5, vecToP2FromP5, vecToP3FromP5, vecToP4FromP5, vecToP1FromP6, vecToP2FromP6, vecToP3FromP6, vecToP4FromP6, vecToP5FromP1, vecToP5FromP2, vecToP5FromP3, vecToP5FromP4, vecToP6FromP1, vecToP6FromP2, vecToP6FromP3, vecToP6FromP4, centre, axisA, axisB]
  refine ⟨?_, ?_, ?_⟩ <;> field_simp <;> ring))

set_option maxHeartbeats 4000000 in
theorem vec_same (X Y Xs Ys a b : ℝ) (p q : Int) (ha : Adjacent p q) (h : xypFromXYP X Y q p = some (Xs, Ys)) :
    (vecPanelTrans p q a b X Y).map (fun r => physical q X Y r.1 r.2) = some (physical p Xs Ys a b) := by
  rcases adjacent_cases ha with ⟨rfl, rfl⟩ | ⟨rfl, rfl⟩ | ⟨rfl, rfl⟩ | ⟨rfl, rfl⟩ | ⟨rfl, rfl⟩ | ⟨rfl, rfl⟩ | ⟨rfl, rfl⟩ | ⟨rfl, rfl⟩ | ⟨rfl, rfl⟩ | ⟨rfl, rfl⟩ | ⟨rfl, rfl⟩ | ⟨rfl, rfl⟩ | ⟨rfl, rfl⟩ | ⟨rfl, rfl⟩ | ⟨rfl, rfl⟩ | ⟨rfl, rfl⟩ | ⟨rfl, rfl⟩ | ⟨rfl, rfl⟩ | ⟨rfl, rfl⟩ | ⟨rfl, rfl⟩ | ⟨rfl, rfl⟩ | ⟨rfl, rfl⟩ | ⟨rfl, rfl⟩ | ⟨rfl, rfl⟩
  · panel_case 1 Y (-X) X
  · panel_case 1 Y (-X) X
  · panel_case 1 Y (-X) X
  · panel_case 1 Y (-X) X
  · panel_case (-1) Y X X
  · panel_case (-1) Y X X
  · panel_case (-1) Y X X
  · panel_case (-1) Y X X
  · panel_case X (-1) Y Y
  · panel_case 1 X Y Y
  · panel_case (-X) 1 Y Y
  · panel_case (-1) (-X) Y Y
  · panel_case X 1 (-Y) Y
  · panel_case Y 1 X X
  · panel_case (-X) 1 Y Y
  · panel_case (-Y) 1 (-X) X
  · panel_case X 1 (-Y) Y
  · panel_case 1 (-X) (-Y) Y
  · panel_case (-X) (-1) (-Y) Y
  · panel_case (-1) X (-Y) Y
  · panel_case X (-1) Y Y
  · panel_case (-Y) (-1) X X
  · panel_case (-X) (-1) (-Y) Y
  · panel_case Y (-1) (-X) X

set_option hygiene false in
/-- One pair of panels: `u`, `v`, `w` are the coordinates on the source panel, up to scale. -/
macro "copanel_case" u:term:max v:term:max w:term:max z:ident side:ident : tactic => `(tactic| (
  obtain ⟨h1, h2, h3, h4⟩ := source_coords (u := $u) (v := $v) (w := $w) ha.1 ha.2.1 h
    (by simp [rel, image, dot, centre, axisA, axisB])
  have hs := (scale_spec X Y).1
  simp only [tangentA, tangentB, h4] at ha ⊢
  subst h2 h3
  generalize 1 / √(1 + X * X + Y * Y) = s at *
  have hz : $z ≠ 0 := by
    first
    | exact ne_of_pos h1
    | exact ne_of_neg_pos h1
  have e1 := one_add_sq_ne X
  have e2 := one_add_sq_ne Y
  have e5 : X * X + Y * Y ≠ 0 := $side hz
  simp [coVecPanelTrans, coVecToP2FromP1, coVecToP1FromP2, coVecToP1FromP5, coVecToP2FromP5, coVecToP3FromP5, coVecToP4FromP5, coVecToP1FromP6, coVecToP2FromP6, coVecToP3FromP6, coVecToP4FromP6, coVecToP5FromP1, coVecToP5FromP2, coVecToP5FromP3, coVecToP5FromP4, coVecToP6FromP1, coVecToP6FromP2, coVecToP6FromP3, coVecToP6FromP4, dot, centre, axisA, axisB]
  refine ⟨?_, ?_⟩ <;> field_simp <;> ring))

set_option maxHeartbeats 4000000 in
theorem coVec_same (X Y Xs Ys : ℝ) (W : Vec3) (p q : Int) (ha : Adjacent p q)
    (h : xypFromXYP X Y q p = some (Xs, Ys)) :
    coVecPanelTrans p q (dot W (tangentA p Xs Ys)) (dot W (tangentB p Xs Ys)) X Y =
      some (dot W (tangentA q X Y), dot W (tangentB q X Y)) := by
  obtain ⟨wx, wy, wz⟩ := W
  rcases adjacent_cases ha with ⟨rfl, rfl⟩ | ⟨rfl, rfl⟩ | ⟨rfl, rfl⟩ | ⟨rfl, rfl⟩ | ⟨rfl, rfl⟩ | ⟨rfl, rfl⟩ | ⟨rfl, rfl⟩ | ⟨rfl, rfl⟩ | ⟨rfl, rfl⟩ | ⟨rfl, rfl⟩ | ⟨rfl, rfl⟩ | ⟨rfl, rfl⟩ | ⟨rfl, rfl⟩ | ⟨rfl, rfl⟩ | ⟨rfl, rfl⟩ | ⟨rfl, rfl⟩ | ⟨rfl, rfl⟩ | ⟨rfl, rfl⟩ | ⟨rfl, rfl⟩ | ⟨rfl, rfl⟩ | ⟨rfl, rfl⟩ | ⟨rfl, rfl⟩ | ⟨rfl, rfl⟩ | ⟨rfl, rfl⟩
  · copanel_case 1 Y (-X) X sq_add_sq_ne_left
  · copanel_case 1 Y (-X) X sq_add_sq_ne_left
  · copanel_case 1 Y (-X) X sq_add_sq_ne_left
  · copanel_case 1 Y (-X) X sq_add_sq_ne_left
  · copanel_case (-1) Y X X sq_add_sq_ne_left
  · copanel_case (-1) Y X X sq_add_sq_ne_left
  · copanel_case (-1) Y X X sq_add_sq_ne_left
  · copanel_case (-1) Y X X sq_add_sq_ne_left
  · copanel_case X (-1) Y Y sq_add_sq_ne_right
  · copanel_case 1 X Y Y sq_add_sq_ne_right
  · copanel_case (-X) 1 Y Y sq_add_sq_ne_right
  · copanel_case (-1) (-X) Y Y sq_add_sq_ne_right
  · copanel_case X 1 (-Y) Y sq_add_sq_ne_right
  · copanel_case Y 1 X X sq_add_sq_ne_left
  · copanel_case (-X) 1 Y Y sq_add_sq_ne_right
  · copanel_case (-Y) 1 (-X) X sq_add_sq_ne_left
  · copanel_case X 1 (-Y) Y sq_add_sq_ne_right
  · copanel_case 1 (-X) (-Y) Y sq_add_sq_ne_right
  · copanel_case (-X) (-1) (-Y) Y sq_add_sq_ne_right
  · copanel_case (-1) X (-Y) Y sq_add_sq_ne_right
  · copanel_case X (-1) Y Y sq_add_sq_ne_right
  · copanel_case (-Y) (-1) X X sq_add_sq_ne_left
  · copanel_case (-X) (-1) (-Y) Y sq_add_sq_ne_right
  · copanel_case Y (-1) (-X) X sq_add_sq_ne_left

end Verif.Sphere
