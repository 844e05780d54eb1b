/-
C50: the stretching functions.
-/
import Mathlib.Analysis.Calculus.Deriv.Pow
import Mathlib.Analysis.Calculus.Deriv.Add
import Mathlib.Analysis.Calculus.Deriv.Mul
import Mathlib.Topology.Order.IntermediateValue
import Mathlib.Tactic.Linarith
import Verif.Vert.Model
import Verif.Vert.Spec

namespace Verif.Vert

theorem cubic_eq (x : ℝ) : stretchCubic x = (0.1 * x + 0.8 * x ^ 2 + 0.1 * x ^ 3, 0.1 + 1.6 * x + 0.3 * x ^ 2) := by
  unfold stretchCubic
  ext <;> norm_num <;> ring

/-- **C50.**  Each stretching fixes 0 and 1 and is strictly increasing on [0, 1]. -/
theorem C50_stretching : Stretching (fun x => (stretchUniform x).1) ∧ Stretching (fun x => (stretchCubic x).1) ∧
    Stretching (fun x => (stretchPiecewise x).1) := by
  refine ⟨⟨rfl, rfl, fun _ _ _ h _ => h⟩, ⟨?_, ?_, ?_⟩, ⟨?_, ?_, ?_⟩⟩
  · rw [cubic_eq]; norm_num
  · rw [cubic_eq]; norm_num
  · intro x y hx hxy _
    simp only [cubic_eq]
    nlinarith [mul_pos (sub_pos.2 hxy) (show 0 < y by linarith), mul_nonneg hx hx, mul_self_nonneg (x + y),
      mul_nonneg hx (sub_pos.2 hxy).le, pow_le_pow_left₀ hx hxy.le 3, pow_le_pow_left₀ hx hxy.le 2]
  · unfold stretchPiecewise; norm_num
  · unfold stretchPiecewise; norm_num
  · intro x y hx hxy _
    unfold stretchPiecewise
    split_ifs <;> simp only <;> norm_num at * <;> linarith

/-- **C50 (derivative).**  The derivative reported is the derivative of the map; at the kink of the piecewise linear
one, the derivative from above. -/
theorem C50_derivative (x : ℝ) :
    HasDerivAt (fun y => (stretchUniform y).1) (stretchUniform x).2 x ∧
    HasDerivAt (fun y => (stretchCubic y).1) (stretchCubic x).2 x ∧
    (x ≠ 2 / 3 → HasDerivAt (fun y => (stretchPiecewise y).1) (stretchPiecewise x).2 x) ∧
    HasDerivWithinAt (fun y => (stretchPiecewise y).1) (stretchPiecewise x).2 (Set.Ici x) x := by
  have e : (2.0 : ℝ) / 3.0 = 2 / 3 := by norm_num
  have hlo : ∀ y : ℝ, HasDerivAt (fun y : ℝ => (0.5 : ℝ) * y) 0.5 y := fun y => by
    simpa using (hasDerivAt_id y).const_mul (0.5 : ℝ)
  have hhi : ∀ y : ℝ, HasDerivAt (fun y : ℝ => (2.0 : ℝ) * (y - 2.0 / 3.0) + 1.0 / 3.0) 2.0 y := fun y => by
    simpa using (((hasDerivAt_id y).sub_const (2.0 / 3.0)).const_mul (2.0 : ℝ)).add_const (1.0 / 3.0)
  have hA : x < 2 / 3 → HasDerivAt (fun y => (stretchPiecewise y).1) (stretchPiecewise x).2 x := by
    intro h
    have hx : (stretchPiecewise x).2 = 0.5 := by unfold stretchPiecewise; rw [if_pos (by rw [e]; exact h)]
    rw [hx]
    refine (hlo x).congr_of_eventuallyEq ?_
    filter_upwards [gt_mem_nhds h] with y hy
    unfold stretchPiecewise; rw [if_pos (by rw [e]; exact hy)]
  refine ⟨hasDerivAt_id x, ?_, ?_, ?_⟩
  · simp only [cubic_eq]
    have h := (((hasDerivAt_id x).const_mul (0.1 : ℝ)).add ((hasDerivAt_pow 2 x).const_mul (0.8 : ℝ))).add
      ((hasDerivAt_pow 3 x).const_mul (0.1 : ℝ))
    refine h.congr_deriv ?_
    norm_num; ring
  · intro hne
    rcases lt_or_gt_of_ne hne with h | h
    · exact hA h
    · have hx : (stretchPiecewise x).2 = 2.0 := by
        unfold stretchPiecewise; rw [if_neg (by rw [e]; exact not_lt.2 h.le)]
      rw [hx]
      refine (hhi x).congr_of_eventuallyEq ?_
      filter_upwards [lt_mem_nhds h] with y hy
      unfold stretchPiecewise; rw [if_neg (by rw [e]; exact not_lt.2 hy.le)]
  · by_cases h : x < 2 / 3
    · exact (hA h).hasDerivWithinAt
    · have hx : (stretchPiecewise x).2 = 2.0 := by unfold stretchPiecewise; rw [if_neg (by rw [e]; exact h)]
      rw [hx]
      refine (hhi x).hasDerivWithinAt.congr (fun y hy => ?_) ?_
      · unfold stretchPiecewise; rw [if_neg (by rw [e]; exact fun h' => h (lt_of_le_of_lt hy h'))]
      · unfold stretchPiecewise; rw [if_neg (by rw [e]; exact h)]

/-- **C50 (onto).**  Every height in [0, 1] is the image of exactly one coordinate in [0, 1]. -/
theorem C50_onto (F : ℝ → ℝ) (hF : F = (fun x => (stretchUniform x).1) ∨ F = (fun x => (stretchCubic x).1) ∨
    F = (fun x => (stretchPiecewise x).1)) (z : ℝ) (h0 : 0 ≤ z) (h1 : z ≤ 1) : ∃! x, 0 ≤ x ∧ x ≤ 1 ∧ F x = z := by
  have hS : Stretching F := by
    rcases hF with h | h | h <;> subst h
    · exact C50_stretching.1
    · exact C50_stretching.2.1
    · exact C50_stretching.2.2
  have huniq : ∀ x y, 0 ≤ x → x ≤ 1 → 0 ≤ y → y ≤ 1 → F x = F y → x = y := by
    intro x y hx0 hx1 hy0 hy1 h
    rcases lt_trichotomy x y with hl | hl | hl
    · exact absurd h (hS.increasing x y hx0 hl hy1).ne
    · exact hl
    · exact absurd h (hS.increasing y x hy0 hl hx1).ne'
  have hex : ∃ x, 0 ≤ x ∧ x ≤ 1 ∧ F x = z := by
    rcases hF with h | h | h <;> subst h
    · exact ⟨z, h0, h1, rfl⟩
    · have hc : ContinuousOn (fun x => (stretchCubic x).1) (Set.Icc 0 1) :=
        fun x _ => (C50_derivative x).2.1.continuousAt.continuousWithinAt
      have := intermediate_value_Icc (by norm_num : (0 : ℝ) ≤ 1) hc
      have hz : z ∈ Set.Icc ((stretchCubic 0).1) ((stretchCubic 1).1) := by
        rw [cubic_eq, cubic_eq]; norm_num; exact ⟨h0, h1⟩
      obtain ⟨x, hx, e⟩ := this hz
      exact ⟨x, hx.1, hx.2, e⟩
    · by_cases hz : z < 1 / 3
      · refine ⟨2 * z, by linarith, by linarith, ?_⟩
        unfold stretchPiecewise
        simp only
        rw [if_pos (by norm_num; linarith)]
        norm_num
        ring
      · refine ⟨2 / 3 + (z - 1 / 3) / 2, by linarith, by linarith, ?_⟩
        unfold stretchPiecewise
        simp only
        rw [if_neg (by norm_num; linarith)]
        norm_num
  obtain ⟨x, hx0, hx1, hx⟩ := hex
  exact ⟨x, ⟨hx0, hx1, hx⟩, fun y ⟨hy0, hy1, hy⟩ => huniq y x hy0 hy1 hx0 hx1 (hy.trans hx.symm)⟩

/-- One third of the way up the piecewise linear stretching, and two thirds up the coordinate. -/
example : (stretchPiecewise (2 / 3)).1 = 1 / 3 ∧ (2 : ℝ) / 3 ≠ 1 / 2 := by
  constructor
  · unfold stretchPiecewise; norm_num
  · norm_num

end Verif.Vert
