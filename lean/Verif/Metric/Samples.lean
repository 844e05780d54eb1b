import Verif.Metric.PropsArea
import Mathlib.Tactic.NormNum

/-!
# Concrete patches for the statements about metric terms
-/

namespace Verif.Metric

open Real Verif.Horiz Verif.Sphere

/-- One element of order two with two levels, a hill of height 2000 in an atmosphere of depth 10000. -/
noncomputable def sampleSetup : Setup :=
  { S := ⟨2, 1, 1, 2, 0, 1⟩, deltaA := 1 / 10, deltaB := 1 / 10, radius := 6000000, ztop := 10000
    x := fun i => tan ((i : ℝ) / 10), y := fun j => tan ((j : ℝ) / 10)
    topo := fun i _ => 1000 * i, topoA := fun _ _ => 10000, topoB := fun _ _ => 0
    w := fun _ => 1 / 2, wNode := fun _ => 1 / 2, wEdge := fun k => if k = 1 then 1 / 2 else 1 / 4
    level := fun k => if k = 0 then 1 / 4 else 3 / 4, interface := fun k => if k = 0 then 0 else if k = 1 then 1 / 2 else 1
    onInterfaces := false, twoD := false }

/-- Nothing stored yet. -/
def blank : Nat × Nat → Point := fun _ =>
  ⟨⟨0, fun _ => 0, fun _ => 0, fun _ => 0, fun _ => 0⟩,
    fun _ => ⟨0, 0, fun _ => 0, fun _ => 0, fun _ => 0, fun _ => 0⟩,
    fun _ => ⟨0, 0, fun _ => 0, fun _ => 0, fun _ => 0, fun _ => 0⟩⟩

theorem sample_areas : ¬ badAreas sampleSetup := by
  unfold badAreas
  rw [loop_add, loop_add]
  simp [sampleSetup, Finset.sum_range_succ]
  norm_num

theorem sample_sphere : ∃ F', sphereGeometry sampleSetup blank = some F' :=
  ⟨_, by unfold sphereGeometry; rw [if_neg (by simp [sampleSetup]), if_neg sample_areas]⟩

theorem sample_plane : ∃ F', planeGeometry sampleSetup blank = some F' :=
  ⟨_, by unfold planeGeometry; rw [if_neg sample_areas]⟩

theorem sample_interior : Interior sampleSetup.S 1 2 := by
  unfold Interior sampleSetup; decide

/-- The statements apply to node `(1, 2)` of the sample: on panel 4, with ground at 1000 of 10000. -/
example : ∃ F', sphereGeometry sampleSetup blank = some F' ∧
    Inverse2 (F' (1, 2)).flat.con (F' (1, 2)).flat.cov ∧ Measures (F' (1, 2)).flat.cov ((F' (1, 2)).node 1) ∧
    0 < ((F' (1, 2)).edge 2).area := by
  obtain ⟨F', h⟩ := sample_sphere
  have hg : ground sampleSetup sampleSetup.topo 1 2 = 1000 := by norm_num [ground, sampleSetup]
  have hR : 0 < sampleSetup.radius := by norm_num [sampleSetup]
  have pi3 := Real.two_le_pi
  obtain ⟨tA, tB, -, -, -, -, -, -, inv, -⟩ := C79_sphere sampleSetup blank F' h 1 2 sample_interior hR 4 (by simp [IsPanel])
    (1 / 10) (2 / 10) (by rw [abs_of_pos] <;> linarith) (by rw [abs_of_pos] <;> linarith) (by simp [sampleSetup])
    (by simp [sampleSetup])
  refine ⟨F', h, inv, (C79_sphere_measures sampleSetup blank F' h 1 2 sample_interior hR ?_).1 1 (by decide), ?_⟩
  · rw [hg]; norm_num [sampleSetup]
  · refine ((C79_positive sampleSetup blank F' h 1 2 sample_interior hR ?_ ?_ ?_ ?_).2 2 (by decide) ?_).2
    · rw [hg]; norm_num [sampleSetup]
    · norm_num [sampleSetup]
    · norm_num [sampleSetup]
    · intro i _; norm_num [sampleSetup]
    · norm_num [sampleSetup]

/-- On the Cartesian grid the rate of change of height at the first interface of the sample is not zero. -/
example : ∃ F', planeGeometry sampleSetup blank = some F' ∧ ((F' (1, 2)).edge 0).deriv 2 ≠ 0 ∧
    Measures (F' (1, 2)).flat.cov ((F' (1, 2)).edge 0) := by
  obtain ⟨F', h⟩ := sample_plane
  have hd : ((F' (1, 2)).edge 0).deriv 2 ≠ 0 := by
    rw [plane_edge h sample_interior (by decide)]
    simp [planeTerms, decaySlope, sampleSetup]
    norm_num
  exact ⟨F', h, hd, (C79_plane_measures sampleSetup blank F' h 1 2 sample_interior).2.2.2.2 0 (by decide) hd⟩

end Verif.Metric
