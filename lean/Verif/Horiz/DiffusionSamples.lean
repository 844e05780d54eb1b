import Verif.Horiz.DiffusionProps
import Verif.Horiz.ShallowFour

/-!
# C75: a case that meets the hypotheses
-/

namespace Verif.Horiz

/-- The plane of `sampleGeometry` with five state variables, the vertical velocity on interfaces. -/
noncomputable def sampleMedium : Medium where
  G := sampleGeometry
  B := basisOf 3 simpsonNodes simpsonWeights
  components := 5
  located := fun c => if c = 3 then .redge else .node
  jacNode := fun _ _ _ => 1
  jacREdge := fun _ _ k => 1 + k
  ref := fun _ => 0
  refLength := 1

theorem sample_regularFor (v : Var) : RegularFor sampleMedium v 1 0 0 := by
  intro i j _ _
  cases v with
  | tracer c => norm_num [density, sampleMedium]
  | state c =>
    by_cases h : c = 3 <;> simp [density, sampleMedium, h]

theorem sample_sound (v : Var) : Sound sampleMedium simpsonWeights v 1 0 0 := by
  have w : ∀ i, (0 : ℝ) ≤ simpsonWeights i := fun i => by unfold simpsonWeights; split <;> norm_num
  constructor
  · intro i j _ _
    refine mul_nonneg (mul_nonneg (w i) (w j)) ?_
    cases v with
    | tracer c => norm_num [density, sampleMedium]
    | state c =>
      by_cases h : c = 3 <;> simp [density, sampleMedium, h]
  · intro i j _ _ p q
    norm_num [sampleMedium, sampleGeometry]
    nlinarith [mul_self_nonneg p, mul_self_nonneg q]

theorem sample_applies : ∃ r, applyScalar sampleMedium sampleState (1 / 10) 2 true (-1) false sampleState = some r := by
  rw [C75_succeeds]
  refine Or.inl ⟨rfl, fun c _ _ => ?_⟩
  simp only [sampleMedium]
  split <;> simp

example : ∃ r, applyScalar sampleMedium sampleState (1 / 10) 2 true (-1) false sampleState = some r ∧
    inner sampleMedium simpsonWeights (.tracer 0) 1 0 0 (fun _ _ => 1) (value sampleGeometry.S r (.tracer 0) 1 0 0) =
      inner sampleMedium simpsonWeights (.tracer 0) 1 0 0 (fun _ _ => 1)
        (value sampleGeometry.S sampleState (.tracer 0) 1 0 0) ∧
    inner sampleMedium simpsonWeights (.tracer 0) 1 0 0 (diffused sampleMedium sampleState false (.tracer 0) 1 0 0)
      (change sampleGeometry.S r sampleState (.tracer 0) 1 0 0) ≤ 0 := by
  obtain ⟨r, hr⟩ := sample_applies
  exact ⟨r, hr,
    C75_mass sampleMedium _ sample_paired _ _ _ _ _ _ _ _ hr (.tracer 0) 1 0 0 (by decide) (by decide)
      (show (0 : Nat) < sampleMedium.G.S.levels by decide) (sample_regularFor _),
    C75_dissipates sampleMedium _ sample_paired _ _ _ _ _ _ _ _ hr (.tracer 0) 1 0 0 (by decide) (by decide)
      (show (0 : Nat) < sampleMedium.G.S.levels by decide) (sample_sound _) (by norm_num) (by norm_num) (by norm_num [sampleMedium, sampleGeometry])
      (by norm_num [sampleMedium]) (sample_regularFor _)⟩

/-- On elements of order four the tracer of the example has a gradient, so that something does happen. -/
example : slopeA { sampleMedium with G := sampleFour, B := basisOf 4 simpsonNodes simpsonWeights }
    (value sampleFour.S sampleState (.tracer 0) 1 0 0) 0 0 ≠ 0 := by
  norm_num [slopeA, sampleMedium, sampleFour, sampleGeometry, value, sampleState, Finset.sum_range_succ, basisOf,
    dxTable, lit8090, lit3090]

end Verif.Horiz
