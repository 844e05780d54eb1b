import Verif.Horiz.ShallowProps
import Verif.Quad.Model

/-!
# C74: order four, and examples

For order four the grid uses tabulated coefficients, which belong to the weights `1/12, 5/12`, while the areas of the
nodes are made from the fifteen digits of `GaussLobattoQuadrature`.  Mass measured by those areas is conserved up to the
difference.
-/

namespace Verif.Horiz

open Verif.Interp

/-- The flux of fluid in the first direction at a node: Jacobian times contravariant velocity times depth. -/
noncomputable def flowA (G : Geometry) (u : Data) (a b k i j : Nat) : ℝ :=
  G.jac (G.S.halo + a * G.S.order + i) (G.S.halo + b * G.S.order + j) *
    (G.metA (G.S.halo + a * G.S.order + i) (G.S.halo + b * G.S.order + j) 0 * value G.S u (.state 0) a b k i j +
      G.metA (G.S.halo + a * G.S.order + i) (G.S.halo + b * G.S.order + j) 1 * value G.S u (.state 1) a b k i j) *
    (value G.S u (.state 2) a b k i j - G.topo (G.S.halo + a * G.S.order + i) (G.S.halo + b * G.S.order + j))

/-- The flux of fluid in the second direction at a node. -/
noncomputable def flowB (G : Geometry) (u : Data) (a b k i j : Nat) : ℝ :=
  G.jac (G.S.halo + a * G.S.order + i) (G.S.halo + b * G.S.order + j) *
    (G.metB (G.S.halo + a * G.S.order + i) (G.S.halo + b * G.S.order + j) 0 * value G.S u (.state 0) a b k i j +
      G.metB (G.S.halo + a * G.S.order + i) (G.S.halo + b * G.S.order + j) 1 * value G.S u (.state 1) a b k i j) *
    (value G.S u (.state 2) a b k i j - G.topo (G.S.halo + a * G.S.order + i) (G.S.halo + b * G.S.order + j))

theorem flowA_eq (G : Geometry) (u : Data) (a b k i j : Nat) : flowA G u a b k i j = massFluxA G u a b k i j := by
  unfold flowA massFluxA conUa read
  rw [area_at' G.S (fun x y _ => G.jac x y) a b 0 i j, area_at' G.S (fun x y _ => G.topo x y) a b 0 i j,
    area_at' G.S (fun x y _ => G.metA x y 0) a b 0 i j, area_at' G.S (fun x y _ => G.metA x y 1) a b 0 i j,
    value_at, value_at, value_at]

theorem flowB_eq (G : Geometry) (u : Data) (a b k i j : Nat) : flowB G u a b k i j = massFluxB G u a b k i j := by
  unfold flowB massFluxB conUb read
  rw [area_at' G.S (fun x y _ => G.jac x y) a b 0 i j, area_at' G.S (fun x y _ => G.topo x y) a b 0 i j,
    area_at' G.S (fun x y _ => G.metB x y 0) a b 0 i j, area_at' G.S (fun x y _ => G.metB x y 1) a b 0 i j,
    value_at, value_at, value_at]

/-- Weights as close to the Gauss-Lobatto weights of order four as fifteen digits make them. -/
def NearFour (w : Nat → ℝ) : Prop := ∀ i, i < 4 → |w i - lobattoFour i| ≤ 2 / 10 ^ 16

theorem defect (w : Nat → ℝ) (hw : NearFour w) (s : Nat) (hs : s < 4) :
    |∑ i ∈ Finset.range 4, w i * (stiffTable i s : ℝ)| ≤ 3 / 10 ^ 15 := by
  have b : ∀ i, i < 4 → -(2 / 10 ^ 16) ≤ w i - lobattoFour i ∧ w i - lobattoFour i ≤ 2 / 10 ^ 16 :=
    fun i hi => abs_le.1 (hw i hi)
  have h0 := b 0 (by decide)
  have h1 := b 1 (by decide)
  have h2 := b 2 (by decide)
  have h3 := b 3 (by decide)
  norm_num [lobattoFour] at h0 h1 h2 h3
  rw [abs_le]
  interval_cases s <;>
    norm_num [Finset.sum_range_succ, stiffTable, lit8090, lit3090, lit1618, lit2236, lit0618] <;>
    constructor <;> linarith [h0.1, h0.2, h1.1, h1.2, h2.1, h2.2, h3.1, h3.2]

/-- **C74 (mass, order four).**  For order four, mass measured with weights as near to the Gauss-Lobatto weights as
fifteen digits make them changes by no more than `3·10⁻¹⁵` times the step times the sum of the fluxes through the
nodes. -/
theorem C74_mass_four (G : Geometry) (x y w : Nat → ℝ) (h4 : G.S.order = 4) (hw : NearFour w) (level : Nat → ℝ)
    (init : Data) (dt : ℝ) (u : Data) (a b k : Nat) (ha : a < G.S.elemA) (hb : b < G.S.elemB) (hk : k < G.S.levels)
    (hr : Regular G a b) :
    |elementMass G.S (nodeArea G w level) (stepShallowWater G (basisOf 4 x y) init dt u) (.state 2) a b k -
      elementMass G.S (nodeArea G w level) u (.state 2) a b k| ≤
      3 / 10 ^ 15 * |dt| * |G.deltaA * G.deltaB * level k| * ∑ i ∈ Finset.range 4, ∑ j ∈ Finset.range 4,
        (|w j| * |flowA G init a b k i j| * |1 / G.deltaA| + |w i| * |flowB G init a b k i j| * |1 / G.deltaB|) := by
  have e : elementMass G.S (nodeArea G w level) (stepShallowWater G (basisOf 4 x y) init dt u) (.state 2) a b k -
      elementMass G.S (nodeArea G w level) u (.state 2) a b k =
      dt * (G.deltaA * G.deltaB * level k) * ∑ i ∈ Finset.range 4, ∑ j ∈ Finset.range 4,
        ((∑ s ∈ Finset.range 4, w s * (stiffTable s i : ℝ)) * (w j * flowA G init a b k i j * (1 / G.deltaA)) +
          (∑ s ∈ Finset.range 4, w s * (stiffTable s j : ℝ)) * (w i * flowB G init a b k i j * (1 / G.deltaB))) := by
    rw [mass_quad, mass_quad, ← mul_sub]
    have e1 : quad G.S.order w (fun i j => G.jac (G.S.at a i) (G.S.at b j) *
        value G.S (stepShallowWater G (basisOf 4 x y) init dt u) (.state 2) a b k i j) -
        quad G.S.order w (fun i j => G.jac (G.S.at a i) (G.S.at b j) * value G.S u (.state 2) a b k i j) =
        -dt * quad G.S.order w (fun i j => weakA G (basisOf 4 x y) (massFluxA G init a b k) i j +
          weakB G (basisOf 4 x y) (massFluxB G init a b k) i j) := by
      rw [← quad_mul, sub_eq_iff_eq_add, ← quad_add]
      refine quad_congr _ _ _ _ (fun i j hi hj => ?_)
      rw [step_value G _ init dt u _ a b k i j ha hb hk hi hj, tendency]
      have := hr.at i j hi hj
      field_simp
      ring
    rw [e1]
    unfold quad
    simp only [weakA_sum, weakB_sum, h4, flowA_eq, flowB_eq, basisOf, if_true]
    simp only [Finset.sum_range_succ, Finset.sum_range_zero]
    ring
  rw [e, abs_mul, abs_mul]
  have hsum : |∑ i ∈ Finset.range 4, ∑ j ∈ Finset.range 4,
        ((∑ s ∈ Finset.range 4, w s * (stiffTable s i : ℝ)) * (w j * flowA G init a b k i j * (1 / G.deltaA)) +
          (∑ s ∈ Finset.range 4, w s * (stiffTable s j : ℝ)) * (w i * flowB G init a b k i j * (1 / G.deltaB)))| ≤
      3 / 10 ^ 15 * ∑ i ∈ Finset.range 4, ∑ j ∈ Finset.range 4,
        (|w j| * |flowA G init a b k i j| * |1 / G.deltaA| + |w i| * |flowB G init a b k i j| * |1 / G.deltaB|) := by
    refine (Finset.abs_sum_le_sum_abs _ _).trans ?_
    rw [Finset.mul_sum]
    refine Finset.sum_le_sum (fun i hi => ?_)
    refine (Finset.abs_sum_le_sum_abs _ _).trans ?_
    rw [Finset.mul_sum]
    refine Finset.sum_le_sum (fun j hj => ?_)
    refine (abs_add_le _ _).trans ?_
    rw [mul_add]
    refine add_le_add ?_ ?_
    · rw [abs_mul, abs_mul, abs_mul]
      exact mul_le_mul_of_nonneg_right (defect w hw i (Finset.mem_range.1 hi))
        (mul_nonneg (mul_nonneg (abs_nonneg _) (abs_nonneg _)) (abs_nonneg _))
    · rw [abs_mul, abs_mul, abs_mul]
      exact mul_le_mul_of_nonneg_right (defect w hw j (Finset.mem_range.1 hj))
        (mul_nonneg (mul_nonneg (abs_nonneg _) (abs_nonneg _)) (abs_nonneg _))
  have := mul_le_mul_of_nonneg_left hsum (mul_nonneg (abs_nonneg dt) (abs_nonneg (G.deltaA * G.deltaB * level k)))
  linarith

/-- The weights the grid gives its areas for order four are that near. -/
theorem C74_weights_four (roots : Nat → List ℝ) : ∃ r, Quad.lobattoPoints roots 4 = some r ∧
    (Quad.rescale 0 1 r).2.length = 4 ∧ NearFour (fun i => ((Quad.rescale 0 1 r).2)[i]?.getD 0) := by
  refine ⟨_, rfl, rfl, fun i hi => ?_⟩
  rw [abs_le]
  interval_cases i <;> constructor <;> norm_num [Quad.rescale, lobattoFour]

/-- Third order elements with nodes `0, 1/2, 1`, on a plane with a ridge. -/
noncomputable def sampleGeometry : Geometry where
  S := ⟨3, 2, 1, 1, 1, 1⟩
  deltaA := 2
  deltaB := 1
  jac := fun _ _ => 1
  metA := fun _ _ m => if m = 0 then 1 else 0
  metB := fun _ _ m => if m = 0 then 0 else 1
  coriolis := fun _ _ => 1 / 10
  topo := fun iA _ => iA
  g := 10

/-- Nodes and weights of Simpson's rule on `[0, 1]`. -/
noncomputable def simpsonNodes (i : Nat) : ℝ := i / 2
noncomputable def simpsonWeights (i : Nat) : ℝ := if i = 1 then 2 / 3 else 1 / 6

theorem sample_paired : Paired sampleGeometry.S.order (basisOf 3 simpsonNodes simpsonWeights) simpsonWeights := by
  refine C74_paired 3 (by decide) (by decide) _ _ ?_ ?_
  · intro i j hi hj hij
    rw [le_abs]
    interval_cases i <;> interval_cases j <;> simp_all [simpsonNodes] <;> norm_num
  · intro i hi
    unfold simpsonWeights
    split <;> norm_num

theorem sample_regular : Regular sampleGeometry 1 0 := fun _ _ _ _ => one_ne_zero

theorem sample_symmetric : Symmetric sampleGeometry 1 0 := fun _ _ _ _ => by simp [sampleGeometry]

/-- A state with motion: velocities, height and tracer vary from node to node. -/
noncomputable def sampleState : Data := fun x =>
  match x.v with
  | .state 0 => x.iA
  | .state 1 => x.iB * x.iA
  | .state 2 => 20 + x.iB
  | _ => 1 + x.iA

example : elementMass sampleGeometry.S (nodeArea sampleGeometry simpsonWeights fun _ => 1)
    (stepShallowWater sampleGeometry (basisOf 3 simpsonNodes simpsonWeights) sampleState (1 / 100) sampleState)
    (.state 2) 1 0 0 = elementMass sampleGeometry.S (nodeArea sampleGeometry simpsonWeights fun _ => 1) sampleState
    (.state 2) 1 0 0 :=
  C74_mass _ _ _ sample_paired _ _ _ _ _ _ _ (by decide) (by decide) (by decide) sample_regular

example : ∃ e₂ e₃ : ℝ, ∀ dt : ℝ, energy sampleGeometry simpsonWeights (fun _ => 1)
    (stepShallowWater sampleGeometry (basisOf 3 simpsonNodes simpsonWeights) sampleState dt sampleState) 1 0 0 =
      energy sampleGeometry simpsonWeights (fun _ => 1) sampleState 1 0 0 + dt ^ 2 * e₂ + dt ^ 3 * e₃ :=
  C74_energy _ _ _ sample_paired _ _ _ _ _ (by decide) (by decide) (by decide) sample_regular sample_symmetric

/-- The same plane with elements of order four. -/
noncomputable def sampleFour : Geometry := { sampleGeometry with S := ⟨4, 2, 1, 1, 1, 1⟩ }

/-- The step is not the identity: the fluid of the example is accelerated. -/
example : value sampleFour.S (stepShallowWater sampleFour (basisOf 4 simpsonNodes simpsonWeights) sampleState 1
    (fun _ => 0)) (.state 0) 0 0 0 0 0 ≠ 0 := by
  rw [step_value sampleFour _ sampleState 1 _ _ 0 0 0 0 0 (by decide) (by decide) (by decide) (by decide)
    (by decide)]
  norm_num [tendency, updateUa, zeta, energyHead, conUa, conUb, read, derivA_sum, derivB_sum, sampleFour,
    sampleGeometry, sampleState, Finset.sum_range_succ, basisOf, dxTable, Shape.at, value, lit8090, lit3090]

end Verif.Horiz
