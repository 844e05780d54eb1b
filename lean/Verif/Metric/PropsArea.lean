import Verif.Metric.Props
import Verif.Horiz.VectorProps

/-!
# C79: areas, volumes and what the dynamics needs of the metric
-/

namespace Verif.Metric

open Real Verif.Horiz Verif.Sphere

/-- **C79 (positive areas).**  On the cubed sphere with ground below the top, and positive weights and widths, the
Jacobian and the area of every level and interface of every interior node are positive. -/
theorem C79_positive (P : Setup) (F F' : Nat × Nat → Point) (h : sphereGeometry P F = some F') (x y : Nat)
    (hi : Interior P.S x y) (hR : 0 < P.radius) (hz : ground P P.topo x y < P.ztop) (hA : 0 < P.deltaA)
    (hB : 0 < P.deltaB) (hw : ∀ i < P.S.order, 0 < P.w i) :
    (∀ k < P.S.levels, 0 < P.wNode k → 0 < ((F' (x, y)).node k).jac ∧ 0 < ((F' (x, y)).node k).area) ∧
    ∀ k ≤ P.S.levels, 0 < P.wEdge k → 0 < ((F' (x, y)).edge k).jac ∧ 0 < ((F' (x, y)).edge k).area := by
  have hJ := (sphereFlat_facts P.radius (P.x x) (P.y y) hR).1
  have ho : 0 < P.S.order := by
    rcases Nat.eq_zero_or_pos P.S.order with e | e
    · unfold Interior at hi; rw [e] at hi; omega
    · exact e
  have hb : 0 < baseArea P x y := by
    have := hw _ (Nat.mod_lt (x - P.S.halo) ho)
    have := hw _ (Nat.mod_lt (y - P.S.halo) ho)
    unfold baseArea; positivity
  have hd : 0 < P.ztop - ground P P.topo x y := by linarith
  refine ⟨fun k hk hwk => ?_, fun k hk hwk => ?_⟩
  · rw [sphere_node h hi hk]
    simp only [sphereLevel]
    exact ⟨by positivity, by positivity⟩
  · rw [sphere_edge h hi hk, sphereInterface_eq]
    simp only [sphereLevel]
    exact ⟨by positivity, by positivity⟩

theorem checked {P : Setup} {F F' : Nat × Nat → Point} (h : sphereGeometry P F = some F') :
    |∑ k ∈ Finset.range P.S.levels, P.wNode k - 1| ≤ 1 / 10 ^ 13 ∧
    (P.onInterfaces = false → |∑ k ∈ Finset.range (P.S.levels + 1), P.wEdge k - 1| ≤ 1 / 10 ^ 13) := by
  unfold sphereGeometry at h
  split_ifs at h with h1 h2
  unfold badAreas at h2
  rw [loop_add, loop_add, zero_add, zero_add] at h2
  push Not at h2
  exact ⟨h2.1, h2.2⟩

/-- **C79 (volume of a column).**  On the cubed sphere the areas of the levels of a column add up to the area of its base
times the depth of the atmosphere above the ground, to within one part in 10¹³; so do those of the interfaces when
variables are not all on interfaces. -/
theorem C79_column (P : Setup) (F F' : Nat × Nat → Point) (h : sphereGeometry P F = some F') (x y : Nat)
    (hi : Interior P.S x y) (V : ℝ)
    (hV : V = (F' (x, y)).flat.jac * baseArea P x y * (P.ztop - ground P P.topo x y)) :
    |∑ k ∈ Finset.range P.S.levels, ((F' (x, y)).node k).area - V| ≤ |V| / 10 ^ 13 ∧
    (P.onInterfaces = false →
      |∑ k ∈ Finset.range (P.S.levels + 1), ((F' (x, y)).edge k).area - V| ≤ |V| / 10 ^ 13) := by
  have e : (F' (x, y)).flat = sphereFlat P.radius (P.x x) (P.y y) := by rw [sphereGeometry_at h hi]; rfl
  rw [e] at hV
  obtain ⟨c1, c2⟩ := checked h
  have key : ∀ s : ℝ, |s - 1| ≤ 1 / 10 ^ 13 → |V * s - V| ≤ |V| / 10 ^ 13 := by
    intro s hs
    rw [show V * s - V = V * (s - 1) by ring, abs_mul]
    have := mul_le_mul_of_nonneg_left hs (abs_nonneg V)
    linarith
  have e1 : ∑ k ∈ Finset.range P.S.levels, ((F' (x, y)).node k).area =
      V * ∑ k ∈ Finset.range P.S.levels, P.wNode k := by
    rw [Finset.mul_sum]
    refine Finset.sum_congr rfl (fun k hk => ?_)
    rw [sphere_node h hi (Finset.mem_range.1 hk), hV]
    simp only [sphereLevel]; ring
  have e2 : ∑ k ∈ Finset.range (P.S.levels + 1), ((F' (x, y)).edge k).area =
      V * ∑ k ∈ Finset.range (P.S.levels + 1), P.wEdge k := by
    rw [Finset.mul_sum]
    refine Finset.sum_congr rfl (fun k hk => ?_)
    rw [sphere_edge h hi (Nat.lt_succ_iff.1 (Finset.mem_range.1 hk)), sphereInterface_eq, hV]
    simp only [sphereLevel]; ring
  rw [e1, e2]
  exact ⟨key _ c1, fun hs => key _ (c2 hs)⟩

/-- The geometry the horizontal dynamics reads from the arrays of a patch
(`GetJacobian2D`, `GetContraMetric2DA`, `GetContraMetric2DB`), src/atm/HorizontalDynamicsFEM.cpp:367-408. -/
noncomputable def geometryOf (P : Setup) (F : Nat × Nat → Point) (coriolis : Nat → Nat → ℝ) (g : ℝ) : Geometry :=
  { S := P.S, deltaA := P.deltaA, deltaB := P.deltaB
    jac := fun x y => (F (x, y)).flat.jac
    metA := fun x y c => if c = 0 then (F (x, y)).flat.conA 0 else (F (x, y)).flat.conA 1
    metB := fun x y c => if c = 0 then (F (x, y)).flat.conB 0 else (F (x, y)).flat.conB 1
    coriolis := coriolis, topo := P.topo, g := g }

theorem flat_facts (P : Setup) (F F' : Nat × Nat → Point) (hR : 0 < P.radius)
    (h : sphereGeometry P F = some F' ∨ planeGeometry P F = some F') (x y : Nat) (hi : Interior P.S x y) :
    (F' (x, y)).flat.conA 1 = (F' (x, y)).flat.conB 0 ∧ 0 < (F' (x, y)).flat.jac ∧
    ((F' (x, y)).flat.conA 0 * (F' (x, y)).flat.conB 1 - (F' (x, y)).flat.conA 1 * (F' (x, y)).flat.conB 0) *
      (F' (x, y)).flat.jac ^ 2 = 1 ∧
    ∀ p q : ℝ, 0 ≤ p * ((F' (x, y)).flat.conA 0 * p + (F' (x, y)).flat.conA 1 * q) +
      q * ((F' (x, y)).flat.conB 0 * p + (F' (x, y)).flat.conB 1 * q) := by
  rcases h with h | h
  · have e : (F' (x, y)).flat = sphereFlat P.radius (P.x x) (P.y y) := by rw [sphereGeometry_at h hi]; rfl
    rw [e]
    generalize P.x x = X
    generalize P.y y = Y
    have hk := delta_pos X Y
    have hx : 0 < 1 + X * X := by nlinarith [mul_self_nonneg X]
    have hy : 0 < 1 + Y * Y := by nlinarith [mul_self_nonneg Y]
    obtain ⟨f1, f2, -⟩ := sphereFlat_facts P.radius X Y hR
    refine ⟨rfl, f1, ?_, fun p q => ?_⟩
    · rw [pow_two, f2]
      simp only [sphereFlat, Flat.cov, Matrix.cons_val_zero, Matrix.cons_val_one]
      field_simp
      ring
    · simp only [sphereFlat, Matrix.cons_val_zero, Matrix.cons_val_one]
      have hc : 0 < (1 + X * X + Y * Y) / (1 + X * X) / (1 + Y * Y) / (P.radius * P.radius) := by positivity
      generalize (1 + X * X + Y * Y) / (1 + X * X) / (1 + Y * Y) / (P.radius * P.radius) = c at *
      have : p * (c * (1 + Y * Y) * p + c * X * Y * q) + q * (c * X * Y * p + c * (1 + X * X) * q) =
          c * (p ^ 2 + q ^ 2 + (Y * p + X * q) ^ 2) := by ring
      rw [this]; positivity
  · have e : (F' (x, y)).flat = planeFlat := by rw [planeGeometry_at h hi]; rfl
    rw [e]
    refine ⟨rfl, ?_, ?_, fun p q => ?_⟩
    · norm_num [planeFlat]
    · norm_num [planeFlat]
    · simp only [planeFlat, Matrix.cons_val_zero, Matrix.cons_val_one]
      nlinarith [mul_self_nonneg p, mul_self_nonneg q]

theorem interior_of (S : Shape) (a b i j : Nat) (ha : a < S.elemA) (hb : b < S.elemB) (hi : i < S.order)
    (hj : j < S.order) : Interior S (S.halo + a * S.order + i) (S.halo + b * S.order + j) := by
  have h1 : (a + 1) * S.order ≤ S.elemA * S.order := Nat.mul_le_mul_right _ ha
  have h2 : (b + 1) * S.order ≤ S.elemB * S.order := Nat.mul_le_mul_right _ hb
  rw [Nat.add_mul] at h1 h2
  unfold Interior
  omega

/-- **C79 (metric of the dynamics).**  The metric the horizontal dynamics reads from a patch of either grid is symmetric,
gives no vector a negative square, its Jacobian is positive and its contravariant components have the determinant that
belongs to the Jacobian: the hypotheses on the metric under which C74 to C78 hold are met by every element. -/
theorem C79_dynamics (P : Setup) (F F' : Nat × Nat → Point) (hR : 0 < P.radius)
    (h : sphereGeometry P F = some F' ∨ planeGeometry P F = some F') (coriolis : Nat → Nat → ℝ) (g : ℝ) (M : Medium)
    (hM : M.G = geometryOf P F' coriolis g) (a b : Nat) (ha : a < P.S.elemA) (hb : b < P.S.elemB) :
    Symmetric M.G a b ∧ Regular M.G a b ∧ Metric M a b ∧
    ∀ i j, i < M.G.S.order → j < M.G.S.order → ∀ p q : ℝ,
      0 < jacAt M a b i j ∧
      0 ≤ p * (M.G.metA (M.G.S.halo + a * M.G.S.order + i) (M.G.S.halo + b * M.G.S.order + j) 0 * p +
        M.G.metA (M.G.S.halo + a * M.G.S.order + i) (M.G.S.halo + b * M.G.S.order + j) 1 * q) +
        q * (M.G.metB (M.G.S.halo + a * M.G.S.order + i) (M.G.S.halo + b * M.G.S.order + j) 0 * p +
        M.G.metB (M.G.S.halo + a * M.G.S.order + i) (M.G.S.halo + b * M.G.S.order + j) 1 * q) := by
  have f := fun i j hi hj => flat_facts P F F' hR h _ _ (interior_of P.S a b i j ha hb hi hj)
  have hS : M.G.S = P.S := by rw [hM]; rfl
  refine ⟨?_, ?_, ?_, ?_⟩
  · intro i j hi hj
    rw [hS] at hi hj
    rw [hM]
    exact (f i j hi hj).1
  · intro i j hi hj
    rw [hS] at hi hj
    rw [hM]
    exact (f i j hi hj).2.1.ne'
  · intro i j hi hj
    rw [hS] at hi hj
    unfold jacAt
    rw [hM]
    exact ⟨(f i j hi hj).2.1.ne', (f i j hi hj).2.2.1⟩
  · intro i j hi hj p q
    rw [hS] at hi hj
    unfold jacAt
    rw [hM]
    exact ⟨(f i j hi hj).2.1, (f i j hi hj).2.2.2 p q⟩

end Verif.Metric
