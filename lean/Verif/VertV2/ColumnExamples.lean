/-
C136, C137: a column of two levels; the derivative of height on an interface is not that on the level above it.
-/
import Verif.VertV2.ColumnJacobian
import Verif.Vdyn.JacobianExamples

namespace Verif.ColumnV2

open Verif.Column Verif.Vdyn Finset

/-- Height grows by one on levels and by two on interfaces. -/
noncomputable def bent : Metric := { sampleMetric (fun _ => 1) with derivREdge := fun _ => 2 }

noncomputable def blank : Memory := ⟨fun _ _ => 0, fun _ _ => 0, fun _ _ => 0, fun _ _ => 0, fun _ => 0, fun _ => 0, fun _ => 0⟩

/-- **C137, where the code does something else.**  Without diffusion and without slopes, where height grows along the vertical coordinate
by one on levels and by two on interfaces, the Jacobian is not the derivative of the residual: in this column of two levels the derivative
of the residual of vertical velocity along density times potential temperature of the upper level is less than the Jacobian. -/
theorem C137_derivative_false : ∃ (S : Setup) (node edge : Nat → ℝ) (gauss lob : List ℝ × List ℝ) (G : Metric) (D : Data)
    (M : Memory) (x y : Nat → ℝ) (d : ℝ), Elements S node edge gauss lob ∧ Lorenz S ∧ S.useRef = true ∧ S.uniform = false ∧
    (∀ k, slope S G D k = 0) ∧ (∀ i, 0 < x i) ∧ (∀ k, G.derivR k = 1) ∧ (∀ k, G.derivREdge k = 2) ∧
    HasDerivAt (fun t => residual S G (setupColumn S D M) (fun i => x i + t * y i) 4) d 0 ∧
    d < Vdyn.product (jacobianUpdates S G (setupColumn S D M) x) y 4 := by
  obtain ⟨S, E, hL, hN, hn, href, hu, hdt, hi, -, -⟩ := sample_setup
  let S' : Setup := { S with phys := ⟨1, 1, 1, 1, 1, 3, 1, 1, 1, 1, 1, 1, 1, 1, 1⟩ }
  have E' : Elements S' (fun k => (k : ℝ) + 1 / 2) (fun k => (k : ℝ)) ([0], [2]) ([-1, 1], [1, 1]) := ⟨E.elements, E.setup, E.separated,
    E.apartNodes, E.apartEdges, E.gaussRule, E.onGauss, E.lobattoRule, E.onLobatto, E.insideEdges, E.insideNodes⟩
  have hone : applyRow S.interpNE (fun _ => (1 : ℝ)) 1 = 1 := by
    rw [hi, Vdyn.applyRow_eq]
    simp only [Vdyn.sampleMean]
    norm_num
  have hslope : ∀ k, slope S' bent sampleData k = 0 := fun k => by simp [Vdyn.slope, bent, sampleMetric]
  have h := C137_interfaces E' hL bent (fun k _ => by simp [bent, sampleMetric]) sampleData blank href (fun _ => 1)
    (fun i => if i = 3 then 1 else 0) (by norm_num [S']) (fun k _ => one_ne_zero) 1 one_pos (by show 1 < S.levels; omega)
    (by
      show applyRow S.interpNE (fun _ => (1 : ℝ)) 1 ≠ 0
      rw [hone]
      exact one_ne_zero)
    (by norm_num [bent])
  have hd : diffuse S' S'.diffDiffEE S'.nuVector (fun j => if 3 * j + 1 = 3 then (1 : ℝ) else 0) (fun _ => 0) 1 = 0 := by
    unfold diffuse
    rw [if_neg (by show ¬ S.uniform = true; rw [hu]; simp)]
  have hc : 0 < pressureChange S' sampleData (fun _ => 1) (fun i => if i = 3 then 1 else 0) 1 := by
    unfold pressureChange theta
    rw [sample_derivative E' hN hn]
    have : applyRow S'.interpNE (fun _ => (1 : ℝ)) 1 = 1 := hone
    simp only [asColumn, this]
    norm_num [S', exner]
  refine ⟨S', _, _, _, _, bent, sampleData, blank, fun _ => 1, fun i => if i = 3 then 1 else 0, _, E', hL, href, hu, hslope,
    fun _ => one_pos, fun _ => rfl, fun _ => rfl, h, ?_⟩
  rw [hslope, hd]
  simp only [bent, sampleMetric]
  norm_num
  exact hc

/-- A column over level ground with height growing by two meets the hypotheses of `C137_derivative_partial` and of `C136_same`. -/
example : ∃ (S : Setup) (G : Metric), Elements S (fun k => (k : ℝ) + 1 / 2) (fun k => (k : ℝ)) ([0], [2]) ([-1, 1], [1, 1]) ∧ Lorenz S ∧
    S.useRef = true ∧ S.uniform = false ∧ S.volumes = false ∧
    (∀ k < S.levels, G.conA k 2 = G.conXi k 0 ∧ G.conB k 2 = G.conXi k 1) ∧
    (∀ k, 0 < k → k < S.levels → applyRow S.interpNE (asColumn shearData fun _ => 1).r k ≠ 0) ∧
    (∀ k, G.derivR k = 2) ∧ (∀ k, G.derivREdge k = 2) ∧ (∀ k, 0 < k → k < S.levels → slope S G shearData k = 0) := by
  obtain ⟨S, E, hL, hN, hn, href, hu, hdt, hi, -, -⟩ := sample_setup
  refine ⟨S, { bent with derivR := fun _ => 2 }, E, hL, href, hu, E.elements, fun k _ => by simp [bent, sampleMetric], fun k _ _ => ?_,
    fun _ => rfl, fun _ => rfl, fun k _ _ => by simp [Vdyn.slope, bent, sampleMetric]⟩
  rw [hi, Vdyn.applyRow_eq]
  simp only [Vdyn.sampleMean, asColumn]
  norm_num

/-- A column at rest after the step: with the vertical velocity that the forces take away in one step, these densities solve the equations,
which meets the hypotheses of `C136_conserved` and `C136_integral`. -/
example : ∃ (S : Setup) (D : Data) (x : Nat → ℝ), Elements S (fun k => (k : ℝ) + 1 / 2) (fun k => (k : ℝ)) ([0], [2]) ([-1, 1], [1, 1]) ∧
    Lorenz S ∧ S.useRef = true ∧ S.uniform = false ∧ S.dt ≠ 0 ∧ (∀ k, bent.jac k ≠ 0) ∧ x 2 = 1 ∧ x 5 = 2 ∧
    ∀ i < 3 * S.levels, residual S bent (setupColumn S D blank) x i = 0 := by
  obtain ⟨S, E, hL, hN, hn, href, hu, hdt, hi, -, -⟩ := sample_setup
  let x : Nat → ℝ := fun i => if i % 3 = 1 then 0 else ((i / 3 : ℕ) : ℝ) + 1
  let D0 : Data := ⟨fun c k => if c = 2 ∨ c = 4 then (k : ℝ) + 1 else 0, fun _ _ => 0, fun _ _ => 0, fun _ _ => 0⟩
  let f := (theta S (asColumn D0 x) 1 * applyRow S.diffNE (exner S (asColumn D0 x)) 1) / 2 + S.phys.g
  let D : Data := ⟨fun c k => if c = 2 ∨ c = 4 then (k : ℝ) + 1 else 0, fun c k => if c = 3 ∧ k = 1 then f else 0, fun _ _ => 0,
    fun _ _ => 0⟩
  have hz : ∀ A nu f g k, diffuse S A nu f g k = 0 := fun A nu f g k => by unfold diffuse; rw [hu]; simp
  have hap : ∀ A : Op, ∀ k, applyRow A (fun _ => (0 : ℝ)) k = 0 := fun A k => by rw [Vdyn.applyRow_eq]; simp
  have hw : (asColumn D x).w = fun _ => 0 := by
    funext k
    show x (3 * k + 1) = 0
    simp only [x]
    rw [if_pos (by omega)]
  have hu0 : (asColumn D x).u = fun _ => 0 := rfl
  have hv0 : (asColumn D x).v = fun _ => 0 := rfl
  have hwind : ∀ q, flux S (physical bent) (asColumn D x) q = fun _ => 0 := by
    intro q
    funext k
    unfold flux verticalWind
    rw [hw, hu0, hv0]
    simp [hap]
  have hkin : kinetic S bent (asColumn D x) = fun _ => 0 := by
    funext k
    unfold kinetic
    rw [hw, hu0, hv0]
    simp [hap]
  have hsh : shear S (physical bent) (asColumn D x) 1 = 0 := by
    unfold shear
    rw [hw, hu0, hv0]
    simp [hap]
  refine ⟨S, D, x, E, hL, href, hu, by rw [hdt]; exact one_ne_zero, fun _ => one_ne_zero, ?_, ?_, fun i hlt => ?_⟩
  · simp [x]
  · simp only [x]; norm_num
  · rw [hN] at hlt
    have hk : i / 3 < S.levels := by omega
    obtain h | h | h : i = 3 * (i / 3) ∨ i = 3 * (i / 3) + 1 ∨ i = 3 * (i / 3) + 2 := by omega
    · rw [h, (C136_levels hL bent D blank x href (i / 3) hk).2, hwind, hap, hz, show x (3 * (i / 3)) = ((i / 3 : ℕ) : ℝ) + 1 by
        simp only [x]; rw [if_neg (by omega), show 3 * (i / 3) / 3 = i / 3 by omega]]
      simp [D]
    · obtain h0 | h1 : i / 3 = 0 ∨ i / 3 = 1 := by omega
      · rw [h, (C136_velocity hL bent D blank x href (i / 3)).2 (Or.inl h0), h0]
        simp [D, x]
      · rw [h, h1, (C136_velocity hL bent D blank x href 1).1 one_pos (by omega), hkin, hsh, hap, hz, hdt,
          show x (3 * 1 + 1) = 0 by simp [x], show D.edge 3 1 = f by simp [D]]
        have e1 : theta S (asColumn D x) 1 = theta S (asColumn D0 x) 1 := rfl
        have e2 : exner S (asColumn D x) = exner S (asColumn D0 x) := rfl
        rw [e1, e2]
        simp only [f, bent]
        ring
    · rw [h, (C136_levels hL bent D blank x href (i / 3) hk).1, hwind, hap, show x (3 * (i / 3) + 2) = ((i / 3 : ℕ) : ℝ) + 1 by
        simp only [x]; rw [if_neg (by omega), show (3 * (i / 3) + 2) / 3 = i / 3 by omega]]
      simp [D]

end Verif.ColumnV2
