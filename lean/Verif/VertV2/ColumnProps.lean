/-
C136: the equations of a column of vertical method v2.
-/
import Verif.VertV2.Column
import Verif.VertV2.ColumnSpec
import Verif.Vdyn.Props
import Verif.Vdyn.JacobianLemmas

namespace Verif.ColumnV2

open Verif.Column Verif.Vdyn Finset

theorem xiDotEdge_physical (S : Setup) (G : Metric) (M : Memory) (x : Nat → ℝ) :
    xiDotEdge S G M x = Vdyn.xiDotEdge S (physical G) M x := by
  funext k
  unfold xiDotEdge Vdyn.xiDotEdge physical
  by_cases h : 1 ≤ k ∧ k < S.levels
  · rw [if_pos h, if_pos h]
    simp only [if_true, if_neg (show ¬ (0 : Nat) = 2 by omega), if_neg (show ¬ (1 : Nat) = 2 by omega)]
    ring
  · rw [if_neg h, if_neg h]

section

variable {S : Setup} (hL : Lorenz S) (G : Metric) (D : Data) (M : Memory) (x : Nat → ℝ)
include hL

theorem wind_eq : xiDotEdge S G (setupColumn S D M) x = verticalWind S (physical G) (asColumn D x) := by
  rw [xiDotEdge_physical, Vdyn.wind_eq hL]

theorem xiDotNode_eq (k : Nat) : xiDotNode S G (setupColumn S D M) x k =
    G.conXi k 0 * D.node 0 k + G.conXi k 1 * D.node 1 k + G.conXi k 2 * (applyRow S.interpEN (asColumn D x).w k * G.derivR k) := by
  unfold xiDotNode
  rw [node_zero hL, node_one hL, node_three hL]

theorem kinetic_eq : kineticNode S G (setupColumn S D M) x = kinetic S G (asColumn D x) := by
  funext k
  unfold kineticNode kinetic contra
  rw [node_zero hL, node_one hL, node_three hL]
  dsimp only [asColumn]
  ring

theorem flux_eq (c : Nat) (q : Nat → ℝ) (hc : edgeState S (setupColumn S D M) x c = applyRow S.interpNE q) :
    diffFlux S G (setupColumn S D M) x c = applyRow S.diffEN (flux S (physical G) (asColumn D x) q) := by
  rw [← Vdyn.flux_eq hL (physical G) D M x c q hc]
  unfold diffFlux Vdyn.diffFlux fluxOnLevels
  rw [hL.1, hL.2.2, xiDotEdge_physical]
  rfl

end

theorem residual_at (S : Setup) (G : Metric) (M : Memory) (x : Nat → ℝ) (c k : Nat) (hc : c < 3) :
    residual S G M x (3 * k + c) = tendency S G M x (c + 2) k + (x (3 * k + c) - M.state (3 * k + c)) * (1 / S.dt) := by
  unfold residual
  rw [show (3 * k + c) % 3 = c by omega, show (3 * k + c) / 3 = k by omega]

theorem diffusion_w {S : Setup} (hL : Lorenz S) (D : Data) (M : Memory) (x : Nat → ℝ) (href : S.useRef = true) (k : Nat) (h0 : 0 < k)
    (hk : k < S.levels) :
    diffusion S (setupColumn S D M) x 3 k = diffuse S S.diffDiffEE S.nuVector (asColumn D x).w (D.refEdge 3) k := by
  unfold diffusion diffuse diffDiffUniform onEdge
  rw [edge_three hL D M x, hL.1, if_neg (show ¬ (3 = 3 ∧ (k = 0 ∨ k = S.levels)) by omega)]
  by_cases hu : S.uniform = true
  · simp [hu, href, setupColumn, pow_two]
  · simp [hu]

/-- **C136 (levels).**  On every level the residuals of density and of density times potential temperature are the derivative of the flux
through interfaces over the volume element, less uniform diffusion of the latter. -/
theorem C136_levels {S : Setup} (hL : Lorenz S) (G : Metric) (D : Data) (M : Memory) (x : Nat → ℝ) (href : S.useRef = true) (k : Nat)
    (hk : k < S.levels) :
    residual S G (setupColumn S D M) x (3 * k + 2) =
      applyRow S.diffEN (flux S (physical G) (asColumn D x) (asColumn D x).r) k / G.jac k + (x (3 * k + 2) - D.node 4 k) / S.dt ∧
    residual S G (setupColumn S D M) x (3 * k) =
      applyRow S.diffEN (flux S (physical G) (asColumn D x) (asColumn D x).p) k / G.jac k -
        diffuse S S.diffDiffNN S.nuScalar (asColumn D x).p (D.refNode 2) k + (x (3 * k) - D.node 2 k) / S.dt := by
  constructor
  · rw [residual_at S G _ x 2 k (by omega), (state_eq hL D M k hk).2]
    unfold tendency
    rw [if_neg (by omega), if_pos hk, flux_eq hL G D M x 4 _ (edge_four hL D M x)]
    have hd : diffusion S (setupColumn S D M) x (2 + 2) k = 0 := by simp [diffusion]
    rw [hd]
    ring
  · have h0 := residual_at S G (setupColumn S D M) x 0 k (by omega)
    rw [Nat.add_zero] at h0
    rw [h0, (state_eq hL D M k hk).1]
    unfold tendency
    rw [if_neg (by omega), if_pos hk, flux_eq hL G D M x 2 _ (edge_two hL D M x), diffusion_level hL D M x href]
    ring

/-- **C136 (vertical velocity).**  Inside the column the residual of vertical velocity is gravity and, per unit of height, the pressure
gradient and the gradient of kinetic energy less shear, and diffusion; at the bottom and the top there is none. -/
theorem C136_velocity {S : Setup} (hL : Lorenz S) (G : Metric) (D : Data) (M : Memory) (x : Nat → ℝ) (href : S.useRef = true)
    (k : Nat) :
    (0 < k → k < S.levels → residual S G (setupColumn S D M) x (3 * k + 1) =
      (theta S (asColumn D x) k * applyRow S.diffNE (exner S (asColumn D x)) k + applyRow S.diffNE (kinetic S G (asColumn D x)) k -
        shear S (physical G) (asColumn D x) k) / G.derivREdge k + S.phys.g -
        diffuse S S.diffDiffEE S.nuVector (asColumn D x).w (D.refEdge 3) k + (x (3 * k + 1) - D.edge 3 k) / S.dt) ∧
    (k = 0 ∨ k = S.levels → residual S G (setupColumn S D M) x (3 * k + 1) = (x (3 * k + 1) - D.edge 3 k) / S.dt) := by
  constructor
  · intro h0 hk
    rw [residual_at S G _ x 1 k (by omega), state_w hL]
    unfold tendency
    rw [if_pos rfl, hL.1]
    simp only [if_true]
    rw [if_neg (by omega)]
    have hua : (setupColumn S D M).diffUa = applyRow S.diffNE (asColumn D x).u := by
      simp [setupColumn, hL.1, asColumn]
    have hub : (setupColumn S D M).diffUb = applyRow S.diffNE (asColumn D x).v := by
      simp [setupColumn, hL.1, asColumn]
    rw [diffusion_w hL D M x href k h0 hk]
    unfold forceEdge diffPEdge contra theta shear
    rw [edge_zero hL, edge_one hL, edge_two hL, edge_three hL, edge_four hL, kinetic_eq hL, exner_eq hL, hua, hub,
      if_pos ⟨h0, hk⟩]
    simp only [physical, if_true, if_neg (show ¬ (0 : Nat) = 2 by omega), if_neg (show ¬ (1 : Nat) = 2 by omega)]
    ring
  · intro hk
    rw [residual_at S G _ x 1 k (by omega), state_w hL]
    unfold tendency
    rw [if_pos rfl, hL.1]
    simp only [if_true]
    rw [if_pos hk]
    ring

/-- **C136 (mass and heat).**  The integral of the residual of density is the change of the mass over the time step: the flux between
levels adds nothing.  The same holds for density times potential temperature, less uniform diffusion. -/
theorem C136_integral {S : Setup} {node edge : Nat → ℝ} {gauss lob : List ℝ × List ℝ} (E : Elements S node edge gauss lob)
    (hL : Lorenz S) (G : Metric) (hJ : ∀ k < S.levels, G.jac k ≠ 0) (D : Data) (M : Memory) (x : Nat → ℝ) (href : S.useRef = true) :
    overLevels S edge gauss (fun k => G.jac k * residual S G (setupColumn S D M) x (3 * k + 2)) =
      overLevels S edge gauss (fun k => G.jac k * ((x (3 * k + 2) - D.node 4 k) / S.dt)) ∧
    overLevels S edge gauss (fun k => G.jac k * residual S G (setupColumn S D M) x (3 * k)) =
      overLevels S edge gauss (fun k => G.jac k * ((x (3 * k) - D.node 2 k) / S.dt)) -
        overLevels S edge gauss (fun k => G.jac k * diffuse S S.diffDiffNN S.nuScalar (asColumn D x).p (D.refNode 2) k) := by
  have total : ∀ q, overLevels S edge gauss (applyRow S.diffEN (flux S (physical G) (asColumn D x) q)) = 0 := by
    intro q
    have htot := derivative_total E (flux S (physical G) (asColumn D x) q)
    rw [flux, flux, verticalWind, verticalWind, if_pos (Or.inr le_rfl), if_pos (Or.inl rfl), mul_zero, mul_zero, sub_zero] at htot
    exact htot
  constructor
  · have hpt : ∀ k < S.levels, G.jac k * residual S G (setupColumn S D M) x (3 * k + 2) =
        applyRow S.diffEN (flux S (physical G) (asColumn D x) (asColumn D x).r) k + G.jac k * ((x (3 * k + 2) - D.node 4 k) / S.dt) := by
      intro k hk
      rw [(C136_levels hL G D M x href k hk).1, mul_add, mul_div_cancel₀ _ (hJ k hk)]
    rw [overLevels_congr S edge gauss _ _ hpt, overLevels_add, total, zero_add]
  · have hpt : ∀ k < S.levels, G.jac k * residual S G (setupColumn S D M) x (3 * k) =
        applyRow S.diffEN (flux S (physical G) (asColumn D x) (asColumn D x).p) k +
          (G.jac k * ((x (3 * k) - D.node 2 k) / S.dt) - G.jac k * diffuse S S.diffDiffNN S.nuScalar (asColumn D x).p (D.refNode 2) k) := by
      intro k hk
      rw [(C136_levels hL G D M x href k hk).2, mul_add, mul_sub, mul_div_cancel₀ _ (hJ k hk)]
      ring
    rw [overLevels_congr S edge gauss _ _ hpt, overLevels_add, total, zero_add, overLevels_sub]

/-- **C136 (conservation).**  A column that solves the equations has the mass it had and, without uniform diffusion, the integral of
density times potential temperature it had. -/
theorem C136_conserved {S : Setup} {node edge : Nat → ℝ} {gauss lob : List ℝ × List ℝ} (E : Elements S node edge gauss lob)
    (hL : Lorenz S) (G : Metric) (hJ : ∀ k < S.levels, G.jac k ≠ 0) (D : Data) (M : Memory) (x : Nat → ℝ) (href : S.useRef = true)
    (hdt : S.dt ≠ 0) (hx : ∀ i < 3 * S.levels, residual S G (setupColumn S D M) x i = 0) :
    overLevels S edge gauss (fun k => G.jac k * x (3 * k + 2)) = overLevels S edge gauss (fun k => G.jac k * D.node 4 k) ∧
    (S.uniform = false →
      overLevels S edge gauss (fun k => G.jac k * x (3 * k)) = overLevels S edge gauss (fun k => G.jac k * D.node 2 k)) := by
  have hscale : ∀ f g : Nat → ℝ, overLevels S edge gauss (fun k => G.jac k * ((f k - g k) / S.dt)) = 0 →
      overLevels S edge gauss (fun k => G.jac k * f k) = overLevels S edge gauss (fun k => G.jac k * g k) := by
    intro f g h
    have : overLevels S edge gauss (fun k => G.jac k * f k - G.jac k * g k) = 0 := by
      have h2 : overLevels S edge gauss (fun k => G.jac k * f k - G.jac k * g k) =
          S.dt * overLevels S edge gauss (fun k => G.jac k * ((f k - g k) / S.dt)) := by
        unfold overLevels
        rw [mul_sum]
        refine sum_congr rfl fun k _ => ?_
        field_simp
      rw [h2, h, mul_zero]
    rw [overLevels_sub] at this
    linarith
  have hz : overLevels S edge gauss (fun _ => 0) = 0 := by simp [overLevels]
  obtain ⟨k1, k2⟩ := C136_integral E hL G hJ D M x href
  rw [overLevels_congr S edge gauss _ (fun _ => 0) (fun k hk => by rw [hx _ (by omega), mul_zero]), hz] at k1 k2
  refine ⟨hscale _ _ k1.symm, fun hu => hscale _ _ ?_⟩
  have hd : overLevels S edge gauss (fun k => G.jac k * diffuse S S.diffDiffNN S.nuScalar (asColumn D x).p (D.refNode 2) k) = 0 := by
    simp [overLevels, diffuse, hu]
  rw [hd, sub_zero] at k2
  exact k2.symm

/-! ### The default method -/

theorem applyRow_mul (A : Op) (z : ℝ) (f : Nat → ℝ) (k : Nat) : applyRow A (fun i => z * f i) k = z * applyRow A f k := by
  rw [Vdyn.applyRow_eq A (fun i => z * f i) k, Vdyn.applyRow_eq A f k, mul_sum]
  exact sum_congr rfl fun i _ => by ring

theorem stretch_column (z : ℝ) (D : Data) (x : Nat → ℝ) :
    asColumn (stretchData z D) (stretch z x) =
      ⟨D.node 0, D.node 1, fun k => x (3 * k), fun k => z * x (3 * k + 1), fun k => x (3 * k + 2)⟩ := by
  unfold asColumn stretchData stretch
  congr 1 <;> funext k
  · rw [if_neg (by omega)]
  · rw [if_pos (by omega)]
  · rw [if_neg (by omega)]

/-- **C136 (the default method).**  Where height grows equally along the vertical coordinate, by `z` on all levels and interfaces of the
column, these are the equations of the default vertical method without its upwinding, for covariant vertical velocity `z` times vertical
velocity; that of vertical velocity times `z`. -/
theorem C136_same {S : Setup} (hL : Lorenz S) (he : S.volumes = false) (G : Metric) (D : Data) (M : Memory) (x : Nat → ℝ)
    (href : S.useRef = true) (z : ℝ) (hz : z ≠ 0) (hG : ∀ k, G.derivR k = z) (hGE : ∀ k, G.derivREdge k = z) (k : Nat) :
    (k < S.levels →
      residual S G (setupColumn S D M) x (3 * k + 2) =
        Vdyn.residual S G (setupColumn S (stretchData z D) M) (stretch z x) (3 * k + 2) +
          penaltyApply S.penalty (fun a => |verticalWind S G (asColumn (stretchData z D) (stretch z x)) ((a + 1) * S.order)|)
            (fun k => x (3 * k + 2)) (fun _ => 0) 1 1 k ∧
      residual S G (setupColumn S D M) x (3 * k) =
        Vdyn.residual S G (setupColumn S (stretchData z D) M) (stretch z x) (3 * k) +
          penaltyApply S.penalty (fun a => |verticalWind S G (asColumn (stretchData z D) (stretch z x)) ((a + 1) * S.order)|)
            (fun k => x (3 * k)) (fun _ => 0) 1 1 k) ∧
    (0 < k → k < S.levels → z * residual S G (setupColumn S D M) x (3 * k + 1) =
      Vdyn.residual S G (setupColumn S (stretchData z D) M) (stretch z x) (3 * k + 1) +
        upwindW S G (asColumn (stretchData z D) (stretch z x)) k) := by
  have hwind : verticalWind S (physical G) (asColumn D x) = verticalWind S G (asColumn (stretchData z D) (stretch z x)) := by
    rw [stretch_column]
    funext m
    unfold verticalWind physical asColumn
    simp only [if_true, if_neg (show ¬ (0 : Nat) = 2 by omega), if_neg (show ¬ (1 : Nat) = 2 by omega), hGE]
    split_ifs
    · rfl
    · ring
  have hflux : ∀ q, flux S (physical G) (asColumn D x) q = flux S G (asColumn (stretchData z D) (stretch z x)) q := by
    intro q
    funext m
    unfold flux
    rw [hwind]
    rfl
  have hkin : kinetic S G (asColumn D x) = Vdyn.kinetic S G (asColumn (stretchData z D) (stretch z x)) := by
    rw [stretch_column]
    funext m
    unfold kinetic Vdyn.kinetic asColumn
    simp only [hG, applyRow_mul]
    ring
  have hp : (asColumn (stretchData z D) (stretch z x)).p = (asColumn D x).p := by rw [stretch_column]; rfl
  have hr : (asColumn (stretchData z D) (stretch z x)).r = (asColumn D x).r := by rw [stretch_column]; rfl
  have x0 : stretch z x (3 * k) = x (3 * k) := by unfold stretch; rw [if_neg (by omega)]
  have x1 : stretch z x (3 * k + 1) = z * x (3 * k + 1) := by unfold stretch; rw [if_pos (by omega)]
  have x2 : stretch z x (3 * k + 2) = x (3 * k + 2) := by unfold stretch; rw [if_neg (by omega)]
  refine ⟨fun hk => ?_, fun h0 hk => ?_⟩
  · obtain ⟨a1, a2⟩ := C136_levels hL G D M x href k hk
    obtain ⟨b1, b2⟩ := C90_levels hL he G (stretchData z D) M (stretch z x) href k hk
    rw [a1, a2, b1, b2, hflux, hflux, hp, hr, x0, x2]
    refine ⟨?_, ?_⟩
    · simp only [stretchData, asColumn]
      ring
    · simp only [stretchData, asColumn]
      ring
  · rw [(C136_velocity hL G D M x href k).1 h0 hk, (C90_velocity hL G (stretchData z D) M (stretch z x) href k).1 h0 hk, hkin, x1]
    have ht : theta S (asColumn (stretchData z D) (stretch z x)) k = theta S (asColumn D x) k := by
      unfold theta
      rw [hp, hr]
    have hex : exner S (asColumn (stretchData z D) (stretch z x)) = exner S (asColumn D x) := by
      unfold exner
      rw [hp]
    have hsh : shear S G (asColumn (stretchData z D) (stretch z x)) k = shear S (physical G) (asColumn D x) k := by
      rw [stretch_column]
      unfold shear physical asColumn
      simp only [if_true, if_neg (show ¬ (0 : Nat) = 2 by omega), if_neg (show ¬ (1 : Nat) = 2 by omega), hGE]
      ring
    have hdf : diffuse S S.diffDiffEE S.nuVector (asColumn (stretchData z D) (stretch z x)).w ((stretchData z D).refEdge 3) k =
        z * diffuse S S.diffDiffEE S.nuVector (asColumn D x).w (D.refEdge 3) k := by
      rw [stretch_column]
      unfold diffuse stretchData
      simp only [if_true]
      split_ifs
      · rw [applyRow_mul, applyRow_mul]
        dsimp only [asColumn]
        ring
      · rw [mul_zero]
    have he3 : (stretchData z D).edge 3 k = z * D.edge 3 k := by unfold stretchData; simp
    rw [ht, hex, hsh, hdf, he3, hGE]
    field_simp
    ring

end Verif.ColumnV2
