/-
C90: the residual of the vertical equations of a column, with Lorenz staggering: the equations, conservation of mass and heat,
the energy budget, hydrostatic balance.
-/
import Verif.Vdyn.Lemmas

namespace Verif.Vdyn

open Verif.Column Verif.Interp Finset Polynomial

theorem overLevels_sub (S : Setup) (edge : Nat → ℝ) (gauss : List ℝ × List ℝ) (f g : Nat → ℝ) :
    overLevels S edge gauss (fun k => f k - g k) = overLevels S edge gauss f - overLevels S edge gauss g := by
  unfold overLevels
  rw [← sum_sub_distrib]
  exact sum_congr rfl fun k _ => by ring

theorem overLevels_add (S : Setup) (edge : Nat → ℝ) (gauss : List ℝ × List ℝ) (f g : Nat → ℝ) :
    overLevels S edge gauss (fun k => f k + g k) = overLevels S edge gauss f + overLevels S edge gauss g := by
  unfold overLevels
  rw [← sum_add_distrib]
  exact sum_congr rfl fun k _ => by ring

theorem overLevels_congr (S : Setup) (edge : Nat → ℝ) (gauss : List ℝ × List ℝ) (f g : Nat → ℝ)
    (h : ∀ k < S.levels, f k = g k) : overLevels S edge gauss f = overLevels S edge gauss g := by
  unfold overLevels
  exact sum_congr rfl fun k hk => by rw [h k (mem_range.1 hk)]

/-- The work of upwinding against `r`. -/
theorem upwind_work {S : Setup} {node edge : Nat → ℝ} {gauss lob : List ℝ × List ℝ} (E : Elements S node edge gauss lob)
    (hL : Lorenz S) (G : Metric) (D : Data) (M : Memory) (x r y : Nat → ℝ) (c : Nat) (hc : c = 2 ∨ c = 4)
    (hy : nodeState S (setupColumn S D M) x c = y) (p q : Nat → ℝ[X]) (hq : Fits S node q r) (hp : Fits S node p y) :
    overLevels S edge gauss (fun k => r k * upwind S G (setupColumn S D M) x c k) =
      -(1 / 2) * jumps S G (asColumn D x) edge q p := by
  obtain ⟨solve, hs, hA, -, hP⟩ := E.setup
  obtain ⟨hn, hN, hm, -⟩ := flux_cases hA
  have hu := fun k => upwind_level hL G D M x c hc E.elements k
  simp only [hu, hy]
  unfold overLevels jumps
  by_cases h1 : S.levels / S.order = 1
  · rw [(C87_refused solve S.order S.levels (S.levels + 1) node edge hn).2 _ _ _ _ _ _ hP h1, h1]
    simp
  · have key := C87_energy solve hs S.order S.levels (S.levels + 1) node edge S.penalty hP (by omega) gauss E.gaussRule E.onGauss
      (fun a => |verticalWind S G (asColumn D x) ((a + 1) * S.order)|) y (fun _ => 0) r 1 1 one_pos p q
      (fun a ha => (hp a ha).1) (fun a ha => (hq a ha).1) (fun a ha => by simpa using (hp a ha).2) (fun a ha => (hq a ha).2)
    simp only [mul_one, sub_zero] at key
    rw [sum_congr rfl (fun k _ => (mul_assoc _ _ _).symm), key]
    congr 1
    exact sum_congr rfl fun a _ => by ring

/-- **C90 (mass).**  The integral of the residual of density is the change of the mass over the time step, plus what upwinding
adds at element edges over which both the volume element and the density jump: the flux between levels adds nothing. -/
theorem C90_mass {S : Setup} {node edge : Nat → ℝ} {gauss lob : List ℝ × List ℝ} (E : Elements S node edge gauss lob)
    (hL : Lorenz S) (G : Metric) (hJ : ∀ k < S.levels, G.jac k ≠ 0) (D : Data) (M : Memory) (x : Nat → ℝ) (pJ pR : Nat → ℝ[X])
    (hpJ : Fits S node pJ G.jac) (hpR : Fits S node pR fun k => x (3 * k + 2)) :
    overLevels S edge gauss (fun k => G.jac k * residual S G (setupColumn S D M) x (3 * k + 2)) =
      overLevels S edge gauss (fun k => G.jac k * ((x (3 * k + 2) - D.node 4 k) / S.dt)) +
        jumps S G (asColumn D x) edge pJ pR / 2 := by
  have hup := upwind_work E hL G D M x G.jac _ 4 (Or.inr rfl) (node_four hL D M x) pR pJ hpJ hpR
  have htot := derivative_total E (flux S G (asColumn D x) (asColumn D x).r)
  rw [flux, flux, verticalWind, verticalWind, if_pos (Or.inr le_rfl), if_pos (Or.inl rfl), mul_zero, mul_zero, sub_zero] at htot
  have hpt : ∀ k < S.levels, G.jac k * residual S G (setupColumn S D M) x (3 * k + 2) =
      (applyRow S.diffEN (flux S G (asColumn D x) (asColumn D x).r) k -
        G.jac k * upwind S G (setupColumn S D M) x 4 k) + G.jac k * ((x (3 * k + 2) - D.node 4 k) / S.dt) := by
    intro k hk
    rw [residual_at S G _ x 2 k (by omega), (state_eq hL D M k hk).2]
    unfold tendency
    rw [if_neg (by omega), if_pos hk, flux_eq hL G D M x 4 _ (edge_four hL D M x)]
    have hd : diffusion S (setupColumn S D M) x (2 + 2) k = 0 := by simp [diffusion]
    rw [hd]
    have := hJ k hk
    field_simp
    ring
  rw [overLevels_congr S edge gauss _ _ hpt, overLevels_add, overLevels_sub, htot, hup]
  ring

theorem diffusion_level {S : Setup} (hL : Lorenz S) (D : Data) (M : Memory) (x : Nat → ℝ) (href : S.useRef = true) (k : Nat) :
    diffusion S (setupColumn S D M) x 2 k = diffuse S S.diffDiffNN S.nuScalar (asColumn D x).p (D.refNode 2) k := by
  unfold diffusion diffuse diffDiffUniform onEdge
  rw [node_two hL D M x, hL.2.1]
  by_cases hu : S.uniform = true
  · simp [hu, href, setupColumn, pow_two]
  · simp [hu]

theorem heat_balance {S : Setup} {node edge : Nat → ℝ} {gauss lob : List ℝ × List ℝ} (E : Elements S node edge gauss lob)
    (hL : Lorenz S) (G : Metric) (hJ : ∀ k < S.levels, G.jac k ≠ 0) (D : Data) (M : Memory) (x : Nat → ℝ) (pJ pP : Nat → ℝ[X])
    (hpJ : Fits S node pJ G.jac) (hpP : Fits S node pP fun k => x (3 * k)) :
    overLevels S edge gauss (fun k => G.jac k * residual S G (setupColumn S D M) x (3 * k)) =
      overLevels S edge gauss (fun k => G.jac k * ((x (3 * k) - D.node 2 k) / S.dt)) +
        jumps S G (asColumn D x) edge pJ pP / 2 -
        overLevels S edge gauss (fun k => G.jac k * diffusion S (setupColumn S D M) x 2 k) := by
  have hup := upwind_work E hL G D M x G.jac _ 2 (Or.inl rfl) (node_two hL D M x) pP pJ hpJ hpP
  have htot := derivative_total E (flux S G (asColumn D x) (asColumn D x).p)
  rw [flux, flux, verticalWind, verticalWind, if_pos (Or.inr le_rfl), if_pos (Or.inl rfl), mul_zero, mul_zero, sub_zero] at htot
  have hpt : ∀ k < S.levels, G.jac k * residual S G (setupColumn S D M) x (3 * k) =
      (applyRow S.diffEN (flux S G (asColumn D x) (asColumn D x).p) k -
        G.jac k * upwind S G (setupColumn S D M) x 2 k) + G.jac k * ((x (3 * k) - D.node 2 k) / S.dt) -
        G.jac k * diffusion S (setupColumn S D M) x 2 k := by
    intro k hk
    have h0 := residual_at S G (setupColumn S D M) x 0 k (by omega)
    rw [Nat.add_zero] at h0
    rw [h0, (state_eq hL D M k hk).1]
    unfold tendency
    rw [if_neg (by omega), if_pos hk, flux_eq hL G D M x 2 _ (edge_two hL D M x)]
    have := hJ k hk
    field_simp
    ring
  rw [overLevels_congr S edge gauss _ _ hpt, overLevels_sub, overLevels_add, overLevels_sub, htot, hup]
  ring

/-- **C90 (heat).**  The same for density times potential temperature, less uniform diffusion. -/
theorem C90_heat {S : Setup} {node edge : Nat → ℝ} {gauss lob : List ℝ × List ℝ} (E : Elements S node edge gauss lob)
    (hL : Lorenz S) (G : Metric) (hJ : ∀ k < S.levels, G.jac k ≠ 0) (D : Data) (M : Memory) (x : Nat → ℝ) (pJ pP : Nat → ℝ[X])
    (href : S.useRef = true) (hpJ : Fits S node pJ G.jac) (hpP : Fits S node pP fun k => x (3 * k)) :
    overLevels S edge gauss (fun k => G.jac k * residual S G (setupColumn S D M) x (3 * k)) =
      overLevels S edge gauss (fun k => G.jac k * ((x (3 * k) - D.node 2 k) / S.dt)) +
        jumps S G (asColumn D x) edge pJ pP / 2 -
        overLevels S edge gauss (fun k => G.jac k * diffuse S S.diffDiffNN S.nuScalar (asColumn D x).p (D.refNode 2) k) := by
  rw [heat_balance E hL G hJ D M x pJ pP hpJ hpP]
  simp only [diffusion_level hL D M x href]

/-- **C90 (vertical velocity).**  Inside the column the residual of vertical velocity is the pressure gradient, gravity and the
gradient of kinetic energy less shear, diffusion and upwinding; at the bottom and the top there is none. -/
theorem C90_velocity {S : Setup} (hL : Lorenz S) (G : Metric) (D : Data) (M : Memory) (x : Nat → ℝ) (href : S.useRef = true)
    (k : Nat) :
    (0 < k → k < S.levels → residual S G (setupColumn S D M) x (3 * k + 1) =
      theta S (asColumn D x) k * applyRow S.diffNE (exner S (asColumn D x)) k + S.phys.g * G.derivREdge k +
        applyRow S.diffNE (kinetic S G (asColumn D x)) k - shear S G (asColumn D x) k -
        diffuse S S.diffDiffEE S.nuVector (asColumn D x).w (D.refEdge 3) k - upwindW S G (asColumn D x) k +
        (x (3 * k + 1) - D.edge 3 k) / S.dt) ∧
    (k = 0 ∨ k = S.levels → residual S G (setupColumn S D M) x (3 * k + 1) = (x (3 * k + 1) - D.edge 3 k) / S.dt) := by
  constructor
  · intro h0 hk
    rw [residual_at S G _ x 1 k (by omega), state_w hL]
    unfold tendency
    rw [if_pos rfl, hL.1]
    simp only [if_true]
    rw [if_neg (by omega)]
    have hd : diffusion S (setupColumn S D M) x 3 k =
        diffuse S S.diffDiffEE S.nuVector (asColumn D x).w (D.refEdge 3) k := by
      unfold diffusion diffuse diffDiffUniform onEdge
      rw [edge_three hL D M x, hL.1, if_neg (show ¬ (3 = 3 ∧ (k = 0 ∨ k = S.levels)) by omega)]
      by_cases hu : S.uniform = true
      · simp [hu, href, setupColumn, pow_two]
      · simp [hu]
    have hw : upwind S G (setupColumn S D M) x 3 k = upwindW S G (asColumn D x) k := by
      unfold upwind upwindW onEdge
      rw [edge_three hL D M x, wind_eq hL, hL.1, if_neg (show ¬ (3 = 3 ∧ (k = 0 ∨ k = S.levels)) by omega)]
      simp only [beq_self_eq_true, Bool.and_self, Bool.or_true, if_true]
      rw [one_div_mul_one_div, mul_comm (1 / (2 * (S.levels : ℝ))), mul_one_div]
    have hua : (setupColumn S D M).diffUa = applyRow S.diffNE (asColumn D x).u := by
      simp [setupColumn, hL.1, asColumn]
    have hub : (setupColumn S D M).diffUb = applyRow S.diffNE (asColumn D x).v := by
      simp [setupColumn, hL.1, asColumn]
    rw [hd, hw]
    unfold forceEdge diffPEdge contra theta shear
    rw [edge_zero hL, edge_one hL, edge_two hL, edge_three hL, edge_four hL, kinetic_eq hL, exner_eq hL, hua, hub,
      if_pos ⟨h0, hk⟩]
    dsimp only
    ring
  · intro hk
    rw [residual_at S G _ x 1 k (by omega), state_w hL]
    unfold tendency
    rw [if_pos rfl, hL.1]
    simp only [if_true]
    rw [if_pos hk]
    ring

/-- **C90 (levels).**  On every level the residuals of density and of density times potential temperature are the derivative of
the flux through interfaces over the volume element, less the penalty of the jumps at element edges weighted by the speed of the
vertical wind there and less uniform diffusion of the latter. -/
theorem C90_levels {S : Setup} (hL : Lorenz S) (he : S.volumes = false) (G : Metric) (D : Data) (M : Memory) (x : Nat → ℝ)
    (href : S.useRef = true) (k : Nat) (hk : k < S.levels) :
    residual S G (setupColumn S D M) x (3 * k + 2) =
      applyRow S.diffEN (flux S G (asColumn D x) (asColumn D x).r) k / G.jac k -
        penaltyApply S.penalty (fun a => |verticalWind S G (asColumn D x) ((a + 1) * S.order)|) (asColumn D x).r (fun _ => 0) 1 1 k +
        (x (3 * k + 2) - D.node 4 k) / S.dt ∧
    residual S G (setupColumn S D M) x (3 * k) =
      applyRow S.diffEN (flux S G (asColumn D x) (asColumn D x).p) k / G.jac k -
        penaltyApply S.penalty (fun a => |verticalWind S G (asColumn D x) ((a + 1) * S.order)|) (asColumn D x).p (fun _ => 0) 1 1 k -
        diffuse S S.diffDiffNN S.nuScalar (asColumn D x).p (D.refNode 2) k +
        (x (3 * k) - D.node 2 k) / S.dt := by
  constructor
  · rw [residual_at S G _ x 2 k (by omega), (state_eq hL D M k hk).2]
    unfold tendency
    rw [if_neg (by omega), if_pos hk, flux_eq hL G D M x 4 _ (edge_four hL D M x)]
    have hd : diffusion S (setupColumn S D M) x (2 + 2) k = 0 := by simp [diffusion]
    rw [hd, upwind_level hL G D M x 4 (Or.inr rfl) he k, node_four hL]
    ring
  · have h0 := residual_at S G (setupColumn S D M) x 0 k (by omega)
    rw [Nat.add_zero] at h0
    rw [h0, (state_eq hL D M k hk).1]
    unfold tendency
    rw [if_neg (by omega), if_pos hk, flux_eq hL G D M x 2 _ (edge_two hL D M x)]
    rw [diffusion_level hL D M x href, upwind_level hL G D M x 2 (Or.inl rfl) he k, node_two hL]
    ring

/-- **C90 (conservation).**  Where the volume element does not jump over element edges, a column that solves the equations has
the mass it had and, without uniform diffusion, the integral of density times potential temperature it had. -/
theorem C90_conserved_partial {S : Setup} {node edge : Nat → ℝ} {gauss lob : List ℝ × List ℝ}
    (E : Elements S node edge gauss lob) (hL : Lorenz S) (G : Metric) (hJ : ∀ k < S.levels, G.jac k ≠ 0) (D : Data) (M : Memory)
    (x : Nat → ℝ) (pJ : Nat → ℝ[X]) (hpJ : Fits S node pJ G.jac)
    (hjoin : ∀ a < S.levels / S.order - 1, jump S.order edge pJ a = 0) (hdt : S.dt ≠ 0)
    (hx : ∀ i < 3 * S.levels, residual S G (setupColumn S D M) x i = 0) :
    overLevels S edge gauss (fun k => G.jac k * x (3 * k + 2)) = overLevels S edge gauss (fun k => G.jac k * D.node 4 k) ∧
    (S.uniform = false →
      overLevels S edge gauss (fun k => G.jac k * x (3 * k)) = overLevels S edge gauss (fun k => G.jac k * D.node 2 k)) := by
  have hfit : ∀ y : Nat → ℝ, ∃ p, Fits S node p y := by
    intro y
    have : ∀ a, ∃ p : ℝ[X], a < S.levels / S.order → p.degree < (S.order : ℕ) ∧ Through p node y (a * S.order) S.order := by
      intro a
      by_cases ha : a < S.levels / S.order
      · obtain ⟨p, h1, h2⟩ := lagrange_exists S.order (a * S.order) node y (apart_distinct (E.apartNodes a ha))
        exact ⟨p, fun _ => ⟨h1, h2⟩⟩
      · exact ⟨0, fun h => absurd h ha⟩
    choose p hp using this
    exact ⟨p, hp⟩
  have hjump : ∀ q, jumps S G (asColumn D x) edge pJ q = 0 := by
    intro q
    unfold jumps
    apply sum_eq_zero
    intro a ha
    rw [hjoin a (mem_range.1 ha)]
    ring
  have hscale : ∀ f g : Nat → ℝ, overLevels S edge gauss (fun k => G.jac k * ((f k - g k) / S.dt)) = 0 →
      overLevels S edge gauss (fun k => G.jac k * f k) = overLevels S edge gauss (fun k => G.jac k * g k) := by
    intro f g h
    have : overLevels S edge gauss (fun k => G.jac k * f k - G.jac k * g k) = 0 := by
      have h2 : overLevels S edge gauss (fun k => G.jac k * f k - G.jac k * g k) =
          S.dt * overLevels S edge gauss (fun k => G.jac k * ((f k - g k) / S.dt)) := by
        unfold overLevels
        rw [mul_sum]
        refine sum_congr rfl fun k _ => ?_
        field_simp
      rw [h2, h, mul_zero]
    rw [overLevels_sub] at this
    linarith
  constructor
  · obtain ⟨p, hp⟩ := hfit fun k => x (3 * k + 2)
    have key := C90_mass E hL G hJ D M x pJ p hpJ hp
    rw [hjump, overLevels_congr S edge gauss _ (fun _ => 0) (fun k hk => by rw [hx _ (by omega), mul_zero])] at key
    apply hscale
    have : overLevels S edge gauss (fun _ => 0) = 0 := by simp [overLevels]
    linarith
  · intro hu
    obtain ⟨p, hp⟩ := hfit fun k => x (3 * k)
    have key := heat_balance E hL G hJ D M x pJ p hpJ hp
    rw [hjump, overLevels_congr S edge gauss _ (fun _ => 0) (fun k hk => by rw [hx _ (by omega), mul_zero])] at key
    have hz : overLevels S edge gauss (fun k => G.jac k * diffusion S (setupColumn S D M) x 2 k) = 0 := by
      simp [overLevels, diffusion, hu]
    apply hscale
    have : overLevels S edge gauss (fun _ => 0) = 0 := by simp [overLevels]
    linarith

end Verif.Vdyn
