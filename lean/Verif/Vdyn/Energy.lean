/-
C90, continued: the energy budget of the vertical equations, hydrostatic balance, independence of what was computed before, and
where the code does something else.
-/
import Verif.Vdyn.Props

namespace Verif.Vdyn

open Verif.Column Verif.Interp Finset Polynomial

theorem overInterfaces_add (S : Setup) (edge : Nat → ℝ) (lob : List ℝ × List ℝ) (f g : Nat → ℝ) :
    overInterfaces S edge lob (fun k => f k + g k) = overInterfaces S edge lob f + overInterfaces S edge lob g := by
  unfold overInterfaces
  rw [← sum_add_distrib]
  exact sum_congr rfl fun k _ => by ring

theorem overInterfaces_sub (S : Setup) (edge : Nat → ℝ) (lob : List ℝ × List ℝ) (f g : Nat → ℝ) :
    overInterfaces S edge lob (fun k => f k - g k) = overInterfaces S edge lob f - overInterfaces S edge lob g := by
  unfold overInterfaces
  rw [← sum_sub_distrib]
  exact sum_congr rfl fun k _ => by ring

theorem overInterfaces_mul (S : Setup) (edge : Nat → ℝ) (lob : List ℝ × List ℝ) (c : ℝ) (f : Nat → ℝ) :
    overInterfaces S edge lob (fun k => c * f k) = c * overInterfaces S edge lob f := by
  unfold overInterfaces
  rw [mul_sum]
  exact sum_congr rfl fun k _ => by ring

theorem overLevels_mul (S : Setup) (edge : Nat → ℝ) (gauss : List ℝ × List ℝ) (c : ℝ) (f : Nat → ℝ) :
    overLevels S edge gauss (fun k => c * f k) = c * overLevels S edge gauss f := by
  unfold overLevels
  rw [mul_sum]
  exact sum_congr rfl fun k _ => by ring

theorem overInterfaces_congr (S : Setup) (edge : Nat → ℝ) (lob : List ℝ × List ℝ) (f g : Nat → ℝ)
    (h : ∀ k ≤ S.levels, f k = g k) : overInterfaces S edge lob f = overInterfaces S edge lob g := by
  unfold overInterfaces
  exact sum_congr rfl fun k hk => by rw [h k (by have := mem_range.1 hk; omega)]

theorem flux_ends (S : Setup) (G : Metric) (C : Column) (q : Nat → ℝ) (k : Nat) (hk : k = 0 ∨ S.levels ≤ k) : flux S G C q k = 0 := by
  rw [flux, verticalWind, if_pos hk, mul_zero]

/-- **C90 (energy).**  With elements of one size, weighting the residual of density with kinetic plus potential energy, that of
density times potential temperature with Exner pressure and that of vertical velocity with the mass flux, the pressure gradient,
gravity, the gradient of kinetic energy and the fluxes together give nothing: what is left besides the change over the time step
is what upwinding takes and what the mass flux gains from shear.  (Partial: without uniform diffusion; elements of one size.) -/
theorem C90_energy_partial {S : Setup} {node edge : Nat → ℝ} {gauss lob : List ℝ × List ℝ} (E : Elements S node edge gauss lob)
    (hL : Lorenz S) (href : S.useRef = true) (hu : S.uniform = false) (G : Metric) (hJ : ∀ k < S.levels, G.jac k ≠ 0)
    (hsize : ∀ a < S.levels / S.order, edge ((a + 1) * S.order) - edge (a * S.order) = edge S.order - edge 0)
    (z : Nat → ℝ) (hz : ∀ k, 0 < k → k < S.levels → G.derivREdge k = applyRow S.diffNE z k) (D : Data) (M : Memory) (x : Nat → ℝ)
    (hr : ∀ k, 0 < k → k < S.levels → applyRow S.interpNE (asColumn D x).r k ≠ 0) (pE pR pX pP : Nat → ℝ[X])
    (hpE : Fits S node pE fun k => G.jac k * (kinetic S G (asColumn D x) k + S.phys.g * z k))
    (hpR : Fits S node pR fun k => x (3 * k + 2))
    (hpX : Fits S node pX fun k => G.jac k * exner S (asColumn D x) k)
    (hpP : Fits S node pP fun k => x (3 * k)) :
    overLevels S edge gauss (fun k => G.jac k *
        ((kinetic S G (asColumn D x) k + S.phys.g * z k) * residual S G (setupColumn S D M) x (3 * k + 2) +
          exner S (asColumn D x) k * residual S G (setupColumn S D M) x (3 * k))) +
      overInterfaces S edge lob (fun k =>
        flux S G (asColumn D x) (asColumn D x).r k * residual S G (setupColumn S D M) x (3 * k + 1)) =
    overLevels S edge gauss (fun k => G.jac k *
        ((kinetic S G (asColumn D x) k + S.phys.g * z k) * ((x (3 * k + 2) - D.node 4 k) / S.dt) +
          exner S (asColumn D x) k * ((x (3 * k) - D.node 2 k) / S.dt))) +
      overInterfaces S edge lob (fun k => flux S G (asColumn D x) (asColumn D x).r k * ((x (3 * k + 1) - D.edge 3 k) / S.dt)) +
      (jumps S G (asColumn D x) edge pE pR + jumps S G (asColumn D x) edge pX pP) / 2 -
      overInterfaces S edge lob (fun k =>
        flux S G (asColumn D x) (asColumn D x).r k * (shear S G (asColumn D x) k + upwindW S G (asColumn D x) k)) := by
  obtain ⟨solve, hs, hA, hB, hP⟩ := E.setup
  have adj : ∀ y u : Nat → ℝ, u 0 = 0 → u S.levels = 0 →
      overInterfaces S edge lob (fun k => u k * applyRow S.diffNE y k) =
        -overLevels S edge gauss (fun k => y k * applyRow S.diffEN u k) := fun y u h0 h1 =>
    C88_energy_partial solve hs S.order S.levels (S.levels + 1) node edge S.diffNE S.diffEN hA hB E.separated E.apartNodes
      E.apartEdges gauss E.gaussRule E.onGauss lob E.lobattoRule E.onLobatto E.insideEdges E.insideNodes hsize y u h0 h1
  have hupR := upwind_work E hL G D M x _ _ 4 (Or.inr rfl) (node_four hL D M x) pR pE hpE hpR
  have hupP := upwind_work E hL G D M x _ _ 2 (Or.inl rfl) (node_two hL D M x) pP pX hpX hpP
  have aK := adj (kinetic S G (asColumn D x)) (flux S G (asColumn D x) (asColumn D x).r) (flux_ends _ _ _ _ _ (Or.inl rfl))
    (flux_ends _ _ _ _ _ (Or.inr le_rfl))
  have aZ := adj z (flux S G (asColumn D x) (asColumn D x).r) (flux_ends _ _ _ _ _ (Or.inl rfl))
    (flux_ends _ _ _ _ _ (Or.inr le_rfl))
  have aX := adj (exner S (asColumn D x)) (flux S G (asColumn D x) (asColumn D x).p) (flux_ends _ _ _ _ _ (Or.inl rfl))
    (flux_ends _ _ _ _ _ (Or.inr le_rfl))
  set K := kinetic S G (asColumn D x) with hK
  set Pi := exner S (asColumn D x) with hPi
  set F := flux S G (asColumn D x) (asColumn D x).r with hF
  set H := flux S G (asColumn D x) (asColumn D x).p with hH
  have hlev : ∀ k < S.levels, G.jac k * ((K k + S.phys.g * z k) * residual S G (setupColumn S D M) x (3 * k + 2) +
        Pi k * residual S G (setupColumn S D M) x (3 * k)) =
      ((K k * applyRow S.diffEN F k + S.phys.g * (z k * applyRow S.diffEN F k)) + Pi k * applyRow S.diffEN H k) -
        G.jac k * (K k + S.phys.g * z k) * upwind S G (setupColumn S D M) x 4 k -
        G.jac k * Pi k * upwind S G (setupColumn S D M) x 2 k +
        G.jac k * ((K k + S.phys.g * z k) * ((x (3 * k + 2) - D.node 4 k) / S.dt) + Pi k * ((x (3 * k) - D.node 2 k) / S.dt)) := by
    intro k hk
    obtain ⟨e1, e2⟩ := C90_levels hL E.elements G D M x href k hk
    rw [← node_four hL D M x, ← upwind_level hL G D M x 4 (Or.inr rfl) E.elements k, node_four hL D M x, ← hF] at e1
    rw [← node_two hL D M x, ← upwind_level hL G D M x 2 (Or.inl rfl) E.elements k, node_two hL D M x, ← hH, diffuse,
      if_neg (by simp [hu]), sub_zero] at e2
    rw [e1, e2]
    have := hJ k hk
    field_simp
    ring
  have hint : ∀ k ≤ S.levels, F k * residual S G (setupColumn S D M) x (3 * k + 1) =
      (H k * applyRow S.diffNE Pi k + S.phys.g * (F k * applyRow S.diffNE z k) + F k * applyRow S.diffNE K k) +
        F k * ((x (3 * k + 1) - D.edge 3 k) / S.dt) - F k * (shear S G (asColumn D x) k + upwindW S G (asColumn D x) k) := by
    intro k hk
    by_cases h0 : k = 0 ∨ S.levels ≤ k
    · rw [hF, hH, flux_ends _ _ _ _ _ h0, flux_ends _ _ _ _ _ h0]
      ring
    · have e := (C90_velocity hL G D M x href k).1 (by omega) (by omega)
      rw [diffuse, if_neg (by simp [hu]), sub_zero, ← hK, ← hPi, hz k (by omega) (by omega)] at e
      have hth : F k * theta S (asColumn D x) k = H k := by
        rw [hF, hH, flux, flux, theta]
        have := hr k (by omega) (by omega)
        field_simp
      rw [e, ← hth]
      ring
  rw [overLevels_congr S edge gauss _ _ hlev, overInterfaces_congr S edge lob _ _ hint]
  simp only [overLevels_add, overLevels_sub, overInterfaces_add, overInterfaces_sub, overLevels_mul, overInterfaces_mul]
  rw [aK, aZ, aX, hupR, hupP]
  ring

theorem applyRow_zero (A : Op) (k : Nat) : applyRow A (fun _ => 0) k = 0 := by
  rw [applyRow, rowLoop_eq]
  simp

/-- **C90 (rest).**  A column at rest without uniform diffusion has no residual if and only if it is in hydrostatic balance:
potential temperature times the derivative of Exner pressure is minus gravity times the derivative of height on every interface
inside the column. -/
theorem C90_rest {S : Setup} (hL : Lorenz S) (he : S.volumes = false) (hn : 0 < S.penalty.n) (href : S.useRef = true)
    (hu : S.uniform = false) (G : Metric) (D : Data) (M : Memory)
    (h0 : ∀ k, D.node 0 k = 0 ∧ D.node 1 k = 0 ∧ D.edge 3 k = 0) :
    (∀ i ≤ 3 * S.levels + 1, residual S G (setupColumn S D M) (setupColumn S D M).state i = 0) ↔
      ∀ k, 0 < k → k < S.levels →
        theta S (asColumn D (setupColumn S D M).state) k *
          applyRow S.diffNE (exner S (asColumn D (setupColumn S D M).state)) k = -(S.phys.g * G.derivREdge k) := by
  set x := (setupColumn S D M).state with hx
  have hcu : (asColumn D x).u = fun _ => 0 := by funext k; exact (h0 k).1
  have hcv : (asColumn D x).v = fun _ => 0 := by funext k; exact (h0 k).2.1
  have hcw : (asColumn D x).w = fun _ => 0 := by
    funext k
    exact (state_w hL D M k).trans (h0 k).2.2
  have hwind : ∀ k, verticalWind S G (asColumn D x) k = 0 := by
    intro k
    unfold verticalWind
    rw [hcu, hcv, hcw, applyRow_zero]
    simp
  have hflux : ∀ q, flux S G (asColumn D x) q = fun _ => 0 := by
    intro q
    funext k
    rw [flux, hwind, mul_zero]
  have hkin : kinetic S G (asColumn D x) = fun _ => 0 := by
    funext k
    unfold kinetic
    rw [hcu, hcv, hcw, applyRow_zero]
    simp
  have hshear : ∀ k, shear S G (asColumn D x) k = 0 := by
    intro k
    unfold shear
    rw [hcu, hcv, hcw, applyRow_zero, applyRow_zero]
    simp
  have hpen : ∀ y : Nat → ℝ, ∀ k, penaltyApply S.penalty (fun a => |verticalWind S G (asColumn D x) ((a + 1) * S.order)|) y
      (fun _ => 0) 1 1 k = 0 := by
    intro y k
    have : (fun a => |verticalWind S G (asColumn D x) ((a + 1) * S.order)|) = fun _ => 0 := by
      funext a; rw [hwind, abs_zero]
    rw [this]
    exact penalty_unweighted S.penalty hn y k
  have hvel : ∀ k, 0 < k → k < S.levels → residual S G (setupColumn S D M) x (3 * k + 1) =
      theta S (asColumn D x) k * applyRow S.diffNE (exner S (asColumn D x)) k + S.phys.g * G.derivREdge k := by
    intro k hk0 hk
    rw [(C90_velocity hL G D M x href k).1 hk0 hk, hkin, hshear, diffuse, if_neg (by simp [hu]), upwindW, hwind, applyRow_zero,
      ← state_w hL D M k]
    simp [hx]
  constructor
  · intro h k hk0 hk
    have := h (3 * k + 1) (by omega)
    rw [hvel k hk0 hk] at this
    linarith
  · intro h i hi
    obtain ⟨k, hk⟩ : ∃ k, i = 3 * k ∨ i = 3 * k + 1 ∨ i = 3 * k + 2 := ⟨i / 3, by omega⟩
    rcases hk with rfl | rfl | rfl
    · by_cases hk : k < S.levels
      · rw [(C90_levels hL he G D M x href k hk).2, hflux, applyRow_zero, hpen, diffuse, if_neg (by simp [hu]),
          ← (state_eq hL D M k hk).1]
        simp [hx]
      · have h1 := residual_at S G (setupColumn S D M) x 0 k (by omega)
        rw [Nat.add_zero] at h1
        rw [h1]
        unfold tendency
        rw [if_neg (by omega), if_neg hk]
        simp [onEdge, hL.2.1, hx]
    · by_cases hk : 0 < k ∧ k < S.levels
      · rw [hvel k hk.1 hk.2, h k hk.1 hk.2]
        ring
      · rw [(C90_velocity hL G D M x href k).2 (by omega), ← state_w hL D M k]
        simp [hx]
    · have hk : k < S.levels := by omega
      rw [(C90_levels hL he G D M x href k hk).1, hflux, applyRow_zero, hpen, ← (state_eq hL D M k hk).2]
      simp [hx]

/-- **C90 (history).**  What was computed before for other columns does not matter. -/
theorem C90_history {S : Setup} (hL : Lorenz S) (he : S.volumes = false) (href : S.useRef = true) (G : Metric) (D : Data)
    (M M' : Memory) (x : Nat → ℝ) (c k : Nat) (hk : k < S.levels ∨ (c = 1 ∧ k = S.levels)) (hc : c < 3) :
    residual S G (setupColumn S D M) x (3 * k + c) = residual S G (setupColumn S D M') x (3 * k + c) := by
  obtain rfl | rfl | rfl : c = 0 ∨ c = 1 ∨ c = 2 := by omega
  · have h := C90_levels hL he G D M x href k (by omega)
    have h' := C90_levels hL he G D M' x href k (by omega)
    rw [Nat.add_zero, h.2, h'.2]
  · by_cases h0 : 0 < k ∧ k < S.levels
    · rw [(C90_velocity hL G D M x href k).1 h0.1 h0.2, (C90_velocity hL G D M' x href k).1 h0.1 h0.2]
    · rw [(C90_velocity hL G D M x href k).2 (by omega), (C90_velocity hL G D M' x href k).2 (by omega)]
  · have h := C90_levels hL he G D M x href k (by omega)
    have h' := C90_levels hL he G D M' x href k (by omega)
    rw [h.1, h'.1]

/-- **C90, where the code does something else.**  With Charney–Phillips staggering, density times potential temperature is stored
on interfaces, but what is on interfaces is overwritten with an interpolation of what is on levels, which is left over from
before: the residuals of vertical velocity and density do not depend on the density times potential temperature of the column. -/
theorem C90_staggering_false {S : Setup} (h1 : S.wOnEdge = true) (h2 : S.pOnEdge = true) (G : Metric) (M : Memory)
    (x x' : Nat → ℝ) (hx : ∀ k, x (3 * k + 1) = x' (3 * k + 1) ∧ x (3 * k + 2) = x' (3 * k + 2)) (k : Nat) :
    residual S G M x (3 * k + 1) = residual S G M x' (3 * k + 1) ∧ residual S G M x (3 * k + 2) = residual S G M x' (3 * k + 2) := by
  have hw : wEdge S M x = wEdge S M x' := by
    unfold wEdge vec
    rw [h1]
    funext k
    exact (hx k).1
  have hn : ∀ c, nodeState S M x c = nodeState S M x' c := by
    intro c
    unfold nodeState vec
    rw [h1, h2, hw]
    simp only [(fun k => (hx k).2 : ∀ k, x (3 * k + 2) = x' (3 * k + 2))]
    simp
  have hed : ∀ c, edgeState S M x c = edgeState S M x' c := by
    intro c
    unfold edgeState
    rw [h1, hw, hn, hn]
    simp
  have hxi : xiDotEdge S G M x = xiDotEdge S G M x' := by
    funext k
    unfold xiDotEdge
    simp only [hed]
  have hxn : xiDotNode S G M x = xiDotNode S G M x' := by
    funext k
    unfold xiDotNode
    simp only [hn]
  constructor
  · rw [residual_at S G M x 1 k (by omega), residual_at S G M x' 1 k (by omega), (hx k).1]
    congr 1
    unfold tendency diffFlux forceEdge forceNode diffPEdge diffPNode diffusion diffDiffUniform upwind kineticNode
    have hex : exnerNode S M x = exnerNode S M x' := by
      funext k
      unfold exnerNode
      rw [hn]
    have huw : upwindWeight S G M x = upwindWeight S G M x' := by
      funext k
      unfold upwindWeight
      rw [hxi]
    simp only [hn, hed, hxi, hxn, hex, huw]
  · rw [residual_at S G M x 2 k (by omega), residual_at S G M x' 2 k (by omega), (hx k).2]
    congr 1
    unfold tendency diffFlux diffusion diffDiffUniform upwind forceEdge forceNode diffPEdge diffPNode kineticNode
    have huw : upwindWeight S G M x = upwindWeight S G M x' := by
      funext k
      unfold upwindWeight
      rw [hxi]
    have hex : exnerNode S M x = exnerNode S M x' := by
      funext k
      unfold exnerNode
      rw [hn]
    simp only [hn, hed, hxi, hxn, huw, hex]

end Verif.Vdyn
