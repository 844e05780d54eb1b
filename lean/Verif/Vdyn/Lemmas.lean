/-
Lemmas: what `PrepareColumn` computes, in the words of the specification; the derivative of a column that vanishes at both ends
has no integral.
-/
import Verif.Vdyn.Spec
import Verif.Column.FluxAdjoint
import Verif.Column.DiffDiffProps
import Verif.Column.PenaltyProps

namespace Verif.Vdyn

open Verif.Column Verif.Interp Finset Polynomial

section Prepared

variable {S : Setup} (hL : Lorenz S) (G : Metric) (D : Data) (M : Memory) (x : Nat → ℝ)
include hL

theorem node_zero : nodeState S (setupColumn S D M) x 0 = D.node 0 := by
  simp [nodeState, setupColumn]

theorem node_one : nodeState S (setupColumn S D M) x 1 = D.node 1 := by
  simp [nodeState, setupColumn]

theorem node_two : nodeState S (setupColumn S D M) x 2 = (asColumn D x).p := by
  obtain ⟨h1, h2, h3⟩ := hL
  simp [nodeState, h2, asColumn, vec]

theorem node_three : nodeState S (setupColumn S D M) x 3 = applyRow S.interpEN (asColumn D x).w := by
  obtain ⟨h1, h2, h3⟩ := hL
  simp [nodeState, h1, wEdge, asColumn, vec]

theorem node_four : nodeState S (setupColumn S D M) x 4 = (asColumn D x).r := by
  simp [nodeState, asColumn, vec]

theorem edge_zero : edgeState S (setupColumn S D M) x 0 = applyRow S.interpNE (asColumn D x).u := by
  obtain ⟨h1, h2, h3⟩ := hL
  simp [edgeState, setupColumn, h1, asColumn]

theorem edge_one : edgeState S (setupColumn S D M) x 1 = applyRow S.interpNE (asColumn D x).v := by
  obtain ⟨h1, h2, h3⟩ := hL
  simp [edgeState, setupColumn, h1, asColumn]

theorem edge_two : edgeState S (setupColumn S D M) x 2 = applyRow S.interpNE (asColumn D x).p := by
  have h := node_two hL D M x
  obtain ⟨h1, h2, h3⟩ := hL
  simp [edgeState, h1, h]

theorem edge_three : edgeState S (setupColumn S D M) x 3 = (asColumn D x).w := by
  obtain ⟨h1, h2, h3⟩ := hL
  simp [edgeState, h1, wEdge, asColumn, vec]

theorem edge_four : edgeState S (setupColumn S D M) x 4 = applyRow S.interpNE (asColumn D x).r := by
  have h := node_four hL D M x
  obtain ⟨h1, h2, h3⟩ := hL
  simp [edgeState, h1, h]

theorem wind_eq : xiDotEdge S G (setupColumn S D M) x = verticalWind S G (asColumn D x) := by
  funext k
  unfold xiDotEdge verticalWind
  rw [edge_zero hL, edge_one hL, edge_three hL]
  by_cases h : 1 ≤ k ∧ k < S.levels
  · rw [if_pos h, if_neg (by omega)]
  · rw [if_neg h, if_pos (by omega)]

theorem exner_eq : exnerNode S (setupColumn S D M) x = exner S (asColumn D x) := by
  funext k
  unfold exnerNode exner Thermo.exnerFromRhoTheta
  rw [node_two hL]

theorem kinetic_eq : kineticNode S G (setupColumn S D M) x = kinetic S G (asColumn D x) := by
  funext k
  unfold kineticNode kinetic contra
  rw [node_zero hL, node_one hL, node_three hL]
  dsimp only [asColumn]
  ring

theorem flux_eq (c : Nat) (q : Nat → ℝ) (hc : edgeState S (setupColumn S D M) x c = applyRow S.interpNE q) :
    diffFlux S G (setupColumn S D M) x c = applyRow S.diffEN (flux S G (asColumn D x) q) := by
  unfold diffFlux fluxOnLevels
  obtain ⟨h1, h2, h3⟩ := hL
  rw [h1, h3]
  simp only [Bool.not_true, Bool.or_self, Bool.false_eq_true, if_false]
  congr 1
  funext k
  unfold flux
  rw [hc, wind_eq ⟨h1, h2, h3⟩]
  by_cases h : 1 ≤ k ∧ k < S.levels
  · rw [if_pos h]
  · rw [if_neg h, verticalWind, if_pos (by omega), mul_zero]

theorem upwind_level (c : Nat) (hc : c = 2 ∨ c = 4) (he : S.volumes = false) (k : Nat) :
    upwind S G (setupColumn S D M) x c k =
      penaltyApply S.penalty (fun a => |verticalWind S G (asColumn D x) ((a + 1) * S.order)|)
        (nodeState S (setupColumn S D M) x c) (fun _ => 0) 1 1 k := by
  have hw : upwindWeight S G (setupColumn S D M) x = fun a => |verticalWind S G (asColumn D x) ((a + 1) * S.order)| := by
    funext a
    unfold upwindWeight perElement
    rw [wind_eq hL, he]
    simp
  obtain ⟨h1, h2, h3⟩ := hL
  unfold upwind onEdge
  rw [hw, h2]
  rcases hc with rfl | rfl <;> simp

end Prepared

/-- Without weights the penalty adds nothing. -/
theorem penalty_unweighted (P : Penalty) (hn : 0 < P.n) (y : Nat → ℝ) (k : Nat) :
    penaltyApply P (fun _ => 0) y (fun _ => 0) 1 1 k = 0 := by
  unfold penaltyApply
  rw [addBuffer_at P.n hn 1 _ _ _ _ 1 one_pos, range_eq', addBuffer_at P.n hn 0 _ _ _ _ 1 one_pos]
  simp

/-- The state of a set up column is the data. -/
theorem state_eq {S : Setup} (hL : Lorenz S) (D : Data) (M : Memory) (k : Nat) (hk : k < S.levels) :
    (setupColumn S D M).state (3 * k) = D.node 2 k ∧ (setupColumn S D M).state (3 * k + 2) = D.node 4 k := by
  obtain ⟨h1, h2, h3⟩ := hL
  have a0 : 3 * k % 3 = 0 := by omega
  have a1 : 3 * k / 3 = k := by omega
  have b0 : (3 * k + 2) % 3 = 2 := by omega
  have b1 : (3 * k + 2) / 3 = k := by omega
  simp [setupColumn, h2, hk, b0, b1]

theorem state_w {S : Setup} (hL : Lorenz S) (D : Data) (M : Memory) (k : Nat) :
    (setupColumn S D M).state (3 * k + 1) = D.edge 3 k := by
  obtain ⟨h1, h2, h3⟩ := hL
  have b0 : (3 * k + 1) % 3 = 1 := by omega
  have b1 : (3 * k + 1) / 3 = k := by omega
  simp [setupColumn, h1, b0, b1]

/-- The entries of the residual. -/
theorem residual_at (S : Setup) (G : Metric) (M : Memory) (x : Nat → ℝ) (c k : Nat) (hc : c < 3) :
    residual S G M x (3 * k + c) = tendency S G M x (c + 2) k + (x (3 * k + c) - M.state (3 * k + c)) * (1 / S.dt) := by
  unfold residual
  rw [show (3 * k + c) % 3 = c by omega, show (3 * k + c) / 3 = k by omega]

/-- The derivative from interfaces to levels integrates to the difference of the values at the ends. -/
theorem derivative_total {S : Setup} {node edge : Nat → ℝ} {gauss lob : List ℝ × List ℝ} (E : Elements S node edge gauss lob)
    (f : Nat → ℝ) : overLevels S edge gauss (applyRow S.diffEN f) = f S.levels - f 0 := by
  obtain ⟨solve, hs, hA, hB, -⟩ := E.setup
  obtain ⟨hn, hN, hm, -⟩ := flux_cases hA
  unfold overLevels
  have hel : ∀ a ∈ range (S.levels / S.order), ∑ i ∈ range S.order, levelWeight S.order edge gauss (a * S.order + i) *
      applyRow S.diffEN f (a * S.order + i) = f ((a + 1) * S.order) - f (a * S.order) := by
    intro a ha
    rw [mem_range] at ha
    obtain ⟨p, h1, h2⟩ := lagrange_exists (S.order + 1) (a * S.order) edge f (apart_distinct (E.apartEdges a ha))
    have hd : (derivative p).degree < (2 * S.order : ℕ) := by
      refine lt_of_le_of_lt (degree_derivative_le) (lt_of_lt_of_le h1 ?_)
      exact_mod_cast (by omega : S.order + 1 ≤ 2 * S.order)
    have key := element_rule S.order S.order (2 * S.order) edge (fun i => node (a * S.order + i)) gauss E.gaussRule.1
      E.gaussRule.2 a (fun i hi => (E.onGauss a ha).2 i hi) (derivative p) hd
    rw [poly_ftc] at key
    have e0 := h2 0 (by omega)
    have e1 := h2 S.order (by omega)
    rw [Nat.add_zero] at e0
    rw [show (a + 1) * S.order = a * S.order + S.order by ring] at key ⊢
    rw [e0, e1] at key
    rw [← key]
    apply sum_congr rfl
    intro i hi
    rw [mem_range] at hi
    rw [levelWeight_eq _ _ _ _ _ hi]
    congr 1
    have hin := E.insideNodes a ha i hi
    have hcase := (C70_interfaces S.order S.levels (S.levels + 1) node edge S.levels node false S.diffEN hB E.separated
      (a * S.order + i) a f).2.2.2.1 hin (E.apartEdges a ha) p (by exact_mod_cast h1) h2
    exact hcase
  have eN : range S.levels = range (S.levels / S.order * S.order) := by rw [← hN]
  rw [eN, element_sum, sum_congr rfl hel, sum_range_sub (fun a => f (a * S.order)), Nat.zero_mul, ← hN]

end Verif.Vdyn
