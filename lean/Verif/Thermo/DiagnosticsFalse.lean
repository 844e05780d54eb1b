import Mathlib.Tactic.NormNum
import Verif.Thermo.DiagnosticsProps

/-!
# C86: where the diagnostics do not report what they say, and samples
-/

namespace Verif.Thermo

open Verif.Horiz Verif.Nonhydro

/-- One column of one node and two levels. -/
noncomputable def sampleGauge : Gauge where
  S := ⟨1, 1, 1, 2, 0, 0⟩
  components := 5
  shallow := false
  pOnEdge := false
  wOnEdge := false
  rOnEdge := false
  phys := after []
  con2A := fun _ _ b => if b = 0 then 1 else 0
  con2B := fun _ _ b => if b = 0 then 0 else 1
  jac2 := fun _ _ => 1
  topo := fun _ _ => 0
  lat := fun _ _ => 0
  zLevel := fun _ _ k => k
  zInterface := fun _ _ k => k
  conA := fun _ _ _ b => if b = 0 then 1 else 0
  conB := fun _ _ _ b => if b = 1 then 1 else 0
  conXi := fun _ _ _ b => if b = 2 then 1 else 0
  conXiEdge := fun _ _ _ b => if b = 2 then 1 else 0
  area := fun _ _ _ => 1
  areaEdge := fun _ _ _ => 1
  toNode := fun k l => if l = k ∨ l = k + 1 then 1 / 2 else 0

theorem gas_fresh : Gas [] := by
  constructor <;> norm_num [latest_nil, fresh]

/-- The theorems apply to the sample with every variable one, in every staggering. -/
example (u : Data) (hu : ∀ x, u x = 1) (i j k : Nat) (p : Bool) :
    sampleGauge.phys = after [] ∧ ¬ sampleGauge.components < 5 ∧ Interior sampleGauge.S 0 0 ∧
      (k < 2 → 0 < heat { sampleGauge with pOnEdge := p } u i j k) ∧ density sampleGauge u i j k ≠ 0 := by
  refine ⟨rfl, by simp [sampleGauge], by simp [Interior, sampleGauge], fun hk => ?_, by simp [density, sampleGauge, hu]⟩
  unfold heat lowered
  cases p
  · simp [hu]
  · simp only [hu, sampleGauge, Finset.sum_range_succ, Finset.sum_range_zero]
    obtain rfl | rfl : k = 0 ∨ k = 1 := by omega
    all_goals norm_num

/-- The metric of the sample is its own inverse. -/
example (i j : Nat) : sampleGauge.metric2 i j 0 1 = sampleGauge.metric2 i j 1 0 ∧
    sampleGauge.jac2 i j ^ 2 * sampleGauge.metric2 i j 1 1 = sampleGauge.metric2 i j 0 0 ∧
    -(sampleGauge.jac2 i j ^ 2 * sampleGauge.metric2 i j 0 1) = sampleGauge.metric2 i j 0 1 ∧
    sampleGauge.jac2 i j ^ 2 * sampleGauge.metric2 i j 0 0 = sampleGauge.metric2 i j 1 1 := by
  norm_num [sampleGauge, Gauge.metric2]

/-- **C86 fails for pressure with density times potential temperature on interfaces.**  One would have the pressure
follow the state.  Where density times potential temperature lives on interfaces the pressure is computed from the copy on
levels: there are two states with different values everywhere on interfaces, and the same result. -/
theorem C86_false_pressure : ∃ (G : Gauge) (u v : Data), G.pOnEdge = true ∧ (∀ i j k, heat G u i j 0 ≠ heat G v i j k) ∧
    ∀ p, computePressure G u p = computePressure G v p ∧ (computePressure G u p).isSome := by
  refine ⟨{ sampleGauge with pOnEdge := true, toNode := fun _ l => if l = 0 then 1 else 0 }, fun _ => 1,
    fun x => if x.v = .state 2 then 1 else 2, rfl, fun i j k => ?_, fun p => ⟨?_, ?_⟩⟩
  · simp [heat, lowered, sampleGauge, edge, Finset.sum_range_succ]
  · simp [computePressure]
  · simp [computePressure, sampleGauge]

/-- **C86 fails for energy with vertical velocity on interfaces.**  One would have the energy be a function of the state.
With vertical velocity on interfaces it is not: two states that agree in every variable where it lives have different
energies, since vertical velocity on levels and density on interfaces are read as the arrays hold them. -/
theorem C86_false_interfaces : ∃ (G : Gauge) (u v w : Data), G.wOnEdge = true ∧ G.shallow = false ∧ SameState G u v ∧
    SameState G u w ∧ energyOf G u ≠ energyOf G v ∧ energyOf G u ≠ energyOf G w := by
  let G : Gauge := { sampleGauge with wOnEdge := true, conXi := fun _ _ _ _ => 1 / 2, conXiEdge := fun _ _ _ _ => 1 }
  let a : Data := fun _ => 1
  let b : Data := fun x => if x.v = .state 3 then 2 else 1
  let c : Data := fun x => if x.v = edge 4 then 2 else 1
  refine ⟨G, a, b, c, rfl, rfl, ?_, ?_, ?_, ?_⟩
  · intro i j k
    simp [G, a, b, sampleGauge, edge]
  · intro i j k
    simp [G, a, c, sampleGauge, edge]
  · unfold energyOf
    simp only [nodes_add, zero_add, G, sampleGauge, total, a, b, levelPoint, crossDot, gaugeUa, gaugeUb, interfacePoint, edge]
    simp [Finset.sum_range_succ]
    generalize pressureFromRhoTheta (after []) 1 = x
    generalize (after []).gamma - 1 = y
    intro h
    linarith
  · unfold energyOf
    simp only [nodes_add, zero_add, G, sampleGauge, total, a, c, levelPoint, crossDot, gaugeUa, gaugeUb, interfacePoint, edge]
    simp [Finset.sum_range_succ]
    norm_num

/-- **C86 fails for shallow water on any metric but those.**  One would have the kinetic energy be half the product of
covariant and contravariant velocity, as in the step that moves the fluid.  The diagnostic takes the variables, which are
covariant, for contravariant: there are a metric with its Jacobian and a state for which it reports a kinetic energy
sixteen times too small. -/
theorem C86_false_shallow : ∃ (G : Gauge) (u : Data), G.shallow = true ∧
    (∀ i j, G.jac2 i j ^ 2 * (G.metric2 i j 0 0 * G.metric2 i j 1 1 - G.metric2 i j 0 1 * G.metric2 i j 1 0) = 1) ∧
    (∀ i j k, shallowDot G u i j k = 1 / 4 ∧ square 2 (G.metric2 i j) (wind u i j k) = 4) := by
  refine ⟨{ sampleGauge with
      shallow := true
      con2A := fun _ _ b => if b = 0 then 4 else 0
      con2B := fun _ _ b => if b = 0 then 0 else 1 / 4 }, fun x => if x.v = .state 0 then 1 else 0, rfl, ?_, ?_⟩
  · intro i j
    norm_num [Gauge.metric2, sampleGauge]
  · intro i j k
    norm_num [shallowDot, square, Gauge.metric2, sampleGauge, wind, Finset.sum_range_succ]

/-- **C86 fails for potential enstrophy of the nonhydrostatic equations.**  An enstrophy is never negative and vanishes
without rotation and vorticity.  What is reported is the sum of density times alpha velocity, of either sign. -/
theorem C86_false_enstrophy : ∃ (G : Gauge) (D : Nat → Data), G.shallow = false ∧
    computeTotalPotentialEnstrophy G (fun _ => 0) D 1 0 = some (-2) := by
  refine ⟨sampleGauge, fun _ x => if x.v = .state 0 then -1 else 1, rfl, ?_⟩
  unfold computeTotalPotentialEnstrophy withInstance
  rw [if_neg (by norm_num)]
  dsimp only
  rw [if_neg (by simp [sampleGauge]), nodes_add, zero_add]
  norm_num [total, sampleGauge, Finset.sum_range_succ]

/-- **C86 fails without MPI.**  A build without MPI reports zero for every total, whatever the patches hold. -/
theorem C86_false_serial (patches : List ℝ) : gridTotal false [patches] 0 = 0 := by
  simp [gridTotal]

end Verif.Thermo
