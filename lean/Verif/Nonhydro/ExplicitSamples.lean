import Verif.Nonhydro.ExplicitMore
import Verif.Nonhydro.Samples

/-!
# C84: cases that meet the hypotheses
-/

namespace Verif.Nonhydro

open Verif.Horiz

/-- The slope of `Verif.Nonhydro.Samples` with a horizontal metric, uniform diffusion and a reference state with shear. -/
noncomputable def windy (eqn : Equations) : Dynamics where
  A := { slope with G := { slope.G with metA := fun _ _ m => if m = 0 then 1 else 0
                                        metB := fun _ _ m => if m = 1 then 1 else 0 } }
  eqn := eqn
  nuVector := 1 / 4
  jacEdge := fun _ _ _ => 5
  area := fun iA iB k => volume slope simpsonW (fun _ => 1) iA iB k
  ref := fun x => match x.v with
    | .state 0 => x.k
    | .state 2 => 300
    | _ => 0
  refLength := 0

/-- All instances hold the moving state. -/
noncomputable def sampleData : Nat → Data := fun _ => moving

theorem windy_done (eqn : Equations) (h : eqn ≠ .other) (dt : ℝ) (D : Nat → Data) :
    (∃ D', stepExplicit (windy eqn) 0 1 dt D = .done D') ∧
      ∃ D', stepExplicit (windy eqn).inviscid 0 1 dt D = .done D' := by
  have e : ∀ E : Dynamics, E.A.wOnEdge = true → E.eqn ≠ .other → ∃ D', stepExplicit E 0 1 dt D = .done D' := by
    intro E hw hE
    refine (C84_refused E 0 1 dt D).2.2 ⟨by decide, ?_⟩
    cases he : E.eqn with
    | primitive => exact Or.inr ⟨rfl, C83_defined E.A hw _ _ _⟩
    | shallow => exact Or.inl rfl
    | other => exact absurd he hE
  exact ⟨e _ rfl h, e _ rfl h⟩

theorem windy_regular (eqn : Equations) (a b k : Nat) : Regular (windy eqn).A a b k := fun _ _ _ _ => by
  unfold place windy slope
  norm_num

theorem windy_metric (eqn : Equations) (a b : Nat) : Metric (windy eqn).medium a b := fun _ _ _ _ => by
  simp [jacAt, Dynamics.medium, windy, slope]

theorem simpsonW_pos (i : Nat) : 0 < simpsonW i := by
  unfold simpsonW
  split <;> norm_num

theorem windy_areas (eqn : Equations) (a b k : Nat) : PositiveAreas (windy eqn).A.G.S (windy eqn).area a b k :=
    fun i j _ _ => by
  have h1 := simpsonW_pos ((((windy eqn).A.G.S.halo + a * (windy eqn).A.G.S.order + i) - slope.G.S.halo) % slope.G.S.order)
  have h2 := simpsonW_pos ((((windy eqn).A.G.S.halo + b * (windy eqn).A.G.S.order + j) - slope.G.S.halo) % slope.G.S.order)
  show 0 < volume slope simpsonW (fun _ => 1) _ _ k
  unfold volume
  have e1 : slope.jac ((windy eqn).A.G.S.halo + a * (windy eqn).A.G.S.order + i)
    ((windy eqn).A.G.S.halo + b * (windy eqn).A.G.S.order + j) k = 5 := rfl
  have e2 : slope.G.deltaA = 2 := rfl
  have e3 : slope.G.deltaB = 1 := rfl
  rw [e1, e2, e3]
  positivity

/-- A step of the nonhydrostatic equations goes through, keeps the mass of air, of the tracer and of density times
potential temperature, and leaves no negative tracer. -/
example : ∃ D', stepExplicit (windy .primitive) 0 1 (1 / 100) sampleData = .done D' ∧
    overElement (windy .primitive).A simpsonW (fun _ => 1) 1 0 1 (value (windy .primitive).A.G.S (D' 1) (.state 4) 1 0 1) =
      overElement (windy .primitive).A simpsonW (fun _ => 1) 1 0 1
        (value (windy .primitive).A.G.S (sampleData 1) (.state 4) 1 0 1) ∧
    overElement (windy .primitive).A simpsonW (fun _ => 1) 1 0 1 (value (windy .primitive).A.G.S (D' 1) (.state 2) 1 0 1) =
      overElement (windy .primitive).A simpsonW (fun _ => 1) 1 0 1
        (value (windy .primitive).A.G.S (sampleData 1) (.state 2) 1 0 1) ∧
    0 ≤ value (windy .primitive).A.G.S (D' 1) (.tracer 0) 1 0 1 2 2 := by
  obtain ⟨D', h⟩ := (windy_done .primitive (by simp) (1 / 100) sampleData).1
  refine ⟨D', h, ?_, ?_, ?_⟩
  · exact C84_mass _ 0 1 _ _ _ h simpsonW simpson_paired _ 1 0 1 (by decide) (by decide) (by decide) rfl
      (windy_regular _ _ _ _)
  · exact C84_theta _ 0 1 _ _ _ h simpsonW simpson_paired _ 1 0 1 (by decide) (by decide) (by decide) rfl rfl
      (windy_regular _ _ _ _)
  · refine (C84_tracers _ 0 1 _ _ _ h simpsonW simpson_paired (fun _ => 1) 1 0 1 (by decide) (by decide) (by decide) rfl
      (windy_regular _ _ _ _) rfl (windy_areas _ _ _ _) 0 (by decide) ?_).2 2 2 (by decide) (by decide)
    unfold overElement
    refine Finset.sum_nonneg (fun i hi => Finset.sum_nonneg (fun j hj => mul_nonneg ?_ ?_))
    · exact (windy_areas .primitive 1 0 1 i j (Finset.mem_range.1 hi) (Finset.mem_range.1 hj)).le
    · show (0 : ℝ) ≤ 2 * (1 + ((_ : ℕ) : ℝ))
      positivity

/-- A step of the shallow water equations does the same. -/
example : ∃ D', stepExplicit (windy .shallow) 0 1 (1 / 100) sampleData = .done D' ∧
    (∀ m, m ≠ 1 → D' m = sampleData m) := by
  obtain ⟨D', h⟩ := (windy_done .shallow (by simp) (1 / 100) sampleData).1
  have hi := C84_instances _ 0 1 _ _ _ h
  refine ⟨D', h, fun m hm => ?_⟩
  by_cases h0 : m = 0
  · rw [h0]
    exact hi.2.1 rfl
  · exact hi.1 m h0 hm

/-- The wind of the moving state deviates from the reference wind and the diffusion acts on it: the hypotheses of
`C84_wind` hold, and the vorticity of the deviation is not zero. -/
example : ∃ D' D0, stepExplicit (windy .primitive) 0 1 (1 / 100) sampleData = .done D' ∧
    stepExplicit (windy .primitive).inviscid 0 1 (1 / 100) sampleData = .done D0 ∧
    flowDot (windy .primitive).medium simpsonW 1 0 (windDeviation (windy .primitive) moving 1 0 1)
        (flowChange (windy .primitive).A.G.S (D' 1) (D0 1) 1 0 1) =
      -(1 / 100 * (1 / 4)) * (areaSum (windy .primitive).medium simpsonW 1 0 (fun i j =>
          (windDeviation (windy .primitive) moving 1 0 1).div (windy .primitive).medium 1 0 i j ^ 2) +
        areaSum (windy .primitive).medium simpsonW 1 0 (fun i j =>
          (windDeviation (windy .primitive) moving 1 0 1).curl (windy .primitive).medium 1 0 i j ^ 2)) ∧
    (windDeviation (windy .primitive) moving 1 0 1).curl (windy .primitive).medium 1 0 1 1 ≠ 0 := by
  obtain ⟨⟨D', h⟩, D0, h0⟩ := windy_done .primitive (by simp) (1 / 100) sampleData
  refine ⟨D', D0, h, h0, ?_, ?_⟩
  · exact C84_wind _ 0 1 _ _ _ _ h h0 rfl simpsonW simpson_paired 1 0 1 (by decide) (by decide) (by decide) rfl
      (windy_metric _ _ _)
  · simp [Flow.curl, windDeviation, deviation, value, Horiz.slopeA, Horiz.slopeB, jacAt, Dynamics.medium, windy, slope,
      moving, simpson, simpsonDx, Finset.sum_range_succ]
    norm_num

/-- The scalar theorem applies at the lowest interface to vertical velocity and at the upper level to density times
potential temperature. -/
example : ∃ D' D0, stepExplicit (windy .primitive) 0 1 (1 / 100) sampleData = .done D' ∧
    stepExplicit (windy .primitive).inviscid 0 1 (1 / 100) sampleData = .done D0 ∧
    vertical (windy .primitive) = edge 3 ∧ Carried (windy .primitive).medium (edge 3) 2 ∧
    RegularFor (windy .primitive).medium (edge 3) 1 0 2 ∧
    theta (windy .primitive) = .state 2 ∧ Carried (windy .primitive).medium (.state 2) 1 ∧
    RegularFor (windy .primitive).medium (.state 2) 1 0 1 := by
  obtain ⟨⟨D', h⟩, D0, h0⟩ := windy_done .primitive (by simp) (1 / 100) sampleData
  refine ⟨D', D0, h, h0, rfl, Or.inr ⟨rfl, by decide⟩, fun i j _ _ => ?_, rfl, Or.inl ⟨rfl, by decide⟩, fun i j _ _ => ?_⟩
  · simp [density, edge, Dynamics.medium, windy]
  · simp [density, Dynamics.medium, windy, slope]

/-- The reference state itself meets the hypothesis of `C84_reference`. -/
example : ∃ D' D0, stepExplicit (windy .primitive) 0 1 (1 / 100) (fun _ => (windy .primitive).ref) = .done D' ∧
    stepExplicit (windy .primitive).inviscid 0 1 (1 / 100) (fun _ => (windy .primitive).ref) = .done D0 ∧
    value (windy .primitive).A.G.S (D' 1) (.state 0) 1 0 1 2 1 = value (windy .primitive).A.G.S (D0 1) (.state 0) 1 0 1 2 1 := by
  obtain ⟨⟨D', h⟩, D0, h0⟩ := windy_done .primitive (by simp) (1 / 100) (fun _ => (windy .primitive).ref)
  refine ⟨D', D0, h, h0, ?_⟩
  exact C84_reference _ 0 1 _ _ _ _ h h0 rfl (fun _ _ => rfl) (.state 0) 0 rfl 1 0 1 2 1 (by decide) (by decide)
    (Or.inl ⟨rfl, by decide⟩) (by decide) (by decide) simpsonW simpson_paired

end Verif.Nonhydro
