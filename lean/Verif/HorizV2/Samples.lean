import Verif.HorizV2.Keep
import Verif.Nonhydro.ExplicitSamples

/-!
# Settings for the examples of C129 and C130
-/

namespace Verif.HorizV2

open Verif.Horiz Verif.Nonhydro

/-- Derivatives of the cubics with nodes `0, 1/3, 2/3, 1`. -/
noncomputable def cubicDx : Nat → Nat → ℝ
  | 0, 0 => -11 / 2
  | 1, 0 => 9
  | 2, 0 => -9 / 2
  | 3, 0 => 1
  | 0, 1 => -1
  | 1, 1 => -3 / 2
  | 2, 1 => 3
  | 3, 1 => -1 / 2
  | 0, 2 => 1 / 2
  | 1, 2 => -3
  | 2, 2 => 3 / 2
  | 3, 2 => 1
  | 0, 3 => -1
  | 1, 3 => 9 / 2
  | 2, 3 => -9
  | 3, 3 => 11 / 2
  | _, _ => 0

/-- The weights of the three-eighths rule. -/
noncomputable def cubicW : Nat → ℝ
  | 0 => 1 / 8
  | 3 => 1 / 8
  | _ => 3 / 8

noncomputable def cubic : Basis := ⟨cubicDx, fun m i => cubicDx m i * cubicW i / cubicW m⟩

theorem cubic_paired : Paired 4 cubic cubicW := by
  constructor
  · intro i hi
    interval_cases i <;> simp [Finset.sum_range_succ, cubic, cubicDx] <;> norm_num
  · intro m i hm hi
    interval_cases m <;> interval_cases i <;> norm_num [cubic, cubicDx, cubicW]

/-- The slope of `Verif.Nonhydro.Samples` at fourth order. -/
noncomputable def steep (uniform : Bool) : Air :=
  { slope with
    G := { slope.G with S := ⟨4, 2, 1, 2, 1, 1⟩
                        metA := fun _ _ m => if m = 0 then 1 else 0
                        metB := fun _ _ m => if m = 1 then 1 else 0 }
    B := cubic
    uniform := uniform }

theorem steep_lorenz (uniform : Bool) : Lorenz (steep uniform) :=
  ⟨rfl, fun _ _ _ => by simp [steep, slope], rfl, rfl, rfl⟩

noncomputable def steepDynamics (eqn : Nonhydro.Equations) (uniform : Bool) : Dynamics where
  A := steep uniform
  eqn := eqn
  nuVector := 1 / 4
  jacEdge := fun _ _ _ => 5
  area := fun _ _ _ => 1
  ref := fun x => match x.v with
    | .state 0 => x.k
    | .state 2 => 300
    | _ => 0
  refLength := 0

theorem steep_regular (uniform : Bool) (a b k : Nat) : Regular (steep uniform) a b k := fun _ _ _ _ => by
  unfold place steep slope
  norm_num

/-- Both versions run, on a moving state over the slope, and agree. -/
example : ∃ D2 D1, stepExplicit (steepDynamics .primitive false) 0 1 (1 / 100) sampleData = .done D2 ∧
    Nonhydro.stepExplicit (steepDynamics .primitive false) 0 1 (1 / 100) sampleData = .done D1 ∧
    D2 1 ⟨.state 2, 6, 2, 1⟩ = D1 1 ⟨.state 2, 6, 2, 1⟩ := by
  obtain ⟨D2, D1, h2, h1, h⟩ := C129_explicit (steepDynamics .primitive false) 0 1 (1 / 100) sampleData rfl rfl
    (fun _ => steep_lorenz false) rfl (by decide) (by simp [steepDynamics])
  exact ⟨D2, D1, h2, h1, h 1 _ 2 rfl (fun e => absurd e (by decide))⟩

example : ∃ D2 D1, stepExplicit (steepDynamics .shallow true) 2 1 (1 / 100) sampleData = .done D2 ∧
    Nonhydro.stepExplicit (windReference (steepDynamics .shallow true) (sampleData 0)) 2 1 (1 / 100) sampleData =
      .done D1 ∧ D2 1 ⟨.state 0, 6, 2, 1⟩ = D1 1 ⟨.state 0, 6, 2, 1⟩ := by
  obtain ⟨D2, D1, h2, h1, h⟩ := C129_uniform_wind (steepDynamics .shallow true) 2 1 (1 / 100) sampleData rfl rfl
    (fun e => by cases e) (by decide) (by decide) (by simp [steepDynamics])
  exact ⟨D2, D1, h2, h1, h 1 _ 0 rfl (fun e => absurd e (by decide))⟩

/-- With the reference state in instance zero both agree with uniform diffusion. -/
example : ∃ D2 D1, stepExplicit (steepDynamics .primitive true) 2 1 (1 / 100)
      (store sampleData 0 (steepDynamics .primitive true).ref) = .done D2 ∧
    Nonhydro.stepExplicit (steepDynamics .primitive true) 2 1 (1 / 100)
      (store sampleData 0 (steepDynamics .primitive true).ref) = .done D1 ∧
    D2 1 ⟨.state 0, 6, 2, 1⟩ = D1 1 ⟨.state 0, 6, 2, 1⟩ := by
  obtain ⟨D2, D1, h2, h1, h⟩ := C129_uniform (steepDynamics .primitive true) 2 1 (1 / 100)
    (store sampleData 0 (steepDynamics .primitive true).ref) rfl rfl (fun _ => steep_lorenz true) (by decide) (by decide)
    (by simp [steepDynamics]) (fun x _ => by rw [store_same])
  exact ⟨D2, D1, h2, h1, h 1 _ 0 rfl (fun e => absurd e (by decide))⟩

example : ∃ D', stepExplicit (steepDynamics .primitive true) 2 1 (1 / 100) sampleData = .done D' ∧
    overElement (steep true) cubicW (fun _ => 1) 1 0 1 (value (steep true).G.S (D' 1) (.state 4) 1 0 1) =
      overElement (steep true) cubicW (fun _ => 1) 1 0 1 (value (steep true).G.S moving (.state 4) 1 0 1) ∧
    overElement (steep true) cubicW (fun _ => 1) 1 0 1 (value (steep true).G.S (D' 1) (.state 2) 1 0 1) =
      overElement (steep true) cubicW (fun _ => 1) 1 0 1 (value (steep true).G.S moving (.state 2) 1 0 1) := by
  obtain ⟨D', h⟩ := (C129_refused (steepDynamics .primitive true) 2 1 (1 / 100) sampleData).2.2 ⟨rfl, by decide, by
    simp [steepDynamics]⟩
  exact ⟨D', h, C129_mass _ (steep_lorenz true) rfl 2 1 _ _ D' (by decide) h cubicW cubic_paired _ 1 0 1 (by decide)
    (by decide) (by decide) (steep_regular true _ _ _), C129_theta _ (steep_lorenz true) rfl 2 1 _ _ D' (by decide) h
    cubicW cubic_paired _ 1 0 1 (by decide) (by decide) (by decide) (steep_regular true _ _ _)⟩

end Verif.HorizV2
