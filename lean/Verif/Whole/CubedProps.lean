import Verif.Whole.Cubed
import Verif.Whole.Props

/-!
# C104 on the sphere the program lays out

The hypotheses about the Jacobian and about the halo are met by what the program computes (`World.Cubed`).
-/

namespace Verif.Whole

open Halo (Momenta)
open Steps (Scheme Erk Data Current StepsTo strangRun)

variable (W : World) (hW : W.Tiled) (hE : W.Layered) (hQ : W.Quadrature) (m : Momenta) (R : ℝ) (x : Nat → ℝ)
  (hC : W.Cubed m R x)

include hW hE hQ hC

/-- A run on the cubed sphere ends with the mass of fluid it began with. -/
theorem C104_mass_cubed_partial (S : Scheme ℝ) (hB : S.Balanced) (hT : S.CopiesTracers) (dts : List ℝ)
    (d : Data W.Field W.Field) (u : W.Field × W.Field) (hd : Current S.slots d u) :
    ∃ v, StepsTo W.dyn (dts.flatMap S.prog) d v ∧ W.mass 2 v.1 = W.mass 2 u.1 :=
  C104_mass_partial W hW (hC.shallow hE) hQ _ _ _ hC.measured hC.shared S hB hT dts d u hd

/-- The same without tracers, with any scheme but SSPRK53. -/
theorem C104_mass_cubed_dry_partial (S : Scheme ℝ) (hB : S.Balanced) (dts : List ℝ)
    (d : Data W.Field PUnit.{1}) (u : W.Field × PUnit.{1}) (hd : Current S.slots d u) :
    ∃ v, StepsTo W.dry (dts.flatMap S.prog) d v ∧ W.mass 2 v.1 = W.mass 2 u.1 :=
  C104_mass_dry_partial W hW (hC.shallow hE) hQ _ _ _ hC.measured hC.shared S hB dts d u hd

variable (hr : W.uniform = true → ∀ n iA iB k, (W.tile n).M.ref ⟨.state 0, iA, iB, k⟩ = 0 ∧
  (W.tile n).M.ref ⟨.state 1, iA, iB, k⟩ = 0)

include hr

/-- A lake at rest on the cubed sphere, over any topography, stays at rest to the end of the run. -/
theorem C104_lake_cubed_partial (S : Scheme ℝ) (hB : S.Balanced) (hT : S.CopiesTracers) (dts : List ℝ)
    (d : Data W.Field W.Field) (u : W.Field × W.Field) (hd : Current S.slots d u) (H : ℝ) (hu : W.AtRest H u.1) :
    ∃ v, StepsTo W.dyn (dts.flatMap S.prog) d v ∧ W.AtRest H v.1 :=
  C104_lake_partial W hW (hC.shallow hE) hQ hC.rests hr S hB hT dts d u hd H hu

/-- The same without tracers. -/
theorem C104_lake_cubed_dry_partial (S : Scheme ℝ) (hB : S.Balanced) (dts : List ℝ) (d : Data W.Field PUnit.{1})
    (u : W.Field × PUnit.{1}) (hd : Current S.slots d u) (H : ℝ) (hu : W.AtRest H u.1) :
    ∃ v, StepsTo W.dry (dts.flatMap S.prog) d v ∧ W.AtRest H v.1 :=
  C104_lake_dry_partial W hW (hC.shallow hE) hQ hC.rests hr S hB dts d u hd H hu

end Verif.Whole
