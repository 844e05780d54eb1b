import Verif.Thermo.Constants
import Mathlib.Analysis.SpecialFunctions.Trigonometric.Basic

/-!
# The forcing of Held and Suarez (1994)

Winds are damped near the surface, temperature relaxes towards a prescribed equilibrium.
-/

namespace Verif.Forcing

open Verif.Thermo

/-- The pressure, relative to that at the surface, above which there is friction is 0.7; from there to the surface
this rises from 0 to 1. -/
noncomputable def layer (sigma : ℝ) : ℝ := max 0 ((sigma - 7 / 10) / (3 / 10))

/-- The rate of friction, one per day at the surface. -/
noncomputable def frictionRate (sigma : ℝ) : ℝ := 1 / 86400 * layer sigma

/-- The rate of relaxation: one per 40 days, rising to one per 4 days at the surface of the equator. -/
noncomputable def relaxationRate (lat sigma : ℝ) : ℝ :=
  1 / (40 * 86400) + (1 / (4 * 86400) - 1 / (40 * 86400)) * layer sigma * Real.cos lat ^ 4

/-- The equilibrium temperature. -/
noncomputable def equilibriumTemperature (p0 kappa lat p : ℝ) : ℝ :=
  max 200 ((315 - 60 * Real.sin lat ^ 2 - 10 * Real.log (p / p0) * Real.cos lat ^ 2) * (p / p0) ^ kappa)

/-- What the third component of the state is: density times potential temperature, or potential temperature. -/
inductive Formulation where
  | rhoTheta
  | theta

/-- Density times potential temperature. -/
def Formulation.product (f : Formulation) (rho q : ℝ) : ℝ :=
  match f with
  | .rhoTheta => q
  | .theta => rho * q

/-- The pressure of an ideal gas of given density times potential temperature. -/
noncomputable def gasPressure (c : Constants) (x : ℝ) : ℝ := c.p0 * (c.r * x / c.p0) ^ (c.cp / (c.cp - c.r))

/-- The pressure of air with density `rho` and third component `q`. -/
noncomputable def airPressure (c : Constants) (f : Formulation) (rho q : ℝ) : ℝ := gasPressure c (f.product rho q)

/-- Its temperature. -/
noncomputable def airTemperature (c : Constants) (f : Formulation) (rho q : ℝ) : ℝ :=
  airPressure c f rho q / (rho * c.r)

/-- Constants of a gas: positive, with the derived ones derived, and a ratio of heat capacities of at most 2, that is
`cp ≥ 2 r`. -/
structure Gas (c : Constants) : Prop where
  r : 0 < c.r
  cp : 2 * c.r ≤ c.cp
  p0 : 0 < c.p0
  kappa : c.kappa = c.r / c.cp
  gamma : c.gamma = c.cp / (c.cp - c.r)
  scaling : c.scaling = c.p0 * (c.r / c.p0) ^ c.gamma

/-- `x` lies between `a` and `b`, and not at `a` unless they are equal. -/
def Towards (a b x : ℝ) : Prop := (a < b → a < x ∧ x ≤ b) ∧ (b < a → b ≤ x ∧ x < a) ∧ (a = b → x = a)

end Verif.Forcing
