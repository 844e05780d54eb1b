import Mathlib.Analysis.SpecialFunctions.Pow.Real
import Verif.Horiz.Spec
import Verif.Nonhydro.Spec
import Verif.Thermo.Diagnostics

/-!
# Vocabulary for the diagnostics
-/

namespace Verif.Thermo

open Verif.Horiz Verif.Nonhydro

/-- A sum over the nodes of the interior of a patch and `n` levels. -/
noncomputable def total (S : Shape) (n : Nat) (f : Nat → Nat → Nat → ℝ) : ℝ :=
  ∑ i ∈ Finset.range (S.elemA * S.order), ∑ j ∈ Finset.range (S.elemB * S.order), ∑ k ∈ Finset.range n,
    f (S.halo + i) (S.halo + j) k

/-- The pressure of a gas of which density times potential temperature is `x`. -/
noncomputable def idealPressure (r cp p0 x : ℝ) : ℝ := p0 * (r * x / p0) ^ (cp / (cp - r))

/-- Temperature from potential temperature `θ` and pressure `p`. -/
noncomputable def idealTemperature (r cp p0 θ p : ℝ) : ℝ := θ * (p / p0) ^ (r / cp)

/-- Twice the kinetic energy per mass of covariant wind `w` in a contravariant metric `m`. -/
noncomputable def square (n : Nat) (m : Nat → Nat → ℝ) (w : Nat → ℝ) : ℝ :=
  ∑ a ∈ Finset.range n, ∑ b ∈ Finset.range n, m a b * w a * w b

/-- The contravariant metric of a node. -/
def Gauge.metric (G : Gauge) (i j k a b : Nat) : ℝ :=
  if a = 0 then G.conA i j k b else if a = 1 then G.conB i j k b else G.conXi i j k b

/-- The contravariant metric of the surface at a node. -/
def Gauge.metric2 (G : Gauge) (i j a b : Nat) : ℝ := if a = 0 then G.con2A i j b else G.con2B i j b

/-- The wind at a node: alpha, beta and vertical velocity. -/
def wind (u : Data) (i j k a : Nat) : ℝ :=
  if a = 0 then u ⟨.state 0, i, j, k⟩ else if a = 1 then u ⟨.state 1, i, j, k⟩ else u ⟨.state 3, i, j, k⟩

/-- A value on interfaces interpolated to a level of a column. -/
noncomputable def lowered (G : Gauge) (u : Data) (c i j k : Nat) : ℝ :=
  ∑ l ∈ Finset.range (G.S.levels + 1), G.toNode k l * u ⟨edge c, i, j, l⟩

/-- Density times potential temperature at a level, wherever it lives. -/
noncomputable def heat (G : Gauge) (u : Data) (i j k : Nat) : ℝ :=
  if G.pOnEdge then lowered G u 2 i j k else u ⟨.state 2, i, j, k⟩

/-- Density at a level, wherever it lives. -/
noncomputable def density (G : Gauge) (u : Data) (i j k : Nat) : ℝ :=
  if G.rOnEdge then lowered G u 4 i j k else u ⟨.state 4, i, j, k⟩

/-- Two states agree in every variable of the nonhydrostatic equations where it lives. -/
def SameState (G : Gauge) (u v : Data) : Prop :=
  ∀ i j k, u ⟨.state 0, i, j, k⟩ = v ⟨.state 0, i, j, k⟩ ∧ u ⟨.state 1, i, j, k⟩ = v ⟨.state 1, i, j, k⟩ ∧
    (if G.pOnEdge then u ⟨edge 2, i, j, k⟩ = v ⟨edge 2, i, j, k⟩ else u ⟨.state 2, i, j, k⟩ = v ⟨.state 2, i, j, k⟩) ∧
    (if G.wOnEdge then u ⟨edge 3, i, j, k⟩ = v ⟨edge 3, i, j, k⟩ else u ⟨.state 3, i, j, k⟩ = v ⟨.state 3, i, j, k⟩) ∧
    (if G.rOnEdge then u ⟨edge 4, i, j, k⟩ = v ⟨edge 4, i, j, k⟩ else u ⟨.state 4, i, j, k⟩ = v ⟨.state 4, i, j, k⟩)

end Verif.Thermo
