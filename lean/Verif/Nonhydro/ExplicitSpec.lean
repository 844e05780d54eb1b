import Verif.Horiz.VectorProps
import Verif.Nonhydro.Explicit
import Verif.Nonhydro.Spec

/-!
# Vocabulary for the explicit horizontal step
-/

namespace Verif.Nonhydro

open Verif.Horiz

/-- The same dynamics without uniform diffusion. -/
def Dynamics.inviscid (E : Dynamics) : Dynamics := { E with A := { E.A with uniform := false } }

/-- Density times potential temperature where it lives. -/
def theta (E : Dynamics) : Var := if E.A.pOnEdge then edge 2 else .state 2

/-- Vertical velocity where it lives. -/
def vertical (E : Dynamics) : Var := if E.A.wOnEdge then edge 3 else .state 3

/-- How a state differs from the reference state, in one variable on an element. -/
noncomputable def deviation (E : Dynamics) (u : Data) (v : Var) (a b k i j : Nat) : ℝ :=
  value E.A.G.S u v a b k i j - value E.A.G.S E.ref v a b k i j

/-- How the wind of a state differs from that of the reference state on an element. -/
noncomputable def windDeviation (E : Dynamics) (u : Data) (a b k : Nat) : Flow :=
  ⟨deviation E u (.state 0) a b k, deviation E u (.state 1) a b k⟩

end Verif.Nonhydro
