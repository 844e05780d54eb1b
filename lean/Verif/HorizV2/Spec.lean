import Verif.HorizV2.Model
import Verif.Nonhydro.Explicit
import Verif.Nonhydro.Spec

/-!
# Vocabulary for comparing the two versions of the horizontal dynamics
-/

namespace Verif.HorizV2

open Verif.Horiz Verif.Nonhydro

/-- The contravariant metric is symmetric. -/
def SymmetricMetric (A : Air) : Prop := ∀ iA iB k,
  A.conB iA iB k 0 = A.conA iA iB k 1 ∧ A.conXi iA iB k 0 = A.conA iA iB k 2 ∧ A.conXi iA iB k 1 = A.conB iA iB k 2

/-- The settings for which the two versions are to agree: fourth order, symmetric metric, vertical velocity on
interfaces, potential temperature on levels (the Lorenz staggering), and not a slice in x and z. -/
structure Lorenz (A : Air) : Prop where
  order : A.G.S.order = 4
  metric : SymmetricMetric A
  w : A.wOnEdge = true
  p : A.pOnEdge = false
  xz : A.xz = false

/-- The dynamics with the velocities of a state in the place of those of the reference state. -/
noncomputable def windReference (E : Dynamics) (d : Data) : Dynamics :=
  { E with ref := fun x => if x.v = .state 0 ∨ x.v = .state 1 then d x else E.ref x }

/-- The same dynamics without uniform diffusion. -/
def withoutDiffusion (E : Dynamics) : Dynamics := { E with A := { E.A with uniform := false } }

end Verif.HorizV2
