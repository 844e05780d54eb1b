import Verif.Halo.Model
import Verif.Halo.Spec
import Verif.Panel.Spec

/-!
# The setting of C98: patches and the data they hold after the exchange
-/

namespace Verif.Halo

open Verif.Sphere
open Verif.Panel (relativeCoord)

/-- A patch as the program makes them: on one of the six panels, inside it, at least one element each way, elements
of at least two nodes and at least one ring of halo. -/
structure Placed.Ok (B : Placed) : Prop where
  panel : Panel.IsPanel B.panel
  order : 2 ≤ B.order
  halo : 1 ≤ B.halo
  elemA : 1 ≤ B.elemA
  elemB : 1 ≤ B.elemB
  eA : 0 ≤ B.eA
  eB : 0 ≤ B.eB
  fitsA : B.eA + B.elemA ≤ B.res
  fitsB : B.eB + B.elemB ≤ B.res

/-- The two numbers are the components of the vector, of the kind the program was compiled for. -/
def Components : Momenta → Int → ℝ → ℝ → ℝ × ℝ → Vec3 → Prop
  | .covariant => Covariant
  | .contravariant => Contravariant

/-- The array of a patch after the exchange: at each of its own nodes and at each node of the first ring of halo
around them that stands for a node of the sphere, the components of the vector of that node, in the coordinates of the
panel of that node. -/
def Exchanged (m : Momenta) (B : Placed) (x : Nat → ℝ) (W : Node → Vec3) (V : Pair) : Prop :=
  ∀ i j, B.halo - 1 ≤ i → i ≤ B.halo + B.elemA * B.order → B.halo - 1 ≤ j → j ≤ B.halo + B.elemB * B.order →
    ∀ r, relativeCoord (B.order * B.res) B.panel (B.eA * B.order + (i - B.halo)) (B.eB * B.order + (j - B.halo)) = some r →
      r.panel ≠ -1 →
      Components m r.panel (coord B.order B.res x r.ix) (coord B.order B.res x r.jx) (V i j) (W (r.panel, r.ix, r.jx))

/-- The patch's own nodes, by array index. -/
def Placed.Own (B : Placed) (i j : Int) : Prop :=
  B.halo ≤ i ∧ i < B.halo + B.elemA * B.order ∧ B.halo ≤ j ∧ j < B.halo + B.elemB * B.order

/-- The node of the sphere at an array index of the patch. -/
def Placed.node (B : Placed) (i j : Int) : Node :=
  (B.panel, B.eA * B.order + (i - B.halo), B.eB * B.order + (j - B.halo))

end Verif.Halo
