import Verif.Whole.Mutual
import Verif.Halo.Setting

/-!
# C105: what averaging over the grid means

On the sphere a node is at a point of the sphere (`Halo.point`), on the plane at a point of a plane that is periodic both
ways.  Averaging gives each node the mean over all nodes, of any patch, that are at the same point.
-/

namespace Verif.Whole

open Halo (Node Momenta Placed Components coord angle copies)

variable (W : World)

/-! ### Model -/

/-- What `TransformHaloVelocities` reads of a patch. -/
def World.placed (i : Fin W.count) : Placed where
  panel := (W.tile i).panel
  res := W.elemA
  order := W.order
  halo := W.halo
  eA := (W.tile i).eA
  eB := (W.tile i).eB
  elemA := (W.tile i).M.G.S.elemA
  elemB := (W.tile i).M.G.S.elemB

/-- `TransformHaloVelocities` on the state of a patch (src/atm/GridPatchCSGLL.cpp:1783-1924): components 0 and 1 at each
level; where it throws the model leaves them. -/
noncomputable def World.haloTurn (m : Momenta) (x : Nat → ℝ) (i : Fin W.count) (v : Arr) : Arr := fun c iA iB k =>
  let V : Halo.Pair := fun a b => (v 0 a.toNat b.toNat k, v 1 a.toNat b.toNat k)
  let U := (Halo.transformHalo m (W.placed i) x V).getD V
  if c = 0 then (U iA iB).1 else if c = 1 then (U iA iB).2 else v c iA iB k

/-! ### Specification -/

/-- The node of the grid at an array index of a patch. -/
def World.at_ (i : Fin W.count) (iA iB : Nat) : Node :=
  ((W.tile i).panel, (iA : Int) - W.halo + (W.tile i).eA * W.order, (iB : Int) - W.halo + (W.tile i).eB * W.order)

/-- The patches hold, as component `c` at level `k`, the value `f` of each of their nodes. -/
def World.Holds (v : W.Field) (c k : Nat) (f : Node → ℝ) : Prop :=
  ∀ i iA iB, Horiz.Interior (W.tile i).M.G.S iA iB → v i c iA iB k = f (W.at_ i iA iB)

/-- The patches hold, as the velocity at level `k`, the components of the vector `w` of each of their nodes, in the
coordinates of their panel. -/
def World.Moves (m : Momenta) (x : Nat → ℝ) (v : W.Field) (k : Nat) (w : Node → Sphere.Vec3) : Prop :=
  ∀ i iA iB, Horiz.Interior (W.tile i).M.G.S iA iB →
    Components m (W.tile i).panel (coord W.order W.elemA x (W.at_ i iA iB).2.1) (coord W.order W.elemA x (W.at_ i iA iB).2.2)
      (v i 0 iA iB k, v i 1 iA iB k) (w (W.at_ i iA iB))

/-- The mean of `f` over the nodes in `s`. -/
noncomputable def meanOver (s : Finset Node) (f : Node → ℝ) : ℝ := (∑ n ∈ s, f n) / s.card

/-- Two nodes of a row of `res` elements are at the same place of a periodic line: their coordinates are equal or differ
by the period (the unit is chosen to make the period a quarter turn, as a panel of the sphere). -/
def SamePlace (p res : Int) (x : Nat → ℝ) (g g' : Int) : Prop :=
  angle p res x g' = angle p res x g ∨ |angle p res x g' - angle p res x g| = Real.pi / 2

open Classical in
/-- The nodes of the plane at the same point as a node. -/
noncomputable def planeCopies (p resA resB : Int) (xA xB : Nat → ℝ) (n : Node) : Finset Node :=
  (Finset.Ico 0 1 ×ˢ Finset.Ico 0 (p * resA) ×ˢ Finset.Ico 0 (p * resB)).filter fun n' =>
    SamePlace p resA xA n.2.1 n'.2.1 ∧ SamePlace p resB xB n.2.2 n'.2.2

/-- The nodes at the same point of the grid as a node. -/
noncomputable def World.sharing (xA xB : Nat → ℝ) (n : Node) : Finset Node :=
  match W.kind with
  | .sphere => copies W.order W.elemA xA n
  | .plane => planeCopies W.order W.elemA W.elemB xA xB n

/-- The points `xA` and `xB` of an element divide it sensibly each way, and what happens to velocities in the halo is
`TransformHaloVelocities` on the sphere and nothing on the plane (src/atm/GridPatchCartesianGLL.cpp:1854-1858). -/
structure World.Laid (m : Momenta) (xA xB : Nat → ℝ) : Prop where
  alpha : Halo.Line W.order W.elemA xA
  beta : Halo.Line W.order W.elemB xB
  sphere : W.kind = .sphere → W.turn = W.haloTurn m xA
  plane : W.kind = .plane → W.turn = fun _ v => v

/-- Component `c` of the state is a number that does not depend on the panel: all but the velocities on the sphere. -/
def World.Scalar (c : Nat) : Prop := W.kind = .sphere → 2 ≤ c

/-- A function of the nodes is single-valued: the same at all nodes at one point. -/
def World.Single (xA xB : Nat → ℝ) {α : Type} (f : Node → α) : Prop :=
  ∀ n ∈ W.nodes, ∀ n' ∈ W.sharing xA xB n, f n' = f n

end Verif.Whole
