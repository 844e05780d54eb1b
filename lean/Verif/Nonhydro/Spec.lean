import Verif.Horiz.Spec
import Verif.Nonhydro.Model

/-!
# Vocabulary for the nonhydrostatic step

Alpha and beta velocity are variables 0 and 1 on levels, density times potential temperature is variable 2, vertical
velocity is variable 3 and density is variable 4; `edge c` is variable `c` on interfaces.  Node `i` of element `a` is at
index `halo + a * order + i`.
-/

namespace Verif.Nonhydro

open Verif.Horiz

variable (A : Air)

/-- The value of a field of the geometry at a node of an element. -/
def place (f : Nat → Nat → ℝ) (a b i j : Nat) : ℝ :=
  f (A.G.S.halo + a * A.G.S.order + i) (A.G.S.halo + b * A.G.S.order + j)

/-- The volume that belongs to a node of the patch: Jacobian times the weights and widths of the node in both directions
times the weight of the level.  This is `m_dataElementAreaNode`, src/atm/GridPatchCSGLL.cpp:441-458
(src/atm/GridPatchCartesianGLL.cpp:338-347). -/
noncomputable def volume (w level : Nat → ℝ) (iA iB k : Nat) : ℝ :=
  A.jac iA iB k * w ((iA - A.G.S.halo) % A.G.S.order) * A.G.deltaA * w ((iB - A.G.S.halo) % A.G.S.order) * A.G.deltaB *
    level k

/-- The Jacobian vanishes at no node of the element. -/
def Regular (a b k : Nat) : Prop :=
  ∀ i j, i < A.G.S.order → j < A.G.S.order → place A (fun x y => A.jac x y k) a b i j ≠ 0

/-- The contravariant alpha velocity at a node. -/
noncomputable def alphaWind (u : Data) (a b k i j : Nat) : ℝ :=
  place A (fun x y => A.conA x y k 0) a b i j * value A.G.S u (.state 0) a b k i j +
    place A (fun x y => A.conA x y k 1) a b i j * value A.G.S u (.state 1) a b k i j +
    place A (fun x y => A.conA x y k 2) a b i j * value A.G.S u (.state 3) a b k i j

/-- The contravariant beta velocity at a node. -/
noncomputable def betaWind (u : Data) (a b k i j : Nat) : ℝ :=
  place A (fun x y => A.conA x y k 1) a b i j * value A.G.S u (.state 0) a b k i j +
    place A (fun x y => A.conB x y k 1) a b i j * value A.G.S u (.state 1) a b k i j +
    place A (fun x y => A.conB x y k 2) a b i j * value A.G.S u (.state 3) a b k i j

/-- The contravariant vertical velocity at a node: the motion through the surfaces of constant vertical coordinate. -/
noncomputable def crossWind (u : Data) (a b k i j : Nat) : ℝ :=
  place A (fun x y => A.conA x y k 2) a b i j * value A.G.S u (.state 0) a b k i j +
    place A (fun x y => A.conB x y k 2) a b i j * value A.G.S u (.state 1) a b k i j +
    place A (fun x y => A.conXi x y k 2) a b i j * value A.G.S u (.state 3) a b k i j

/-- The kinetic energy of a unit of mass at a node: half the product of covariant and contravariant velocity. -/
noncomputable def kineticEnergy (u : Data) (a b k i j : Nat) : ℝ :=
  1 / 2 * (alphaWind A u a b k i j * value A.G.S u (.state 0) a b k i j +
    betaWind A u a b k i j * value A.G.S u (.state 1) a b k i j +
    crossWind A u a b k i j * value A.G.S u (.state 3) a b k i j)

/-- The Exner function times the heat capacity: `cp (rd ρθ / p0) ^ (rd / (cp - rd))`, the power written with logarithm and
exponential. -/
noncomputable def exnerFunction (x : ℝ) : ℝ :=
  A.cp * Real.exp (A.rd / (A.cp - A.rd) * Real.log (A.rd / A.p0 * x))

/-- The derivative along an element in alpha of a field given at its nodes. -/
noncomputable def slopeA (f : Nat → Nat → ℝ) (i j : Nat) : ℝ :=
  (∑ s ∈ Finset.range A.G.S.order, f s j * A.B.dx s i) / A.G.deltaA

/-- The derivative along an element in beta of a field given at its nodes. -/
noncomputable def slopeB (f : Nat → Nat → ℝ) (i j : Nat) : ℝ :=
  (∑ s ∈ Finset.range A.G.S.order, f i s * A.B.dx s j) / A.G.deltaB

/-- The vertical derivative of a variable at a node. -/
noncomputable def slopeX (u : Data) (v : Var) (a b k i j : Nat) : ℝ :=
  ∑ l ∈ Finset.range A.G.S.levels, A.diff k l * value A.G.S u v a b l i j

/-- A variable on levels interpolated to an interface. -/
noncomputable def atInterface (u : Data) (v : Var) (a b k i j : Nat) : ℝ :=
  ∑ l ∈ Finset.range A.G.S.levels, A.toEdge k l * value A.G.S u v a b l i j

/-- A variable on interfaces interpolated to a level. -/
noncomputable def atLevel (u : Data) (v : Var) (a b k i j : Nat) : ℝ :=
  ∑ l ∈ Finset.range (A.G.S.levels + 1), A.toNode k l * value A.G.S u v a b l i j

/-- A sum over the nodes of an element at a level, weighted by volume. -/
noncomputable def overElement (w level : Nat → ℝ) (a b k : Nat) (f : Nat → Nat → ℝ) : ℝ :=
  ∑ i ∈ Finset.range A.G.S.order, ∑ j ∈ Finset.range A.G.S.order,
    volume A w level (A.G.S.halo + a * A.G.S.order + i) (A.G.S.halo + b * A.G.S.order + j) k * f i j

end Verif.Nonhydro
