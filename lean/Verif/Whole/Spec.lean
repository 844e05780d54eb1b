import Verif.Whole.Model
import Verif.Horiz.BasisProps
import Verif.Horiz.Spec
import Mathlib.Algebra.Module.Pi

/-!
# What it means that a whole model conserves mass

The patches tile the panels; the Jacobian is a function of the place; the mass of the model is the sum over all nodes of
all patches of area times value.
-/

namespace Verif.Whole

/-- Six panels on the cubed sphere, one on the plane. -/
def Kind.panels : Kind → Int
  | .sphere => 6
  | .plane => 1

variable (W : World)

/-- Element `(x, y)` of panel `p` lies in the patch. -/
def Tile.Holds (t : Tile) (p : Int) (x y : Nat) : Prop :=
  t.panel = p ∧ t.eA ≤ x ∧ x < t.eA + t.M.G.S.elemA ∧ t.eB ≤ y ∧ y < t.eB + t.M.G.S.elemB

/-- The patches tile the grid: they share order, levels, halo width and number of tracers, none is empty, each lies
inside its panel, and each element of each panel is in exactly one of them.  Elements have at least two nodes each way,
there is a halo, and panels of the sphere are square. -/
structure World.Tiled : Prop where
  order : 2 ≤ W.order
  halo : 1 ≤ W.halo
  square : W.kind = .sphere → W.elemA = W.elemB
  shape : ∀ i, (W.tile i).M.G.S.order = W.order ∧ (W.tile i).M.G.S.halo = W.halo ∧
    (W.tile i).M.G.S.levels = W.levels ∧ (W.tile i).M.G.S.tracers = W.tracers
  some : ∀ i, 1 ≤ (W.tile i).M.G.S.elemA ∧ 1 ≤ (W.tile i).M.G.S.elemB
  panel : ∀ i, 0 ≤ (W.tile i).panel ∧ (W.tile i).panel < W.kind.panels
  inside : ∀ i, (W.tile i).eA + (W.tile i).M.G.S.elemA ≤ W.elemA ∧ (W.tile i).eB + (W.tile i).M.G.S.elemB ≤ W.elemB
  cover : ∀ p x y, 0 ≤ p → p < W.kind.panels → x < W.elemA → y < W.elemB → ∃ i, (W.tile i).Holds p x y
  once : ∀ i j p x y, (W.tile i).Holds p x y → (W.tile j).Holds p x y → i = j

/-- The equations: at least three components (two velocities and the height of the surface), all on levels, and
transforming velocities in the halo is about the velocities only. -/
structure World.ShallowWater : Prop where
  three : 3 ≤ W.components
  counted : ∀ i, (W.tile i).M.components = W.components
  nodes : ∀ i c, (W.tile i).M.located c = .node
  turn : ∀ i v c, 2 ≤ c → W.turn i v c = v c

/-- The tables of the method belong together: derivative and stiffness coefficients are paired by the weights, which are
the same from both ends of an element. -/
structure World.Quadrature : Prop where
  paired : ∀ i, Horiz.Paired W.order (W.tile i).M.B W.weight
  symmetric : ∀ n, n < W.order → W.weight (W.order - 1 - n) = W.weight n

/-- All elements have the widths `a` and `b`; the Jacobian of a patch at each of its nodes is `density` of the place (node
`g` along alpha, `h` along beta of the panel), which is not zero; the Jacobian on levels is that times a factor of the
level which is not zero. -/
structure World.Measured (a b : ℝ) (density : Int → Int → ℝ) : Prop where
  width : ∀ i, (W.tile i).M.G.deltaA = a ∧ (W.tile i).M.G.deltaB = b
  jacobian : ∀ i iA iB, Horiz.Interior (W.tile i).M.G.S iA iB → (W.tile i).M.G.jac iA iB =
    density ((iA : Int) - W.halo + (W.tile i).eA * W.order) ((iB : Int) - W.halo + (W.tile i).eB * W.order)
  regular : ∀ g h : Int, 0 ≤ g → g < W.order * W.elemA → 0 ≤ h → h < W.order * W.elemB → density g h ≠ 0
  levels : ∀ i, ∃ f : Nat → ℝ, (∀ k, k < W.levels → f k ≠ 0) ∧ ∀ iA iB k, Horiz.Interior (W.tile i).M.G.S iA iB →
    k < W.levels → (W.tile i).M.jacNode iA iB k = (W.tile i).M.G.jac iA iB * f k

/-- On the sphere, the Jacobian is a function of the coordinates of the node that is the same for both of their signs and
in either order, and the coordinate of the nodes is the same for both copies of a node on an element edge inside the panel
and opposite at mirrored places. -/
structure World.Equiangular (density : Int → Int → ℝ) : Prop where
  symmetric : ∃ (x : Int → ℝ) (J : ℝ → ℝ → ℝ), (∀ g h, density g h = J (x g) (x h)) ∧
    (∀ s t, J s t = J t s) ∧ (∀ s t, J (-s) t = J s t) ∧
    (∀ e : Int, 0 < e → e < W.elemA → x (e * W.order - 1) = x (e * W.order)) ∧
    (∀ g : Int, 0 ≤ g → g < W.order * W.elemA → x (W.order * W.elemA - 1 - g) = -x g)

/-- On the plane, the Jacobian is the same at both copies of a node, also across the period. -/
structure World.Periodic (density : Int → Int → ℝ) : Prop where
  alpha : ∀ e h, 0 < e → e < (W.elemA : Int) → density (e * W.order - 1) h = density (e * W.order) h
  beta : ∀ g e, 0 < e → e < (W.elemB : Int) → density g (e * W.order - 1) = density g (e * W.order)
  acrossA : ∀ h, density (W.order * W.elemA - 1) h = density 0 h
  acrossB : ∀ g, density g (W.order * W.elemB - 1) = density g 0

/-- The area of node `(i, j)` of an element at level `k`. -/
noncomputable def World.nodeMass (n : Fin W.count) (v : W.Field) (c a b k i j : Nat) : ℝ :=
  let t := W.tile n
  let x := W.halo + a * W.order + i
  let y := W.halo + b * W.order + j
  t.M.G.jac x y * W.weight i * t.M.G.deltaA * W.weight j * t.M.G.deltaB * W.level k * v n c x y k

/-- The mass of component `c` over the whole grid: over all patches, their elements, levels and nodes. -/
noncomputable def World.mass (c : Nat) (v : W.Field) : ℝ :=
  ∑ n, ∑ a ∈ Finset.range (W.tile n).M.G.S.elemA, ∑ b ∈ Finset.range (W.tile n).M.G.S.elemB,
    ∑ k ∈ Finset.range W.levels, ∑ i ∈ Finset.range W.order, ∑ j ∈ Finset.range W.order, W.nodeMass n v c a b k i j

/-- The symmetry of the Jacobian that goes with the kind of grid. -/
structure World.Shared (density : Int → Int → ℝ) : Prop where
  sphere : W.kind = .sphere → W.Equiangular density
  plane : W.kind = .plane → W.Periodic density

/-- At all nodes of all patches the fluid is at rest and its surface has height `H`. -/
def World.AtRest (H : ℝ) (v : W.Field) : Prop :=
  ∀ n iA iB k, Horiz.Interior (W.tile n).M.G.S iA iB → k < W.levels →
    v n 0 iA iB k = 0 ∧ v n 1 iA iB k = 0 ∧ v n 2 iA iB k = H

/-- Turning velocities in the halo turns none into none. -/
def World.TurnsRest : Prop :=
  ∀ i v iA iB k, v 0 iA iB k = 0 → v 1 iA iB k = 0 → W.turn i v 0 iA iB k = 0 ∧ W.turn i v 1 iA iB k = 0

end Verif.Whole
