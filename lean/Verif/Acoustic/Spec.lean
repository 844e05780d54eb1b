import Verif.Acoustic.Model
import Verif.Horiz.BasisProps

/-!
# What is expected of the split-explicit and high-speed dynamics
-/

namespace Verif.Acoustic

open Verif.Horiz

/-- The integral of a field: the sum over all nodes with their areas (times layer thickness). -/
noncomputable def total (G : Grid) (area φ : Fld) : ℝ :=
  ∑ e ∈ Finset.range G.elements, ∑ i ∈ Finset.range G.order, ∑ j ∈ Finset.range G.order, ∑ k ∈ Finset.range G.levels,
    area e i j k * φ e i j k

/-- The integral of a field over one layer of one element. -/
noncomputable def slab (G : Grid) (area φ : Fld) (e k : Nat) : ℝ :=
  ∑ i ∈ Finset.range G.order, ∑ j ∈ Finset.range G.order, area e i j k * φ e i j k

/-- What the grid has to be for integrals to be conserved: the area of a node is its Jacobian times quadrature weights
which fit the derivative tables, and at the same time it is proportional to the thickness of the layer in its column;
nodes at the same place have the same area. -/
structure Fits (G : Grid) (area : Fld) : Prop where
  weights : ∃ ω : Nat → ℝ, ∃ layer : Nat → Nat → ℝ, Paired G.order G.B ω ∧
    ∀ e i j k, e < G.elements → i < G.order → j < G.order → k < G.levels →
      area e i j k = G.jac e i j k * (ω i * ω j) * layer e k
  thickness : ∃ base : Nat → Nat → Nat → ℝ,
    ∀ e i j k, e < G.elements → i < G.order → j < G.order → k < G.levels →
      area e i j k = base e i j * (G.zi e i j (k + 1) - G.zi e i j k)
  jac : ∀ e i j k, e < G.elements → i < G.order → j < G.order → k < G.levels → G.jac e i j k ≠ 0
  thick : ∀ e i j k, e < G.elements → i < G.order → j < G.order → k < G.levels →
    G.zi e i j (k + 1) - G.zi e i j k ≠ 0
  shared : ∀ e i j e' i' j' k, e < G.elements → i < G.order → j < G.order → e' < G.elements → i' < G.order →
    j' < G.order → G.point e i j = G.point e' i' j' → area e i j k = area e' i' j' k

/-- The equations of a tridiagonal system with `n + 1` unknowns. -/
def Rows (n : Nat) (A B C D x : Nat → ℝ) : Prop :=
  B 0 * x 0 + C 0 * x 1 = D 0 ∧
  (∀ k, 0 < k → k < n → A (k - 1) * x (k - 1) + B k * x k + C k * x (k + 1) = D k) ∧
  A (n - 1) * x (n - 1) + B n * x n = D n

/-- What `dgtsv` promises: with `info` zero it returns the only solution. -/
def Exact (n : Nat) (solver : Solver) : Prop :=
  ∀ A B C D x, solver A B C D = some x → Rows n A B C D x ∧ ∀ y, Rows n A B C D y → ∀ k, k ≤ n → y k = x k

/-- Nodes at the same place hold the same scalars and the same heights. -/
structure Continuous (G : Grid) (s : State) : Prop where
  p : ∀ e i j e' i' j' k, G.point e i j = G.point e' i' j' → s.p e i j k = s.p e' i' j' k
  r : ∀ e i j e' i' j' k, G.point e i j = G.point e' i' j' → s.r e i j k = s.r e' i' j' k
  w : ∀ e i j e' i' j' k, G.point e i j = G.point e' i' j' → s.w e i j k = s.w e' i' j' k
  pEdge : ∀ e i j e' i' j' k, G.point e i j = G.point e' i' j' → s.pEdge e i j k = s.pEdge e' i' j' k

structure Heights (G : Grid) : Prop where
  zn : ∀ e i j e' i' j' k, G.point e i j = G.point e' i' j' → G.zn e i j k = G.zn e' i' j' k
  zi : ∀ e i j e' i' j' k, G.point e i j = G.point e' i' j' → G.zi e i j k = G.zi e' i' j' k

/-- Air at rest over flat ground, in balance: nothing moves, the surfaces of the levels are horizontal, pressure is the
same everywhere on a level of an element, and between two levels it falls by the weight of the air between them. -/
structure Rest (G : Grid) (s : State) : Prop where
  u : ∀ e i j k, s.u e i j k = 0
  v : ∀ e i j k, s.v e i j k = 0
  w : ∀ e i j k, s.w e i j k = 0
  flat : ∀ e i j k m, G.derivR e i j k m = 0
  level : ∀ e i j i' j' k, s.p e i j k = s.p e i' j' k
  weight : ∀ e i j k, 0 < k → k < G.levels →
    G.pressure (s.p e i j k) - G.pressure (s.p e i j (k - 1)) =
      -(G.g * ((s.r e i j (k - 1) + s.r e i j k) / 2) * (G.zn e i j k - G.zn e i j (k - 1)))
  apart : ∀ e i j k, 0 < k → k < G.levels → G.zn e i j k - G.zn e i j (k - 1) ≠ 0

/-- The combination of the instances at a node. -/
noncomputable def mixed (coeff : List ℝ) (inst : List Nat) (st : Store) (part : State → Fld) : Fld := fun e i j k =>
  ((coeff.zip inst).map fun x => x.1 * part (st x.2) e i j k).sum

/-- The state with all velocities reversed. -/
def reversed (s : State) : State :=
  { s with u := fun e i j k => -s.u e i j k, v := fun e i j k => -s.v e i j k, w := fun e i j k => -s.w e i j k }

end Verif.Acoustic
