import Verif.Horiz.Model

/-!
# Vocabulary for element averages on a patch

What a user sees of a patch: the value of a quantity at node `(i, j)` of element `(a, b)` at level `k`, the mass of an
element and the mass of a patch.
-/

namespace Verif.Horiz

/-- The value of a quantity at a node of an element.  Node `i` of element `a` is at index `a * order + i` of the
interior, which begins after the halo. -/
def value (S : Shape) (u : Data) (v : Var) (a b k i j : Nat) : ℝ :=
  u ⟨v, S.halo + a * S.order + i, S.halo + b * S.order + j, k⟩

/-- The mass of a quantity in element `(a, b)` at level `k`: the sum over its nodes of area times value. -/
noncomputable def elementMass (S : Shape) (area : Nat → Nat → Nat → ℝ) (u : Data) (v : Var) (a b k : Nat) : ℝ :=
  ∑ i ∈ Finset.range S.order, ∑ j ∈ Finset.range S.order,
    area (S.halo + a * S.order + i) (S.halo + b * S.order + j) k * value S u v a b k i j

/-- The areas of the nodes of element `(a, b)` at level `k` are positive. -/
def PositiveAreas (S : Shape) (area : Nat → Nat → Nat → ℝ) (a b k : Nat) : Prop :=
  ∀ i j, i < S.order → j < S.order → 0 < area (S.halo + a * S.order + i) (S.halo + b * S.order + j) k

/-- A node of the interior of the patch. -/
def Interior (S : Shape) (iA iB : Nat) : Prop :=
  S.halo ≤ iA ∧ iA < S.halo + S.elemA * S.order ∧ S.halo ≤ iB ∧ iB < S.halo + S.elemB * S.order

end Verif.Horiz
