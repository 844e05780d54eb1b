/-
Specification vocabulary for the flux correction derivative.
-/
import Verif.Column.PenaltySpec

namespace Verif.Column

open Polynomial Verif.Quad

/-- A Gauss-Lobatto rule on [-1, 1]: `n + 1` points including both ends, positive weights, exact for polynomials of degree
below `2 n`. -/
def LobattoRule (n : Nat) (lobatto : List ℝ × List ℝ) : Prop :=
  HasSize lobatto (n + 1) ∧ lobatto.1.getD 0 0 = -1 ∧ lobatto.1.getD n 0 = 1 ∧ (∀ j ≤ n, 0 < lobatto.2.getD j 0) ∧
    (∀ i j, i < j → j ≤ n → lobatto.1.getD i 0 < lobatto.1.getD j 0) ∧
    ∀ p : ℝ[X], p.degree < (2 * n : ℕ) → quad lobatto (fun x => p.eval x) = ∫ x in (-1 : ℝ)..1, p.eval x

/-- The `n + 1` interfaces of each of the `m` elements are the Gauss-Lobatto points between its edges. -/
def OnLobatto (n m : Nat) (edge : Nat → ℝ) (lobatto : List ℝ × List ℝ) : Prop :=
  ∀ a < m, edge (a * n) < edge ((a + 1) * n) ∧
    ∀ j ≤ n, edge (a * n + j) = edge (a * n) + (edge ((a + 1) * n) - edge (a * n)) * ((lobatto.1.getD j 0 + 1) / 2)

/-- The weight of interface `k` in the integral over the column: the sum over the elements it belongs to. -/
noncomputable def interfaceWeight (n m : Nat) (edge : Nat → ℝ) (lobatto : List ℝ × List ℝ) (k : Nat) : ℝ :=
  ∑ a ∈ Finset.range m, if a * n ≤ k ∧ k ≤ a * n + n then
    (edge ((a + 1) * n) - edge (a * n)) / 2 * lobatto.2.getD (k - a * n) 0 else 0

/-- The jump that corrects element `a` from below: that over its lower edge; at the bottom of the column nothing with zero
boundaries, otherwise the jump over the first edge inside the column. -/
noncomputable def jumpBelow (n m : Nat) (edge : Nat → ℝ) (zeroBoundaries : Bool) (p : Nat → ℝ[X]) (a : Nat) : ℝ :=
  if 1 ≤ a then jump n edge p (a - 1) else if zeroBoundaries = false ∧ 1 < m then jump n edge p 0 else 0

/-- The jump that corrects element `a` from above. -/
noncomputable def jumpAbove (n m : Nat) (edge : Nat → ℝ) (zeroBoundaries : Bool) (p : Nat → ℝ[X]) (a : Nat) : ℝ :=
  if a + 1 < m then jump n edge p a else if zeroBoundaries = false ∧ 1 < m then jump n edge p (a - 1) else 0

end Verif.Column
