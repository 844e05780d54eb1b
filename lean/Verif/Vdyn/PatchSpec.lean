/-
Vocabulary for the implicit step of a patch: places inside it, the column that stands for a shared one, and what filtering a column
of a tracer means.
-/
import Verif.Vdyn.Patch
import Mathlib.Algebra.BigOperators.Intervals

namespace Verif.Vdyn

open Finset

/-- The place is in the interior of the patch. -/
def Box.Inside (B : Box) (x : Place) : Prop :=
  B.aBegin ≤ x.1 ∧ x.1 < B.aBegin + B.aWidth ∧ B.bBegin ≤ x.2 ∧ x.2 < B.bBegin + B.bWidth

/-- In one direction, of nodes `b` to `b + w` in elements of `p` nodes: the last node of an element is at the same place as the first
of the next one, if there is one, and that one stands for both. -/
def standsFor (b w p i : Nat) : Nat := if (i - b + 1) % p = 0 ∧ i - b + 1 < w then i + 1 else i

/-- The place whose column stands for the column at `x`. -/
def Box.owner (B : Box) (p : Nat) (x : Place) : Place := (standsFor B.aBegin B.aWidth p x.1, standsFor B.bBegin B.bWidth p x.2)

/-- The patch is made of whole elements with at least two nodes on a side. -/
def Box.Whole (B : Box) (p : Nat) : Prop := 2 ≤ p ∧ B.aWidth % p = 0 ∧ B.bWidth % p = 0

/-- The mass of a tracer in a column of `N` levels. -/
noncomputable def columnMass (N : Nat) (area q : Nat → ℝ) : ℝ := ∑ k ∈ range N, q k * area k

end Verif.Vdyn
