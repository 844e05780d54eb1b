import Mathlib.Data.Real.Sqrt
import Mathlib.Algebra.BigOperators.Intervals

/-!
# What a checksum is

For one component: the nodes owned by a patch, each with a value and an area.
-/

namespace Verif.Checksum

open Finset

/-- Sum of a quantity over the owned nodes of a patch: alpha from `aB` to `aE`,
beta from `bB` to `bE` (exclusive), `levels` levels. -/
noncomputable def total (aB aE bB bE levels : Nat) (q : Nat → Nat → Nat → ℝ) : ℝ :=
  ∑ i ∈ Ico aB aE, ∑ j ∈ Ico bB bE, ∑ k ∈ range levels, q i j k

/-- A node owned by the patch. -/
def Owned (aB aE bB bE levels i j k : Nat) : Prop :=
  aB ≤ i ∧ i < aE ∧ bB ≤ j ∧ j < bE ∧ k < levels

end Verif.Checksum
