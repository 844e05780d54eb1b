/-
Vocabulary of C132: numbers of a patch, and copies of a shared column.
-/
import Verif.Schur.Copies
import Verif.Vdyn.PatchSpec

namespace Verif.Schur

open Verif.Vdyn

/-- The interior lies in the array, one node or more from its ends. -/
def Fits (s : Sizes) (B : Box) : Prop := B.aBegin + B.aWidth < s.a ∧ B.bBegin + B.bWidth < s.b ∧ 1 ≤ B.aBegin ∧ 1 ≤ B.bBegin

/-- The number at `[c][i][j][k]`: component, place and level. -/
def number (s : Sizes) (m : Nat → ℝ) (c : Nat) (x : Place) (k : Nat) : ℝ := m (((c * s.a + x.1) * s.b + x.2) * s.r + k)

/-- All copies of a shared column agree: in the components `cs` each place of the interior holds what the place that stands for it
held before. -/
def Agree (s : Sizes) (B : Box) (p : Nat) (cs : List Nat) (m m' : Nat → ℝ) : Prop :=
  ∀ x, B.Inside x → ∀ c ∈ cs, ∀ k < s.r, number s m' c x k = number s m c (B.owner p x) k

end Verif.Schur
