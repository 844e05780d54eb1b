/-
Vocabulary for the implicit step: what LAPACK's band solver does, and the unknowns of a column.
-/
import Verif.Vdyn.JacobianSpec
import Verif.Vdyn.Implicit

namespace Verif.Vdyn

open Finset

/-- Entry `(i, j)` of a matrix with `d` diagonals below and above, in LAPACK's band storage with leading dimension `lda`: row
`2 d + i - j` of column `j`; outside the band it is 0. -/
def bandEntry (lda d : Nat) (m : Int → ℝ) (i j : Nat) : ℝ :=
  if i ≤ j + d ∧ j ≤ i + d then m ((2 * d + i - j : Int) + lda * j) else 0

/-- No vector but zero is mapped to zero. -/
def Regular (n lda d : Nat) (m : Int → ℝ) : Prop :=
  ∀ c : Nat → ℝ, (∀ i < n, ∑ j ∈ range n, bandEntry lda d m i j * c j = 0) → ∀ i < n, c i = 0

/-- LAPACK's documentation: with room for the fill-in, the solver solves the system if the matrix is regular, and reports failure
if it is not; without room it reports failure.  (In exact arithmetic.) -/
def Lapack (solve : BandSolver) : Prop :=
  ∀ (n d lda : Nat) (m : Int → ℝ) (b : Nat → ℝ),
    (3 * d + 1 ≤ lda → Regular n lda d m →
      ∃ s, solve n d lda m b = some s ∧ ∀ i < n, ∑ j ∈ range n, bandEntry lda d m i j * s j = b i) ∧
    (3 * d + 1 ≤ lda → ¬ Regular n lda d m → solve n d lda m b = none) ∧
    (lda < 3 * d + 1 → solve n d lda m b = none)

/-- Two vectors agree on the unknowns of a column of `N` levels: three on every level, density times potential temperature,
vertical velocity of the interface below, and density, and the vertical velocity of the top. -/
def Agree (N : Nat) (x y : Nat → ℝ) : Prop := (∀ i < 3 * N, x i = y i) ∧ x (3 * N + 1) = y (3 * N + 1)

/-- The unknowns of a column in a row, from variables on nodes and interfaces. -/
def unknowns (node edge : Nat → Nat → ℝ) (i : Nat) : ℝ :=
  if i % 3 = 0 then node 2 (i / 3) else if i % 3 = 1 then edge 3 (i / 3) else node 4 (i / 3)

end Verif.Vdyn
