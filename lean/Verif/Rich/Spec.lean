/-
Vocabulary of C134: columns of a patch, and the Richardson number of profiles.
-/
import Verif.Rich.Model

namespace Verif.Rich

open Verif.Column

/-- The interior is within the patch. -/
structure Patch.Fits (P : Patch) : Prop where
  a : P.aBegin ≤ P.aEnd ∧ P.aEnd ≤ P.aTotal
  b : P.bBegin ≤ P.bEnd ∧ P.bEnd ≤ P.bTotal
  levels : 0 < P.levels

/-- Column `(i, j)` is in the interior. -/
def Patch.Inside (P : Patch) (i j : Nat) : Prop := P.aBegin ≤ i ∧ i < P.aEnd ∧ P.bBegin ≤ j ∧ j < P.bEnd

/-- The place of level `k` of column `(i, j)` in the array of the result: levels of a column are next to each other. -/
def Patch.place (P : Patch) (i j k : Nat) : Nat := (i * P.bTotal + j) * P.levels + k

/-- The operator between interfaces reads interfaces only. -/
def EdgeOnly (P : Patch) : Prop := ∀ k ≤ P.levels, (P.diffEE.row k).iend ≤ P.levels + 1

/-- The gradient Richardson number where density `r` has the slope `dr` with height, and the wind the slopes `du` and `dv`. -/
noncomputable def gradientNumber (g r dr du dv : ℝ) : ℝ := -(g / r) * dr / (du ^ 2 + dv ^ 2)

/-- Density of column `(i, j)` on interfaces: as stored, or interpolated. -/
noncomputable def densityAt (P : Patch) (s : State) (i j k : Nat) : ℝ :=
  if P.onEdge 4 then s.edge 4 i j k else applyRow P.interpNE (s.node 4 i j) k

/-- Vertical velocity of column `(i, j)` on interfaces: as stored, or interpolated. -/
noncomputable def verticalAt (P : Patch) (s : State) (i j k : Nat) : ℝ :=
  if P.onEdge 3 then s.edge 3 i j k else applyRow P.interpNE (s.node 3 i j) k

/-- Velocity `c` along a surface of constant height: what is stored on interfaces, less the slope of the surface times vertical
velocity. -/
noncomputable def alongAt (P : Patch) (s : State) (c i j k : Nat) : ℝ :=
  s.edge c i j k - P.derivEdge i j k c * verticalAt P s i j k * P.derivEdge i j k 2

/-- What is computed at interface `k` of column `(i, j)`: slopes in the vertical coordinate, by the operator between interfaces. -/
noncomputable def computedAt (P : Patch) (s : State) (i j k : Nat) : ℝ :=
  P.g * (applyRow P.diffEE (densityAt P s i j) k / densityAt P s i j k) /
    (applyRow P.diffEE (alongAt P s 0 i j) k ^ 2 + applyRow P.diffEE (alongAt P s 1 i j) k ^ 2)

/-- Density of column `(i, j)` on levels: as stored, or interpolated. -/
noncomputable def densityOn (P : Patch) (s : State) (i j k : Nat) : ℝ :=
  if P.onEdge 4 then applyRow P.interpEN (s.edge 4 i j) k else s.node 4 i j k

/-- Velocity `c` on levels along a surface of constant height. -/
noncomputable def alongOn (P : Patch) (s : State) (c i j k : Nat) : ℝ :=
  s.node c i j k - P.derivNode i j k c * (if P.onEdge 3 then applyRow P.interpEN (s.edge 3 i j) k else s.node 3 i j k) * P.derivNode i j k 2

/-- The operator for derivatives on levels: with vertical velocity on interfaces, that for functions that vanish at the ends. -/
noncomputable def levelSlope (P : Patch) (f : Nat → ℝ) (k : Nat) : ℝ := if P.onEdge 3 then applyRow P.diffNNZero f k else applyRow P.diffNN f k

/-- What is computed on level `k` of column `(i, j)`. -/
noncomputable def computedOn (P : Patch) (s : State) (i j k : Nat) : ℝ :=
  P.g / densityOn P s i j k * levelSlope P (densityOn P s i j) k /
    (levelSlope P (alongOn P s 0 i j) k ^ 2 + levelSlope P (alongOn P s 1 i j) k ^ 2)

end Verif.Rich
