import Verif.Norms.Model
import Verif.Checksum.Spec

/-!
# What a relative error is
-/

namespace Verif.Norms

open Verif.Init
open Verif.Checksum (total Owned)

/-- Component `c` of data instance `n`, where the component is kept: on interfaces or on levels. -/
def value (g : Checksum.Setup) (c n : Nat) (A : Arrays) (i j k : Nat) : ℝ :=
  if g.loc c = .rEdge then A.edge n c i j k else A.node n c i j k

/-- The area that belongs to a point of component `c`. -/
def area (g : Checksum.Setup) (c : Nat) (t : Tile) (i j k : Nat) : ℝ :=
  if g.loc c = .rEdge then t.areaREdge i j k else t.areaNode i j k

/-- The number of points of component `c` in a column. -/
def height (g : Checksum.Setup) (c : Nat) : Nat := if g.loc c = .rEdge then g.nR + 1 else g.nR

/-- A point of component `c` that belongs to a patch. -/
def Own (g : Checksum.Setup) (c : Nat) (t : Tile) (i j k : Nat) : Prop :=
  Owned t.aBegin t.aEnd t.bBegin t.bEnd (height g c) i j k

/-- The integral of a quantity over all patches. -/
noncomputable def integral (g : Checksum.Setup) (c : Nat) (tiles : List Tile) (q : Tile → Nat → Nat → Nat → ℝ) : ℝ :=
  (tiles.map (fun t => total t.aBegin t.aEnd t.bBegin t.bEnd (height g c)
    (fun i j k => q t i j k * area g c t i j k))).sum

/-- The integral of the absolute value. -/
noncomputable def normL1 (g : Checksum.Setup) (c : Nat) (tiles : List Tile) (q : Tile → Nat → Nat → Nat → ℝ) : ℝ :=
  integral g c tiles (fun t i j k => |q t i j k|)

/-- The root of the integral of the square. -/
noncomputable def normL2 (g : Checksum.Setup) (c : Nat) (tiles : List Tile) (q : Tile → Nat → Nat → Nat → ℝ) : ℝ :=
  Real.sqrt (integral g c tiles (fun t i j k => q t i j k ^ 2))

/-- `r` is the largest absolute value, zero if there are no points. -/
def IsMax (g : Checksum.Setup) (c : Nat) (tiles : List Tile) (q : Tile → Nat → Nat → Nat → ℝ) (r : ℝ) : Prop :=
  0 ≤ r ∧ (∀ t ∈ tiles, ∀ i j k, Own g c t i j k → |q t i j k| ≤ r) ∧
    (r = 0 ∨ ∃ t ∈ tiles, ∃ i j k, Own g c t i j k ∧ r = |q t i j k|)

open Classical in
/-- The size of an error relative to the size of what was to be computed; the size itself if that is zero. -/
noncomputable def relative (error exact : ℝ) : ℝ := if exact = 0 then error else error / exact

/-- The exact state at the present time, for every patch: what the test case puts into instance 1 of the patch (C100
says what that is). -/
def Exact (K : Kind) (T : Test) (tiles : List Tile) (E : Tile → Arrays) : Prop :=
  ∀ t ∈ tiles, evaluate K t.site T T.ztop T.hasReference 1 t.arrays = .ok (E t)

/-- Component `c` of the exact state. -/
def exact (g : Checksum.Setup) (c : Nat) (E : Tile → Arrays) (t : Tile) (i j k : Nat) : ℝ := value g c 1 (E t) i j k

/-- The exact state minus the computed one, which is in instance 0. -/
def error (g : Checksum.Setup) (c : Nat) (E : Tile → Arrays) (t : Tile) (i j k : Nat) : ℝ :=
  value g c 1 (E t) i j k - value g c 0 t.arrays i j k

/-- The reduction uses the value of every process once. -/
def Reduces (reduce : Nat → List (Nat → ℝ) → Checksum.Tree (Nat → ℝ)) : Prop :=
  ∀ n l, l ≠ [] → (reduce n l).leaves.Perm l

/-- No reference state is kept for component `c` on levels, neither by the test case nor left in the patches; components
on interfaces are not concerned. -/
def NoReference (g : Checksum.Setup) (c : Nat) (T : Test) (tiles : List Tile) : Prop :=
  g.loc c = .rEdge ∨
    (T.hasReference = false ∧ ∀ t ∈ tiles, ∀ i j k, Own g c t i j k → t.arrays.refNode c i j k = 0)

end Verif.Norms
