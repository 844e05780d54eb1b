/-
Specification vocabulary for patches: nodes of a box, partitions, who answers a lookup, which connections a patch
needs.
-/
import Verif.Patch.Model

namespace Verif.Patch

open Verif.Exchange (Dir)

/-- Node `(a, b)` of panel `p` is an interior node of patch number `n`. -/
def OwnedBy (boxes : List Box) (n : Nat) (p a b : Int) : Prop :=
  ∃ x, boxes[n]? = some x ∧ x.contains p a b = true

/-- No node is an interior node of two patches. -/
def Disjoint (boxes : List Box) : Prop :=
  ∀ n m p a b, OwnedBy boxes n p a b → OwnedBy boxes m p a b → n = m

/-- The patches cover exactly the nodes satisfying `Node`, each once. -/
def Partition (boxes : List Box) (Node : Int → Int → Int → Prop) : Prop :=
  Disjoint boxes ∧ ∀ p a b, Node p a b ↔ ∃ n, OwnedBy boxes n p a b

/-- Nodes of a cubed sphere with `N` nodes along each panel edge. -/
def CSNode (N : Nat) (p a b : Int) : Prop := (0 ≤ p ∧ p < 6) ∧ (0 ≤ a ∧ a < N) ∧ (0 ≤ b ∧ b < N)

/-- Nodes of a Cartesian grid. -/
def CartNode (NA NB : Nat) (p a b : Int) : Prop := p = 0 ∧ (0 ≤ a ∧ a < NA) ∧ (0 ≤ b ∧ b < NB)

/-- `ans` is the right answer for a node: the number of the patch owning it, or none if no patch does. -/
def Answer (boxes : List Box) (node : Option (Int × Int × Int)) (ans : Option Nat) : Prop :=
  ∀ n, ans = some n ↔ ∃ p a b, node = some (p, a, b) ∧ OwnedBy boxes n p a b

/-- Local node `(i, j)` of a patch is an interior node. -/
def InteriorNode (x : Box) (i j : Int) : Prop :=
  (x.aInteriorBegin ≤ i ∧ i < x.aInteriorEnd) ∧ (x.bInteriorBegin ≤ j ∧ j < x.bInteriorEnd)

instance (x : Box) (i j : Int) : Decidable (InteriorNode x i j) := by unfold InteriorNode; infer_instance

/-- The patch found at local node `(i, j)` of patch `x`. -/
def atNode (f : Int × Int × Int → Option Nat) (x : Box) (i j : Int) : Option Nat :=
  f (x.panel, x.aGlobalBegin + i, x.bGlobalBegin + j)

/-- The local node just outside side `d` at position `p` along it. -/
def facing (x : Box) (d : Dir) (p : Int) : Int × Int :=
  match d with
  | .bottom => (p, x.bInteriorBegin - 1)
  | .top => (p, x.bInteriorEnd)
  | .left => (x.aInteriorBegin - 1, p)
  | .right => (x.aInteriorEnd, p)
  | _ => (0, 0)

/-- The patch facing position `p` of side `d`. -/
def faces (f : Int × Int × Int → Option Nat) (x : Box) (d : Dir) (p : Int) : Option Nat :=
  atNode f x (facing x d p).1 (facing x d p).2

/-- First position of a side. -/
def sideBegin (x : Box) (d : Dir) : Int :=
  match d with
  | .bottom | .top => x.aInteriorBegin
  | _ => x.bInteriorBegin

/-- One past the last position of a side. -/
def sideEnd (x : Box) (d : Dir) : Int :=
  match d with
  | .bottom | .top => x.aInteriorEnd
  | _ => x.bInteriorEnd

/-- `[a, b)` is a maximal run of positions of side `d` facing patch `t`. -/
structure IsSegment (f : Int × Int × Int → Option Nat) (x : Box) (d : Dir) (t : Nat) (a b : Int) : Prop where
  begin_le : sideBegin x d ≤ a
  nonempty : a < b
  le_end : b ≤ sideEnd x d
  all : ∀ p, a ≤ p → p < b → faces f x d p = some t
  before : a = sideBegin x d ∨ faces f x d (a - 1) ≠ some t
  after : b = sideEnd x d ∨ faces f x d b ≠ some t

/-- Step in a diagonal direction. -/
def diagonalStep (d : Dir) : Int × Int :=
  match d with
  | .topRight => (1, 1)
  | .topLeft => (-1, 1)
  | .bottomLeft => (-1, -1)
  | .bottomRight => (1, -1)
  | _ => (0, 0)

/-- Interior node `(i, j)` needs a diagonal connection to patch `t` in direction `d`: its diagonal neighbour is
outside the interior and belongs to `t`, and no straight connection provides it, because the node sits at a corner
of the interior or because the patch straight across the side is another one. -/
structure IsDiagonal (f : Int × Int × Int → Option Nat) (x : Box) (d : Dir) (t : Nat) (i j : Int) : Prop where
  interior : InteriorNode x i j
  outside : ¬ InteriorNode x (i + (diagonalStep d).1) (j + (diagonalStep d).2)
  target : atNode f x (i + (diagonalStep d).1) (j + (diagonalStep d).2) = some t
  needed :
    (¬ InteriorNode x (i + (diagonalStep d).1) j ∧ ¬ InteriorNode x i (j + (diagonalStep d).2)) ∨
    (InteriorNode x (i + (diagonalStep d).1) j ∧ atNode f x i (j + (diagonalStep d).2) ≠ some t) ∨
    (InteriorNode x i (j + (diagonalStep d).2) ∧ atNode f x (i + (diagonalStep d).1) j ≠ some t)

/-- The connections a patch needs. -/
def Wanted (f : Int × Int × Int → Option Nat) (x : Box) (r : Reg) : Prop :=
  match r.dir with
  | .bottom | .top | .left | .right => IsSegment f x r.dir r.target r.first r.second
  | .topRight | .topLeft | .bottomLeft | .bottomRight => IsDiagonal f x r.dir r.target r.first r.second
  | _ => False

end Verif.Patch
