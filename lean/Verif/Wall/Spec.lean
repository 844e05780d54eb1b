import Verif.Wall.Model
import Verif.Dss.Model
import Verif.Dss.Spec

/-!
# What a wall is

Words for C102.  A patch has a ring of halo nodes.  Beyond each node on a side of the patch lies a halo node, and the
program makes the velocity of both the mean of the two.  A wall holds the air still if that mean has no velocity, and it
lets no air through if that mean has no velocity across the wall.  These definitions use nothing of the code but the
layout of its arrays.
-/

namespace Verif.Wall

/-- Node `t` of the halo beyond a side. -/
def Beyond (na nb : Nat) : Side → Nat → Nat × Nat
  | .right, t => (na - 1, t)
  | .top, t => (t, nb - 1)
  | .left, t => (0, t)
  | .bottom, t => (t, 0)

/-- The node of the patch next to it. -/
def Rim (na nb : Nat) : Side → Nat → Nat × Nat
  | .right, t => (na - 2, t)
  | .top, t => (t, nb - 2)
  | .left, t => (1, t)
  | .bottom, t => (t, 1)

/-- How many nodes there are along a side, those in the corners of the halo included. -/
def Along (na nb : Nat) : Side → Nat
  | .right | .left => nb
  | .top | .bottom => na

/-- A node along a side that the patch owns: not in a corner of the halo. -/
def Owned (P : Patch) (s : Side) (t : Nat) : Prop := 0 < t ∧ t + 1 < Along P.na P.nb s

/-- The patch reaches the boundary of the grid at this side. -/
def Meets (P : Patch) : Side → Prop
  | .right => P.aEnd = P.order * P.aResolution
  | .top => P.bEnd = P.order * P.bResolution
  | .left => P.aBegin = 0
  | .bottom => P.bBegin = 0

/-- The condition asked for at a side: none (0, periodic), no flux (1), no slip (2). -/
def Asked (P : Patch) : Side → Int
  | .right => P.conditions 0
  | .top => P.conditions 1
  | .left => P.conditions 2
  | .bottom => P.conditions 3

/-- The mean of a component over a halo node and its neighbour. -/
noncomputable def mean (P : Patch) (s : Side) (r : Nat → Nat → Nat → Nat → ℝ) (c t k : Nat) : ℝ :=
  (r c (Beyond P.na P.nb s t).1 (Beyond P.na P.nb s t).2 k + r c (Rim P.na P.nb s t).1 (Rim P.na P.nb s t).2 k) / 2

/-- The components that are velocities: alpha, beta and vertical. -/
def IsVelocity (c : Nat) : Prop := c = 0 ∨ c = 1 ∨ c = 3

/-- The component of the velocity that belongs to the coordinate across a side. -/
def Across : Side → Nat
  | .right | .left => 0
  | .top | .bottom => 1

/-- The row of the contravariant metric that belongs to the coordinate across a side, on levels. -/
def MetricNode (P : Patch) : Side → Nat → Nat → Nat → Nat → ℝ
  | .right | .left => P.metricA
  | .top | .bottom => P.metricB

/-- The same on interfaces. -/
def MetricEdge (P : Patch) : Side → Nat → Nat → Nat → Nat → ℝ
  | .right | .left => P.metricAEdge
  | .top | .bottom => P.metricBEdge

/-- No air is still moving at node `t` of a wall. -/
def Still (P : Patch) (s : Side) (r : Nat → Nat → Nat → Nat → ℝ) (t k : Nat) : Prop :=
  ∀ c, IsVelocity c → mean P s r c t k = 0

/-- No air passes at node `t` of a wall: the contravariant velocity across it, from the covariant velocities and the
metric of the node, is zero. -/
def Closed (P : Patch) (s : Side) (G : Nat → Nat → Nat → Nat → ℝ) (r : Nat → Nat → Nat → Nat → ℝ) (t k : Nat) : Prop :=
  G (Rim P.na P.nb s t).1 (Rim P.na P.nb s t).2 k 0 * mean P s r 0 t k +
    G (Rim P.na P.nb s t).1 (Rim P.na P.nb s t).2 k 1 * mean P s r 1 t k +
    G (Rim P.na P.nb s t).1 (Rim P.na P.nb s t).2 k 2 * mean P s r 3 t k = 0

/-- Which sides the program treats as asked: all of them unless everything is on interfaces. -/
def Proper (P : Patch) (s : Side) : Prop := P.staggering ≠ .interfaces ∨ s = .left ∨ s = .bottom

/-- One component on one level, as the averaging of shared nodes sees it. -/
def layer (r : Nat → Nat → Nat → Nat → ℝ) (c k : Nat) : Dss.Field := fun i j => r c i.toNat j.toNat k

/-- The patch of the averaging has a halo of one node and the same nodes. -/
structure Fits (P : Patch) (D : Dss.Patch) : Prop where
  halo : D.halo = 1
  order : 2 ≤ D.order
  elemA : 1 ≤ D.elemA
  elemB : 1 ≤ D.elemB
  na : (P.na : Int) = D.elemA * D.order + 2
  nb : (P.nb : Int) = D.elemB * D.order + 2

end Verif.Wall
