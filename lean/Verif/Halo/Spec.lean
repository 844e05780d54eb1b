import Verif.Sphere.Spec
import Mathlib.Algebra.BigOperators.Group.Finset.Basic
import Mathlib.Order.Interval.Finset.Basic
import Mathlib.Data.Int.Interval

/-!
# Averaging vectors over the copies of a point of the sphere

A panel of the cubed sphere is cut into `res` by `res` elements with `p` by `p` nodes each.  Along either
direction the nodes of a panel are numbered `0 … p * res - 1`; the last node of an element and the first node of
the next are at the same place, and the outermost nodes lie on the edges of the panel, which it shares with other
panels.  So several nodes can be copies of one point of the sphere.
-/

namespace Verif.Halo

open Verif.Sphere

/-- The points of an element of width `w`: they begin at 0, end at `w`, increase and are symmetric about the
middle. -/
structure Points (p : Int) (w : ℝ) (x : Nat → ℝ) : Prop where
  first : x 0 = 0
  last : x (p - 1).toNat = w
  increasing : ∀ s t : Nat, s < t → (t : Int) < p → x s < x t
  symmetric : ∀ s : Int, 0 ≤ s → s < p → x (p - 1 - s).toNat = w - x s.toNat

/-- A sensible division of a panel: at least two nodes per element, at least one element, and points that fill the
element. -/
structure Line (p res : Int) (x : Nat → ℝ) : Prop where
  order : 2 ≤ p
  cells : 1 ≤ res
  points : Points p (Real.pi / 2 / res) x

/-- The equiangular coordinate of node `g`: the panel is a quarter turn wide, from minus an eighth turn. -/
noncomputable def angle (p res : Int) (x : Nat → ℝ) (g : Int) : ℝ :=
  -(Real.pi / 4) + Real.pi / 2 / res * ((g / p : Int) : ℝ) + x (g % p).toNat

/-- The coordinate on the face of the cube. -/
noncomputable def coord (p res : Int) (x : Nat → ℝ) (g : Int) : ℝ := Real.tan (angle p res x g)

/-- A node of the sphere: panel and two numbers. -/
abbrev Node := Int × Int × Int

/-- The nodes of the sphere. -/
noncomputable def allNodes (p res : Int) : Finset Node :=
  Finset.Ico 0 6 ×ˢ Finset.Ico 0 (p * res) ×ˢ Finset.Ico 0 (p * res)

/-- The point of the sphere a node is at. -/
noncomputable def point (p res : Int) (x : Nat → ℝ) (n : Node) : Vec3 :=
  image n.1 (coord p res x n.2.1) (coord p res x n.2.2)

open Classical in
/-- All copies of the point of node `n`. -/
noncomputable def copies (p res : Int) (x : Nat → ℝ) (n : Node) : Finset Node :=
  (allNodes p res).filter fun n' => point p res x n' = point p res x n

/-- The mean, over all copies of the point of node `n`, of the vectors `W` attached to them. -/
noncomputable def meanVector (p res : Int) (x : Nat → ℝ) (W : Node → Vec3) (n : Node) : Vec3 :=
  (1 / ((copies p res x n).card : ℝ)) • ∑ n' ∈ copies p res x n, W n'

/-- The two numbers are the covariant components of the vector at coordinates `X`, `Y` of panel `q`: its inner
products with the two coordinate directions. -/
def Covariant (q : Int) (X Y : ℝ) (v : ℝ × ℝ) (w : Vec3) : Prop :=
  v.1 = dot w (tangentA q X Y) ∧ v.2 = dot w (tangentB q X Y)

/-- The two numbers are the contravariant components of the vector: it is their combination of the two
coordinate directions. -/
def Contravariant (q : Int) (X Y : ℝ) (v : ℝ × ℝ) (w : Vec3) : Prop := physical q X Y v.1 v.2 = w

end Verif.Halo
