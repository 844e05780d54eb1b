/-
Specification vocabulary for the output on the reference grid: elements that hold a point, the value at a point of the
polynomial of an element, the value at a height of the polynomial of a vertical element.
-/
import Verif.Outref.Model
import Verif.Column.FemSpec
import Verif.Interp.Spec
import Verif.Sphere.Spec

namespace Verif.Outref

open Polynomial
open Verif.Patch (Box)
open Verif.Interp (DistinctNodes)
open Verif.Column (InElement OnEdge Through)

/-! ### The horizontal -/

/-- Coordinate of node `m` of element `e` of a row of elements of width `delta` that starts at `zero`; `g` are the nodes
of the first element, counted from its start. -/
noncomputable def nodeCoord (zero delta : ℝ) (g : Nat → ℝ) (e : Int) (m : Nat) : ℝ := zero + delta * e + g m

/-- The nodes of an element: `n` of them, increasing, the first at the start of the element and the last at its end. -/
structure ElementNodes (n : Nat) (g : Nat → ℝ) (delta : ℝ) : Prop where
  two : 2 ≤ n
  start : g 0 = 0
  increasing : ∀ i j, i < j → j < n → g i < g j
  stop : g (n - 1) = delta

/-- A box made of whole elements: the elements `a0 ≤ e < a1` of the alpha and `b0 ≤ f < b1` of the beta direction. -/
structure Elements (order : Nat) (x : Box) (a0 a1 b0 b1 : Int) : Prop where
  aBegin : x.aBegin + x.halo = order * a0
  aEnd : x.aEnd - x.halo = order * a1
  bBegin : x.bBegin + x.halo = order * b0
  bEnd : x.bEnd - x.halo = order * b1
  aNonneg : 0 ≤ a0
  bNonneg : 0 ≤ b0
  aSome : a0 < a1
  bSome : b0 < b1

/-- A box made of whole elements, at least one. -/
def Whole (order : Nat) (x : Box) : Prop := ∃ a0 a1 b0 b1, Elements order x a0 a1 b0 b1

/-- The point with coordinate `x` is in the elements `e0 ≤ e < e1`. -/
def Within (zero delta : ℝ) (e0 e1 : Int) (x : ℝ) : Prop := zero + delta * e0 ≤ x ∧ x ≤ zero + delta * e1

/-- `v` is the value at `(A, B)` of the polynomial that has degree less than `n` in each coordinate and the values
`f m j` at the points `(xa m, xb j)`: the polynomials along beta on each line of nodes give values at `B`, and the
polynomial along alpha through those gives `v` at `A`. -/
def HorizontalValue (n : Nat) (xa xb : Nat → ℝ) (f : Nat → Nat → ℝ) (A B v : ℝ) : Prop :=
  ∀ (q : Nat → ℝ[X]) (r : ℝ[X]), (∀ m < n, (q m).degree < n ∧ ∀ j < n, (q m).eval (xb j) = f m j) →
    r.degree < n → (∀ m < n, r.eval (xa m) = (q m).eval B) → v = r.eval A

/-! ### The vertical -/

/-- `v` is the value at height `s` of the column `y` of values at the interfaces: the value of the polynomial through
the values of the element that holds `s`, or the value at the edge of two elements. -/
def InterfaceValue (n N : Nat) (edge : Nat → ℝ) (y : Nat → ℝ) (s v : ℝ) : Prop :=
  ∀ a, (InElement (fun b => edge (b * n)) (N / n) a s → ∀ p : ℝ[X], p.degree < (n + 1 : ℕ) →
      Through p edge y (a * n) (n + 1) → v = p.eval s) ∧
    (OnEdge (fun b => edge (b * n)) (N / n) a s → v = y ((a + 1) * n))

/-- `v` is the value at height `s` of the column `y` of values at the levels: the value of the polynomial through the
values of the element that holds `s`; at the edge of two elements a mean of the values of their polynomials, weighted
by powers of the thickness of the other. -/
def LevelValue (n N : Nat) (node edge : Nat → ℝ) (y : Nat → ℝ) (s v : ℝ) : Prop :=
  ∀ a, (InElement (fun b => edge (b * n)) (N / n) a s → ∀ p : ℝ[X], p.degree < n → Through p node y (a * n) n →
      v = p.eval s) ∧
    (OnEdge (fun b => edge (b * n)) (N / n) a s → ∀ p q : ℝ[X], p.degree < n → q.degree < n →
      Through p node y (a * n) n → Through q node y ((a + 1) * n) n → ∃ wl wr : ℝ, 0 < wl ∧ 0 < wr ∧ wl + wr = 1 ∧
        wl * (edge ((a + 1) * n) - edge (a * n)) ^ n = wr * (edge ((a + 2) * n) - edge ((a + 1) * n)) ^ n ∧
        v = wl * p.eval s + wr * q.eval s)

/-- `v` is the value at height `s` of the line through the values `y` at two neighbouring levels, the lower one (`up`
false: the upper one) being that of the layer that holds `s`. -/
def LineValue (up : Bool) (N : Nat) (node edge : Nat → ℝ) (y : Nat → ℝ) (s v : ℝ) : Prop :=
  ∀ a, a + 1 < N → InElement edge N (if up then a else a + 1) s → ∀ p : ℝ[X], p.degree < (2 : ℕ) → Through p node y a 2 → v = p.eval s

/-- Levels and interfaces of a column of `N` levels in elements of `n`: the interfaces separate the elements, and the
levels and interfaces of an element are different. -/
structure ColumnOk (n N : Nat) (node edge : Nat → ℝ) : Prop where
  some : 0 < N
  order : 0 < n
  whole : N % n = 0
  separated : Column.Separated (fun b => edge (b * n)) (N / n)
  levels : ∀ a < N / n, DistinctNodes n fun i => node (a * n + i)
  interfaces : ∀ a < N / n, DistinctNodes (n + 1) fun i => edge (a * n + i)
  neighbours : ∀ a, a + 1 < N → node a ≠ node (a + 1)

/-! ### What is written -/

/-- The variable is among those asked for: of the state, those kept at the location asked for, if any. -/
def Requested (G : Grid) (ty : DataType) (only : Option Location) (c : Nat) : Prop :=
  ty = .state → only = none ∨ only = some (G.loc c)

/-- Where a component is kept: only those of the state may be kept at interfaces. -/
def locOf (G : Grid) (ty : DataType) (c : Nat) : Location := if ty = .state then G.loc c else .node

/-- Fields without levels. -/
def flatData : DataType → Bool
  | .topography | .surfacePressure | .auxiliary2D => true
  | _ => false

/-- The number of components. -/
def count (G : Grid) : DataType → Nat
  | .state => G.components
  | .tracers => G.tracers
  | .auxiliary2D => G.userFields
  | _ => 1

/-- The number of values in a column of a component. -/
def sizeOf (G : Grid) (ty : DataType) (c : Nat) : Nat :=
  if flatData ty then 1 else if locOf G ty c = .redge then G.levels + 1 else G.levels

/-- The number of levels in an element. -/
def levelsPerElement (G : Grid) : Nat := if G.finiteElement then G.vorder else 1

/-- `v` is the value at height `s`, output level `k` of `nOut`, of the column `y` kept at location `l`. -/
def VerticalValue (G : Grid) (l : Location) (nOut k : Nat) (y : Nat → ℝ) (s v : ℝ) : Prop :=
  match l with
  | .redge => InterfaceValue (levelsPerElement G) G.levels G.edge y s v
  | .node =>
    (levelsPerElement G ≠ 1 ∨ (k ≠ 0 ∧ k ≠ nOut - 1) → LevelValue (levelsPerElement G) G.levels G.node G.edge y s v) ∧
    (levelsPerElement G = 1 → k = 0 → LineValue true G.levels G.node G.edge y s v) ∧
    (levelsPerElement G = 1 → k = nOut - 1 → k ≠ 0 → LineValue false G.levels G.node G.edge y s v)
  | .other => False

/-- `v` is what output level `k` of `nOut`, at height `s`, is to be for a column `y`: the only value of a column of one,
the value at the height if there is vertical interpolation, the value of the same number if there is none. -/
def ColumnOutput (G : Grid) (ty : DataType) (c nOut k : Nat) (y : Nat → ℝ) (s v : ℝ) : Prop :=
  if sizeOf G ty c = 1 then v = y 0
  else if G.finiteElement = true ∨ G.sphere = true then VerticalValue G (locOf G ty c) nOut k y s v
  else v = y k

/-- The number of output levels fits the column: one for a column of one; the number of values if there is no vertical
interpolation. -/
def Fits (G : Grid) (ty : DataType) (c nOut : Nat) : Prop :=
  (sizeOf G ty c = 1 → nOut = 1) ∧ (sizeOf G ty c ≠ 1 → G.finiteElement = false → G.sphere = false → nOut = sizeOf G ty c)

/-- The point is in the elements of the patch. -/
def Holds (G : Grid) (P : Patch) (A B : ℝ) : Prop :=
  ∃ a0 a1 b0 b1, Elements G.order P.box a0 a1 b0 b1 ∧ Within G.zeroA G.deltaA a0 a1 A ∧ Within G.zeroB G.deltaB b0 b1 B

/-- `y` is the column at `(A, B)`: element `(e, f)` of the patch holds the point, and `y k` is the value there of the
polynomial through the values `f i j k` of the element's nodes; `f` takes the indices `(i, j)` of the array of the patch,
and the first node of the element, which is `(i0, j0)`. -/
def ColumnAt (G : Grid) (P : Patch) (A B : ℝ) (f : Int → Int → Int → Int → Nat → ℝ) (y : Nat → ℝ) : Prop :=
  ∃ e e' : Int, ∃ i0 j0 : Int, Within G.zeroA G.deltaA e (e + 1) A ∧ Within G.zeroB G.deltaB e' (e' + 1) B ∧
    P.box.aBegin + i0 = G.order * e ∧ P.box.bBegin + j0 = G.order * e' ∧
    P.box.halo ≤ i0 ∧ i0 + G.order ≤ P.box.aEnd - P.box.aBegin - P.box.halo ∧
    P.box.halo ≤ j0 ∧ j0 + G.order ≤ P.box.bEnd - P.box.bBegin - P.box.halo ∧
    ∀ k, HorizontalValue G.order (nodeCoord G.zeroA G.deltaA G.gA e) (nodeCoord G.zeroB G.deltaB G.gB e')
      (fun m j => f i0 j0 (i0 + m) (j0 + j) k) A B (y k)

/-- The field asked for: the stored one, with the reference state taken off that of the state if it is not included. -/
noncomputable def asked (P : Patch) (ty : DataType) (incl : Bool) (c : Nat) (i j : Int) (k : Nat) : ℝ :=
  P.field ty c i j k - if ty = .state ∧ incl = false then P.ref c i j k else 0

end Verif.Outref
