/-
Vocabulary for the step by a Schur complement: the discretisation by finite volumes, vertical velocity in length per time, the
matrix of the equations, and the entries that do not belong to it.
-/
import Verif.Vdyn.ImplicitSpec
import Verif.Column.Recon
import Verif.Interp.Spec

namespace Verif.Schur

open Verif.Column Verif.Vdyn Verif.Interp Finset

/-- The discretisation by finite volumes: levels between increasing interfaces, with the operators between them as the library
sets them up. -/
structure Volumes (S : Setup) (node edge : Nat → ℝ) : Prop where
  volumes : S.volumes = true
  toInterfaces : reconInterpInit .levels .interfaces S.order S.levels (S.levels + 1) node edge = .ok S.interpNE
  gradient : reconDiffInit .levels .interfaces S.order S.levels (S.levels + 1) node edge = .ok S.diffNE
  divergence : reconDiffInit .interfaces .levels S.order S.levels (S.levels + 1) node edge = .ok S.diffEN
  jumps : penaltyReconInit S.order S.levels (S.levels + 1) node edge = .ok S.penalty
  increasing : ∀ k < S.levels, edge k < edge (k + 1)
  distinct : DistinctNodes S.levels node

/-- The metric for vertical velocity in length per time instead of covariant: that is `DerivR` times as large. -/
noncomputable def physical (G : Metric) : Metric :=
  { G with
    conXi := fun k c => if c = 2 then G.conXi k 2 * G.derivR k else G.conXi k c
    conXiEdge := fun k c => if c = 2 then G.conXiEdge k 2 * G.derivREdge k else G.conXiEdge k c }

/-- Index `i` of a column of `N` levels is that of an unknown: density times potential temperature or density of a level, or
vertical velocity of an interface. -/
def Unknown (N i : Nat) : Prop := i < 3 * N ∨ i = 3 * N + 1

/-- No change but zero of the unknowns makes all equations zero. -/
def Solvable (N : Nat) (us : List Update) : Prop :=
  ∀ y : Nat → ℝ, (∀ i, Unknown N i → product us y i = 0) → ∀ i, Unknown N i → y i = 0

/-- Entries that do not belong to the equations: at second order, in the equation for density on level `k ≥ 2`, density times
potential temperature on level `k - 1` is multiplied by the entry of the equation for density times potential temperature on
level `k - 2` for the velocity of interface `k - 1`. -/
def stray (S : Setup) (us : List Update) : List Update :=
  if S.order = 2 then
    (List.range' 2 (S.levels - 2)).map fun k => ⟨3 * k + 2, 3 * (k - 1), total us (3 * (k - 2)) (3 * (k - 1) + 1)⟩
  else []

/-- The change of the flux through interface `m` of a quantity `q` known on levels, for changes `w` of vertical velocity and `r`
of the quantity, while the wind through the interface is `wind`. -/
noncomputable def fluxChange (S : Setup) (G : Metric) (wind q w r : Nat → ℝ) (m : Nat) : ℝ :=
  if 1 ≤ m ∧ m < S.levels then
    G.jacEdge m * (applyRow S.interpNE q m * (G.conXiEdge m 2 * G.derivREdge m * w m) + applyRow S.interpNE r m * wind m)
  else 0

/-- The column of the data, with vertical velocity in length per time. -/
def column (D : Data) : Column := ⟨D.node 0, D.node 1, D.node 2, D.edge 3, D.node 4⟩

/-- The wind through interface `m` in a column with vertical velocity in length per time. -/
noncomputable def wind (S : Setup) (G : Metric) (C : Column) (m : Nat) : ℝ := verticalWind S (physical G) C m

/-- The left hand side, linear in the changes, of the equation on level `k` for a quantity `q` that is carried by the wind: changes
`w` of vertical velocity and `r` of the quantity change the flux, the upwinding and the time derivative. -/
noncomputable def levelSide (S : Setup) (G : Metric) (C : Column) (q w r : Nat → ℝ) (k : Nat) : ℝ :=
  applyRow S.diffEN (fluxChange S G (wind S G C) q w r) k / G.jac k -
    penaltyApply S.penalty (fun a => |wind S G C (a + 1)|) r (fun _ => 0) 1 1 k -
    penaltyApply S.penalty (fun a => sgn (wind S G C (a + 1)) / G.derivREdge (a + 1) * w (a + 1)) q (fun _ => 0) 1 1 k + r k / S.dt

/-- The left hand side of the equation for vertical velocity on interface `k`: the changes `p` of density times potential
temperature and `r` of density change the pressure gradient, between the ends.  The first coefficient has the vertical derivative of
height at level `k`, as the code does, where the derivative of the right hand side has that at interface `k`. -/
noncomputable def interfaceSide (S : Setup) (G : Metric) (C : Column) (p w r : Nat → ℝ) (k : Nat) : ℝ :=
  (if 1 ≤ k ∧ k < S.levels then
    applyRow S.interpNE C.p k * S.phys.r / (G.derivR k * applyRow S.interpNE C.r k * (S.phys.cp - S.phys.r)) *
      applyRow S.diffNE (fun m => exner S C m / C.p m * p m) k +
    1 / G.derivREdge k / (applyRow S.interpNE C.r k * applyRow S.interpNE C.r k) * applyRow S.diffNE (exner S C) k *
      (applyRow S.interpNE p k * applyRow S.interpNE C.r k - applyRow S.interpNE r k * applyRow S.interpNE C.p k)
  else 0) + w k / S.dt

/-- The right hand side on level `k`: transport and upwinding of a quantity. -/
noncomputable def levelTend (S : Setup) (G : Metric) (C : Column) (q : Nat → ℝ) (k : Nat) : ℝ :=
  applyRow S.diffEN (flux S (physical G) C q) k / G.jac k -
    penaltyApply S.penalty (fun a => |wind S G C (a + 1)|) q (fun _ => 0) 1 1 k

/-- The right hand side on interface `k`: pressure gradient, gravity and diffusion between the ends. -/
noncomputable def interfaceTend (S : Setup) (G : Metric) (D : Data) (C : Column) (k : Nat) : ℝ :=
  if 1 ≤ k ∧ k < S.levels then
    theta S C k * applyRow S.diffNE (exner S C) k / G.derivREdge k + S.phys.g -
      diffuse S S.diffDiffEE S.nuVector C.w (D.refEdge 3) k
  else 0

/-- The factor by which the change of density times potential temperature on level `k - 1` enters the equation for density on
level `k`, where it does not belong: at second order, for `k ≥ 2`, it is the factor of the change of vertical velocity on
interface `k - 1` in the equation for density times potential temperature on level `k - 2`. -/
noncomputable def strayFactor (S : Setup) (G : Metric) (C : Column) (k : Nat) : ℝ :=
  if S.order = 2 ∧ 2 ≤ k then levelSide S G C C.p (fun m => if m = k - 1 then 1 else 0) (fun _ => 0) (k - 2) else 0

/-- The linear equations of a column for changes `p`, `w`, `r` of its unknowns, with factors `f` of density times potential
temperature of the level below in the equation for density, and right hand sides `a`, `b`, `c`. -/
def Linear (S : Setup) (G : Metric) (C : Column) (f p w r a b c : Nat → ℝ) : Prop :=
  (∀ k < S.levels, levelSide S G C C.p w p k = a k ∧ levelSide S G C C.r w r k + f k * p (k - 1) = c k) ∧
  ∀ k ≤ S.levels, interfaceSide S G C p w r k = b k

/-- One step of Newton's method from the data to `p'`, `w'`, `r'`: the linear equations for the change from the new to the old
state. -/
noncomputable def NewtonStep (S : Setup) (G : Metric) (D : Data) (f p' w' r' : Nat → ℝ) : Prop :=
  Linear S G (column D) f (fun k => D.node 2 k - p' k) (fun k => D.edge 3 k - w' k) (fun k => D.node 4 k - r' k)
    (fun k => levelTend S G (column D) (D.node 2) k - diffuse S S.diffDiffNN S.nuScalar (D.node 2) (D.refNode 2) k)
    (interfaceTend S G D (column D)) (levelTend S G (column D) (D.node 4))

/-- Changes that are zero on every level and interface. -/
def Nothing (S : Setup) (p w r : Nat → ℝ) : Prop := (∀ k < S.levels, p k = 0 ∧ r k = 0) ∧ ∀ k ≤ S.levels, w k = 0

/-- Other changes than none solve the equations without right hand sides. -/
def Singular (S : Setup) (G : Metric) (D : Data) (f : Nat → ℝ) : Prop :=
  ∃ p w r, Linear S G (column D) f p w r (fun _ => 0) (fun _ => 0) (fun _ => 0) ∧ ¬ Nothing S p w r

/-- The amount in the column of a quantity known on levels. -/
noncomputable def amount (S : Setup) (G : Metric) (edge : Nat → ℝ) (q : Nat → ℝ) : ℝ :=
  ∑ k ∈ range S.levels, (edge (k + 1) - edge k) * G.jac k * q k

end Verif.Schur
