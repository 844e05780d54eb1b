import Mathlib.Data.Fin.VecNotation
import Verif.Horiz.Shallow
import Verif.Sphere.Model

/-!
# Heights, metric terms and areas of a patch

Models the parts of `GridPatchCSGLL` (src/atm/GridPatchCSGLL.cpp) and `GridPatchCartesianGLL`
(src/atm/GridPatchCartesianGLL.cpp) that fill the geometric arrays of a patch: `EvaluateTopography`,
`EvaluateGeometricTerms` and the part of `EvaluateTestCase` that sets heights and the strength of Rayleigh friction.

Simplifications: `double` is the real numbers.  `M_PI` is π.  `pow(x, 6.0)` and `pow(x, 5.0)` are integer powers.
Everything stored for one horizontal node `(iA, iB)` is one record, so that the arrays of a patch are one function of
the node.  An exception is the outcome `none`.
-/

namespace Verif.Metric

open Real Verif.Horiz

/-- Metric terms of a node in two dimensions: `m_dataJacobian2D`, `m_dataContraMetric2DA`, `m_dataContraMetric2DB`,
`m_dataCovMetric2DA`, `m_dataCovMetric2DB`, src/atm/GridPatchCSGLL.cpp:380-420. -/
structure Flat where
  jac : ℝ
  conA : Fin 2 → ℝ
  conB : Fin 2 → ℝ
  covA : Fin 2 → ℝ
  covB : Fin 2 → ℝ

/-- What is stored for a level or an interface of a node: `m_dataJacobian`, `m_dataElementAreaNode`,
`m_dataContraMetricA`, `m_dataContraMetricB`, `m_dataContraMetricXi` and `m_dataDerivRNode`, and the arrays of the same
names for interfaces, src/atm/GridPatchCSGLL.cpp:445-486, 510-562. -/
structure Terms where
  jac : ℝ
  area : ℝ
  conA : Fin 3 → ℝ
  conB : Fin 3 → ℝ
  conXi : Fin 3 → ℝ
  deriv : Fin 3 → ℝ

/-- Everything stored for a horizontal node. -/
structure Point where
  flat : Flat
  node : Nat → Terms
  edge : Nat → Terms

/-- What `EvaluateGeometricTerms` reads: the shape of the patch, `GetElementDeltaA`, `GetElementDeltaB`, the radius of
the planet, `GetZtop`, the gnomonic coordinates `m_dXNode` and `m_dYNode` (cubed sphere only), topography and its
derivatives, the Gauss-Lobatto weights, `GetREtaLevelsNormArea`, `GetREtaInterfacesNormArea`, `GetREtaLevel`,
`GetREtaInterface`, whether variables are staggered on interfaces, and whether the equations are two-dimensional,
src/atm/GridPatchCSGLL.cpp:297-353, 370-400. -/
structure Setup where
  S : Shape
  deltaA : ℝ
  deltaB : ℝ
  radius : ℝ
  ztop : ℝ
  x : Nat → ℝ
  y : Nat → ℝ
  topo : Nat → Nat → ℝ
  topoA : Nat → Nat → ℝ
  topoB : Nat → Nat → ℝ
  w : Nat → ℝ
  wNode : Nat → ℝ
  wEdge : Nat → ℝ
  level : Nat → ℝ
  interface : Nat → ℝ
  onInterfaces : Bool
  twoD : Bool

/-- Two-dimensional terms of the cubed sphere, src/atm/GridPatchCSGLL.cpp:372-420. -/
noncomputable def sphereFlat (R X Y : ℝ) : Flat :=
  let delta2 := 1 + X * X + Y * Y
  let delta := √delta2
  let conScale := delta2 / (1 + X * X) / (1 + Y * Y) / (R * R)
  let covScale := R * R * (1 + X * X) * (1 + Y * Y) / (delta2 * delta2)
  { jac := (1 + X * X) * (1 + Y * Y) / (delta * delta * delta) * (R * R)
    conA := ![conScale * (1 + Y * Y), conScale * X * Y]
    conB := ![conScale * X * Y, conScale * (1 + X * X)]
    covA := ![covScale * (1 + X * X), covScale * -(X * Y)]
    covB := ![covScale * -(X * Y), covScale * (1 + Y * Y)] }

/-- Terms at a level of the cubed sphere, src/atm/GridPatchCSGLL.cpp:422-487.  `zs`, `za`, `zb` are the topography and
its derivatives, `area` is the product of weights and widths. -/
noncomputable def sphereLevel (R X Y ztop zs za zb area eta : ℝ) : Terms :=
  let f := sphereFlat R X Y
  let conScale := (1 + X * X + Y * Y) / (1 + X * X) / (1 + Y * Y) / (R * R)
  let da := (1 - eta) * za
  let db := (1 - eta) * zb
  let dx := ztop - zs
  let jac := dx * f.jac
  let x0 := -conScale / dx * ((1 + Y * Y) * da + X * Y * db)
  let x1 := -conScale / dx * (X * Y * da + (1 + X * X) * db)
  { jac := jac
    area := jac * area
    conA := ![f.conA 0, f.conA 1, x0]
    conB := ![f.conB 0, f.conB 1, x1]
    conXi := ![x0, x1, 1 / (dx * dx) - 1 / dx * (x0 * da + x1 * db)]
    deriv := ![da, db, dx] }

/-- Terms at an interface of the cubed sphere, src/atm/GridPatchCSGLL.cpp:489-563. -/
noncomputable def sphereInterface (R X Y ztop zs za zb area eta : ℝ) : Terms :=
  let f := sphereFlat R X Y
  let delta := √(1 + X * X + Y * Y)
  let conScale := (1 + X * X + Y * Y) / (1 + X * X) / (1 + Y * Y) / (R * R)
  let da := (1 - eta) * za
  let db := (1 - eta) * zb
  let dx := ztop - zs
  let jac := (1 + X * X) * (1 + Y * Y) / (delta * delta * delta) * (dx * R * R)
  let x0 := -conScale / dx * ((1 + Y * Y) * da + X * Y * db)
  let x1 := -conScale / dx * (X * Y * da + (1 + X * X) * db)
  { jac := jac
    area := jac * area
    conA := ![f.conA 0, f.conA 1, x0]
    conB := ![f.conB 0, f.conB 1, x1]
    conXi := ![x0, x1, 1 / (dx * dx) - 1 / dx * (x0 * da + x1 * db)]
    deriv := ![da, db, dx] }

/-- Two-dimensional terms of the Cartesian grid, src/atm/GridPatchCartesianGLL.cpp:282-298. -/
noncomputable def planeFlat : Flat :=
  { jac := 1, conA := ![1, 0], conB := ![0, 1], covA := ![1, 0], covB := ![0, 1] }

/-- The factor of the topography in the height of the Cartesian grid, with `power` six and `botRate` one,
src/atm/GridPatchCartesianGLL.cpp:312-317, 507-516. -/
noncomputable def decay (eta : ℝ) : ℝ :=
  (1 - 1 * eta) * (cos (0.5 * π * eta) ^ 6 + 0.25 * eta * sin (0.5 * π * eta))

/-- The factor of the topography in `dDxZ`, src/atm/GridPatchCartesianGLL.cpp:327-336. -/
noncomputable def decaySlope (eta : ℝ) : ℝ :=
  -cos (0.5 * π * eta) ^ 6 - 0.25 * eta * sin (0.5 * π * eta) +
    (1 - 1 * eta) * (-3 * π * cos (0.5 * π * eta) ^ 5 * sin (0.5 * π * eta) + 0.25 * sin (0.5 * π * eta) +
      π / 8 * eta * cos (0.5 * π * eta))

/-- Terms at a level or an interface of the Cartesian grid, src/atm/GridPatchCartesianGLL.cpp:300-374 and 376-452; the
two blocks compute the same. -/
noncomputable def planeTerms (ztop zs za zb area eta : ℝ) : Terms :=
  let f := planeFlat
  let da := decay eta * za
  let db := decay eta * zb
  let dx := ztop + zs * decaySlope eta
  let jac := dx * f.jac
  { jac := jac
    area := jac * area
    conA := ![f.conA 0, f.conA 1, -da / dx]
    conB := ![f.conB 0, f.conB 1, -db / dx]
    conXi := ![-da / dx, -db / dx, (1 + da * da + db * db) / (dx * dx)]
    deriv := ![da, db, dx] }

/-- The loops over levels and interfaces of one node, src/atm/GridPatchCSGLL.cpp:422-563: each pass stores its terms. -/
def store (n : Nat) (t : Nat → Terms) (old : Nat → Terms) : Nat → Terms :=
  loop n (fun k c => Function.update c k (t k)) old

/-- One node of the cubed sphere, src/atm/GridPatchCSGLL.cpp:358-563. -/
noncomputable def spherePoint (P : Setup) (a b i j : Nat) (F : Nat × Nat → Point) : Nat × Nat → Point :=
  let iA := P.S.at a i
  let iB := P.S.at b j
  let zs := if P.twoD then 0 else P.topo iA iB
  let za := if P.twoD then 0 else P.topoA iA iB
  let zb := if P.twoD then 0 else P.topoB iA iB
  Function.update F (iA, iB)
    { flat := sphereFlat P.radius (P.x iA) (P.y iB)
      node := store P.S.levels (fun k => sphereLevel P.radius (P.x iA) (P.y iB) P.ztop zs za zb
        (P.w i * P.deltaA * P.w j * P.deltaB * P.wNode k) (P.level k)) (F (iA, iB)).node
      edge := store (P.S.levels + 1) (fun k => sphereInterface P.radius (P.x iA) (P.y iB) P.ztop zs za zb
        (P.w i * P.deltaA * P.w j * P.deltaB * P.wEdge k) (P.interface k)) (F (iA, iB)).edge }

/-- One node of the Cartesian grid, src/atm/GridPatchCartesianGLL.cpp:267-452. -/
noncomputable def planePoint (P : Setup) (a b i j : Nat) (F : Nat × Nat → Point) : Nat × Nat → Point :=
  let iA := P.S.at a i
  let iB := P.S.at b j
  Function.update F (iA, iB)
    { flat := planeFlat
      node := store P.S.levels (fun k => planeTerms P.ztop (P.topo iA iB) (P.topoA iA iB) (P.topoB iA iB)
        (P.w i * P.deltaA * P.w j * P.deltaB * P.wNode k) (P.level k)) (F (iA, iB)).node
      edge := store (P.S.levels + 1) (fun k => planeTerms P.ztop (P.topo iA iB) (P.topoA iA iB) (P.topoB iA iB)
        (P.w i * P.deltaA * P.w j * P.deltaB * P.wEdge k) (P.interface k)) (F (iA, iB)).edge }

/-- The sums of normalised areas that are checked, src/atm/GridPatchCSGLL.cpp:327-348 and
GridPatchCartesianGLL.cpp:213-233: true if an exception is thrown. -/
noncomputable def badAreas (P : Setup) : Prop :=
  |loop P.S.levels (fun k acc => acc + P.wNode k) 0 - 1| > 1 / 10 ^ 13 ∨
    (P.onInterfaces = false ∧ |loop (P.S.levels + 1) (fun k acc => acc + P.wEdge k) 0 - 1| > 1 / 10 ^ 13)

/-- The loops over elements and nodes, src/atm/GridPatchCSGLL.cpp:359-360, 364-365. -/
def overNodes {σ : Type} (S : Shape) (f : Nat → Nat → Nat → Nat → σ → σ) (s : σ) : σ :=
  loop S.elemA (fun a s => loop S.elemB (fun b s => loop S.order (fun i s => loop S.order (fun j s =>
    f a b i j s) s) s) s) s

open Classical in
/-- `GridPatchCSGLL::EvaluateGeometricTerms` without the Coriolis parameter, src/atm/GridPatchCSGLL.cpp:295-570. -/
noncomputable def sphereGeometry (P : Setup) (F : Nat × Nat → Point) : Option (Nat × Nat → Point) :=
  if P.twoD ∧ P.ztop ≠ 1 then none
  else if badAreas P then none
  else some (overNodes P.S (spherePoint P) F)

open Classical in
/-- `GridPatchCartesianGLL::EvaluateGeometricTerms` without the Coriolis parameter,
src/atm/GridPatchCartesianGLL.cpp:197-458. -/
noncomputable def planeGeometry (P : Setup) (F : Nat × Nat → Point) : Option (Nat × Nat → Point) :=
  if badAreas P then none
  else some (overNodes P.S (planePoint P) F)

/-- The derivative of topography in the first direction, src/atm/GridPatchCSGLL.cpp:262-283 and
GridPatchCartesianGLL.cpp:162-187. -/
noncomputable def topoDerivA (S : Shape) (B : Basis) (deltaA : ℝ) (topo : Nat → Nat → ℝ) (a b i j : Nat) : ℝ :=
  loop S.order (fun s acc => acc + B.dx s i * topo (S.at a s) (S.at b j)) 0 / deltaA

/-- The derivative of topography in the second direction, src/atm/GridPatchCSGLL.cpp:262-283 and
GridPatchCartesianGLL.cpp:162-187. -/
noncomputable def topoDerivB (S : Shape) (B : Basis) (deltaB : ℝ) (topo : Nat → Nat → ℝ) (a b i j : Nat) : ℝ :=
  loop S.order (fun s acc => acc + B.dx s j * topo (S.at a i) (S.at b s)) 0 / deltaB

/-- The topography and its derivatives of a patch. -/
structure Topography where
  value : Nat × Nat → ℝ
  derivA : Nat × Nat → ℝ
  derivB : Nat × Nat → ℝ

/-- A loop over all nodes of a patch and its halo that assigns one value to each, as
src/atm/GridPatchCSGLL.cpp:232-248. -/
def fill (na nb : Nat) (v : Nat → Nat → ℝ) (s : Nat × Nat → ℝ) : Nat × Nat → ℝ :=
  loop na (fun i s => loop nb (fun j s => put s (i, j) (v i j)) s) s

/-- The loop of src/atm/GridPatchCSGLL.cpp:257-290 over the interior. -/
noncomputable def slopes (S : Shape) (B : Basis) (deltaA deltaB : ℝ) (T : Topography) : Topography :=
  overNodes S (fun a b i j T =>
    { T with
      derivA := put T.derivA (S.at a i, S.at b j) (topoDerivA S B deltaA (fun x y => T.value (x, y)) a b i j)
      derivB := put T.derivB (S.at a i, S.at b j) (topoDerivB S B deltaB (fun x y => T.value (x, y)) a b i j) }) T

/-- `TestCase::EvaluateTopography` at the longitude and latitude of a node, src/atm/GridPatchCSGLL.cpp:235-246; on an
unknown panel `RLLFromABP` throws, which `sphereTopography` deals with. -/
noncomputable def topoAt (panel : Int) (f : ℝ → ℝ → ℝ) (A B : ℝ) : ℝ :=
  match Sphere.rllFromABP A B panel with
  | some (lon, lat) => f lon lat
  | none => 0

/-- `GridPatchCSGLL::EvaluateTopography`, src/atm/GridPatchCSGLL.cpp:227-291: `na`, `nb` are the total widths, `f` is
`TestCase::EvaluateTopography` at a longitude and latitude, `none` an unknown panel. -/
noncomputable def sphereTopography (S : Shape) (B : Basis) (deltaA deltaB : ℝ) (na nb : Nat) (panel : Int)
    (alpha beta : Nat → ℝ) (f : ℝ → ℝ → ℝ) (T : Topography) : Option Topography :=
  if panel < 0 ∨ panel > 5 then none
  else
    let value := fill na nb (fun i j => topoAt panel f (alpha i) (beta j)) T.value
    some (slopes S B deltaA deltaB ⟨value, T.derivA, T.derivB⟩)

open Classical in
/-- `GridPatchCartesianGLL::EvaluateTopography`, src/atm/GridPatchCartesianGLL.cpp:130-191: an exception when topography
reaches the top. -/
noncomputable def planeTopography (S : Shape) (B : Basis) (deltaA deltaB : ℝ) (na nb : Nat) (ztop : ℝ)
    (alpha beta : Nat → ℝ) (f : ℝ → ℝ → ℝ) (T : Topography) : Option Topography :=
  if ∃ i < na, ∃ j < nb, f (alpha i) (beta j) ≥ ztop then none
  else
    let value := fill na nb (fun i j => f (alpha i) (beta j)) T.value
    some (slopes S B deltaA deltaB ⟨value, T.derivA, T.derivB⟩)

/-- Heights and the strength of Rayleigh friction: `m_dataZLevels`, `m_dataZInterfaces`,
`m_dataRayleighStrengthNode` and `m_dataRayleighStrengthREdge`, as functions of node and level. -/
structure Heights where
  level : Nat → Nat → Nat → ℝ
  interface : Nat → Nat → Nat → ℝ
  dampNode : Nat → Nat → Nat → ℝ
  dampEdge : Nat → Nat → Nat → ℝ

/-- `array(i,j,k) = v`. -/
def put3 (s : Nat → Nat → Nat → ℝ) (i j k : Nat) (v : ℝ) : Nat → Nat → Nat → ℝ :=
  fun x y z => if x = i ∧ y = j ∧ z = k then v else s x y z

/-- Heights of the cubed sphere, src/atm/GridPatchCSGLL.cpp:619-660. -/
def sphereHeights (na nb levels : Nat) (twoD : Bool) (ztop : ℝ) (topo : Nat × Nat → ℝ) (level interface : Nat → ℝ)
    (H : Heights) : Heights :=
  if twoD then
    loop na (fun i H => loop nb (fun j H =>
      { H with
        level := put3 H.level i j 0 0
        interface := put3 (put3 H.interface i j 0 0) i j 1 1 }) H) H
  else
    loop na (fun i H => loop nb (fun j H =>
      { H with
        level := loop levels (fun k s => put3 s i j k (topo (i, j) + level k * (ztop - topo (i, j)))) H.level
        interface := loop (levels + 1) (fun k s =>
          put3 s i j k (topo (i, j) + interface k * (ztop - topo (i, j)))) H.interface }) H) H

/-- Heights of the Cartesian grid, src/atm/GridPatchCartesianGLL.cpp:494-531. -/
noncomputable def planeHeights (na nb levels : Nat) (ztop : ℝ) (topo : Nat × Nat → ℝ) (level interface : Nat → ℝ)
    (H : Heights) : Heights :=
  loop na (fun i H => loop nb (fun j H =>
    { H with
      level := loop levels (fun k s => put3 s i j k (ztop * level k + decay (level k) * topo (i, j))) H.level
      interface := loop (levels + 1) (fun k s =>
        put3 s i j k (ztop * interface k + decay (interface k) * topo (i, j))) H.interface }) H) H

/-- One column of the strength of Rayleigh friction, `n` levels and `m` interfaces; `f` is
`TestCase::EvaluateRayleighStrength` at a height and the position of a node, src/atm/GridPatchCSGLL.cpp:666-681. -/
def dampColumn (n m : Nat) (f : ℝ → Nat → Nat → ℝ) (i j : Nat) (H : Heights) : Heights :=
  { H with
    dampNode := loop n (fun k s => put3 s i j k (f (H.level i j k) i j)) H.dampNode
    dampEdge := loop m (fun k s => put3 s i j k (f (H.interface i j k) i j)) H.dampEdge }

/-- The strength of Rayleigh friction on the cubed sphere, src/atm/GridPatchCSGLL.cpp:662-683. -/
def sphereDamping (na nb levels : Nat) (has : Bool) (f : ℝ → Nat → Nat → ℝ) (H : Heights) : Heights :=
  if has then loop na (fun i H => loop nb (fun j H => dampColumn levels (levels + 1) f i j H) H) H
  else H

/-- The strength of Rayleigh friction on the Cartesian grid, src/atm/GridPatchCartesianGLL.cpp:533-554; both loops are
over levels. -/
def planeDamping (na nb levels : Nat) (has : Bool) (f : ℝ → Nat → Nat → ℝ) (H : Heights) : Heights :=
  if has then loop na (fun i H => loop nb (fun j H => dampColumn levels levels f i j H) H) H
  else H

/-- The Coriolis parameter of the cubed sphere, src/atm/GridPatchCSGLL.cpp:355-361; `lat` is `m_dataLat`. -/
noncomputable def sphereCoriolis (na nb : Nat) (omega : ℝ) (lat : Nat → Nat → ℝ) (s : Nat × Nat → ℝ) : Nat × Nat → ℝ :=
  fill na nb (fun i j => 2 * omega * sin (lat i j)) s

/-- The Coriolis parameter of the Cartesian grid, src/atm/GridPatchCartesianGLL.cpp:241-260; `y` is `m_dataLat`. -/
noncomputable def planeCoriolis (na nb : Nat) (xz : Bool) (omega radius refLat ymin ymax : ℝ) (y : Nat → Nat → ℝ)
    (s : Nat × Nat → ℝ) : Nat × Nat → ℝ :=
  fill na nb (fun i j =>
    if xz then 0 else 2 * omega * sin refLat + 2 * omega * cos refLat / radius * (y i j - 0.5 * |ymax - ymin|)) s

end Verif.Metric
