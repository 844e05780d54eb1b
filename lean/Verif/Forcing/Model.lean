import Verif.Thermo.Constants
import Mathlib.Analysis.SpecialFunctions.Trigonometric.Basic

/-!
# Held-Suarez forcing

Models `HeldSuarezPhysics::Perform` (src/atm/HeldSuarezPhysics.cpp:62-302) on one patch.  Simplifications: `double`
is the real numbers; the two column interpolations (src/atm/GridPatchGLL.cpp:79-143) are arbitrary maps of columns;
data of the patch is held column by column; the call of `WorkflowProcess::Perform` at the end (line 300) is in
`Run`.  `dDeltaT` is `m_timeFrequency.GetSeconds()` (line 73; see C04).
-/

namespace Verif.Forcing

open Verif.Thermo

/-- Where a variable is held in the vertical, `DataLocation` (src/base/DataLocation.h). -/
inductive Location where
  | node
  | redge
deriving DecidableEq

/-- The variables of one column of a patch in `GetDataState(0, DataLocation_Node)` and
`GetDataState(0, DataLocation_REdge)`: components UIx, VIx, TIx, WIx and RIx (src/atm/HeldSuarezPhysics.cpp:66-70). -/
structure Col where
  u : Nat → ℝ
  v : Nat → ℝ
  t : Nat → ℝ
  w : Nat → ℝ
  r : Nat → ℝ
  tEdge : Nat → ℝ
  wEdge : Nat → ℝ
  rEdge : Nat → ℝ

/-- Assignment to entry `k`. -/
def put (f : Nat → ℝ) (k : Nat) (x : ℝ) : Nat → ℝ := fun a => if a = k then x else f a

/-- `dBoundaryScale`, src/atm/HeldSuarezPhysics.cpp:122-129, 153-161 and 222-230. -/
noncomputable def boundaryScale (pressure surface : ℝ) : ℝ :=
  let sigma := pressure / surface
  let scale := (sigma - 0.7) / (1.0 - 0.7)
  if scale < 0.0 then 0.0 else scale

/-- One pass of the first loop over levels, src/atm/HeldSuarezPhysics.cpp:115-136. -/
noncomputable def windLevel (c : Constants) (dt surface : ℝ) (k : Nat) (x : Col) : Col :=
  let pressure := pressureFromRhoTheta c (x.r k * x.t k)
  let scale := boundaryScale pressure surface
  { x with
    u := put x.u k (x.u k / (1.0 + 1.0 / 86400.0 * scale * dt))
    v := put x.v k (x.v k / (1.0 + 1.0 / 86400.0 * scale * dt)) }

/-- The rate `dKT`, src/atm/HeldSuarezPhysics.cpp:171-175 and 240-244. -/
noncomputable def rate (scale lat : ℝ) : ℝ :=
  let ka := (1.0 / 40.0) / 86400.0
  let ks := (1.0 / 4.0) / 86400.0
  let cos4 := Real.cos lat * Real.cos lat * Real.cos lat * Real.cos lat
  ka + (ks - ka) * scale * cos4

/-- The equilibrium temperature `dTeq`, src/atm/HeldSuarezPhysics.cpp:178-188 and 247-257. -/
noncomputable def equilibrium (c : Constants) (lat pressure : ℝ) : ℝ :=
  let a := 315.0 - 60.0 * Real.sin lat * Real.sin lat
    - 10.0 * Real.log (pressure / c.p0) * Real.cos lat * Real.cos lat
  let b := a * (pressure / c.p0) ^ c.kappa
  if b < 200.0 then 200.0 else b

/-- The factor of the update, src/atm/HeldSuarezPhysics.cpp:198-204 and 267-273. -/
noncomputable def factor (c : Constants) (dt kt teq t : ℝ) : ℝ :=
  let dh := - kt / c.gamma * (1.0 + (c.gamma - 1.0) * teq / t)
  let h := - kt / c.gamma * (1.0 - teq / t)
  1.0 + dt / (1.0 - dt * dh) * h

/-- The new value of component TIx from its old value, density, surface pressure and latitude, lines 148-204 and
217-273 of src/atm/HeldSuarezPhysics.cpp. -/
noncomputable def heat (c : Constants) (dt surface lat rho q : ℝ) : ℝ :=
  let pressure := pressureFromRhoTheta c q
  let scale := boundaryScale pressure surface
  let t := pressure / (rho * c.r)
  let kt := rate scale lat
  let teq := equilibrium c lat pressure
  q * factor c dt kt teq t

/-- One pass of the loop for theta on levels, src/atm/HeldSuarezPhysics.cpp:141-206. -/
noncomputable def heatNode (c : Constants) (dt surface lat : ℝ) (k : Nat) (x : Col) : Col :=
  { x with t := put x.t k (heat c dt surface lat (x.r k) (x.t k)) }

/-- One pass of the loop for theta on interfaces, src/atm/HeldSuarezPhysics.cpp:210-275. -/
noncomputable def heatEdge (c : Constants) (dt surface lat : ℝ) (k : Nat) (x : Col) : Col :=
  { x with tEdge := put x.tEdge k (heat c dt surface lat (x.rEdge k) (x.tEdge k)) }

/-- `for (int k = 0; k < n; k++)`. -/
def loop {α : Type} (n : Nat) (f : Nat → α → α) (x : α) : α := (List.range n).foldl (fun y k => f k y) x

/-- The body of the loop over nodes, src/atm/HeldSuarezPhysics.cpp:107-276; `n` is `nRElements`. -/
noncomputable def column (c : Constants) (n : Nat) (loc : Location) (dt lat : ℝ) (x : Col) : Col :=
  let surface := pressureFromRhoTheta c (x.rEdge 0 * x.tEdge 0)
  let x := loop n (windLevel c dt surface) x
  let x := if loc = .node then loop n (heatNode c dt surface lat) x else x
  if loc = .redge then loop (n + 1) (heatEdge c dt surface lat) x else x

/-- The columns of a patch by array indices. -/
abbrev Columns := Int → Int → Col

/-- The interior of a patch, `GetAInteriorBegin` to `GetBInteriorEnd`. -/
structure Box where
  aBegin : Int
  aEnd : Int
  bBegin : Int
  bEnd : Int

/-- The two nested loops over the interior, src/atm/HeldSuarezPhysics.cpp:103-104; `f` gets the node. -/
def overInterior (b : Box) (f : Int → Int → Col → Col) (x : Columns) : Columns :=
  loop (b.aEnd - b.aBegin).toNat (fun di y =>
    loop (b.bEnd - b.bBegin).toNat (fun dj (z : Columns) =>
      fun i j => if i = b.aBegin + di ∧ j = b.bBegin + dj then f i j (z i j) else z i j) y) x

/-- The interpolations, src/atm/HeldSuarezPhysics.cpp:95-100 with src/atm/GridPatchGLL.cpp:79-143. -/
noncomputable def interpolate (toNode toEdge : (Nat → ℝ) → Nat → ℝ) (b : Box) (x : Columns) : Columns :=
  let x := overInterior b (fun _ _ y => { y with t := toNode y.tEdge }) x
  overInterior b (fun _ _ y => { y with rEdge := toEdge y.r }) x

/-- `HeldSuarezPhysics::Perform` for one patch, src/atm/HeldSuarezPhysics.cpp:81-297. -/
noncomputable def perform (c : Constants) (toNode toEdge : (Nat → ℝ) → Nat → ℝ) (n : Nat) (loc : Location) (dt : ℝ)
    (b : Box) (lat : Int → Int → ℝ) (x : Columns) : Columns :=
  let x := if loc = .redge then interpolate toNode toEdge b x else x
  overInterior b (fun i j y => column c n loc dt (lat i j) y) x

end Verif.Forcing
