import Verif.Physics.Kessler
import Mathlib.Analysis.SpecialFunctions.Trigonometric.Basic

/-!
# Surface fluxes, boundary layer and large-scale precipitation

Models the subroutine `DCMIP2016_PHYSICS` (test/dcmip2016/interface/dcmip_physics_z_v1.f90).

Simplifications: as for `KESSLER`.  Levels and interfaces are counted from zero.  `zi` has one more entry than levels,
as the caller provides (it is declared with one less, dcmip_physics_z_v1.f90:84).  `stop` ends the program, here as
`none`.
-/

namespace Verif.Physics

open Real

/-- What the subroutine does not change: the number of levels, the density of dry air, the time step, heights of levels
and interfaces, latitude and the three choices, dcmip_physics_z_v1.f90:63-96. -/
structure Setting where
  test : Int
  nz : Nat
  rho : Nat → ℝ
  dt : ℝ
  z : Nat → ℝ
  zi : Nat → ℝ
  lat : ℝ
  pblType : Int
  precType : Int

/-- What it changes: winds, pressure and mixing ratios, dcmip_physics_z_v1.f90:66-72. -/
structure Column where
  u : Nat → ℝ
  v : Nat → ℝ
  p : Nat → ℝ
  qv : Nat → ℝ
  qc : Nat → ℝ
  qr : Nat → ℝ

/-- `rair`, `cpair`, `latvap`, `rh2o`, `epsilo`, `zvir`, `gravit`, `p0`: dcmip_physics_z_v1.f90:102-109,130. -/
noncomputable def rair : ℝ := 287
/-- See `rair`. -/
noncomputable def cpair : ℝ := 1004.5
/-- See `rair`. -/
noncomputable def latvap : ℝ := 2.5e6
/-- See `rair`. -/
noncomputable def rh2o : ℝ := 461.5
/-- See `rair`. -/
noncomputable def epsilo : ℝ := rair / rh2o
/-- See `rair`. -/
noncomputable def zvir : ℝ := rh2o / rair - 1
/-- See `rair`. -/
noncomputable def gravit : ℝ := 9.80616
/-- See `rair`. -/
noncomputable def pref : ℝ := 100000

/-- `Tsurf`, dcmip_physics_z_v1.f90:198-220, with the constants of :110-139. -/
noncomputable def tsurf (test : Int) (lat : ℝ) : Option ℝ :=
  let etav := (1 - 0.252) * 0.5 * Real.pi
  if test = 1 then
    some ((288 + Real.pi * 35 / rair * 1.5 * sin etav * cos etav ^ (0.5 : ℝ) *
      ((-2 * sin lat ^ 6 * (cos lat ^ 2 + 1 / 3) + 10 / 63) * 35 * cos etav ^ (1.5 : ℝ) +
        (8 / 5 * cos lat ^ 3 * (sin lat ^ 2 + 2 / 3) - Real.pi / 4) * 6371220 * 7.29212e-5 * 0.5)) /
      (1 + zvir * 0.021 * exp (-(lat / (2 * Real.pi / 9)) ^ 4)))
  else if test = 2 then some 302.15
  else if test = 3 then some 0
  else none

/-- `qsat`, dcmip_physics_z_v1.f90:244, and `qsats`, :365, with the pressure at the surface. -/
noncomputable def qsat (p t : ℝ) : ℝ := epsilo * 610.78 / p * exp (-(latvap / rh2o) * (1 / t - 1 / 273.16))

/-- The variables on levels between the parts of the subroutine. -/
structure Inner where
  rhom : Nat → ℝ
  qsv : Nat → ℝ
  t : Nat → ℝ
  precl : ℝ

/-- dcmip_physics_z_v1.f90:225-234. -/
noncomputable def start (S : Setting) (c : Column) : Inner :=
  { rhom := fun k => S.rho k * (1 + c.qv k)
    qsv := fun k => c.qv k * S.rho k / (S.rho k * (1 + c.qv k))
    t := fun k => c.p k / (S.rho k * (1 + c.qv k) * rair * (1 + zvir * c.qv k))
    precl := 0 }

/-- `deltaqsv`, dcmip_physics_z_v1.f90:246-247. -/
noncomputable def deltaqsv (p t qsv : ℝ) : ℝ :=
  (qsv - qsat p t) / (1 + latvap / cpair * epsilo * latvap * qsat p t / (rair * t ^ 2))

open Classical in
/-- Large-scale precipitation of Reed and Jablonowski, dcmip_physics_z_v1.f90:240-256.  A pass of the loop changes its
own level and adds to `precl`. -/
noncomputable def largeScale (S : Setting) (c : Column) (s : Inner) : Column × Inner :=
  let over := fun k => s.qsv k > qsat (c.p k) (s.t k)
  let d := fun k => if over k then deltaqsv (c.p k) (s.t k) (s.qsv k) else 0
  let t := fun k => if over k then s.t k + latvap / cpair * d k else s.t k
  let qsv := fun k => if over k then s.qsv k - d k else s.qsv k
  let qv := fun k => if over k then qsv k / (1 - qsv k) else c.qv k
  let rhom := fun k => if over k then S.rho k / (1 - qsv k) else s.rhom k
  let p := fun k => if over k then rhom k * rair * t k * (1 + zvir * qv k) else c.p k
  let precl := (List.range S.nz).foldl
    (fun a k => if over k then a + d k * s.rhom k * (S.zi (k + 1) - S.zi k) / (S.dt * 1000) else a) 0
  ({ c with p := p, qv := qv }, { rhom := rhom, qsv := qsv, t := t, precl := precl })

/-- `exner`, dcmip_physics_z_v1.f90:263. -/
noncomputable def exner (p : ℝ) : ℝ := (p / pref) ^ (rair / cpair)

/-- Precipitation by `KESSLER`, dcmip_physics_z_v1.f90:262-288. -/
noncomputable def warmRain (S : Setting) (c : Column) (s : Inner) : Column × Inner :=
  let F : Air := { nz := S.nz, rho := S.rho, pk := fun k => exner (c.p k), z := S.z, dt := S.dt }
  let y := F.kessler { theta := fun k => s.t k / exner (c.p k), qv := c.qv, qc := c.qc, qr := c.qr }
  let qsv := fun k => y.1.qv k / (1 + y.1.qv k)
  let rhom := fun k => S.rho k / (1 - qsv k)
  let p := fun k => pref * (rhom k * rair * (y.1.theta k * (1 + zvir * y.1.qv k)) / pref) ^ (cpair / (cpair - rair))
  ({ c with p := p, qv := y.1.qv, qc := y.1.qc, qr := y.1.qr },
    { rhom := rhom, qsv := qsv, t := fun k => p k / (rhom k * rair * (1 + zvir * y.1.qv k)), precl := y.2 })

/-- `Cd`, dcmip_physics_z_v1.f90:306-310. -/
noncomputable def drag (wind : ℝ) : ℝ := if wind < 20 then 0.0007 + 0.000065 * wind else 0.002

/-- `Km` and `Ke` at the interfaces, dcmip_physics_z_v1.f90:313-355: `coef` is the drag coefficient of momentum or of
heat.  The entries at the ground and at the top are zero. -/
noncomputable def eddy (S : Setting) (p : Nat → ℝ) (wind coef : ℝ) : Option (Nat → ℝ) :=
  if S.pblType = 0 then some fun k =>
    if k = 0 ∨ k = S.nz then 0
    else
      let presi := 0.5 * (p (k - 1) + p k)
      if presi ≥ 85000 then coef * wind * S.z 0
      else coef * wind * S.z 0 * exp (-(85000 - presi) ^ 2 / 10000 ^ 2)
  else if S.pblType = 1 then some fun k =>
    if k = 0 ∨ k = S.nz then 0
    else if S.zi k ≤ 1000 then 0.4 * sqrt coef * wind * S.zi k * (1 - S.zi k / 1000) * (1 - S.zi k / 1000)
    else 0
  else none

/-- `CA`, dcmip_physics_z_v1.f90:384-390. -/
noncomputable def coefA (S : Setting) (rhom : Nat → ℝ) (k : Nat) : ℝ :=
  if k = 0 then 0
  else 0.5 * (rhom (k - 1) + rhom k) / rhom k * S.dt / (S.z k - S.z (k - 1)) / (S.zi (k + 1) - S.zi k)

/-- `CC`, dcmip_physics_z_v1.f90:391-394. -/
noncomputable def coefC (S : Setting) (rhom : Nat → ℝ) (k : Nat) : ℝ :=
  if k + 1 = S.nz then 0
  else 0.5 * (rhom k + rhom (k + 1)) / rhom k * S.dt / (S.z (k + 1) - S.z k) / (S.zi (k + 1) - S.zi k)

/-- `CEm` and `CEE`, dcmip_physics_z_v1.f90:406-407,415-416. -/
noncomputable def coefE (S : Setting) (rhom K : Nat → ℝ) : Nat → ℝ
  | 0 => coefC S rhom 0 * K 1 / (1 + coefA S rhom 0 * K 0 + coefC S rhom 0 * K 1)
  | k + 1 => coefC S rhom (k + 1) * K (k + 2) /
      (1 + coefA S rhom (k + 1) * K (k + 1) + coefC S rhom (k + 1) * K (k + 2)
        - coefA S rhom (k + 1) * K (k + 1) * coefE S rhom K k)

/-- `CFu`, `CFv`, `CFt` and `CFq`, dcmip_physics_z_v1.f90:409-412,418-421. -/
noncomputable def coefF (S : Setting) (rhom K x : Nat → ℝ) : Nat → ℝ
  | 0 => x 0 / (1 + coefA S rhom 0 * K 0 + coefC S rhom 0 * K 1)
  | k + 1 => (x (k + 1) + coefA S rhom (k + 1) * K (k + 1) * coefF S rhom K x k) /
      (1 + coefA S rhom (k + 1) * K (k + 1) + coefC S rhom (k + 1) * K (k + 2)
        - coefA S rhom (k + 1) * K (k + 1) * coefE S rhom K k)

/-- Back substitution, dcmip_physics_z_v1.f90:425-435: the value `d` levels below the highest one. -/
noncomputable def back (S : Setting) (rhom K x : Nat → ℝ) : Nat → ℝ
  | 0 => coefF S rhom K x (S.nz - 1)
  | d + 1 => coefE S rhom K (S.nz - 1 - (d + 1)) * back S rhom K x d + coefF S rhom K x (S.nz - 1 - (d + 1))

/-- A variable after the boundary layer has been mixed, dcmip_physics_z_v1.f90:383-435. -/
noncomputable def mix (S : Setting) (rhom K x : Nat → ℝ) (k : Nat) : ℝ := back S rhom K x (S.nz - 1 - k)

/-- `ps`, dcmip_physics_z_v1.f90:361-364. -/
noncomputable def surfacePressure (S : Setting) (rhom : Nat → ℝ) : ℝ :=
  (List.range S.nz).foldl (fun a k => a + gravit * rhom k * (S.zi (k + 1) - S.zi k)) 0

/-- `x(1) = y`. -/
def atGround (x : Nat → ℝ) (y : ℝ) : Nat → ℝ := fun k => if k = 0 then y else x k

/-- Surface fluxes and boundary layer, dcmip_physics_z_v1.f90:304-444. -/
noncomputable def boundaryLayer (S : Setting) (ts : ℝ) (c : Column) (s : Inner) : Option Column :=
  let wind := sqrt (c.u 0 ^ 2 + c.v 0 ^ 2)
  let Cd := drag wind
  match eddy S c.p wind Cd, eddy S c.p wind 0.0011 with
  | some Km, some Ke =>
    let qs := qsat (surfacePressure S s.rhom) ts
    let u := atGround c.u (c.u 0 / (1 + S.dt * Cd * wind / S.z 0))
    let v := atGround c.v (c.v 0 / (1 + S.dt * Cd * wind / S.z 0))
    let qsv := atGround s.qsv ((s.qsv 0 + 0.0011 * wind * qs * S.dt / S.z 0) / (1 + 0.0011 * wind * S.dt / S.z 0))
    let t := atGround s.t ((s.t 0 + 0.0011 * wind * ts * S.dt / S.z 0) / (1 + 0.0011 * wind * S.dt / S.z 0))
    let qv := atGround c.qv (qsv 0 / (1 - qsv 0))
    let rhom := atGround s.rhom (S.rho 0 / (1 - qsv 0))
    let p := atGround c.p (t 0 * rhom 0 * rair * (1 + zvir * qv 0))
    let theta := fun k => t k * (pref / p k) ^ (rair / cpair)
    let u := mix S rhom Km u
    let v := mix S rhom Km v
    let theta := mix S rhom Ke theta
    let qsv := mix S rhom Ke qsv
    let qv := fun k => qsv k / (1 - qsv k)
    let rhom := fun k => S.rho k / (1 - qsv k)
    some { c with
      u := u
      v := v
      qv := qv
      p := fun k => pref * (rhom k * rair * (theta k * (1 + zvir * qv k)) / pref) ^ (cpair / (cpair - rair)) }
  | _, _ => none

/-- `DCMIP2016_PHYSICS`, dcmip_physics_z_v1.f90:54-448: the column and the rate of precipitation. -/
noncomputable def simplePhysics (S : Setting) (c : Column) : Option (Column × ℝ) :=
  match tsurf S.test S.lat with
  | none => none
  | some ts =>
    let s := start S c
    match (if S.precType = 1 then some (largeScale S c s) else if S.precType = 0 then some (warmRain S c s) else none) with
    | none => none
    | some y =>
      if S.test = 3 then some (y.1, y.2.precl)
      else
        match boundaryLayer S ts y.1 y.2 with
        | none => none
        | some c => some (c, y.2.precl)

end Verif.Physics
