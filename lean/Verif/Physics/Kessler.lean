import Mathlib.Analysis.SpecialFunctions.Pow.Real
import Mathlib.Analysis.SpecialFunctions.Sqrt
import Mathlib.Algebra.Order.Floor.Ring

/-!
# Warm rain

Models the subroutine `KESSLER` (test/dcmip2016/interface/kessler.f90) and `KesslerPhysics::Perform`
(test/dcmip2016/KesslerPhysics.cpp).

Simplifications: `double`, `REAL(8)` and `REAL` are the real numbers (the last have single precision in the program, and
so have the functions `amax1` and `amin1`).  Levels are counted from zero.  Powers with a fractional exponent are real
powers; the properties are about bases that are not negative.  A quotient by zero is zero (the code gives an infinity or
NaN); for the temperature of 36 K, where the formula of the saturation has its pole, this is not excluded by the
properties.  The column has at least two levels: with one, `z(nz-1)` is outside of the array.
-/

namespace Verif.Physics

open Real

/-- What `KESSLER` does not change: the number of levels, dry density, Exner function and height of the levels and the
time step, test/dcmip2016/interface/kessler.f90:66-89. -/
structure Air where
  nz : Nat
  rho : Nat → ℝ
  pk : Nat → ℝ
  z : Nat → ℝ
  dt : ℝ

/-- What `KESSLER` changes: potential temperature, vapour, cloud water and rain, test/dcmip2016/interface/kessler.f90:66-70. -/
structure Wet where
  theta : Nat → ℝ
  qv : Nat → ℝ
  qc : Nat → ℝ
  qr : Nat → ℝ

/-- `r`, test/dcmip2016/interface/kessler.f90:111. -/
noncomputable def Air.r (F : Air) (k : Nat) : ℝ := 0.001 * F.rho k

/-- `rhalf`, test/dcmip2016/interface/kessler.f90:112. -/
noncomputable def Air.rhalf (F : Air) (k : Nat) : ℝ := sqrt (F.rho 0 / F.rho k)

/-- `pc`, test/dcmip2016/interface/kessler.f90:113. -/
noncomputable def Air.pc (F : Air) (k : Nat) : ℝ := 3.8 / (F.pk k ^ ((1 : ℝ) / 0.2875) * 1000)

/-- `velqr`, test/dcmip2016/interface/kessler.f90:116,175. -/
noncomputable def Air.velqr (F : Air) (qr : Nat → ℝ) (k : Nat) : ℝ :=
  36.34 * (qr k * F.r k) ^ (0.1364 : ℝ) * F.rhalf k

open Classical in
/-- `dt_max`, test/dcmip2016/interface/kessler.f90:121-126. -/
noncomputable def Air.dtMax (F : Air) (vel : Nat → ℝ) : ℝ :=
  (List.range (F.nz - 1)).foldl
    (fun m k => if vel k ≠ 0 then min m (0.8 * (F.z (k + 1) - F.z k) / vel k) else m) F.dt

/-- `rainsplit`, test/dcmip2016/interface/kessler.f90:129. -/
noncomputable def Air.split (F : Air) (vel : Nat → ℝ) : Int := ⌈F.dt / F.dtMax vel⌉

/-- `sed`, test/dcmip2016/interface/kessler.f90:141-144. -/
noncomputable def Air.sed (F : Air) (dt0 : ℝ) (vel qr : Nat → ℝ) (k : Nat) : ℝ :=
  if k + 1 < F.nz then
    dt0 * (F.r (k + 1) * qr (k + 1) * vel (k + 1) - F.r k * qr k * vel k) / (F.r k * (F.z (k + 1) - F.z k))
  else -dt0 * qr k * vel k / (0.5 * (F.z k - F.z (k - 1)))

/-- `qrprod`, test/dcmip2016/interface/kessler.f90:150. -/
noncomputable def qrprod (dt0 qc qr : ℝ) : ℝ :=
  qc - (qc - dt0 * max (0.001 * (qc - 0.001)) 0) / (1 + dt0 * 2.2 * qr ^ (0.875 : ℝ))

/-- `qvs`, test/dcmip2016/interface/kessler.f90:155-156. -/
noncomputable def qvs (pc pk theta : ℝ) : ℝ := pc * exp (17.27 * (pk * theta - 273) / (pk * theta - 36))

/-- `prod`, test/dcmip2016/interface/kessler.f90:157. -/
noncomputable def condensed (pc pk theta qv : ℝ) : ℝ :=
  (qv - qvs pc pk theta) /
    (1 + qvs pc pk theta * (237.3 * 17.27 * 2500000 / 1003) / (pk * theta - 36) ^ 2)

/-- `ern`, test/dcmip2016/interface/kessler.f90:160-163. -/
noncomputable def ern (dt0 r pc pk theta qv qc qr : ℝ) : ℝ :=
  min (min (dt0 * (((1.6 + 124.9 * (r * qr) ^ (0.2046 : ℝ)) * (r * qr) ^ (0.525 : ℝ)) /
      (2550000 * pc / (3.8 * qvs pc pk theta) + 540000)) *
      (max (qvs pc pk theta - qv) 0 / (r * qvs pc pk theta)))
    (max (-condensed pc pk theta qv - qc) 0)) qr

/-- What the adjustment leaves at a level: potential temperature, vapour, cloud water and rain. -/
structure Level where
  theta : ℝ
  qv : ℝ
  qc : ℝ
  qr : ℝ

/-- The adjustment of a level, test/dcmip2016/interface/kessler.f90:150-169. -/
noncomputable def adjust (dt0 r pc pk sed theta qv qc qr : ℝ) : Level :=
  let prodr := qrprod dt0 qc qr
  let qc := max (qc - prodr) 0
  let qr := max (qr + prodr + sed) 0
  let prod := condensed pc pk theta qv
  let e := ern dt0 r pc pk theta qv qc qr
  { theta := theta + 2500000 / (1003 * pk) * (max prod (-qc) - e)
    qv := max (qv - max prod (-qc) + e) 0
    qc := qc + max prod (-qc)
    qr := qr - e }

/-- The adjustment of all levels, test/dcmip2016/interface/kessler.f90:147-170.  A pass of the loop reads and writes the
entries of its own level only, so that the loop is a map. -/
noncomputable def Air.adjusted (F : Air) (dt0 : ℝ) (vel : Nat → ℝ) (w : Wet) : Wet :=
  let level := fun k => adjust dt0 (F.r k) (F.pc k) (F.pk k) (F.sed dt0 vel w.qr k) (w.theta k) (w.qv k) (w.qc k) (w.qr k)
  { theta := fun k => (level k).theta
    qv := fun k => (level k).qv
    qc := fun k => (level k).qc
    qr := fun k => (level k).qr }

/-- The loop over the subcycles, test/dcmip2016/interface/kessler.f90:135-178, for the remaining number of subcycles.
The velocity is not computed again after the last one. -/
noncomputable def Air.cycle (F : Air) (dt0 : ℝ) : Nat → (Nat → ℝ) → Wet × ℝ → Wet × ℝ
  | 0, _, s => s
  | n + 1, vel, s =>
    let precl := s.2 + F.rho 0 * s.1.qr 0 * vel 0 / 1000
    let w := F.adjusted dt0 vel s.1
    let vel := if n = 0 then vel else F.velqr w.qr
    F.cycle dt0 n vel (w, precl)

/-- `KESSLER`, test/dcmip2016/interface/kessler.f90:60-182: the wet air and the rate of precipitation. -/
noncomputable def Air.kessler (F : Air) (w : Wet) : Wet × ℝ :=
  let vel := F.velqr w.qr
  let n := F.split vel
  let s := F.cycle (F.dt / n) n.toNat vel (w, 0)
  (s.1, s.2 / n)

/-! ### The process -/

/-- What the process reads and does not change in a patch: the number of levels, the interior of its box, the heights of
the levels, `PressureFromRhoTheta`, the gas constant and the time step. -/
structure Rain where
  levels : Nat
  aBegin : Nat
  aEnd : Nat
  bBegin : Nat
  bEnd : Nat
  height : Nat → Nat → Nat → ℝ
  pressure : ℝ → ℝ
  gasR : ℝ
  dt : ℝ

/-- What the process changes: state and tracers on levels, by component, column and level, and the rain that has fallen. -/
structure Fields where
  state : Nat → Nat → Nat → Nat → ℝ
  tracer : Nat → Nat → Nat → Nat → ℝ
  fallen : Nat → Nat → ℝ

/-- A ratio that is not negative, test/dcmip2016/KesslerPhysics.cpp:188-204. -/
noncomputable def ratio (a b : ℝ) : ℝ := if a / b < 0 then 0 else a / b

/-- `m_dThetaVNode`, test/dcmip2016/KesslerPhysics.cpp:152-166, with the formulation the program is shipped with, in
which potential temperature is on levels and multiplied by density. -/
noncomputable def thetaV (s : Fields) (i j k : Nat) : ℝ := s.state 2 i j k / s.state 4 i j k

/-- The arguments of `kessler_` for a column, test/dcmip2016/KesslerPhysics.cpp:168-230. -/
noncomputable def columnAir (P : Rain) (s : Fields) (i j : Nat) : Air :=
  { nz := P.levels
    rho := fun k => s.state 4 i j k - s.tracer 0 i j k - s.tracer 1 i j k - s.tracer 2 i j k
    pk := fun k => P.pressure (s.state 4 i j k * thetaV s i j k) / (s.state 4 i j k * P.gasR) / thetaV s i j k
    z := fun k => P.height i j k
    dt := P.dt }

/-- See `columnAir`. -/
noncomputable def columnWet (s : Fields) (i j : Nat) : Wet :=
  { theta := fun k => thetaV s i j k / (1 + 0.61 * ratio (s.tracer 0 i j k) (s.state 4 i j k))
    qv := fun k => ratio (s.tracer 0 i j k) (s.state 4 i j k)
    qc := fun k => ratio (s.tracer 1 i j k) (s.state 4 i j k)
    qr := fun k => ratio (s.tracer 2 i j k) (s.state 4 i j k) }

/-- The moist density of a level, test/dcmip2016/KesslerPhysics.cpp:238-240. -/
noncomputable def moist (rhoD qv qc qr : ℝ) : ℝ := rhoD / (1 - qv - qc - qr)

/-- One column, test/dcmip2016/KesslerPhysics.cpp:142-281.  The loops over levels write each entry of the column once. -/
noncomputable def rainColumn (P : Rain) (s : Fields) (i j : Nat) : Fields :=
  let F := columnAir P s i j
  let y := F.kessler (columnWet s i j)
  let rho := fun k => moist (F.rho k) (y.1.qv k) (y.1.qc k) (y.1.qr k)
  { state := fun c x y' k => if x = i ∧ y' = j ∧ k < P.levels then
      (if c = 4 then rho k else if c = 2 then rho k * y.1.theta k * (1 + 0.61 * y.1.qv k) else s.state c x y' k)
      else s.state c x y' k
    tracer := fun c x y' k => if x = i ∧ y' = j ∧ k < P.levels then
      (if c = 0 then y.1.qv k * rho k else if c = 1 then y.1.qc k * rho k else if c = 2 then y.1.qr k * rho k
        else s.tracer c x y' k) else s.tracer c x y' k
    fallen := fun x y' => if x = i ∧ y' = j then s.fallen x y' + y.2 * P.dt else s.fallen x y' }

/-- The columns of the interior in the order of the loops, test/dcmip2016/KesslerPhysics.cpp:139-140. -/
def Rain.columns (P : Rain) : List (Nat × Nat) :=
  ((List.range (P.aEnd - P.aBegin)).map (P.aBegin + ·)).flatMap fun i =>
    ((List.range (P.bEnd - P.bBegin)).map (P.bBegin + ·)).map fun j => (i, j)

/-- `KesslerPhysics::Perform` for one patch with user data, test/dcmip2016/KesslerPhysics.cpp:85-288. -/
noncomputable def rain (P : Rain) (s : Fields) : Fields :=
  P.columns.foldl (fun s t => rainColumn P s t.1 t.2) s

end Verif.Physics
