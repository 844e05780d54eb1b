import Verif.Horiz.Basis
import Verif.Horiz.Loop

/-!
# The split-explicit and the high-speed dynamics

Models `SplitExplicitDynamics` (src/atm/SplitExplicitDynamics.cpp: `CalculateTendencies` 347-957, `FirstAcousticLoop`
961-1443, `PerformAcousticLoop` 1447-2094, `StepExplicit` 2098-2366) and `HighSpeedDynamics`
(src/atm/HighSpeedDynamics.cpp: `StepExplicitCombine` 363-1003, `StepImplicitCombine` 1007-1523), which `--hmethod
spex` and `--hmethod hs` select in a build with `PROGNOSTIC_CONTRAVARIANT_MOMENTA`.  The prognostic variables are the
contravariant horizontal momenta, the vertical momentum on interfaces, density times potential temperature, and
density.

Simplifications: `double` is the real numbers.  The elements of all patches are numbered in one sequence; a node is
given by its element, its two indices within the element and its level.  Every element buffer is filled for all nodes
of the element before it is read, so it is a function of the node; the entries of the buffers on interfaces that are
never assigned (the first and the last) are zero, as `Allocate` leaves them (src/base/DataArray3D.h:166).  The passes
write interface values of the density, the momenta and the potential temperature into the instance they read; every
pass that reads them has written them before, except the potential temperature on the first and last interface, which
is part of the state here (`pEdge`).  Loops with several accumulators are written as one loop for each.  Levels count
from `0`; entries beyond the last are not meaningful.
-/

namespace Verif.Acoustic

open Verif.Horiz

/-- A value at every node: element, alpha index, beta index, level (or interface). -/
abbrev Fld := Nat → Nat → Nat → Nat → ℝ

/-- What the dynamics read from the grid: src/atm/SplitExplicitDynamics.cpp:377-440 and
src/atm/HighSpeedDynamics.cpp:1095-1134. `point` numbers the places of the nodes: nodes of different elements at the
same place have the same number.  `vec` is the average that direct stiffness summation takes of the two horizontal
components on a level. -/
structure Grid where
  elements : Nat
  order : Nat
  levels : Nat
  B : Basis
  deltaA : Nat → ℝ
  deltaB : Nat → ℝ
  jac : Fld
  jacEdge : Fld
  jac2d : Nat → Nat → Nat → ℝ
  covA : Fld
  covB : Fld
  conA : Fld
  conB : Fld
  derivR : Nat → Nat → Nat → Nat → Nat → ℝ
  derivREdge : Nat → Nat → Nat → Nat → Nat → ℝ
  zn : Fld
  zi : Fld
  coriolis : Nat → Nat → Nat → ℝ
  g : ℝ
  gamma : ℝ
  pressure : ℝ → ℝ
  point : Nat → Nat → Nat → Nat
  vec : (Nat → Nat → Nat → ℝ × ℝ) → Nat → Nat → Nat → ℝ × ℝ

/-- A data instance: momenta (variables 0 and 1), density times potential temperature (2) and density (4) on levels,
vertical momentum (3) on interfaces; besides, the arrays that hold variable 3 on levels and variable 2 on interfaces,
and the tracers. -/
structure State where
  u : Fld
  v : Fld
  p : Fld
  r : Fld
  w : Fld
  wNode : Fld
  pEdge : Fld
  t : Nat → Fld

/-- `m_dBd`, src/atm/SplitExplicitDynamics.cpp:33-52. -/
noncomputable def bd : ℝ := 0.1

/-- `m_dBs`, src/atm/SplitExplicitDynamics.cpp:33-52. -/
noncomputable def bs : ℝ := 0.1

section

variable (G : Grid)

/-- Entries of an interface buffer: those from `1` to `nRElements - 1` are assigned, the others are zero. -/
noncomputable def inner (k : Nat) (x : ℝ) : ℝ := if 0 < k ∧ k < G.levels then x else 0

/-- A derivative in alpha by `dDxBasis1D`, src/atm/SplitExplicitDynamics.cpp:637-651 with 694-709, 1604-1614;
src/atm/HighSpeedDynamics.cpp:727-742 with 785-800. -/
noncomputable def derA (φ : Fld) (e i j k : Nat) : ℝ :=
  loop G.order (fun s acc => acc + φ e s j k * G.B.dx s i) 0 * (1 / G.deltaA e)

/-- A derivative in beta by `dDxBasis1D`, src/atm/SplitExplicitDynamics.cpp:676-690 with 694-709, 1604-1614;
src/atm/HighSpeedDynamics.cpp:766-781 with 785-800. -/
noncomputable def derB (φ : Fld) (e i j k : Nat) : ℝ :=
  loop G.order (fun s acc => acc + φ e i s k * G.B.dx s j) 0 * (1 / G.deltaB e)

/-- A derivative in alpha by `dStiffness1D`, src/atm/SplitExplicitDynamics.cpp:618-626 with 697-700, 1209-1217,
1834-1842; src/atm/HighSpeedDynamics.cpp:709-717 with 788-791. -/
noncomputable def weakA (φ : Fld) (e i j k : Nat) : ℝ :=
  loop G.order (fun s acc => acc - φ e s j k * G.B.stiff i s) 0 * (1 / G.deltaA e)

/-- A derivative in beta by `dStiffness1D`, src/atm/SplitExplicitDynamics.cpp:657-665 with 697-700, 1219-1227,
1844-1852; src/atm/HighSpeedDynamics.cpp:748-756 with 788-791. -/
noncomputable def weakB (φ : Fld) (e i j k : Nat) : ℝ :=
  loop G.order (fun s acc => acc - φ e i s k * G.B.stiff j s) 0 * (1 / G.deltaB e)

/-- The divergence of a horizontal flux on levels: `dInvJacobian` times the two weak derivatives,
src/atm/SplitExplicitDynamics.cpp:764-767, 847-850, 1229-1233, 1854-1858; src/atm/HighSpeedDynamics.cpp:855-858,
928-931. -/
noncomputable def div (φ ψ : Fld) (e i j k : Nat) : ℝ :=
  1 / G.jac e i j k * (weakA G φ e i j k + weakB G ψ e i j k)

/-- The difference of an interface field across a level over the thickness of the level: `dDzMassFluxVertical` and the
like, src/atm/SplitExplicitDynamics.cpp:770-778, 831-834, 841-844, 1399-1414, 1865-1880; src/atm/HighSpeedDynamics.cpp:
861-869, 1479-1489. -/
noncomputable def dz (φ : Fld) (e i j k : Nat) : ℝ :=
  1 / (G.zi e i j (k + 1) - G.zi e i j k) * (φ e i j (k + 1) - φ e i j k)

/-- The difference of a level field across an interface over the distance of the levels: `dDzPressure` and the like,
src/atm/SplitExplicitDynamics.cpp:889-901, 1302-1304, 1937-1945; src/atm/HighSpeedDynamics.cpp:1280-1282. -/
noncomputable def dzEdge (φ : Fld) (e i j k : Nat) : ℝ :=
  1 / (G.zn e i j k - G.zn e i j (k - 1)) * (φ e i j k - φ e i j (k - 1))

/-- The vertical derivative on a level, one-sided at the ends: `dDzP`, src/atm/SplitExplicitDynamics.cpp:711-729,
1599-1617; src/atm/HighSpeedDynamics.cpp:802-820. -/
noncomputable def dzNode (φ : Fld) (e i j k : Nat) : ℝ :=
  if k = 0 then (φ e i j (k + 1) - φ e i j k) / (G.zn e i j (k + 1) - G.zn e i j k)
  else if k = G.levels - 1 then (φ e i j k - φ e i j (k - 1)) / (G.zn e i j k - G.zn e i j (k - 1))
  else (φ e i j (k + 1) - φ e i j (k - 1)) / (G.zn e i j (k + 1) - G.zn e i j (k - 1))

/-- `dDaP` along surfaces of constant height, src/atm/SplitExplicitDynamics.cpp:731, 1620;
src/atm/HighSpeedDynamics.cpp:822. -/
noncomputable def gradA (φ : Fld) (e i j k : Nat) : ℝ := derA G φ e i j k - G.derivR e i j k 0 * dzNode G φ e i j k

/-- `dDbP` along surfaces of constant height, src/atm/SplitExplicitDynamics.cpp:732, 1621;
src/atm/HighSpeedDynamics.cpp:823. -/
noncomputable def gradB (φ : Fld) (e i j k : Nat) : ℝ := derB G φ e i j k - G.derivR e i j k 1 * dzNode G φ e i j k

/-- `dConDaP`, src/atm/SplitExplicitDynamics.cpp:735-737, 1624-1626; src/atm/HighSpeedDynamics.cpp:826-828. -/
noncomputable def conGradA (φ : Fld) (e i j k : Nat) : ℝ :=
  G.conA e i j 0 * gradA G φ e i j k + G.conA e i j 1 * gradB G φ e i j k

/-- `dConDbP`, src/atm/SplitExplicitDynamics.cpp:739-741, 1628-1630; src/atm/HighSpeedDynamics.cpp:830-832. -/
noncomputable def conGradB (φ : Fld) (e i j k : Nat) : ℝ :=
  G.conB e i j 0 * gradA G φ e i j k + G.conB e i j 1 * gradB G φ e i j k

section

variable (s : State)

/-- Density on interfaces, src/atm/SplitExplicitDynamics.cpp:457-459; src/atm/HighSpeedDynamics.cpp:527-529,
1179-1181. -/
noncomputable def rhoEdge : Fld := fun e i j k => 0.5 * (s.r e i j (k - 1) + s.r e i j k)

/-- Momentum in alpha on interfaces, src/atm/SplitExplicitDynamics.cpp:464-466; src/atm/HighSpeedDynamics.cpp:534-536. -/
noncomputable def uEdge : Fld := fun e i j k => 0.5 * (s.u e i j (k - 1) + s.u e i j k)

/-- Momentum in beta on interfaces, src/atm/SplitExplicitDynamics.cpp:468-470; src/atm/HighSpeedDynamics.cpp:538-540. -/
noncomputable def vEdge : Fld := fun e i j k => 0.5 * (s.v e i j (k - 1) + s.v e i j k)

/-- Potential temperature on interfaces, kept where variable 2 is on interfaces; not assigned on the first and the
last, src/atm/SplitExplicitDynamics.cpp:472-476; src/atm/HighSpeedDynamics.cpp:542-546, 1183-1189. -/
noncomputable def thetaEdge : Fld := fun e i j k =>
  if 0 < k ∧ k < G.levels then 1 / rhoEdge s e i j k * 0.5 * (s.p e i j (k - 1) + s.p e i j k) else s.pEdge e i j k

/-- `m_dSDotREdge`, src/atm/SplitExplicitDynamics.cpp:479-484; src/atm/HighSpeedDynamics.cpp:549-554. -/
noncomputable def sDot : Fld := fun e i j k => inner G k
  (s.w e i j k - uEdge s e i j k * G.derivREdge e i j k 0 - vEdge s e i j k * G.derivREdge e i j k 1)

/-- `m_dSDotUaREdge`, src/atm/SplitExplicitDynamics.cpp:486-491; src/atm/HighSpeedDynamics.cpp:556-561. -/
noncomputable def sDotU : Fld := fun e i j k => inner G k
  (sDot G s e i j k * (1 / rhoEdge s e i j k) * uEdge s e i j k)

/-- `m_dSDotUbREdge`, src/atm/SplitExplicitDynamics.cpp:493-495; src/atm/HighSpeedDynamics.cpp:563-565. -/
noncomputable def sDotV : Fld := fun e i j k => inner G k
  (sDot G s e i j k * (1 / rhoEdge s e i j k) * vEdge s e i j k)

/-- `m_dSDotThetaREdge`, src/atm/SplitExplicitDynamics.cpp:497-499. -/
noncomputable def sDotTheta : Fld := fun e i j k => inner G k (sDot G s e i j k * thetaEdge G s e i j k)

/-- `m_dAlphaVerticalMomentumFluxREdge`, src/atm/SplitExplicitDynamics.cpp:502-509;
src/atm/HighSpeedDynamics.cpp:568-575. -/
noncomputable def wFluxA : Fld := fun e i j k => inner G k
  (G.jacEdge e i j k * s.w e i j k * (1 / rhoEdge s e i j k) * uEdge s e i j k)

/-- `m_dBetaVerticalMomentumFluxREdge`, src/atm/SplitExplicitDynamics.cpp:502-513;
src/atm/HighSpeedDynamics.cpp:568-579. -/
noncomputable def wFluxB : Fld := fun e i j k => inner G k
  (G.jacEdge e i j k * s.w e i j k * (1 / rhoEdge s e i j k) * vEdge s e i j k)

/-- `m_d2DConUa`, src/atm/SplitExplicitDynamics.cpp:534; src/atm/HighSpeedDynamics.cpp:600. -/
noncomputable def conUa : Fld := fun e i j k => 1 / s.r e i j k * s.u e i j k

/-- `m_d2DConUb`, src/atm/SplitExplicitDynamics.cpp:535; src/atm/HighSpeedDynamics.cpp:601. -/
noncomputable def conUb : Fld := fun e i j k => 1 / s.r e i j k * s.v e i j k

/-- `m_d2DCovUa`, src/atm/SplitExplicitDynamics.cpp:537-541; src/atm/HighSpeedDynamics.cpp:603-607. -/
noncomputable def covUa : Fld := fun e i j k => G.covA e i j 0 * conUa s e i j k + G.covA e i j 1 * conUb s e i j k

/-- `m_d2DCovUb`, src/atm/SplitExplicitDynamics.cpp:543-547; src/atm/HighSpeedDynamics.cpp:609-613. -/
noncomputable def covUb : Fld := fun e i j k => G.covB e i j 0 * conUa s e i j k + G.covB e i j 1 * conUb s e i j k

/-- `m_dAlphaMassFlux`, src/atm/SplitExplicitDynamics.cpp:550-551; src/atm/HighSpeedDynamics.cpp:616-617. -/
noncomputable def massA : Fld := fun e i j k => G.jac e i j k * s.u e i j k

/-- `m_dBetaMassFlux`, src/atm/SplitExplicitDynamics.cpp:553-554; src/atm/HighSpeedDynamics.cpp:619-620. -/
noncomputable def massB : Fld := fun e i j k => G.jac e i j k * s.v e i j k

/-- `m_dAlphaPressureFlux`, src/atm/SplitExplicitDynamics.cpp:557-560; src/atm/HighSpeedDynamics.cpp:623-626. -/
noncomputable def heatA : Fld := fun e i j k => massA G s e i j k * s.p e i j k * (1 / s.r e i j k)

/-- `m_dBetaPressureFlux`, src/atm/SplitExplicitDynamics.cpp:562-565; src/atm/HighSpeedDynamics.cpp:628-631. -/
noncomputable def heatB : Fld := fun e i j k => massB G s e i j k * s.p e i j k * (1 / s.r e i j k)

/-- `m_dK2`, src/atm/SplitExplicitDynamics.cpp:568-572; src/atm/HighSpeedDynamics.cpp:634-638. -/
noncomputable def kinetic : Fld := fun e i j k =>
  0.5 * (covUa G s e i j k * conUa s e i j k + covUb G s e i j k * conUb s e i j k)

/-- `m_dSDotWNode`, src/atm/SplitExplicitDynamics.cpp:575-581; src/atm/HighSpeedDynamics.cpp:641-647. -/
noncomputable def sDotW : Fld := fun e i j k =>
  0.5 * (s.w e i j k + s.w e i j (k + 1)) - G.derivR e i j k 0 * s.u e i j k - G.derivR e i j k 1 * s.v e i j k

/-- `dataPressure`: `ComputePressure`, src/atm/SplitExplicitDynamics.cpp:372, src/atm/HighSpeedDynamics.cpp:1158-1160. -/
noncomputable def pres : Fld := fun e i j k => G.pressure (s.p e i j k)

/-- `dataPressure` after `CalculateTendencies`, src/atm/SplitExplicitDynamics.cpp:949-951; `m_dDpDTheta`,
src/atm/HighSpeedDynamics.cpp:1162-1165. -/
noncomputable def stiffness : Fld := fun e i j k => pres G s e i j k * (G.gamma / s.p e i j k)

/-- `dConDaKE`, src/atm/SplitExplicitDynamics.cpp:744-746; src/atm/HighSpeedDynamics.cpp:835-837. -/
noncomputable def conDaKE : Fld := fun e i j k =>
  G.conA e i j 0 * derA G (kinetic G s) e i j k + G.conA e i j 1 * derB G (kinetic G s) e i j k

/-- `dConDbKE`, src/atm/SplitExplicitDynamics.cpp:748-750; src/atm/HighSpeedDynamics.cpp:839-841. -/
noncomputable def conDbKE : Fld := fun e i j k =>
  G.conB e i j 0 * derA G (kinetic G s) e i j k + G.conB e i j 1 * derB G (kinetic G s) e i j k

/-- `dAbsVorticity`, src/atm/SplitExplicitDynamics.cpp:781-783; src/atm/HighSpeedDynamics.cpp:872-874. -/
noncomputable def vorticity : Fld := fun e i j k =>
  G.coriolis e i j + 1 / G.jac2d e i j * (derA G (covUb G s) e i j k - derB G (covUa G s) e i j k)

/-- `dVorticityAlpha`, src/atm/SplitExplicitDynamics.cpp:785-786; src/atm/HighSpeedDynamics.cpp:876-877. -/
noncomputable def turnA : Fld := fun e i j k => -vorticity G s e i j k * (1 / G.jac2d e i j) * covUb G s e i j k

/-- `dVorticityBeta`, src/atm/SplitExplicitDynamics.cpp:788-789; src/atm/HighSpeedDynamics.cpp:879-880. -/
noncomputable def turnB : Fld := fun e i j k => vorticity G s e i j k * (1 / G.jac2d e i j) * covUa G s e i j k

/-- Tendency of the momentum in alpha, src/atm/SplitExplicitDynamics.cpp:792-797; the bracket of
src/atm/HighSpeedDynamics.cpp:884-889. -/
noncomputable def tendU : Fld := fun e i j k =>
  -conGradA G (pres G s) e i j k - s.r e i j k * (conDaKE G s e i j k + turnA G s e i j k)
    - div G (massA G s) (massB G s) e i j k * conUa s e i j k - dz G (sDotU G s) e i j k

/-- Tendency of the momentum in beta, src/atm/SplitExplicitDynamics.cpp:810-815; the bracket of
src/atm/HighSpeedDynamics.cpp:902-907. -/
noncomputable def tendV : Fld := fun e i j k =>
  -conGradB G (pres G s) e i j k - s.r e i j k * (conDbKE G s e i j k + turnB G s e i j k)
    - div G (massA G s) (massB G s) e i j k * conUb s e i j k - dz G (sDotV G s) e i j k

/-- Tendency of density, src/atm/SplitExplicitDynamics.cpp:830-838. -/
noncomputable def tendR : Fld := fun e i j k =>
  -div G (massA G s) (massB G s) e i j k - dz G (sDot G s) e i j k

/-- Tendency of density times potential temperature, src/atm/SplitExplicitDynamics.cpp:840-850. -/
noncomputable def tendP : Fld := fun e i j k =>
  -div G (heatA G s) (heatB G s) e i j k - dz G (sDotTheta G s) e i j k

/-- Divergence of the fluxes of vertical momentum on an interface, src/atm/SplitExplicitDynamics.cpp:865-896;
src/atm/HighSpeedDynamics.cpp:945-977. -/
noncomputable def carryW : Fld := fun e i j k =>
  1 / G.jacEdge e i j k * (weakA G (wFluxA G s) e i j k + weakB G (wFluxB G s) e i j k) + dzEdge G (sDotW G s) e i j k

/-- Tendency of vertical momentum, src/atm/SplitExplicitDynamics.cpp:912-918. -/
noncomputable def tendW : Fld := fun e i j k =>
  inner G k (-dzEdge G (pres G s) e i j k - rhoEdge s e i j k * G.g - carryW G s e i j k)

end

/-- Direct stiffness summation of a scalar on one level (`pGrid->ApplyDSS`, src/atm/GridCSGLL.cpp:435): the mean over
the nodes at the same place.  The pairwise averages by which the code takes it are modelled in `Verif.Dss`. -/
noncomputable def mean (φ : Fld) : Fld := fun e i j k =>
  (∑ e' ∈ Finset.range G.elements, ∑ i' ∈ Finset.range G.order, ∑ j' ∈ Finset.range G.order,
      if G.point e' i' j' = G.point e i j then φ e' i' j' k else 0) /
    (∑ e' ∈ Finset.range G.elements, ∑ i' ∈ Finset.range G.order, ∑ j' ∈ Finset.range G.order,
      if G.point e' i' j' = G.point e i j then 1 else 0)

/-- `pGrid->ApplyDSS(…, DataType_State)`: each variable only where it is prognostic. -/
noncomputable def dss (s : State) : State where
  u := fun e i j k => (G.vec (fun e i j => (s.u e i j k, s.v e i j k)) e i j).1
  v := fun e i j k => (G.vec (fun e i j => (s.u e i j k, s.v e i j k)) e i j).2
  p := mean G s.p
  r := mean G s.r
  w := mean G s.w
  wNode := s.wNode
  pEdge := s.pEdge
  t := s.t

/-- `pGrid->ZeroData(…, DataType_State)`. -/
def zero (s : State) : State where
  u := fun _ _ _ _ => 0
  v := fun _ _ _ _ => 0
  p := fun _ _ _ _ => 0
  r := fun _ _ _ _ => 0
  w := fun _ _ _ _ => 0
  wNode := fun _ _ _ _ => 0
  pEdge := fun _ _ _ _ => 0
  t := s.t

/-- `CalculateTendencies`, src/atm/SplitExplicitDynamics.cpp:347-957, into the instance `old`.  The vertical momentum
on the first and last interface keeps what was there; nothing reads it. -/
noncomputable def tendencies (s old : State) : State := dss G
  { old with
    u := tendU G s
    v := tendV G s
    p := tendP G s
    r := tendR G s
    w := fun e i j k => if 0 < k ∧ k < G.levels then tendW G s e i j k else old.w e i j k }

/-! ## The tridiagonal systems -/

/-- `dgtsv`: sub-diagonal, diagonal, super-diagonal, right-hand side; nothing when `info` is not zero. -/
abbrev Solver := (Nat → ℝ) → (Nat → ℝ) → (Nat → ℝ) → (Nat → ℝ) → Option (Nat → ℝ)

/-- `m_dA`: entry `m` is left of the diagonal in row `m + 1`. src/atm/SplitExplicitDynamics.cpp:1254, 1283-1287, 1917-1921
with `dTimeScale` for `τ`; src/atm/HighSpeedDynamics.cpp:1248-1253 with `dDeltaT`.  The last entry is never assigned. -/
noncomputable def lower (τ : ℝ) (q θ : Fld) (e i j m : Nat) : ℝ :=
  if m + 1 < G.levels then -(τ * τ) * (1 / (G.zi e i j (m + 1) - G.zi e i j m)) *
    (1 / (G.zn e i j (m + 1) - G.zn e i j m) * q e i j m * θ e i j m - 0.5 * G.g)
  else 0

/-- `m_dB`, src/atm/SplitExplicitDynamics.cpp:1255-1256, 1289-1295, 1923-1929; src/atm/HighSpeedDynamics.cpp:1259-1267. -/
noncomputable def diag (τ : ℝ) (q θ : Fld) (e i j k : Nat) : ℝ :=
  if 0 < k ∧ k < G.levels then 1 + τ * τ *
    (1 / (G.zn e i j k - G.zn e i j (k - 1)) * θ e i j k *
        (q e i j k * (1 / (G.zi e i j (k + 1) - G.zi e i j k)) +
          q e i j (k - 1) * (1 / (G.zi e i j k - G.zi e i j (k - 1)))) +
      0.5 * G.g * (1 / (G.zi e i j (k + 1) - G.zi e i j k) - 1 / (G.zi e i j k - G.zi e i j (k - 1))))
  else 1

/-- `m_dC`, src/atm/SplitExplicitDynamics.cpp:1257, 1297-1301, 1931-1935; src/atm/HighSpeedDynamics.cpp:1272-1277. -/
noncomputable def upper (τ : ℝ) (q θ : Fld) (e i j k : Nat) : ℝ :=
  if 0 < k ∧ k < G.levels then -(τ * τ) * (1 / (G.zi e i j (k + 1) - G.zi e i j k)) *
    (1 / (G.zn e i j k - G.zn e i j (k - 1)) * q e i j k * θ e i j (k + 1) + 0.5 * G.g)
  else 0

open Classical in
/-- The solves of all columns and the check of `m_nInfo`, src/atm/SplitExplicitDynamics.cpp:1321-1381, 1970-2030;
src/atm/HighSpeedDynamics.cpp:1350-1410. -/
noncomputable def solveAll (solver : Solver) (τ : ℝ) (q θ rhs : Fld) : Option Fld :=
  if ∀ e i j, e < G.elements → i < G.order → j < G.order →
      (solver (lower G τ q θ e i j) (diag G τ q θ e i j) (upper G τ q θ e i j) (rhs e i j)).isSome
  then some (fun e i j =>
    (solver (lower G τ q θ e i j) (diag G τ q θ e i j) (upper G τ q θ e i j) (rhs e i j)).getD (fun _ => 0))
  else none

/-! ## The acoustic loop -/

section

variable (solver : Solver) (s T : State) (dt : ℝ)

/-- `dTimeScale`, src/atm/SplitExplicitDynamics.cpp:1247, 1881. -/
noncomputable def timeScale : ℝ := dt * 0.5 * (1.0 + bs)

/-- `m_dNodalMassUpdate`, src/atm/SplitExplicitDynamics.cpp:1159-1165, 1209-1236, from the momenta already updated. -/
noncomputable def firstMass (u v : Fld) : Fld := fun e i j k =>
  dt * (-div G (fun e i j k => G.jac e i j k * u e i j k) (fun e i j k => G.jac e i j k * v e i j k) e i j k
    + T.r e i j k)

/-- `m_dNodalPressureUpdate`, src/atm/SplitExplicitDynamics.cpp:1169-1180, 1209-1241. -/
noncomputable def firstHeat (u v : Fld) : Fld := fun e i j k =>
  dt * (-div G (fun e i j k => G.jac e i j k * (1 / s.r e i j k) * u e i j k * s.p e i j k)
      (fun e i j k => G.jac e i j k * (1 / s.r e i j k) * v e i j k * s.p e i j k) e i j k
    + T.p e i j k)

/-- `m_dD`, src/atm/SplitExplicitDynamics.cpp:1258-1259, 1302-1318. -/
noncomputable def firstRhs (mass heat : Fld) : Fld := fun e i j k =>
  inner G k (dt * T.w e i j k
    - timeScale dt * (dzEdge G heat e i j k + 0.5 * G.g * (mass e i j k + mass e i j (k - 1))))

/-- The new vertical momentum: zero on the ground, solved for on the interfaces below the top, untouched at the top;
src/atm/SplitExplicitDynamics.cpp:1396-1397, 1427-1436, 2045-2046, 2078-2087. -/
noncomputable def newW (old : State) (x : Fld) : Fld := fun e i j k =>
  if k = 0 then 0 else if k < G.levels then x e i j k else old.w e i j k

/-- `FirstAcousticLoop`, src/atm/SplitExplicitDynamics.cpp:961-1443: `s` is the initial instance, `T` the tendencies,
`old` what the instance written held before. -/
noncomputable def firstLoop (old : State) : Option State :=
  let u : Fld := fun e i j k => dt * T.u e i j k
  let v : Fld := fun e i j k => dt * T.v e i j k
  let mass := firstMass G T dt u v
  let heat := firstHeat G s T dt u v
  let θ := thetaEdge G s
  (solveAll G solver (timeScale dt) (stiffness G s) θ (firstRhs G T dt mass heat)).map fun x => dss G
    { old with
      u := u
      v := v
      r := fun e i j k => mass e i j k + dt * (-0.5 * (1.0 + bs) * dz G x e i j k)
      p := fun e i j k => heat e i j k +
        dt * (-0.5 * (1.0 + bs) * dz G (fun e i j k => x e i j k * θ e i j k) e i j k)
      w := newW G old x }

variable (a0 a1 : State)

/-- `m_dAcousticPressureTerm`, src/atm/SplitExplicitDynamics.cpp:1564-1567. -/
noncomputable def soundPressure : Fld := fun e i j k =>
  stiffness G s e i j k * ((1.0 + bd) * a1.p e i j k - bd * a0.p e i j k)

/-- `m_dZMassFluxREdge1`, src/atm/SplitExplicitDynamics.cpp:1769-1776; `dataAcoustic1REdge` is the array on levels (1522,
1692 lies in a comment). -/
noncomputable def zFlux1 : Fld := fun e i j k => inner G k (a1.wNode e i j k
  - G.derivREdge e i j k 0 * 0.5 * (a1.u e i j (k - 1) + a1.u e i j k)
  - G.derivREdge e i j k 1 * 0.5 * (a1.v e i j (k - 1) + a1.v e i j k))

/-- `m_dZMassFluxREdge2`, src/atm/SplitExplicitDynamics.cpp:1783-1789. -/
noncomputable def zFlux2 : Fld := fun e i j k => inner G k (
  -(G.derivREdge e i j k 0) * 0.5 * (a1.u e i j (k - 1) + a1.u e i j k)
  - G.derivREdge e i j k 1 * 0.5 * (a1.v e i j (k - 1) + a1.v e i j k))

/-- `m_dNodalMassUpdate`, src/atm/SplitExplicitDynamics.cpp:1734-1741, 1834-1868. -/
noncomputable def nextMass (u v : Fld) : Fld := fun e i j k =>
  -dt * (div G (fun e i j k => G.jac e i j k * u e i j k) (fun e i j k => G.jac e i j k * v e i j k) e i j k
    + 0.5 * (1.0 - bs) * dz G (zFlux1 G a1) e i j k + 0.5 * (1.0 + bs) * dz G (zFlux2 G a1) e i j k - T.r e i j k)

/-- `m_dNodalPressureUpdate`, src/atm/SplitExplicitDynamics.cpp:1744-1755, 1778-1794, 1834-1875. -/
noncomputable def nextHeat (u v : Fld) : Fld := fun e i j k =>
  -dt * (div G (fun e i j k => G.jac e i j k * (1 / s.r e i j k) * u e i j k * s.p e i j k)
      (fun e i j k => G.jac e i j k * (1 / s.r e i j k) * v e i j k * s.p e i j k) e i j k
    + 0.5 * (1.0 - bs) * dz G (fun e i j k => zFlux1 G a1 e i j k * thetaEdge G s e i j k) e i j k
    + 0.5 * (1.0 + bs) * dz G (fun e i j k => zFlux2 G a1 e i j k * thetaEdge G s e i j k) e i j k - T.p e i j k)

/-- `m_dD`, src/atm/SplitExplicitDynamics.cpp:1892-1893, 1937-1967. -/
noncomputable def nextRhs (mass heat : Fld) : Fld := fun e i j k =>
  inner G k (a1.wNode e i j k
    - dt * (dzEdge G (fun e i j k => stiffness G s e i j k * a1.p e i j k) e i j k
        + 0.5 * G.g * (a1.r e i j k + a1.r e i j (k - 1)) - T.w e i j k)
    - timeScale dt * (dzEdge G heat e i j k + 0.5 * G.g * (mass e i j k + mass e i j (k - 1))))

/-- `PerformAcousticLoop`, src/atm/SplitExplicitDynamics.cpp:1447-2094. -/
noncomputable def nextLoop (old : State) : Option State :=
  let sound := soundPressure G s a0 a1
  let u : Fld := fun e i j k => a1.u e i j k - dt * conGradA G sound e i j k + dt * T.u e i j k
  let v : Fld := fun e i j k => a1.v e i j k - dt * conGradB G sound e i j k + dt * T.v e i j k
  let mass := nextMass G T dt a1 u v
  let heat := nextHeat G s T dt a1 u v
  let θ := thetaEdge G s
  (solveAll G solver (timeScale dt) (stiffness G s) θ (nextRhs G s T dt a1 mass heat)).map fun x => dss G
    { old with
      u := u
      v := v
      r := fun e i j k => a1.r e i j k + mass e i j k + dt * (-0.5 * (1.0 + bs) * dz G x e i j k)
      p := fun e i j k => a1.p e i j k + heat e i j k +
        dt * (-0.5 * (1.0 + bs) * dz G (fun e i j k => x e i j k * θ e i j k) e i j k)
      w := newW G old x }

/-- The final update, src/atm/SplitExplicitDynamics.cpp:2276-2312. -/
noncomputable def addUp (upd a : State) : State :=
  { upd with
    u := fun e i j k => upd.u e i j k + a.u e i j k
    v := fun e i j k => upd.v e i j k + a.v e i j k
    r := fun e i j k => upd.r e i j k + a.r e i j k
    p := fun e i j k => upd.p e i j k + a.p e i j k
    w := fun e i j k => if k < G.levels then upd.w e i j k + a.w e i j k else upd.w e i j k }

end

/-- The data instances, by number. -/
abbrev Store := Nat → State

def putSlot (st : Store) (n : Nat) (s : State) : Store := fun m => if m = n then s else st m

/-- `StepExplicit`, src/atm/SplitExplicitDynamics.cpp:2098-2314; `base` is `GetFirstHorizontalDynamicsDataInstance`,
`nonhydrostatic` and `lorenz` say whether the two checks of lines 2123-2146 pass.  Nothing when it throws.  The pressure
that `CalculateTendencies` leaves is that of the initial instance, which nothing writes in between. -/
noncomputable def stepExplicit (solver : Solver) (nonhydrostatic lorenz : Bool) (base iInitial iUpdate : Nat) (dt : ℝ)
    (st : Store) : Option Store := do
  if iInitial = iUpdate then none
  if !nonhydrostatic then none
  if !lorenz then none
  let st := putSlot st base (tendencies G (st iInitial) (st base))
  let st := putSlot st (base + 1) (zero (st (base + 1)))
  let st := putSlot st (base + 2) (zero (st (base + 2)))
  let st := putSlot st (base + 3) (zero (st (base + 3)))
  let a ← firstLoop G solver (st iInitial) (st base) (dt / 3) (st (base + 1))
  let st := putSlot st (base + 1) a
  let b ← nextLoop G solver (st iInitial) (st base) (dt / 3) (st (base + 3)) (st (base + 1)) (st (base + 2))
  let st := putSlot st (base + 2) b
  let c ← nextLoop G solver (st iInitial) (st base) (dt / 3) (st (base + 1)) (st (base + 2)) (st (base + 3))
  let st := putSlot st (base + 3) c
  return putSlot st iUpdate (addUp G (st iUpdate) (st (base + 3)))

/-! ## The high-speed dynamics -/

/-- The checks of src/atm/HighSpeedDynamics.cpp:373-385 and 1017-1029. -/
def combinable (coeff : List ℝ) (inst : List Nat) (iUpdate : Nat) : Bool :=
  coeff.length == inst.length && inst.length != 0 && inst.tail.all (· != iUpdate)

/-- The combination of instances from which the update starts, src/atm/HighSpeedDynamics.cpp:661-685, 1425-1449. -/
def combine (coeff : List ℝ) (inst : List Nat) (st : Store) (part : State → Fld) : Fld := fun e i j k =>
  match coeff, inst with
  | c :: cs, m :: ms =>
      (cs.zip ms).foldl (fun acc x => acc + x.1 * part (st x.2) e i j k) (c * part (st m) e i j k)
  | _, _ => 0

/-- `StepExplicitCombine`, src/atm/HighSpeedDynamics.cpp:363-1003; `iArgument` is not `iUpdate` in any call
(src/atm/TimestepSchemeARS343b.cpp:175-240).  The vertical momentum at the top is not written. -/
noncomputable def explicitCombine (coeff : List ℝ) (inst : List Nat) (iArgument iUpdate : Nat) (dt : ℝ)
    (st : Store) : Option Store :=
  if !combinable coeff inst iUpdate then none else
  let s := st iArgument
  some (putSlot st iUpdate
    { st iUpdate with
      u := fun e i j k => combine coeff inst st State.u e i j k + dt * tendU G s e i j k
      v := fun e i j k => combine coeff inst st State.v e i j k + dt * tendV G s e i j k
      r := fun e i j k => combine coeff inst st State.r e i j k + -dt * div G (massA G s) (massB G s) e i j k
      p := fun e i j k => combine coeff inst st State.p e i j k + -dt * div G (heatA G s) (heatB G s) e i j k
      w := fun e i j k => if k < G.levels
        then combine coeff inst st State.w e i j k + inner G k (-dt * carryW G s e i j k)
        else (st iUpdate).w e i j k })

/-- `m_dD`, src/atm/HighSpeedDynamics.cpp:1280-1296. -/
noncomputable def implicitRhs (s : State) (dt : ℝ) : Fld := fun e i j k =>
  inner G k (s.w e i j k - dt * (dzEdge G (pres G s) e i j k + G.g * rhoEdge s e i j k))

/-- `StepImplicitCombine` before the summation, src/atm/HighSpeedDynamics.cpp:1007-1518, with
`USE_LAPACK_TRIDIAGONAL_SOLVE` (line 32). -/
noncomputable def implicitCore (solver : Solver) (coeff : List ℝ) (inst : List Nat) (iArgument iUpdate : Nat) (dt : ℝ)
    (st : Store) : Option State :=
  if !combinable coeff inst iUpdate then none else
  let s := st iArgument
  let θ := thetaEdge G s
  (solveAll G solver dt (stiffness G s) θ (implicitRhs G s dt)).map fun x =>
    { st iUpdate with
      u := combine coeff inst st State.u
      v := combine coeff inst st State.v
      r := fun e i j k => combine coeff inst st State.r e i j k + -dt * dz G x e i j k
      p := fun e i j k => combine coeff inst st State.p e i j k +
        -dt * dz G (fun e i j k => x e i j k * θ e i j k) e i j k
      w := fun e i j k => if k = 0 then 0 else if k < G.levels
        then combine coeff inst st State.w e i j k + (x e i j k - s.w e i j k)
        else (st iUpdate).w e i j k }

/-- `StepImplicitCombine`, src/atm/HighSpeedDynamics.cpp:1007-1523. -/
noncomputable def implicitCombine (solver : Solver) (coeff : List ℝ) (inst : List Nat) (iArgument iUpdate : Nat)
    (dt : ℝ) (st : Store) : Option Store :=
  (implicitCore G solver coeff inst iArgument iUpdate dt st).map fun s => putSlot st iUpdate (dss G s)

end

end Verif.Acoustic
