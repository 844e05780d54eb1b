import Verif.Nonhydro.Explicit

/-!
# The second version of the horizontal dynamics

Models `HorizontalDynamicsFEMV2` (src/atm/HorizontalDynamicsFEMV2.cpp), which `--hmethod v2` selects
(src/atm/TempestInitialize.h:316-326): constructor, `StepShallowWater`, `StepNonhydrostaticPrimitive`, `StepExplicit`,
`ApplyScalarHyperdiffusion`, `ApplyVectorHyperdiffusion` and `StepAfterSubCycle`, on one patch.  `FilterNegativeTracers`
and `ApplyRayleighFriction` are the same code as in the first version (`Verif.Horiz.Model`, `Verif.Horiz.Rayleigh`).

Simplifications: those of `Verif.Nonhydro.Model`, `Verif.Horiz.Diffusion` and `Verif.Horiz.Vector`.  What the code reads
from patch and grid is the record the first version reads it from.  `FIX_ELEMENT_MASS_NONHYDRO`, which this file defines
(line 33), only sets buffers to zero that nothing reads, and is left out.
-/

namespace Verif.HorizV2

open Verif.Horiz Verif.Nonhydro

/-- The constructor throws unless the order is four, src/atm/HorizontalDynamicsFEMV2.cpp:38-61. -/
def constructible (S : Shape) : Bool := S.order == 4

/-- `iElementA + i`, where `iElementA = a * nHorizontalOrder + box.GetHaloElements()` and `nHorizontalOrder` is four,
src/atm/HorizontalDynamicsFEMV2.cpp:396-397, 720-721. -/
def at4 (S : Shape) (a i : Nat) : Nat := a * 4 + S.halo + i

section

variable (G : Geometry) (B : Basis)

/-- A derivative in alpha, written out: `dCovDaUb`, `dCovDaUx`, `dDaP`, `dDaKE`, `dDaPsi`,
src/atm/HorizontalDynamicsFEMV2.cpp:858-868, 993-997, 1005-1009, 1439-1443. -/
noncomputable def slopeA (f : Nat → Nat → ℝ) (i j : Nat) : ℝ :=
  1 / G.deltaA * (f 0 j * B.dx 0 i + f 1 j * B.dx 1 i + f 2 j * B.dx 2 i + f 3 j * B.dx 3 i)

/-- A derivative in beta: `dCovDbUa`, `dCovDbUx`, `dDbP`, `dDbKE`, `dDbPsi`,
src/atm/HorizontalDynamicsFEMV2.cpp:870-880, 999-1003, 1011-1015, 1445-1449. -/
noncomputable def slopeB (f : Nat → Nat → ℝ) (i j : Nat) : ℝ :=
  1 / G.deltaB * (f i 0 * B.dx 0 j + f i 1 * B.dx 1 j + f i 2 * B.dx 2 j + f i 3 * B.dx 3 j)

/-- A variational derivative in alpha: `dDaRhoFluxA`, `dDaPressureFluxA`, `dDaDiv`, `dDaCurl`,
src/atm/HorizontalDynamicsFEMV2.cpp:969-979, 1683-1701. -/
noncomputable def fluxOutA (f : Nat → Nat → ℝ) (i j : Nat) : ℝ :=
  1 / G.deltaA * (-f 0 j * B.stiff i 0 - f 1 j * B.stiff i 1 - f 2 j * B.stiff i 2 - f 3 j * B.stiff i 3)

/-- A variational derivative in beta: `dDbRhoFluxB`, `dDbPressureFluxB`, `dDbDiv`, `dDbCurl`,
src/atm/HorizontalDynamicsFEMV2.cpp:981-991, 1689-1707. -/
noncomputable def fluxOutB (f : Nat → Nat → ℝ) (i j : Nat) : ℝ :=
  1 / G.deltaB * (-f i 0 * B.stiff j 0 - f i 1 * B.stiff j 1 - f i 2 * B.stiff j 2 - f i 3 * B.stiff j 3)

end

section Shallow

variable (G : Geometry) (B : Basis) (init : Data) (dt : ℝ) (a b k : Nat)

/-- `dataInitialNode(c,iElementA+i,iElementB+j,k)`. -/
def cell (c i j : Nat) : ℝ := init ⟨.state c, at4 G.S a i, at4 G.S b j, k⟩

/-- `ConUaIx`, src/atm/HorizontalDynamicsFEMV2.cpp:411-413. -/
noncomputable def swUa (i j : Nat) : ℝ :=
  G.metA (at4 G.S a i) (at4 G.S b j) 0 * cell G init a b k 0 i j +
    G.metA (at4 G.S a i) (at4 G.S b j) 1 * cell G init a b k 1 i j

/-- `ConUbIx`, src/atm/HorizontalDynamicsFEMV2.cpp:415-417. -/
noncomputable def swUb (i j : Nat) : ℝ :=
  G.metB (at4 G.S a i) (at4 G.S b j) 0 * cell G init a b k 0 i j +
    G.metB (at4 G.S a i) (at4 G.S b j) 1 * cell G init a b k 1 i j

/-- `KIx`, src/atm/HorizontalDynamicsFEMV2.cpp:420-425. -/
noncomputable def swHead (i j : Nat) : ℝ :=
  0.5 * (swUa G init a b k i j * cell G init a b k 0 i j + swUb G init a b k i j * cell G init a b k 1 i j) +
    G.g * cell G init a b k 2 i j

/-- `m_dAlphaMassFlux`, src/atm/HorizontalDynamicsFEMV2.cpp:441-445. -/
noncomputable def swFluxA (i j : Nat) : ℝ :=
  G.jac (at4 G.S a i) (at4 G.S b j) * (cell G init a b k 2 i j - G.topo (at4 G.S a i) (at4 G.S b j)) *
    swUa G init a b k i j

/-- `m_dBetaMassFlux`, src/atm/HorizontalDynamicsFEMV2.cpp:447-451. -/
noncomputable def swFluxB (i j : Nat) : ℝ :=
  G.jac (at4 G.S a i) (at4 G.S b j) * (cell G init a b k 2 i j - G.topo (at4 G.S a i) (at4 G.S b j)) *
    swUb G init a b k i j

/-- A derivative of the shallow water step in alpha: `dCovDaUb`, `dDaKE`, a loop over `s`,
src/atm/HorizontalDynamicsFEMV2.cpp:495-504, 537-538. -/
noncomputable def swDerivA (f : Nat → Nat → ℝ) (i j : Nat) : ℝ :=
  loop 4 (fun s acc => acc + f s j * B.dx s i) 0 * (1 / G.deltaA)

/-- A derivative of the shallow water step in beta: `dCovDbUa`, `dDbKE`,
src/atm/HorizontalDynamicsFEMV2.cpp:523-532, 541-542. -/
noncomputable def swDerivB (f : Nat → Nat → ℝ) (i j : Nat) : ℝ :=
  loop 4 (fun s acc => acc + f i s * B.dx s j) 0 * (1 / G.deltaB)

/-- `dDaMassFluxA`, src/atm/HorizontalDynamicsFEMV2.cpp:480-493, 536. -/
noncomputable def swWeakA (f : Nat → Nat → ℝ) (i j : Nat) : ℝ :=
  loop 4 (fun s acc => acc - f s j * B.stiff i s) 0 * (1 / G.deltaA)

/-- `dDbMassFluxB`, src/atm/HorizontalDynamicsFEMV2.cpp:507-521, 540. -/
noncomputable def swWeakB (f : Nat → Nat → ℝ) (i j : Nat) : ℝ :=
  loop 4 (fun s acc => acc - f i s * B.stiff j s) 0 * (1 / G.deltaB)

/-- `dZetaXi`, src/atm/HorizontalDynamicsFEMV2.cpp:549. -/
noncomputable def swZeta (i j : Nat) : ℝ :=
  swDerivA G B (cell G init a b k 1) i j - swDerivB G B (cell G init a b k 0) i j

/-- `dLocalUpdateUa`, src/atm/HorizontalDynamicsFEMV2.cpp:545-566. -/
noncomputable def swUpdateUa (i j : Nat) : ℝ :=
  G.coriolis (at4 G.S a i) (at4 G.S b j) * G.jac (at4 G.S a i) (at4 G.S b j) * swUb G init a b k i j +
    (-swDerivA G B (swHead G init a b k) i j + swUb G init a b k i j * swZeta G B init a b k i j)

/-- `dLocalUpdateUb`, src/atm/HorizontalDynamicsFEMV2.cpp:546-567. -/
noncomputable def swUpdateUb (i j : Nat) : ℝ :=
  -(G.coriolis (at4 G.S a i) (at4 G.S b j) * G.jac (at4 G.S a i) (at4 G.S b j) * swUa G init a b k i j) +
    (-swDerivB G B (swHead G init a b k) i j + -swUa G init a b k i j * swZeta G B init a b k i j)

/-- The update of one node, src/atm/HorizontalDynamicsFEMV2.cpp:456-580.  There is none of tracers. -/
noncomputable def swPoint (i j : Nat) (u : Data) : Data :=
  let iA := at4 G.S a i
  let iB := at4 G.S b j
  let u := put u ⟨.state 0, iA, iB, k⟩ (u ⟨.state 0, iA, iB, k⟩ + dt * swUpdateUa G B init a b k i j)
  let u := put u ⟨.state 1, iA, iB, k⟩ (u ⟨.state 1, iA, iB, k⟩ + dt * swUpdateUb G B init a b k i j)
  put u ⟨.state 2, iA, iB, k⟩ (u ⟨.state 2, iA, iB, k⟩ - dt * (1 / G.jac iA iB) *
    (swWeakA G B (swFluxA G init a b k) i j + swWeakB G B (swFluxB G init a b k) i j))

end Shallow

/-- `StepShallowWater`, src/atm/HorizontalDynamicsFEMV2.cpp:316-587. -/
noncomputable def stepShallowWater (G : Geometry) (B : Basis) (init : Data) (dt : ℝ) (u : Data) : Data :=
  loop G.S.elemA (fun a u => loop G.S.elemB (fun b u => loop G.S.levels (fun k u =>
    loop 4 (fun i u => loop 4 (fun j u => swPoint G B init dt a b k i j u) u) u) u) u) u

section Nonhydro

variable (A : Air) (init : Data) (dt : ℝ) (a b k : Nat)

/-- `dConUa`, src/atm/HorizontalDynamicsFEMV2.cpp:806-809. -/
noncomputable def windA (i j : Nat) : ℝ :=
  A.conA (at4 A.G.S a i) (at4 A.G.S b j) k 0 * cell A.G init a b k 0 i j +
    A.conA (at4 A.G.S a i) (at4 A.G.S b j) k 1 * cell A.G init a b k 1 i j +
    A.conA (at4 A.G.S a i) (at4 A.G.S b j) k 2 * cell A.G init a b k 3 i j

/-- `dConUb`, src/atm/HorizontalDynamicsFEMV2.cpp:811-814. -/
noncomputable def windB (i j : Nat) : ℝ :=
  A.conB (at4 A.G.S a i) (at4 A.G.S b j) k 0 * cell A.G init a b k 0 i j +
    A.conB (at4 A.G.S a i) (at4 A.G.S b j) k 1 * cell A.G init a b k 1 i j +
    A.conB (at4 A.G.S a i) (at4 A.G.S b j) k 2 * cell A.G init a b k 3 i j

/-- `dConUx`, src/atm/HorizontalDynamicsFEMV2.cpp:816-819. -/
noncomputable def windX (i j : Nat) : ℝ :=
  A.conXi (at4 A.G.S a i) (at4 A.G.S b j) k 0 * cell A.G init a b k 0 i j +
    A.conXi (at4 A.G.S a i) (at4 A.G.S b j) k 1 * cell A.G init a b k 1 i j +
    A.conXi (at4 A.G.S a i) (at4 A.G.S b j) k 2 * cell A.G init a b k 3 i j

/-- `KIx`, src/atm/HorizontalDynamicsFEMV2.cpp:826-829. -/
noncomputable def energy (i j : Nat) : ℝ :=
  0.5 * (windA A init a b k i j * cell A.G init a b k 0 i j + windB A init a b k i j * cell A.G init a b k 1 i j +
    windX A init a b k i j * cell A.G init a b k 3 i j)

/-- `ExnerIx`, src/atm/HorizontalDynamicsFEMV2.cpp:757-759; `PhysicalConstants::ExnerPressureFromRhoTheta` is
`Verif.Nonhydro.exnerOf`. -/
noncomputable def exnerAt (i j : Nat) : ℝ := exnerOf A (cell A.G init a b k 2 i j)

/-- `dCovDxUa` and `dCovDxUb`, src/atm/HorizontalDynamicsFEMV2.cpp:850-856. -/
noncomputable def vertSlope (c i j : Nat) : ℝ :=
  row A.G.S.levels A.diff k (fun l => init ⟨.state c, at4 A.G.S a i, at4 A.G.S b j, l⟩)

/-- `UCrossZetaAIx`, src/atm/HorizontalDynamicsFEMV2.cpp:883-889. -/
noncomputable def swirlA (i j : Nat) : ℝ :=
  windB A init a b k i j *
      (slopeA A.G A.B (cell A.G init a b k 1) i j - slopeB A.G A.B (cell A.G init a b k 0) i j) -
    windX A init a b k i j * (vertSlope A init a b k 0 i j - slopeA A.G A.B (cell A.G init a b k 3) i j)

/-- `UCrossZetaBIx`, src/atm/HorizontalDynamicsFEMV2.cpp:883-892. -/
noncomputable def swirlB (i j : Nat) : ℝ :=
  windX A init a b k i j * (slopeB A.G A.B (cell A.G init a b k 3) i j - vertSlope A init a b k 1 i j) -
    windA A init a b k i j *
      (slopeA A.G A.B (cell A.G init a b k 1) i j - slopeB A.G A.B (cell A.G init a b k 0) i j)

/-- `UCrossZetaXIx`, src/atm/HorizontalDynamicsFEMV2.cpp:894-895. -/
noncomputable def swirlX (i j : Nat) : ℝ :=
  -windA A init a b k i j * slopeA A.G A.B (cell A.G init a b k 3) i j -
    windB A init a b k i j * slopeB A.G A.B (cell A.G init a b k 3) i j

/-- `m_dAlphaMassFlux` (`c = 4`) and `m_dAlphaPressureFlux` (`c = 2`), src/atm/HorizontalDynamicsFEMV2.cpp:911-936. -/
noncomputable def carryA (c i j : Nat) : ℝ :=
  A.jac (at4 A.G.S a i) (at4 A.G.S b j) k * windA A init a b k i j * cell A.G init a b k c i j

/-- `m_dBetaMassFlux` and `m_dBetaPressureFlux`, src/atm/HorizontalDynamicsFEMV2.cpp:915-940. -/
noncomputable def carryB (c i j : Nat) : ℝ :=
  A.jac (at4 A.G.S a i) (at4 A.G.S b j) k * windB A init a b k i j * cell A.G init a b k c i j

/-- What is added to the alpha velocity per unit of time, src/atm/HorizontalDynamicsFEMV2.cpp:1018-1039. -/
noncomputable def pushA (i j : Nat) : ℝ :=
  let iA := at4 A.G.S a i
  let iB := at4 A.G.S b j;
  -(1 / cell A.G init a b k 4 i j * cell A.G init a b k 2 i j * slopeA A.G A.B (exnerAt A init a b k) i j) -
    slopeA A.G A.B (energy A init a b k) i j - A.G.g * A.derivR iA iB k 0 +
    A.G.coriolis iA iB * A.G.jac iA iB * windB A init a b k i j + swirlA A init a b k i j

/-- What is added to the beta velocity per unit of time, src/atm/HorizontalDynamicsFEMV2.cpp:1018-1047. -/
noncomputable def pushB (i j : Nat) : ℝ :=
  let iA := at4 A.G.S a i
  let iB := at4 A.G.S b j;
  -(1 / cell A.G init a b k 4 i j * cell A.G init a b k 2 i j * slopeB A.G A.B (exnerAt A init a b k) i j) -
    slopeB A.G A.B (energy A init a b k) i j - A.G.g * A.derivR iA iB k 1 -
    A.G.coriolis iA iB * A.G.jac iA iB * windA A init a b k i j + swirlB A init a b k i j

/-- The update of one node, src/atm/HorizontalDynamicsFEMV2.cpp:948-1086.  Of tracers there is none (lines 1060-1083 are
in a comment), nor of vertical velocity on levels. -/
noncomputable def point (i j : Nat) (u : Data) : Data :=
  let iA := at4 A.G.S a i
  let iB := at4 A.G.S b j
  let u := put u ⟨.state 0, iA, iB, k⟩ (u ⟨.state 0, iA, iB, k⟩ + dt * pushA A init a b k i j)
  let u := put u ⟨.state 1, iA, iB, k⟩ (u ⟨.state 1, iA, iB, k⟩ + dt * pushB A init a b k i j)
  let u := put u ⟨.state 4, iA, iB, k⟩ (u ⟨.state 4, iA, iB, k⟩ - dt * (1 / A.jac iA iB k) *
    (fluxOutA A.G A.B (carryA A init a b k 4) i j + fluxOutB A.G A.B (carryB A init a b k 4) i j))
  put u ⟨.state 2, iA, iB, k⟩ (u ⟨.state 2, iA, iB, k⟩ - dt * (1 / A.jac iA iB k) *
    (fluxOutA A.G A.B (carryA A init a b k 2) i j + fluxOutB A.G A.B (carryB A init a b k 2) i j))

/-- Vertical velocity at the bottom boundary, src/atm/HorizontalDynamicsFEMV2.cpp:1092-1113. -/
noncomputable def bottom (i j : Nat) (u : Data) : Data :=
  let iA := at4 A.G.S a i
  let iB := at4 A.G.S b j
  put u ⟨edge 3, iA, iB, 0⟩
    (-(A.conXiEdge iA iB 0 0 * row A.G.S.levels A.toEdge 0 (fun l => u ⟨.state 0, iA, iB, l⟩) +
      A.conXiEdge iA iB 0 1 * row A.G.S.levels A.toEdge 0 (fun l => u ⟨.state 1, iA, iB, l⟩)) / A.conXiEdge iA iB 0 2)

/-- Vertical velocity at an interior interface, the pass for `t + 1`, src/atm/HorizontalDynamicsFEMV2.cpp:1116-1132. -/
noncomputable def interface (i j t : Nat) (u : Data) : Data :=
  let x : Cell := ⟨edge 3, at4 A.G.S a i, at4 A.G.S b j, t + 1⟩
  put u x (u x + dt * row A.G.S.levels A.toEdge (t + 1) (fun l => swirlX A init a b l i j))

/-- One element, src/atm/HorizontalDynamicsFEMV2.cpp:717-1134. -/
noncomputable def element (u : Data) : Data :=
  let u := loop 4 (fun i u => loop 4 (fun j u => loop A.G.S.levels (fun k u => point A init dt a b k i j u) u) u) u
  let u := loop 4 (fun i u => loop 4 (fun j u => bottom A a b i j u) u) u
  loop 4 (fun i u => loop 4 (fun j u =>
    loop (A.G.S.levels - 1) (fun t u => interface A init dt a b i j t u) u) u) u

end Nonhydro

/-- `InterpolateREdgeToNode(WIx, iDataInitial)`, done whatever the staggering, src/atm/HorizontalDynamicsFEMV2.cpp:701. -/
noncomputable def prepare (A : Air) (u : Data) : Data :=
  mapColumns A.G.S A.toNode (edge 3) (.state 3) (A.G.S.levels + 1) A.G.S.levels u

/-- `StepNonhydrostaticPrimitive`: the initial instance, which the interpolation changes, and the updated one,
src/atm/HorizontalDynamicsFEMV2.cpp:590-1137. -/
noncomputable def stepNonhydro (A : Air) (init : Data) (dt : ℝ) (u : Data) : Data × Data :=
  let init := prepare A init
  (init, loop A.G.S.elemA (fun a u => loop A.G.S.elemB (fun b u => element A init dt a b u) u) u)

section Diffusion

variable (M : Medium) (init : Data) (removeRef : Bool) (v : Var) (a b k : Nat)

/-- `m_dBufferState`, src/atm/HorizontalDynamicsFEMV2.cpp:1401-1429. -/
noncomputable def hold (i j : Nat) : ℝ :=
  if removeRef then init ⟨v, at4 M.G.S a i, at4 M.G.S b j, k⟩ - M.ref ⟨v, at4 M.G.S a i, at4 M.G.S b j, k⟩
  else init ⟨v, at4 M.G.S a i, at4 M.G.S b j, k⟩

/-- `m_dJGradientA`, src/atm/HorizontalDynamicsFEMV2.cpp:1452-1455. -/
noncomputable def gradA (psi : Nat → Nat → ℝ) (i j : Nat) : ℝ :=
  M.jacOf v (at4 M.G.S a i) (at4 M.G.S b j) k *
    (M.G.metA (at4 M.G.S a i) (at4 M.G.S b j) 0 * slopeA M.G M.B psi i j +
      M.G.metA (at4 M.G.S a i) (at4 M.G.S b j) 1 * slopeB M.G M.B psi i j)

/-- `m_dJGradientB`, src/atm/HorizontalDynamicsFEMV2.cpp:1458-1461. -/
noncomputable def gradB (psi : Nat → Nat → ℝ) (i j : Nat) : ℝ :=
  M.jacOf v (at4 M.G.S a i) (at4 M.G.S b j) k *
    (M.G.metB (at4 M.G.S a i) (at4 M.G.S b j) 0 * slopeA M.G M.B psi i j +
      M.G.metB (at4 M.G.S a i) (at4 M.G.S b j) 1 * slopeB M.G M.B psi i j)

/-- The update of one node, src/atm/HorizontalDynamicsFEMV2.cpp:1467-1495. -/
noncomputable def diffusePoint (dt nu : ℝ) (i j : Nat) (u : Data) : Data :=
  let x : Cell := ⟨v, at4 M.G.S a i, at4 M.G.S b j, k⟩
  put u x (u x + dt * (1 / M.jacOf v (at4 M.G.S a i) (at4 M.G.S b j) k) * nu *
    (fluxOutA M.G M.B (gradA M v a b k (hold M init removeRef v a b k)) i j +
      fluxOutB M.G M.B (gradB M v a b k (hold M init removeRef v a b k)) i j))

/-- `ConUaIx`, src/atm/HorizontalDynamicsFEMV2.cpp:1603-1611 (the same formula as in the shallow water step).  `CurlIx`,
1623-1663. -/
noncomputable def curl (i j : Nat) : ℝ :=
  1 / M.G.jac (at4 M.G.S a i) (at4 M.G.S b j) *
    (slopeA M.G M.B (cell M.G init a b k 1) i j - slopeB M.G M.B (cell M.G init a b k 0) i j)

/-- `DivIx`, src/atm/HorizontalDynamicsFEMV2.cpp:1641-1666. -/
noncomputable def div (i j : Nat) : ℝ :=
  1 / M.G.jac (at4 M.G.S a i) (at4 M.G.S b j) *
    (slopeA M.G M.B (fun i j => M.G.jac (at4 M.G.S a i) (at4 M.G.S b j) * swUa M.G init a b k i j) i j +
      slopeB M.G M.B (fun i j => M.G.jac (at4 M.G.S a i) (at4 M.G.S b j) * swUb M.G init a b k i j) i j)

/-- `dUpdateUa`, src/atm/HorizontalDynamicsFEMV2.cpp:1710-1714. -/
noncomputable def dampA (nuDiv nuVort : ℝ) (i j : Nat) : ℝ :=
  nuDiv * fluxOutA M.G M.B (div M init a b k) i j -
    nuVort * M.G.jac (at4 M.G.S a i) (at4 M.G.S b j) *
      (M.G.metB (at4 M.G.S a i) (at4 M.G.S b j) 0 * fluxOutA M.G M.B (curl M init a b k) i j +
        M.G.metB (at4 M.G.S a i) (at4 M.G.S b j) 1 * fluxOutB M.G M.B (curl M init a b k) i j)

/-- `dUpdateUb`, src/atm/HorizontalDynamicsFEMV2.cpp:1716-1720. -/
noncomputable def dampB (nuDiv nuVort : ℝ) (i j : Nat) : ℝ :=
  nuDiv * fluxOutB M.G M.B (div M init a b k) i j +
    nuVort * M.G.jac (at4 M.G.S a i) (at4 M.G.S b j) *
      (M.G.metA (at4 M.G.S a i) (at4 M.G.S b j) 0 * fluxOutA M.G M.B (curl M init a b k) i j +
        M.G.metA (at4 M.G.S a i) (at4 M.G.S b j) 1 * fluxOutB M.G M.B (curl M init a b k) i j)

/-- The update of one node, src/atm/HorizontalDynamicsFEMV2.cpp:1722-1723. -/
noncomputable def dampPoint (dt nuDiv nuVort : ℝ) (i j : Nat) (u : Data) : Data :=
  let x : Cell := ⟨.state 0, at4 M.G.S a i, at4 M.G.S b j, k⟩
  let y : Cell := ⟨.state 1, at4 M.G.S a i, at4 M.G.S b j, k⟩
  let u := put u x (u x - dt * dampA M init a b k nuDiv nuVort i j)
  put u y (u y - dt * dampB M init a b k nuDiv nuVort i j)

end Diffusion

/-- One component, src/atm/HorizontalDynamicsFEMV2.cpp:1390-1500. -/
noncomputable def diffuseVar (M : Medium) (init : Data) (removeRef : Bool) (dt nu : ℝ) (n : Nat) (v : Var) (u : Data) :
    Data :=
  loop M.G.S.elemA (fun a u => loop M.G.S.elemB (fun b u => loop 4 (fun i u => loop 4 (fun j u =>
    loop n (fun k u => diffusePoint M init removeRef v a b k dt nu i j u) u) u) u) u) u

/-- `ApplyScalarHyperdiffusion`, src/atm/HorizontalDynamicsFEMV2.cpp:1218-1503; `none` is an exception.  The choice of
components (1245-1350), of levels and Jacobian (1363-1387) and of the coefficient (1316-1323) is the same code as in the
first version. -/
noncomputable def applyScalar (M : Medium) (init : Data) (dt nu : ℝ) (scale : Bool) (iComponent : Int)
    (removeRef : Bool) (u : Data) : Option Data :=
  match M.chosen iComponent with
  | none => none
  | some vs => vs.foldlM (fun u v => match M.levelsOf v with
    | none => none
    | some n => some (diffuseVar M init removeRef dt (M.localNu nu scale) n v u)) u

/-- `ApplyVectorHyperdiffusion` for the velocities `init`, src/atm/HorizontalDynamicsFEMV2.cpp:1504-1729. -/
noncomputable def applyVector (M : Medium) (init : Data) (dt nuDiv nuVort : ℝ) (scale : Bool) (u : Data) : Data :=
  loop M.G.S.elemA (fun a u => loop M.G.S.elemB (fun b u => loop 4 (fun i u => loop 4 (fun j u =>
    loop M.G.S.levels (fun k u =>
      dampPoint M init a b k dt (M.localNu nuDiv scale) (M.localNu nuVort scale) i j u) u) u) u) u) u

/-- The data instance whose velocities `ApplyVectorHyperdiffusion` reads for an index: for `DATA_INDEX_REFERENCE`, here
`none`, it is number zero, since the flag set at src/atm/HorizontalDynamicsFEMV2.cpp:1538-1542 is not read afterwards. -/
def vectorSource : Option Nat → Nat
  | none => 0
  | some n => n

/-- The uniform diffusion, src/atm/HorizontalDynamicsFEMV2.cpp:1168-1210; `none` is an exception.  Simplified: the
velocities are those when the call begins, also where the instance read is the one updated, since an element is read
before it is updated and elements share no node. -/
noncomputable def uniformDiffusion (E : Dynamics) (iInitial iUpdate : Nat) (dt : ℝ) (D : Nat → Data) :
    Option (Nat → Data) :=
  if E.A.uniform then
    let D := store D iUpdate
      (applyVector E.medium (D (vectorSource (some iInitial))) dt (-E.nuVector) (-E.nuVector) false (D iUpdate))
    let D := store D iUpdate (applyVector E.medium (D (vectorSource none)) dt E.nuVector E.nuVector false (D iUpdate))
    if E.eqn = .primitive then do
      let u ← applyScalar E.medium (D iInitial) dt E.A.nu false (E.home 2) true (D iUpdate)
      let D := store D iUpdate u
      let u ← applyScalar E.medium (D iInitial) dt E.nuVector false (E.home 3) true (D iUpdate)
      some (store D iUpdate u)
    else some D
  else some D

/-- Diffusion and filter, src/atm/HorizontalDynamicsFEMV2.cpp:1168-1216. -/
noncomputable def finish (E : Dynamics) (iInitial iUpdate : Nat) (dt : ℝ) (D : Nat → Data) : Outcome :=
  match uniformDiffusion E iInitial iUpdate dt D with
  | none => .exception
  | some D => .done (store D iUpdate (filterTracers E.A.G.S E.area (D iUpdate)))

/-- `StepExplicit` of an object that could be constructed, src/atm/HorizontalDynamicsFEMV2.cpp:1138-1217. -/
noncomputable def stepExplicit (E : Dynamics) (iInitial iUpdate : Nat) (dt : ℝ) (D : Nat → Data) : Outcome :=
  if constructible E.A.G.S = false then .exception
  else if iInitial = iUpdate then .exception
  else match E.eqn with
    | .primitive =>
      let r := stepNonhydro E.A (D iInitial) dt (D iUpdate)
      finish E iInitial iUpdate dt (store (store D iInitial r.1) iUpdate r.2)
    | .shallow => finish E iInitial iUpdate dt
        (store D iUpdate (stepShallowWater E.A.G E.A.B (D iInitial) dt (D iUpdate)))
    | .other => .exception

/-- `StepAfterSubCycle` of an object that could be constructed, src/atm/HorizontalDynamicsFEMV2.cpp:1946-2036; `none` is
an exception.  `DSS` is a parameter as in the first version, whose `ApplyRayleighFriction` is the same code (`sponge`). -/
noncomputable def stepAfterSubCycle (A : Damping) (dss : Data → Data) (dt : ℝ) (iInitial iUpdate iWorking : Nat)
    (D : Nat → Data) : Option (Nat → Data) :=
  open Classical in
  if constructible A.M.G.S = false then none
  else if iInitial = iWorking then none
  else if iUpdate = iWorking then none
  else
    let D := store D iUpdate (D iInitial)
    if A.nuScalar = 0 ∧ A.nuDiv = 0 ∧ A.nuVort = 0 then some (store D iUpdate (sponge A dt (D iUpdate)))
    else if A.order = 0 then some (store D iUpdate (sponge A dt (D iUpdate)))
    else if A.order = 2 then do
      let u ← applyScalar A.M (D iInitial) dt A.nuScalar false (-1) false (D iUpdate)
      let D := store D iUpdate u
      let D := store D iUpdate (applyVector A.M (D iInitial) (-dt) A.nuDiv A.nuVort false (D iUpdate))
      let D := store D iUpdate (filterTracers A.M.G.S A.area (D iUpdate))
      let D := store D iUpdate (dss (D iUpdate))
      some (store D iUpdate (sponge A dt (D iUpdate)))
    else if A.order = 4 then do
      let D := store D iWorking (fun _ => 0)
      let w ← applyScalar A.M (D iInitial) 1 1 false (-1) false (D iWorking)
      let D := store D iWorking w
      let D := store D iWorking (applyVector A.M (D iInitial) 1 1 1 false (D iWorking))
      let D := store D iWorking (dss (D iWorking))
      let u ← applyScalar A.M (D iWorking) (-dt) A.nuScalar true (-1) false (D iUpdate)
      let D := store D iUpdate u
      let D := store D iUpdate (applyVector A.M (D iWorking) (-dt) A.nuDiv A.nuVort true (D iUpdate))
      let D := store D iUpdate (filterTracers A.M.G.S A.area (D iUpdate))
      let D := store D iUpdate (dss (D iUpdate))
      some (store D iUpdate (sponge A dt (D iUpdate)))
    else none

end Verif.HorizV2
