import Verif.Horiz.Diffusion

/-!
# Vector viscosity

Models `GridPatchCSGLL::ComputeCurlAndDiv` (src/atm/GridPatchCSGLL.cpp:1132-1300; the Cartesian version,
src/atm/GridPatchCartesianGLL.cpp:1317-1430, is the same but for buffers) and
`HorizontalDynamicsFEM::ApplyVectorHyperdiffusion` (src/atm/HorizontalDynamicsFEM.cpp:2206-2422) on one patch, compiled
without `PROGNOSTIC_CONTRAVARIANT_MOMENTA`.

Simplifications as in `Verif.Horiz.Diffusion`.  Curl and divergence are computed for the whole patch before anything is
updated, so they are functions of the initial data.
-/

namespace Verif.Horiz

section

variable (M : Medium) (init : Data) (a b k : Nat)

/-- `m_dataDivergence`, src/atm/GridPatchCSGLL.cpp:1214-1222 and 1262-1294. -/
noncomputable def divergence (i j : Nat) : ℝ :=
  (derivA M.G M.B (fun i j => M.G.jac (M.G.S.at a i) (M.G.S.at b j) * conUa M.G init a b k i j) i j +
    derivB M.G M.B (fun i j => M.G.jac (M.G.S.at a i) (M.G.S.at b j) * conUb M.G init a b k i j) i j) *
      (1 / M.G.jac (M.G.S.at a i) (M.G.S.at b j))

/-- `m_dataVorticity`, src/atm/GridPatchCSGLL.cpp:1253-1260 and 1278-1296. -/
noncomputable def vorticity (i j : Nat) : ℝ :=
  (derivA M.G M.B (read M.G init a b k 1) i j - derivB M.G M.B (read M.G init a b k 0) i j) *
    (1 / M.G.jac (M.G.S.at a i) (M.G.S.at b j))

/-- `dUpdateUa`, src/atm/HorizontalDynamicsFEM.cpp:2369-2404. -/
noncomputable def vectorUa (nuDiv nuVort : ℝ) (i j : Nat) : ℝ :=
  nuDiv * weakA M.G M.B (divergence M init a b k) i j -
    nuVort * M.G.jac (M.G.S.at a i) (M.G.S.at b j) *
      (M.G.metB (M.G.S.at a i) (M.G.S.at b j) 0 * weakA M.G M.B (vorticity M init a b k) i j +
        M.G.metB (M.G.S.at a i) (M.G.S.at b j) 1 * weakB M.G M.B (vorticity M init a b k) i j)

/-- `dUpdateUb`, src/atm/HorizontalDynamicsFEM.cpp:2406-2410. -/
noncomputable def vectorUb (nuDiv nuVort : ℝ) (i j : Nat) : ℝ :=
  nuDiv * weakB M.G M.B (divergence M init a b k) i j +
    nuVort * M.G.jac (M.G.S.at a i) (M.G.S.at b j) *
      (M.G.metA (M.G.S.at a i) (M.G.S.at b j) 0 * weakA M.G M.B (vorticity M init a b k) i j +
        M.G.metA (M.G.S.at a i) (M.G.S.at b j) 1 * weakB M.G M.B (vorticity M init a b k) i j)

/-- The update of one node, src/atm/HorizontalDynamicsFEM.cpp:2412-2416. -/
noncomputable def vectorPoint (xz : Bool) (dt nuDiv nuVort : ℝ) (i j : Nat) (u : Data) : Data :=
  let x : Cell := ⟨.state 0, M.G.S.at a i, M.G.S.at b j, k⟩
  let y : Cell := ⟨.state 1, M.G.S.at a i, M.G.S.at b j, k⟩
  let u := put u x (u x - dt * vectorUa M init a b k nuDiv nuVort i j)
  if xz = false then put u y (u y - dt * vectorUb M init a b k nuDiv nuVort i j) else u

end

/-- `ApplyVectorHyperdiffusion`, src/atm/HorizontalDynamicsFEM.cpp:2206-2422.  `xz` is `GetIsCartesianXZ`.  Simplified:
`init` is the reference state if index `DATA_INDEX_REFERENCE` is given (lines 2244-2248 and 2304-2313). -/
noncomputable def applyVector (M : Medium) (xz : Bool) (init : Data) (dt nuDiv nuVort : ℝ) (scale : Bool) (u : Data) :
    Data :=
  loop M.G.S.elemA (fun a u => loop M.G.S.elemB (fun b u => loop M.G.S.levels (fun k u =>
    loop M.G.S.order (fun i u => loop M.G.S.order (fun j u =>
      vectorPoint M init a b k xz dt (M.localNu nuDiv scale) (M.localNu nuVort scale) i j u) u) u) u) u) u

end Verif.Horiz
