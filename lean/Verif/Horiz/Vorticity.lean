import Verif.Horiz.Vector

/-!
# Vorticity and divergence of the output

Models `GridPatchCSGLL::ComputeVorticityDivergence` (src/atm/GridPatchCSGLL.cpp:1309-1361; the Cartesian version,
src/atm/GridPatchCartesianGLL.cpp:1442-1494, is the same) and the loops of `ComputeCurlAndDiv`
(src/atm/GridPatchCSGLL.cpp:1132-1303), whose values are those of `Verif.Horiz.Vector`.

Simplifications as in `Verif.Horiz.Vector`.  The arrays `m_dataDivergence` and `m_dataVorticity` are the variables
`.state 0` and `.state 1` of one piece of data, in which nothing else is.  The loops over levels and nodes are in the
order of the Cartesian version.
-/

namespace Verif.Horiz

/-- The values stored at one node, src/atm/GridPatchCSGLL.cpp:1293-1296. -/
noncomputable def curlPoint (M : Medium) (init : Data) (a b k i j : Nat) (out : Data) : Data :=
  put (put out ⟨.state 0, M.G.S.at a i, M.G.S.at b j, k⟩ (divergence M init a b k i j))
    ⟨.state 1, M.G.S.at a i, M.G.S.at b j, k⟩ (vorticity M init a b k i j)

/-- `ComputeCurlAndDiv`, src/atm/GridPatchCSGLL.cpp:1132-1303. -/
noncomputable def computeCurlAndDiv (M : Medium) (init out : Data) : Data :=
  loop M.G.S.elemA (fun a u => loop M.G.S.elemB (fun b u => loop M.G.S.levels (fun k u =>
    loop M.G.S.order (fun i u => loop M.G.S.order (fun j u => curlPoint M init a b k i j u) u) u) u) u) out

/-- `ComputeVorticityDivergence`, src/atm/GridPatchCSGLL.cpp:1309-1361: `none` are the exceptions of lines 1324 and 1356. -/
noncomputable def computeVorticityDivergence (M : Medium) (init out : Data) : Option Data :=
  if M.components < 2 then none
  else if M.components = 3 then some (computeCurlAndDiv M init out)
  else if M.components > 4 then some (computeCurlAndDiv M init out)
  else none

end Verif.Horiz
