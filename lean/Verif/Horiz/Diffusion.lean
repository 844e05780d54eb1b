import Verif.Horiz.Shallow
import Mathlib.Analysis.SpecialFunctions.Pow.Real

/-!
# Scalar viscosity and hyperviscosity

Models `HorizontalDynamicsFEM::ApplyScalarHyperdiffusion` (src/atm/HorizontalDynamicsFEM.cpp:1867-2206) on one patch,
compiled without `FIX_ELEMENT_MASS_NONHYDRO` (line 36).

Simplifications: `double` is the real numbers.  The element buffers `m_dBufferState`, `m_dJGradientA` and
`m_dJGradientB`, which are filled for every node before any is read, are functions of the node.  A state variable lives
on levels or on interfaces, so one index `Var` stands for the variable in the array it lives in.
-/

namespace Verif.Horiz

/-- Where a state variable lives, `GetVarLocation`, src/atm/HorizontalDynamicsFEM.cpp:2016-2033. -/
inductive Located where
  | node
  | redge
  | other
deriving DecidableEq

/-- What the diffusion reads beside the geometry: number of state variables and where they live, the Jacobian on levels
and on interfaces, the reference state and the reference length, src/atm/HorizontalDynamicsFEM.cpp:1913-1976. -/
structure Medium where
  G : Geometry
  B : Basis
  components : Nat
  located : Nat → Located
  jacNode : Nat → Nat → Nat → ℝ
  jacREdge : Nat → Nat → Nat → ℝ
  ref : Data
  refLength : ℝ

/-- `nElementCountR`, src/atm/HorizontalDynamicsFEM.cpp:2016-2039; `none` is the exception of line 2031. -/
def Medium.levelsOf (M : Medium) : Var → Option Nat
  | .state c => match M.located c with
    | .node => some M.G.S.levels
    | .redge => some (M.G.S.levels + 1)
    | .other => none
  | .tracer _ => some M.G.S.levels

/-- `pJacobian`, src/atm/HorizontalDynamicsFEM.cpp:2021, 2028, 2038. -/
def Medium.jacOf (M : Medium) : Var → Nat → Nat → Nat → ℝ
  | .state c => match M.located c with
    | .redge => M.jacREdge
    | _ => M.jacNode
  | .tracer _ => M.jacNode

/-- `dLocalNu`, src/atm/HorizontalDynamicsFEM.cpp:1968-1975. -/
noncomputable def Medium.localNu (M : Medium) (nu : ℝ) (scale : Bool) : ℝ :=
  open Classical in
  if scale then
    if M.refLength ≠ 0 then nu * (M.G.deltaA / M.refLength) ^ (3.2 : ℝ) else nu
  else nu

section

variable (M : Medium) (init : Data) (removeRef : Bool) (v : Var) (a b k : Nat)

/-- `m_dBufferState`, src/atm/HorizontalDynamicsFEM.cpp:2050-2073. -/
noncomputable def buffer (i j : Nat) : ℝ :=
  if removeRef then init ⟨v, M.G.S.at a i, M.G.S.at b j, k⟩ - M.ref ⟨v, M.G.S.at a i, M.G.S.at b j, k⟩
  else init ⟨v, M.G.S.at a i, M.G.S.at b j, k⟩

/-- `m_dJGradientA`, src/atm/HorizontalDynamicsFEM.cpp:2081-2101. -/
noncomputable def gradientA (psi : Nat → Nat → ℝ) (i j : Nat) : ℝ :=
  M.jacOf v (M.G.S.at a i) (M.G.S.at b j) k *
    (M.G.metA (M.G.S.at a i) (M.G.S.at b j) 0 * derivA M.G M.B psi i j +
      M.G.metA (M.G.S.at a i) (M.G.S.at b j) 1 * derivB M.G M.B psi i j)

/-- `m_dJGradientB`, src/atm/HorizontalDynamicsFEM.cpp:2103-2106. -/
noncomputable def gradientB (psi : Nat → Nat → ℝ) (i j : Nat) : ℝ :=
  M.jacOf v (M.G.S.at a i) (M.G.S.at b j) k *
    (M.G.metB (M.G.S.at a i) (M.G.S.at b j) 0 * derivA M.G M.B psi i j +
      M.G.metB (M.G.S.at a i) (M.G.S.at b j) 1 * derivB M.G M.B psi i j)

/-- `dUpdateA`, src/atm/HorizontalDynamicsFEM.cpp:2124-2138. -/
noncomputable def stiffA (G : Geometry) (B : Basis) (f : Nat → Nat → ℝ) (i j : Nat) : ℝ :=
  loop G.S.order (fun s acc => acc + f s j * B.stiff i s) 0 * (1 / G.deltaA)

/-- `dUpdateB`, src/atm/HorizontalDynamicsFEM.cpp:2125-2139. -/
noncomputable def stiffB (G : Geometry) (B : Basis) (f : Nat → Nat → ℝ) (i j : Nat) : ℝ :=
  loop G.S.order (fun s acc => acc + f i s * B.stiff j s) 0 * (1 / G.deltaB)

/-- The update of one node, src/atm/HorizontalDynamicsFEM.cpp:2120-2165. -/
noncomputable def diffusePoint (dt nu : ℝ) (i j : Nat) (u : Data) : Data :=
  let x : Cell := ⟨v, M.G.S.at a i, M.G.S.at b j, k⟩
  put u x (u x - dt * (1 / M.jacOf v (M.G.S.at a i) (M.G.S.at b j) k) * nu *
    (stiffA M.G M.B (gradientA M v a b k (buffer M init removeRef v a b k)) i j +
      stiffB M.G M.B (gradientB M v a b k (buffer M init removeRef v a b k)) i j))

end

/-- One component, src/atm/HorizontalDynamicsFEM.cpp:2042-2199. -/
noncomputable def diffuseVar (M : Medium) (init : Data) (removeRef : Bool) (dt nu : ℝ) (n : Nat) (v : Var) (u : Data) :
    Data :=
  loop M.G.S.elemA (fun a u => loop M.G.S.elemB (fun b u => loop n (fun k u =>
    loop M.G.S.order (fun i u => loop M.G.S.order (fun j u =>
      diffusePoint M init removeRef v a b k dt nu i j u) u) u) u) u) u

/-- The components to be diffused, in order, src/atm/HorizontalDynamicsFEM.cpp:1904-1907 and 1978-2006: all state
variables but the horizontal velocity and all tracers for `-1`, else the one component; `none` is an exception. -/
def Medium.chosen (M : Medium) (iComponent : Int) : Option (List Var) :=
  if iComponent < -1 then none
  else if iComponent ≠ -1 then
    if iComponent ≥ M.components then none else some [.state iComponent.toNat]
  else some (((List.range M.components).drop 2).map Var.state ++ (List.range M.G.S.tracers).map Var.tracer)

/-- `ApplyScalarHyperdiffusion`, src/atm/HorizontalDynamicsFEM.cpp:1867-2206; `none` is an exception. -/
noncomputable def applyScalar (M : Medium) (init : Data) (dt nu : ℝ) (scale : Bool) (iComponent : Int)
    (removeRef : Bool) (u : Data) : Option Data :=
  match M.chosen iComponent with
  | none => none
  | some vs => vs.foldlM (fun u v => match M.levelsOf v with
    | none => none
    | some n => some (diffuseVar M init removeRef dt (M.localNu nu scale) n v u)) u

end Verif.Horiz
