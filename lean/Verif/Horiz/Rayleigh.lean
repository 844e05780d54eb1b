import Verif.Horiz.Diffusion

/-!
# Rayleigh friction

Models `HorizontalDynamicsFEM::ApplyRayleighFriction` (src/atm/HorizontalDynamicsFEM.cpp:2420-2571) on one patch.
-/

namespace Verif.Horiz

/-- `EquationSet::Type`, src/atm/EquationSet.h. -/
inductive Equations where
  | advection
  | shallowWater
  | nonhydrostatic
  | massCoord
deriving DecidableEq

/-- `GetComponents`, src/atm/EquationSet.cpp:28-93. -/
def Equations.components : Equations → Nat
  | .advection => 0
  | .shallowWater => 3
  | .nonhydrostatic => 5
  | .massCoord => 6

/-- The first `nComponents` entries of `nEffectiveC`, src/atm/HorizontalDynamicsFEM.cpp:2455-2479. -/
def effective (eq : Equations) (xz : Bool) : List Nat :=
  if eq = .nonhydrostatic ∧ xz = false then [0, 1, 2, 3]
  else if eq = .nonhydrostatic ∧ xz = true then [0, 2, 3]
  else List.range eq.components

/-- What Rayleigh friction reads: the reference state, its strength on levels and interfaces and where variables live. -/
structure Sponge where
  S : Shape
  eq : Equations
  xz : Bool
  located : Nat → Located
  ref : Data
  strengthNode : Nat → Nat → Nat → ℝ
  strengthREdge : Nat → Nat → Nat → ℝ

/-- One of the ten cycles, src/atm/HorizontalDynamicsFEM.cpp:2530-2535 and 2558-2563: `dRayleighFactor` is `1.0 / 10`. -/
noncomputable def cycle (P : Sponge) (dt nu : ℝ) (x : Cell) (u : Data) : Data :=
  let r := 1 / (1 + 1 / 10 * dt * nu)
  put u x (r * u x + (1 - r) * P.ref x)

/-- All components at one node and level or interface, src/atm/HorizontalDynamicsFEM.cpp:2517-2539 (levels) and 2544-2566
(interfaces); `here` is the location of the loop. -/
noncomputable def dampPoint (P : Sponge) (here : Located) (dt nu : ℝ) (iA iB k : Nat) (u : Data) : Data :=
  open Classical in
  if nu = 0 then u
  else (effective P.eq P.xz).foldl (fun u c =>
    if P.located c = here then loop 10 (fun _ u => cycle P dt nu ⟨.state c, iA, iB, k⟩ u) u else u) u

/-- `ApplyRayleighFriction`, src/atm/HorizontalDynamicsFEM.cpp:2485-2570. -/
noncomputable def applyRayleigh (P : Sponge) (dt : ℝ) (u : Data) : Data :=
  loop (P.S.elemA * P.S.order) (fun i u => loop (P.S.elemB * P.S.order) (fun j u =>
    loop (P.S.levels + 1) (fun k u => dampPoint P .redge dt (P.strengthREdge (P.S.halo + i) (P.S.halo + j) k)
        (P.S.halo + i) (P.S.halo + j) k u)
      (loop P.S.levels (fun k u => dampPoint P .node dt (P.strengthNode (P.S.halo + i) (P.S.halo + j) k)
        (P.S.halo + i) (P.S.halo + j) k u) u)) u) u

end Verif.Horiz
