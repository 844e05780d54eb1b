import Mathlib.Data.List.Basic

/-!
# Where variables are stored

Models the location part of `Grid::InitializeVerticalCoordinate`
(src/atm/Grid.cpp:243-299 and 353-379).
-/

namespace Verif.Vars

/-- `DataLocation` (src/base/DataLocation.h).  Every other value is `other n`. -/
inductive Loc
  | node | aEdge | bEdge | rEdge | other (n : Int)
deriving DecidableEq

/-- `VerticalStaggering` (src/atm/Grid.h); every other value is `other`. -/
inductive Staggering
  | levels | interfaces | lorenz | charneyPhillips | other
deriving DecidableEq

/-- `m_vecVarLocation[c] = l`; writing beyond the end is undefined in C++ and
leaves the list alone here (the equation sets of the program have three
components in two dimensions and five in three). -/
def setLoc (locs : List Loc) (c : Nat) (l : Loc) : List Loc := locs.set c l

/-- The assignment of locations (src/atm/Grid.cpp:243-299, 326-328); `none` is an
exception. -/
def assign (dim : Nat) (s : Staggering) (locs : List Loc) : Option (List Loc) :=
  if dim = 2 then
    some (setLoc (setLoc (setLoc locs 0 .node) 1 .node) 2 .node)
  else if dim = 3 then
    match s with
    | .levels => some (setLoc (setLoc (setLoc (setLoc (setLoc locs 0 .node) 1 .node) 2 .node)
        3 .node) 4 .node)
    | .interfaces => some (setLoc (setLoc (setLoc (setLoc (setLoc locs 0 .node) 1 .node) 2 .node)
        3 .node) 4 .node)
    | .lorenz => some (setLoc (setLoc (setLoc (setLoc (setLoc locs 0 .node) 1 .node) 2 .node)
        3 .rEdge) 4 .node)
    | .charneyPhillips => some (setLoc (setLoc (setLoc (setLoc (setLoc locs 0 .node) 1 .node)
        2 .rEdge) 3 .rEdge) 4 .node)
    | .other => none
  else none

/-- The counters `m_vecVarsAtLocation` (src/atm/Grid.cpp:354-356). -/
structure Counters where
  node : Nat
  aEdge : Nat
  bEdge : Nat
  rEdge : Nat

/-- One turn of the loop over components (src/atm/Grid.cpp:360-378): the index
given to the component and the counters afterwards; `none` is the exception. -/
def count (k : Counters) : Loc → Option (Nat × Counters)
  | .node => some (k.node, { k with node := k.node + 1 })
  | .aEdge => some (k.aEdge, { k with aEdge := k.aEdge + 1 })
  | .bEdge => some (k.bEdge, { k with bEdge := k.bEdge + 1 })
  | .rEdge => some (k.rEdge, { k with rEdge := k.rEdge + 1 })
  | .other _ => none

/-- The loop over components (src/atm/Grid.cpp:359-379): the list
`m_vecVarIndex` and the final counters. -/
def number (k : Counters) : List Loc → Option (List Nat × Counters)
  | [] => some ([], k)
  | l :: ls =>
    match count k l with
    | none => none
    | some (ix, k') =>
      match number k' ls with
      | none => none
      | some (ixs, k'') => some (ix :: ixs, k'')

/-- Counters reset (src/atm/Grid.cpp:354-356), then the loop. -/
def indices (locs : List Loc) : Option (List Nat × Counters) :=
  number ⟨0, 0, 0, 0⟩ locs

/-- `GetVarsAtLocation` (src/atm/Grid.h). -/
def Counters.at (k : Counters) : Loc → Nat
  | .node => k.node
  | .aEdge => k.aEdge
  | .bEdge => k.bEdge
  | .rEdge => k.rEdge
  | .other _ => 0

end Verif.Vars
