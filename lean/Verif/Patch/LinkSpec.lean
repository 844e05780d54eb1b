/-
Specification vocabulary for C67 and C68: halo nodes of a patch, and what it means that a side of a patch is
linked to a side of another one.
-/
import Verif.Patch.PropsLookup
import Verif.Exchange.Spec

namespace Verif.Patch

open Verif.Exchange (Dir Setting Res)

/-- Local node `(i, j)` of a patch lies in its halo straight outside side `d`. -/
def StraightHalo (x : Box) (d : Dir) (i j : Int) : Prop :=
  match d with
  | .right => (x.aInteriorEnd ≤ i ∧ i < x.aInteriorEnd + x.halo) ∧ (x.bInteriorBegin ≤ j ∧ j < x.bInteriorEnd)
  | .left => (0 ≤ i ∧ i < x.aInteriorBegin) ∧ (x.bInteriorBegin ≤ j ∧ j < x.bInteriorEnd)
  | .top => (x.aInteriorBegin ≤ i ∧ i < x.aInteriorEnd) ∧ (x.bInteriorEnd ≤ j ∧ j < x.bInteriorEnd + x.halo)
  | .bottom => (x.aInteriorBegin ≤ i ∧ i < x.aInteriorEnd) ∧ (0 ≤ j ∧ j < x.bInteriorBegin)
  | _ => False

/-- Local node `(i, j)` of a patch lies in its halo diagonally outside corner `d`. -/
def DiagonalHalo (x : Box) (d : Dir) (i j : Int) : Prop :=
  match d with
  | .topRight => (x.aInteriorEnd ≤ i ∧ i < x.aInteriorEnd + x.halo) ∧ (x.bInteriorEnd ≤ j ∧ j < x.bInteriorEnd + x.halo)
  | .topLeft => (0 ≤ i ∧ i < x.aInteriorBegin) ∧ (x.bInteriorEnd ≤ j ∧ j < x.bInteriorEnd + x.halo)
  | .bottomLeft => (0 ≤ i ∧ i < x.aInteriorBegin) ∧ (0 ≤ j ∧ j < x.bInteriorBegin)
  | .bottomRight => (x.aInteriorEnd ≤ i ∧ i < x.aInteriorEnd + x.halo) ∧ (0 ≤ j ∧ j < x.bInteriorBegin)
  | _ => False

/-- The place of local node `(i, j)` of patch `x` on a cubed sphere with `N` nodes along each panel edge. -/
def PlaceOf (N : Int) (x : Box) (i j : Int) (place : Option (Int × Int × Int)) : Prop :=
  Located N x.panel (x.aGlobalBegin + i) (x.bGlobalBegin + j) place

/-- The settings an exchange buffer of patch `x` is made with. -/
def SettingOf (s : Setting) (x : Box) : Prop :=
  (s.halo : Int) = x.halo ∧ (s.widthA : Int) = x.aInteriorWidth ∧ (s.widthB : Int) = x.bInteriorWidth

/-- Side `d` of patch number `n` is linked to side `d'` of patch number `m`, with the given reversal of the direction
along the side: each of the two patches registers exactly one connection for that side, over the whole side, with
the other patch as the target; each names the other's side as the opposing one, and both agree on the reversal. -/
structure SideLink (lookup : List (Int × Int × Int) → Res (List (Option Nat))) (boxes : List Box)
    (n : Nat) (x : Box) (d : Dir) (m : Nat) (y : Box) (d' : Dir) (rev : Bool) : Prop where
  source : boxes[n]? = some x
  target : boxes[m]? = some y
  edge : d.Edge
  edge' : d'.Edge
  out : ∃ regs, connections lookup x = .ok regs ∧
    ∀ r : Reg, r.dir = d → (r ∈ regs ↔ r = ⟨m, d, sideBegin x d, sideEnd x d⟩)
  back : ∃ regs, connections lookup y = .ok regs ∧
    ∀ r : Reg, r.dir = d' → (r ∈ regs ↔ r = ⟨n, d', sideBegin y d', sideEnd y d'⟩)
  opposing : ∃ flip, Panel.csOpposing x.panel y.panel d = some (d', rev, flip)
  opposing' : ∃ flip, Panel.csOpposing y.panel x.panel d' = some (d, rev, flip)

/-- The interior node in corner `d` of a patch. -/
def cornerOf (x : Box) (d : Dir) : Int × Int :=
  match d with
  | .topRight => (x.aInteriorEnd - 1, x.bInteriorEnd - 1)
  | .topLeft => (x.aInteriorBegin, x.bInteriorEnd - 1)
  | .bottomLeft => (x.aInteriorBegin, x.bInteriorBegin)
  | .bottomRight => (x.aInteriorEnd - 1, x.bInteriorBegin)
  | _ => (0, 0)

/-- Corner `d` of patch number `n` is linked to corner `d'` of patch number `m`. -/
structure CornerLink (lookup : List (Int × Int × Int) → Res (List (Option Nat))) (boxes : List Box)
    (n : Nat) (x : Box) (d : Dir) (m : Nat) (y : Box) (d' : Dir) (rev : Bool) : Prop where
  source : boxes[n]? = some x
  target : boxes[m]? = some y
  corner : d.Corner
  corner' : d'.Corner
  out : ∃ regs, connections lookup x = .ok regs ∧
    ∀ r : Reg, r.dir = d → (r ∈ regs ↔ r = ⟨m, d, (cornerOf x d).1, (cornerOf x d).2⟩)
  back : ∃ regs, connections lookup y = .ok regs ∧
    ∀ r : Reg, r.dir = d' → (r ∈ regs ↔ r = ⟨n, d', (cornerOf y d').1, (cornerOf y d').2⟩)
  opposing : ∃ flip, Panel.csOpposing x.panel y.panel d = some (d', rev, flip)
  opposing' : ∃ flip, Panel.csOpposing y.panel x.panel d' = some (d, rev, flip)

/-- The pairs of panels between which the two coordinates of a corner block are delivered exchanged. -/
def transposedPairs : List (Int × Int) := [(1, 4), (4, 1), (2, 4), (4, 2), (2, 5), (5, 2), (3, 5), (5, 3)]

end Verif.Patch
