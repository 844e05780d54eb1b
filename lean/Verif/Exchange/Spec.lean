/-
Specification vocabulary for halo exchange: which node of the receiving patch's halo corresponds to which
interior node of the sending patch.  Nothing here refers to message buffers or loop orders.
-/
import Verif.Exchange.Model

namespace Verif.Exchange

/-- The halo node at depth `x` (0 = next to the interior) outside an edge, facing position `y` of the range
that begins at `first`. -/
def edgeHalo (dir : Dir) (sA sB halo : Nat) (first : Int) (x y : Nat) : Int × Int :=
  match dir with
  | .right => ((sA : Int) - halo + x, first + y)
  | .left => ((halo : Int) - 1 - x, first + y)
  | .top => (first + y, (sB : Int) - halo + x)
  | .bottom => (first + y, (halo : Int) - 1 - x)
  | _ => (0, 0)

/-- The interior node at depth `x` (0 = outermost interior row) inside an edge, at position `y` of the range
that begins at `first`. -/
def edgeInterior (dir : Dir) (sA sB halo : Nat) (first : Int) (x y : Nat) : Int × Int :=
  match dir with
  | .right => ((sA : Int) - halo - 1 - x, first + y)
  | .left => ((halo : Int) + x, first + y)
  | .top => (first + y, (sB : Int) - halo - 1 - x)
  | .bottom => (first + y, (halo : Int) + x)
  | _ => (0, 0)

/-- The halo node at alpha-depth `x` and beta-depth `y` diagonally outside the corner node `(a, b)`. -/
def cornerHalo (dir : Dir) (a b : Int) (x y : Nat) : Int × Int :=
  match dir with
  | .topRight => (a + 1 + x, b + 1 + y)
  | .topLeft => (a - 1 - x, b + 1 + y)
  | .bottomLeft => (a - 1 - x, b - 1 - y)
  | .bottomRight => (a + 1 + x, b - 1 - y)
  | _ => (0, 0)

/-- The interior node at alpha-depth `x` and beta-depth `y` inside the corner node `(a, b)`. -/
def cornerInterior (dir : Dir) (a b : Int) (x y : Nat) : Int × Int :=
  match dir with
  | .topRight => (a - x, b - y)
  | .topLeft => (a + x, b - y)
  | .bottomLeft => (a + x, b + y)
  | .bottomRight => (a - x, b + y)
  | _ => (0, 0)

/-- A connection of a patch: direction, range (or corner node), halo width and reversal flag. -/
structure Conn where
  dir : Dir
  first : Int
  second : Int
  halo : Nat
  rev : Bool

/-- Number of boundary positions of an edge connection. -/
def Conn.len (c : Conn) : Nat := (c.second - c.first).toNat

/-- `new` is `old` with the halo strip of edge connection `cT` filled from the sender's field `src` across edge
connection `cS`: same depth, same position counted from the start of the range, or from its end if the edge is
reversed.  Every other node keeps its value. -/
structure EdgeDelivered {α : Type} (cS cT : Conn) (src old new : Field α) : Prop where
  sA : new.sA = old.sA
  sB : new.sB = old.sB
  sR : new.sR = old.sR
  halo : ∀ x y k, x < cT.halo → y < cT.len → k < old.sR →
    new.val (edgeHalo cT.dir old.sA old.sB cT.halo cT.first x y).1
            (edgeHalo cT.dir old.sA old.sB cT.halo cT.first x y).2 k =
    src.val (edgeInterior cS.dir src.sA src.sB cS.halo cS.first x (if cS.rev then cS.len - 1 - y else y)).1
            (edgeInterior cS.dir src.sA src.sB cS.halo cS.first x (if cS.rev then cS.len - 1 - y else y)).2 k
  rest : ∀ i j k, (∀ x y, x < cT.halo → y < cT.len →
      (i, j) ≠ edgeHalo cT.dir old.sA old.sB cT.halo cT.first x y) → new.val i j k = old.val i j k

/-- `new` is `old` with the halo block outside the corner of connection `cT` filled from the sender's block
inside the corner of `cS`: same depths, exchanged if the connection is reversed. -/
structure CornerDelivered {α : Type} (cS cT : Conn) (src old new : Field α) : Prop where
  sA : new.sA = old.sA
  sB : new.sB = old.sB
  sR : new.sR = old.sR
  halo : ∀ x y k, x < cT.halo → y < cT.halo → k < old.sR →
    new.val (cornerHalo cT.dir cT.first cT.second x y).1 (cornerHalo cT.dir cT.first cT.second x y).2 k =
    src.val (cornerInterior cS.dir cS.first cS.second (if cS.rev then y else x) (if cS.rev then x else y)).1
            (cornerInterior cS.dir cS.first cS.second (if cS.rev then y else x) (if cS.rev then x else y)).2 k
  rest : ∀ i j k, (∀ x y, x < cT.halo → y < cT.halo →
      (i, j) ≠ cornerHalo cT.dir cT.first cT.second x y) → new.val i j k = old.val i j k

/-- The 3D arrays of a patch that can be exchanged. -/
inductive Slot
  | stateNode (ix c : Nat)
  | stateREdge (ix c : Nat)
  | tracers (ix c : Nat)
  | vorticity | divergence | temperature | richardson | topographyDeriv
  deriving DecidableEq, Repr

/-- Component `c` of a 4D array, if it has one. -/
def Field4.get? {α : Type} (f : Field4 α) (c : Nat) : Option (Field α) :=
  if c < f.comps then some ⟨f.sA, f.sB, f.sR, f.val c⟩ else none

/-- The array in a slot. -/
def Patch.get? {α : Type} (p : Patch α) : Slot → Option (Field α)
  | .stateNode ix c => p.stateNode[ix]?.bind fun f => f.get? c
  | .stateREdge ix c => p.stateREdge[ix]?.bind fun f => f.get? c
  | .tracers ix c => p.tracers[ix]?.bind fun f => f.get? c
  | .vorticity => some p.vorticity
  | .divergence => some p.divergence
  | .temperature => some p.temperature
  | .richardson => some p.richardson
  | .topographyDeriv => some p.topographyDeriv

/-- Which slots an exchange of type `t`, instance `ix` concerns: each state variable where it lives, every
tracer, or the one named array. -/
def Concerned (varLoc : Nat → Loc) (t : XType) (ix : Nat) : Slot → Prop
  | .stateNode i c => t = .state ∧ i = ix ∧ varLoc c = .node
  | .stateREdge i c => t = .state ∧ i = ix ∧ varLoc c = .rEdge
  | .tracers i _ => t = .tracers ∧ i = ix
  | .vorticity => t = .vorticity
  | .divergence => t = .divergence
  | .temperature => t = .temperature
  | .richardson => t = .richardson
  | .topographyDeriv => t = .topographyDeriv

/-- The whole patch after an exchange: the concerned arrays are filled as `D` says, the others unchanged. -/
def PatchDelivered {α : Type} (D : Field α → Field α → Field α → Prop) (varLoc : Nat → Loc) (t : XType)
    (ix : Nat) (src old new : Patch α) : Prop :=
  (∀ s f g, Concerned varLoc t ix s → src.get? s = some f → old.get? s = some g →
    ∃ g', new.get? s = some g' ∧ D f g g') ∧
  (∀ s, ¬ Concerned varLoc t ix s → new.get? s = old.get? s) ∧
  new.index = old.index

/-- The arrays of a patch have the sizes `GridPatch::InitializeData` gives them (GridPatch.cpp:204-447):
extents include the halo on both sides, `rElements` levels at nodes and one more at radial edges, two values
for topography derivatives; state arrays are tagged as such. -/
structure Sized {α : Type} (s : Setting) (p : Patch α) : Prop where
  stateNode : ∀ f ∈ p.stateNode, f.isState = true ∧ f.loc = .node ∧ f.comps = s.components ∧
    f.sA = s.widthA + 2 * s.halo ∧ f.sB = s.widthB + 2 * s.halo ∧ f.sR = s.rElements
  stateREdge : ∀ f ∈ p.stateREdge, f.isState = true ∧ f.loc = .rEdge ∧ f.comps = s.components ∧
    f.sA = s.widthA + 2 * s.halo ∧ f.sB = s.widthB + 2 * s.halo ∧ f.sR = s.rElements + 1
  states : p.stateREdge.length = p.stateNode.length
  tracers : ∀ f ∈ p.tracers, f.isState = false ∧ f.loc = .node ∧ f.comps = s.tracers ∧
    f.sA = s.widthA + 2 * s.halo ∧ f.sB = s.widthB + 2 * s.halo ∧ f.sR = s.rElements
  fields : ∀ f ∈ [p.vorticity, p.divergence, p.temperature, p.richardson],
    f.sA = s.widthA + 2 * s.halo ∧ f.sB = s.widthB + 2 * s.halo ∧ f.sR = s.rElements
  topo : p.topographyDeriv.sA = s.widthA + 2 * s.halo ∧ p.topographyDeriv.sB = s.widthB + 2 * s.halo ∧
    p.topographyDeriv.sR = 2

/-- The instance index is one the patch has (only for the types stored in several instances). -/
def HasInstance {α : Type} (p : Patch α) (t : XType) (ix : Nat) : Prop :=
  match t with
  | .state => ix < p.stateNode.length
  | .tracers => ix < p.tracers.length
  | .other => False
  | _ => True

/-- A connection fits a patch: its edge range lies on the edge, or its corner node has a full block of interior
nodes inside it and halo outside it. -/
def Fits (s : Setting) (c : Conn) : Prop :=
  match c.dir with
  | .right | .left => (s.halo : Int) ≤ c.first ∧ c.first ≤ c.second ∧ c.second ≤ s.halo + s.widthB
  | .top | .bottom => (s.halo : Int) ≤ c.first ∧ c.first ≤ c.second ∧ c.second ≤ s.halo + s.widthA
  | .topRight | .topLeft | .bottomLeft | .bottomRight =>
    (s.halo : Int) ≤ c.first ∧ c.first < s.halo + s.widthA ∧
    (s.halo : Int) ≤ c.second ∧ c.second < s.halo + s.widthB
  | _ => False

/-- How many values are exchanged for each boundary node: every state variable once, on levels or on
interfaces; every tracer; the levels of the named array; the two topography derivatives. -/
def valuesPerNode (s : Setting) (varLoc : Nat → Loc) : XType → Nat
  | .state => s.rElements * (List.range s.components).countP (fun c => varLoc c == .node)
      + (s.rElements + 1) * (List.range s.components).countP (fun c => varLoc c == .rEdge)
  | .tracers => s.rElements * s.tracers
  | .vorticity | .divergence | .temperature | .richardson => s.rElements
  | .topographyDeriv => 2
  | .other => 0

/-- Edge direction. -/
def Dir.Edge (d : Dir) : Prop := d = .right ∨ d = .top ∨ d = .left ∨ d = .bottom

/-- Corner direction. -/
def Dir.Corner (d : Dir) : Prop := d = .topRight ∨ d = .topLeft ∨ d = .bottomLeft ∨ d = .bottomRight

/-- Node `(i, j)` is an interior node of the patch. -/
def Interior (s : Setting) (n : Int × Int) : Prop :=
  (s.halo : Int) ≤ n.1 ∧ n.1 < s.halo + s.widthA ∧ (s.halo : Int) ≤ n.2 ∧ n.2 < s.halo + s.widthB

/-- Node `(i, j)` is a halo node of the patch. -/
def InHalo (s : Setting) (n : Int × Int) : Prop :=
  0 ≤ n.1 ∧ n.1 < 2 * s.halo + s.widthA ∧ 0 ≤ n.2 ∧ n.2 < 2 * s.halo + s.widthB ∧ ¬ Interior s n

/-- Two patches of the same run: same halo width, variables and levels. -/
structure SameRun (s t : Setting) : Prop where
  halo : t.halo = s.halo
  components : t.components = s.components
  tracers : t.tracers = s.tracers
  rElements : t.rElements = s.rElements

/-- A run has at least one state variable and one level. -/
def NonTrivial (s : Setting) : Prop := 1 ≤ s.components ∧ 1 ≤ s.rElements

end Verif.Exchange
