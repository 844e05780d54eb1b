/-
Model of halo exchange: `ExchangeBuffer::Reset`, `Pack`, `Unpack` (src/atm/Connectivity.cpp), the choice of
arrays in `GridPatch::PackExchangeBuffer` / `UnpackExchangeBuffer` (src/atm/GridPatch.cpp) and the construction
of a buffer in `Grid::RegisterExchangeBuffer` (src/atm/Grid.cpp).

Simplifications: `int` and `size_t` are unbounded (no overflow); a double is a value of an arbitrary type `α`;
the message header, which occupies the first two doubles of a message, is a separate field, the payload still
starts at index 2.  A DataArray3D is its three extents and a function of the three indices: an access outside
the extents is undefined behaviour (`ub`), although for the second and third index the real code may stay
inside the allocation.  Reads and writes outside a message buffer are `ub`.
-/
import Mathlib.Logic.Function.Basic

namespace Verif.Exchange

/-- `Direction`, src/atm/Direction.h:26-38. -/
inductive Dir
  | right | top | left | bottom | topRight | topLeft | bottomLeft | bottomRight | middle | unreachable
  deriving DecidableEq, Repr

/-- Outcome of a call: normal return, C++ exception, undefined behaviour. -/
inductive Res (σ : Type)
  | ok (s : σ)
  | exc
  | ub

/-- Sequential composition: an exception or undefined behaviour ends the call. -/
def Res.bind {σ τ : Type} : Res σ → (σ → Res τ) → Res τ
  | .ok s, f => f s
  | .exc, _ => .exc
  | .ub, _ => .ub

/-- A `DataArray3D<double>`: extents (alpha, beta, radial) and contents. -/
structure Field (α : Type) where
  sA : Nat
  sB : Nat
  sR : Nat
  val : Int → Int → Nat → α

/-- Whether node `(i, j)` lies inside the array. -/
def Field.inside {α : Type} (f : Field α) (i j : Int) : Prop :=
  0 ≤ i ∧ i < f.sA ∧ 0 ≤ j ∧ j < f.sB

instance {α : Type} (f : Field α) (i j : Int) : Decidable (f.inside i j) := by
  unfold Field.inside; infer_instance

/-- `MessageHeader` without its constant first word, Connectivity.h:75-127. -/
structure Header where
  firstPatch : Int
  secondPatch : Int
  dir : Dir
  deriving DecidableEq, Repr

/-- Data members of `ExchangeBuffer`, Connectivity.h:230-352.  `sendRows` and `recvRows` are what `GetRows()`
returns; `recvLen` is the number of doubles that really belong to the received message (the code gives
`SetSize` a number of bytes, so `recvRows` is larger). -/
structure ExBuf (α : Type) where
  src : Int
  tgt : Int
  dir : Dir
  opp : Dir
  halo : Nat
  comps : Nat
  maxR : Nat
  boundary : Nat
  first : Int
  second : Int
  rev : Bool
  sendHdr : Header
  sendRows : Nat
  send : Nat → α
  recvRows : Nat
  recvLen : Nat
  recv : Nat → α
  ixSend : Nat
  ixRecv : Nat

/-- `sizeof(MessageHeader)` in bytes (four ints), Connectivity.h:122-126. -/
def headerBytes : Nat := 16

/-- `sizeof(double)`. -/
def doubleBytes : Nat := 8

/-- `CalculateByteSize`, Connectivity.h:156-163. -/
def byteSize {α : Type} (e : ExBuf α) : Nat :=
  e.boundary * e.maxR * e.halo * e.comps * doubleBytes

/-- `GetMessageSize`, Connectivity.h:168-170. -/
def messageSize {α : Type} (e : ExBuf α) : Nat := byteSize e + headerBytes

/-- `GetSendMessageHeader`, Connectivity.h:175-183. -/
def sendHeader {α : Type} (e : ExBuf α) : Header := ⟨e.src, e.tgt, e.opp⟩

/-- `GetRecvMessageHeader`, Connectivity.h:188-196. -/
def recvHeader {α : Type} (e : ExBuf α) : Header := ⟨e.tgt, e.src, e.dir⟩

/-- `ExchangeBuffer::Reset`, Connectivity.cpp:28-43. -/
def reset {α : Type} (e : ExBuf α) : Res (ExBuf α) :=
  if e.sendRows * doubleBytes < headerBytes then .exc
  else .ok { e with
    sendHdr := sendHeader e,
    ixRecv := headerBytes / doubleBytes,
    ixSend := headerBytes / doubleBytes }

/-- `for (int i = a; i < b; i++)`: the values taken by the loop variable. -/
def up (a b : Int) : List Int := (List.range (b - a).toNat).map fun (n : Nat) => a + (n : Int)

/-- `for (int i = b-1; i >= a; i--)`: the values taken by the loop variable. -/
def down (a b : Int) : List Int := (List.range (b - a).toNat).map fun (n : Nat) => b - 1 - (n : Int)

/-- Two nested loops: the nodes visited, in order. -/
def nest (outer inner : List Int) (node : Int → Int → Int × Int) : List (Int × Int) :=
  outer.flatMap fun a => inner.map fun b => node a b

/-- Body of every packing loop, e.g. Connectivity.cpp:96-101: copy the column at a node to the send buffer and
advance.  The loop over `k` is written in closed form. -/
def packCol {α : Type} (d : Field α) (e : ExBuf α) (n : Int × Int) : Res (ExBuf α) :=
  if d.sR = 0 ∨ (d.inside n.1 n.2 ∧ e.ixSend + d.sR ≤ e.sendRows) then
    .ok { e with
      send := fun c => if e.ixSend ≤ c ∧ c < e.ixSend + d.sR then d.val n.1 n.2 (c - e.ixSend) else e.send c,
      ixSend := e.ixSend + d.sR }
  else .ub

/-- The loop nest over the given nodes. -/
def packNodes {α : Type} (d : Field α) : List (Int × Int) → ExBuf α → Res (ExBuf α)
  | [], e => .ok e
  | n :: ns, e => (packCol d e n).bind (packNodes d ns)

/-- "Insufficient space in SendBuffer" check, e.g. Connectivity.cpp:84-93: the sum is an `int` compared with a
`size_t`, so a negative sum also fails. -/
def sendRoom {α : Type} (e : ExBuf α) (total : Int) : Prop :=
  0 ≤ (e.ixSend : Int) + total ∧ (e.ixSend : Int) + total ≤ e.sendRows

instance {α : Type} (e : ExBuf α) (t : Int) : Decidable (sendRoom e t) := by
  unfold sendRoom; infer_instance

/-- One direction of `Pack`: space check, then the loops. -/
def packRegion {α : Type} (e : ExBuf α) (d : Field α) (total : Int) (nodes : List (Int × Int)) :
    Res (ExBuf α) :=
  if sendRoom e total then packNodes d nodes e else .exc

/-- "GridData / ExteriorNeighbor inconsistency" check, Connectivity.cpp:54-64: `int` against `size_t`. -/
def beyond (second : Int) (size : Nat) : Prop := second < 0 ∨ (size : Int) < second

instance (s : Int) (n : Nat) : Decidable (beyond s n) := by unfold beyond; infer_instance

/-- Loop along an edge when packing: backwards if the direction is reversed. -/
def along {α : Type} (e : ExBuf α) : List Int :=
  if e.rev then down e.first e.second else up e.first e.second

/-- `ExchangeBuffer::Pack(const DataArray3D<double> &)`, Connectivity.cpp:47-418. -/
def pack3 {α : Type} (e : ExBuf α) (d : Field α) : Res (ExBuf α) :=
  let h : Int := e.halo
  let A : Int := d.sA
  let B : Int := d.sB
  let R : Int := d.sR
  match e.dir with
  | .right =>
    if beyond e.second d.sB then .exc else
    packRegion e d (R * ((A - h) - (A - 2 * h)) * (e.second - e.first))
      (nest (up (A - 2 * h) (A - h)) (along e) fun i j => (i, j))
  | .top =>
    if beyond e.second d.sA then .exc else
    packRegion e d (R * ((B - h) - (B - 2 * h)) * (e.second - e.first))
      (nest (up (B - 2 * h) (B - h)) (along e) fun j i => (i, j))
  | .left =>
    if beyond e.second d.sB then .exc else
    packRegion e d (R * (2 * h - h) * (e.second - e.first))
      (nest (down h (2 * h)) (along e) fun i j => (i, j))
  | .bottom =>
    if beyond e.second d.sA then .exc else
    packRegion e d (R * (2 * h - h) * (e.second - e.first))
      (nest (down h (2 * h)) (along e) fun j i => (i, j))
  | .topRight =>
    let aB := e.first - h + 1
    let aE := e.first + 1
    let bB := e.second - h + 1
    let bE := e.second + 1
    packRegion e d (R * (aE - aB) * (bE - bB))
      (if e.rev then nest (up aB aE) (up bB bE) fun i j => (i, j)
       else nest (up bB bE) (up aB aE) fun j i => (i, j))
  | .topLeft =>
    let aB := e.first
    let aE := e.first + h
    let bB := e.second - h + 1
    let bE := e.second + 1
    packRegion e d (R * (aE - aB) * (bE - bB))
      (if e.rev then nest (down aB aE) (up bB bE) fun i j => (i, j)
       else nest (up bB bE) (down aB aE) fun j i => (i, j))
  | .bottomLeft =>
    let aB := e.first
    let aE := e.first + h
    let bB := e.second
    let bE := e.second + h
    packRegion e d (R * (aE - aB) * (bE - bB))
      (if e.rev then nest (down aB aE) (down bB bE) fun i j => (i, j)
       else nest (down bB bE) (down aB aE) fun j i => (i, j))
  | .bottomRight =>
    let aB := e.first - h + 1
    let aE := e.first + 1
    let bB := e.second
    let bE := e.second + h
    packRegion e d (R * (aE - aB) * (bE - bB))
      (if e.rev then nest (up aB aE) (down bB bE) fun i j => (i, j)
       else nest (down bB bE) (up aB aE) fun j i => (i, j))
  | .middle => .exc
  | .unreachable => .exc

/-- Body of every unpacking loop, e.g. Connectivity.cpp:492-497: copy from the receive buffer to the column at
a node and advance. -/
def unpackCol {α : Type} (s : ExBuf α × Field α) (n : Int × Int) : Res (ExBuf α × Field α) :=
  if s.2.sR = 0 ∨ (s.2.inside n.1 n.2 ∧ s.1.ixRecv + s.2.sR ≤ s.1.recvLen) then
    .ok ({ s.1 with ixRecv := s.1.ixRecv + s.2.sR },
         { s.2 with val := fun i j k =>
             if i = n.1 ∧ j = n.2 ∧ k < s.2.sR then s.1.recv (s.1.ixRecv + k) else s.2.val i j k })
  else .ub

/-- The unpacking loop nest over the given nodes. -/
def unpackNodes {α : Type} : List (Int × Int) → ExBuf α × Field α → Res (ExBuf α × Field α)
  | [], s => .ok s
  | n :: ns, s => (unpackCol s n).bind (unpackNodes ns)

/-- "Insufficient space in RecvBuffer" check, e.g. Connectivity.cpp:482-490. -/
def recvRoom {α : Type} (e : ExBuf α) (total : Int) : Prop :=
  0 ≤ (e.ixRecv : Int) + total ∧ (e.ixRecv : Int) + total ≤ e.recvRows

instance {α : Type} (e : ExBuf α) (t : Int) : Decidable (recvRoom e t) := by
  unfold recvRoom; infer_instance

/-- One direction of `Unpack`: space check, then the loops. -/
def unpackRegion {α : Type} (e : ExBuf α) (d : Field α) (total : Int) (nodes : List (Int × Int)) :
    Res (ExBuf α × Field α) :=
  if recvRoom e total then unpackNodes nodes (e, d) else .exc

/-- `ExchangeBuffer::Unpack(DataArray3D<double> &)`, Connectivity.cpp:461-706. -/
def unpack3 {α : Type} (e : ExBuf α) (d : Field α) : Res (ExBuf α × Field α) :=
  let h : Int := e.halo
  let A : Int := d.sA
  let B : Int := d.sB
  let R : Int := d.sR
  match e.dir with
  | .right =>
    unpackRegion e d (R * (A - (A - h)) * (e.second - e.first))
      (nest (down (A - h) A) (up e.first e.second) fun i j => (i, j))
  | .top =>
    unpackRegion e d (R * (B - (B - h)) * (e.second - e.first))
      (nest (down (B - h) B) (up e.first e.second) fun j i => (i, j))
  | .left =>
    unpackRegion e d (R * (h - 0) * (e.second - e.first))
      (nest (up 0 h) (up e.first e.second) fun i j => (i, j))
  | .bottom =>
    unpackRegion e d (R * (h - 0) * (e.second - e.first))
      (nest (up 0 h) (up e.first e.second) fun j i => (i, j))
  | .topRight =>
    let aB := e.first + 1
    let aE := e.first + h + 1
    let bB := e.second + 1
    let bE := e.second + h + 1
    unpackRegion e d (R * (aE - aB) * (bE - bB))
      (nest (down bB bE) (down aB aE) fun j i => (i, j))
  | .topLeft =>
    let aB := e.first - h
    let aE := e.first
    let bB := e.second + 1
    let bE := e.second + h + 1
    unpackRegion e d (R * (aE - aB) * (bE - bB))
      (nest (down bB bE) (up aB aE) fun j i => (i, j))
  | .bottomLeft =>
    let aB := e.first - h
    let aE := e.first
    let bB := e.second - h
    let bE := e.second
    unpackRegion e d (R * (aE - aB) * (bE - bB))
      (nest (up bB bE) (up aB aE) fun j i => (i, j))
  | .bottomRight =>
    let aB := e.first + 1
    let aE := e.first + h + 1
    let bB := e.second - h
    let bE := e.second
    unpackRegion e d (R * (aE - aB) * (bE - bB))
      (nest (up bB bE) (down aB aE) fun j i => (i, j))
  | .middle => .exc
  | .unreachable => .exc

/-- `DataLocation` (src/base/DataLocation.h:26-36), the two values used by exchanged arrays. -/
inductive Loc
  | node | rEdge
  deriving DecidableEq, Repr

/-- A `DataArray4D<double>` with its data type (only "is state" matters) and location tags. -/
structure Field4 (α : Type) where
  isState : Bool
  loc : Loc
  comps : Nat
  sA : Nat
  sB : Nat
  sR : Nat
  val : Nat → Int → Int → Nat → α

/-- The `DataArray3D` attached to component `c`: Connectivity.cpp:428-433, 444. -/
def Field4.comp {α : Type} (f : Field4 α) (c : Nat) : Field α := ⟨f.sA, f.sB, f.sR, f.val c⟩

/-- Whether component `c` takes part in the exchange, Connectivity.cpp:437-443, 725-730; `varLoc` is
`Grid::GetVarLocation`. -/
def Field4.exchanged {α : Type} (f : Field4 α) (varLoc : Nat → Loc) (c : Nat) : Bool :=
  !f.isState || (varLoc c == f.loc)

/-- Loop of `Pack(const Grid &, const DataArray4D<double> &)`, Connectivity.cpp:437-456, over components
`c, c+1, ..` (`n` of them). -/
def pack4From {α : Type} (varLoc : Nat → Loc) (d : Field4 α) : Nat → Nat → ExBuf α → Res (ExBuf α)
  | 0, _, e => .ok e
  | n + 1, c, e =>
    if d.exchanged varLoc c then (pack3 e (d.comp c)).bind (pack4From varLoc d n (c + 1))
    else pack4From varLoc d n (c + 1) e

/-- `ExchangeBuffer::Pack(const Grid &, const DataArray4D<double> &)`, Connectivity.cpp:422-457. -/
def pack4 {α : Type} (varLoc : Nat → Loc) (e : ExBuf α) (d : Field4 α) : Res (ExBuf α) :=
  pack4From varLoc d d.comps 0 e

/-- Store a 3D array back as component `c` (the 3D array is attached to the 4D data). -/
def Field4.put {α : Type} (f : Field4 α) (c : Nat) (g : Field α) : Field4 α :=
  { f with val := fun c' => if c' = c then g.val else f.val c' }

/-- Loop of `Unpack(const Grid &, DataArray4D<double> &)`, Connectivity.cpp:725-743. -/
def unpack4From {α : Type} (varLoc : Nat → Loc) :
    Nat → Nat → ExBuf α × Field4 α → Res (ExBuf α × Field4 α)
  | 0, _, s => .ok s
  | n + 1, c, s =>
    if s.2.exchanged varLoc c then
      (unpack3 s.1 (s.2.comp c)).bind fun t => unpack4From varLoc n (c + 1) (t.1, s.2.put c t.2)
    else unpack4From varLoc n (c + 1) s

/-- `ExchangeBuffer::Unpack(const Grid &, DataArray4D<double> &)`, Connectivity.cpp:710-744. -/
def unpack4 {α : Type} (varLoc : Nat → Loc) (e : ExBuf α) (d : Field4 α) : Res (ExBuf α × Field4 α) :=
  unpack4From varLoc d.comps 0 (e, d)

/-- The data types `PackExchangeBuffer` knows; `other` stands for all remaining ones. -/
inductive XType
  | state | tracers | vorticity | divergence | temperature | richardson | topographyDeriv | other
  deriving DecidableEq, Repr

/-- The exchanged arrays of a `GridPatch` (src/atm/GridPatch.h). -/
structure Patch (α : Type) where
  index : Int
  stateNode : List (Field4 α)
  stateREdge : List (Field4 α)
  tracers : List (Field4 α)
  vorticity : Field α
  divergence : Field α
  temperature : Field α
  richardson : Field α
  topographyDeriv : Field α

/-- `GridPatch::PackExchangeBuffer`, GridPatch.cpp:1292-1343.  The range check lets `ix = size` through; the
access to the vector is then undefined. -/
def packPatch {α : Type} (varLoc : Nat → Loc) (p : Patch α) (t : XType) (ix : Int) (e : ExBuf α) :
    Res (ExBuf α) :=
  if e.src ≠ p.index then .exc else
  match t with
  | .state =>
    if ix < 0 ∨ ix > p.stateNode.length then .exc else
    match p.stateNode[ix.toNat]?, p.stateREdge[ix.toNat]? with
    | some n, some r => (pack4 varLoc e n).bind fun e => pack4 varLoc e r
    | _, _ => .ub
  | .tracers =>
    if ix < 0 ∨ ix > p.tracers.length then .exc else
    match p.tracers[ix.toNat]? with
    | some d => pack4 varLoc e d
    | none => .ub
  | .vorticity => pack3 e p.vorticity
  | .divergence => pack3 e p.divergence
  | .temperature => pack3 e p.temperature
  | .richardson => pack3 e p.richardson
  | .topographyDeriv => pack3 e p.topographyDeriv
  | .other => .exc

/-- `GridPatch::UnpackExchangeBuffer`, GridPatch.cpp:1347-1398. -/
def unpackPatch {α : Type} (varLoc : Nat → Loc) (p : Patch α) (t : XType) (ix : Int) (e : ExBuf α) :
    Res (ExBuf α × Patch α) :=
  if e.src ≠ p.index then .exc else
  match t with
  | .state =>
    if ix < 0 ∨ ix > p.stateNode.length then .exc else
    match p.stateNode[ix.toNat]?, p.stateREdge[ix.toNat]? with
    | some n, some r =>
      (unpack4 varLoc e n).bind fun s => (unpack4 varLoc s.1 r).bind fun u =>
        .ok (u.1, { p with stateNode := p.stateNode.set ix.toNat s.2,
                           stateREdge := p.stateREdge.set ix.toNat u.2 })
    | _, _ => .ub
  | .tracers =>
    if ix < 0 ∨ ix > p.tracers.length then .exc else
    match p.tracers[ix.toNat]? with
    | some d => (unpack4 varLoc e d).bind fun s => .ok (s.1, { p with tracers := p.tracers.set ix.toNat s.2 })
    | none => .ub
  | .vorticity => (unpack3 e p.vorticity).bind fun s => .ok (s.1, { p with vorticity := s.2 })
  | .divergence => (unpack3 e p.divergence).bind fun s => .ok (s.1, { p with divergence := s.2 })
  | .temperature => (unpack3 e p.temperature).bind fun s => .ok (s.1, { p with temperature := s.2 })
  | .richardson => (unpack3 e p.richardson).bind fun s => .ok (s.1, { p with richardson := s.2 })
  | .topographyDeriv => (unpack3 e p.topographyDeriv).bind fun s => .ok (s.1, { p with topographyDeriv := s.2 })
  | .other => .exc

/-- What `RegisterExchangeBuffer` takes from the grid, the model and the equation set: halo width, state
components, tracers, levels; and from the patch box of the source patch: interior widths. -/
structure Setting where
  halo : Nat
  components : Nat
  tracers : Nat
  rElements : Nat
  widthA : Nat
  widthB : Nat

/-- `GetAInteriorBegin` (= `GetBInteriorBegin`), PatchBox.h:187-189, 201-203. -/
def Setting.begin (s : Setting) : Int := s.halo

/-- `GetAInteriorEnd`, PatchBox.h:194-196. -/
def Setting.endA (s : Setting) : Int := s.halo + s.widthA

/-- `GetBInteriorEnd`, PatchBox.h:208-210. -/
def Setting.endB (s : Setting) : Int := s.halo + s.widthB

/-- Whether the direction is one of the four edges. -/
def Dir.isEdge : Dir → Bool
  | .right | .top | .left | .bottom => true
  | _ => false

/-- The "Insufficient interior elements to build diagonal connection" checks, Grid.cpp:1219-1249.  `n` is
`m_sBoundarySize`, there the halo width. -/
def cornerTooClose (s : Setting) (dir : Dir) (first second : Int) (n : Int) : Prop :=
  match dir with
  | .topRight => first < s.begin + n - 1 ∨ second < s.begin + n - 1
  | .topLeft => first > s.endA - n ∨ second < s.begin + n - 1
  | .bottomLeft => first > s.endA - n ∨ second > s.endB - n
  | .bottomRight => first < s.begin + n - 1 ∨ second > s.endB - n
  | _ => False

instance (s : Setting) (d : Dir) (f g n : Int) : Decidable (cornerTooClose s d f g n) := by
  unfold cornerTooClose; split <;> infer_instance

/-- `Grid::RegisterExchangeBuffer` with explicit range, Grid.cpp:1121-1254, from the point where the patches
are known; `opp` and `rev` are the results of `GetOpposingDirection`.  A negative `ixSecond - ixFirst`, which
would become a huge `size_t`, is undefined here.  The send buffer is attached later (by `Allocate`). -/
def register {α : Type} (s : Setting) (junk : Nat → α) (src tgt : Int) (dir opp : Dir) (rev : Bool)
    (first second : Int) : Res (ExBuf α) :=
  if dir.isEdge ∧ second < first then .ub else
  let boundary := if dir.isEdge then (second - first).toNat else s.halo
  if cornerTooClose s dir first second boundary then .exc
  else .ok {
    src := src, tgt := tgt, dir := dir, opp := opp,
    halo := s.halo,
    comps := if s.components > s.tracers then s.components else s.tracers,
    maxR := s.rElements + 1,
    boundary := boundary,
    first := first, second := second, rev := rev,
    sendHdr := ⟨-1, -1, .middle⟩,
    sendRows := 0, send := junk, recvRows := 0, recvLen := 0, recv := junk, ixSend := 0, ixRecv := 0 }

/-- `Grid::RegisterExchangeBuffer` without range, Grid.cpp:1066-1117: the whole edge, or the corner. -/
def registerWhole {α : Type} (s : Setting) (junk : Nat → α) (src tgt : Int) (dir opp : Dir) (rev : Bool) :
    Res (ExBuf α) :=
  match dir with
  | .right | .left => register s junk src tgt dir opp rev s.begin s.endB
  | .top | .bottom => register s junk src tgt dir opp rev s.begin s.endA
  | .topRight => register s junk src tgt dir opp rev (s.endA - 1) (s.endB - 1)
  | .topLeft => register s junk src tgt dir opp rev s.begin (s.endB - 1)
  | .bottomLeft => register s junk src tgt dir opp rev s.begin s.begin
  | .bottomRight => register s junk src tgt dir opp rev (s.endA - 1) s.begin
  | .middle => .exc
  | .unreachable => .exc

/-- The part of `Allocate` that sizes and attaches the send buffer, Connectivity.cpp:904-907, and the part of
`AttachRecvBuffers` that does so for the receive buffer, Connectivity.cpp:1029-1032 (whose `SetSize` is given
a number of bytes). -/
def attach {α : Type} (e : ExBuf α) : ExBuf α :=
  { e with sendRows := messageSize e / doubleBytes, recvRows := messageSize e,
           recvLen := messageSize e / doubleBytes }

/-- The message of one sender arrives at the receiver: the payload of the send buffer becomes the contents of
the receive buffer (`MPI_Isend` / `MPI_Irecv`, Connectivity.cpp:938-946, 970-978; delivery is assumed). -/
def deliver {α : Type} (e r : ExBuf α) : ExBuf α := { r with recv := e.send }

/-- `Grid::Exchange` (Grid.cpp:627-685) seen from one pair of connected patches: both connections are
registered and attached, both buffers reset, the sender packs, the message arrives, the receiver unpacks.
Returns the final sender buffer, receiver buffer and receiver patch. -/
def exchangePair {α : Type} (varLoc : Nat → Loc) (junkS junkT : Nat → α)
    (sS : Setting) (pS : Patch α) (dirS oppS : Dir) (revS : Bool) (firstS secondS : Int)
    (sT : Setting) (pT : Patch α) (dirT oppT : Dir) (revT : Bool) (firstT secondT : Int)
    (t : XType) (ix : Int) : Res (ExBuf α × ExBuf α × Patch α) :=
  (register sS junkS pS.index pT.index dirS oppS revS firstS secondS).bind fun bS =>
  (register sT junkT pT.index pS.index dirT oppT revT firstT secondT).bind fun bT =>
  (reset (attach bS)).bind fun eS =>
  (reset (attach bT)).bind fun eT =>
  (packPatch varLoc pS t ix eS).bind fun eS =>
  (unpackPatch varLoc pT t ix (deliver eS eT)).bind fun r => .ok (eS, r.1, r.2)

end Verif.Exchange
