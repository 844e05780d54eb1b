/-
Model of restart files: `OutputManagerComposite::Output` and `Input` (src/atm/OutputManagerComposite.cpp), of the
way a model is set up from one (`Model::SetGridFromRestartFile`, `Model::SetTestCase`, src/atm/Model.cpp, and
`_TempestSetupCubedSphereModel`, `_TempestSetupCartesianModel`, src/atm/TempestInitialize.h).

Simplifications: the world of processes is one value, every process runs on the same little-endian machine with
32-bit `int` and 64-bit `size_t`; a data container is the list of its bytes (its layout is `Verif.Container`, C13);
how many patches a set of grid parameters allows, how many are set, and how large the containers of a patch are, is
a given function of the bytes of the parameters and of the patch table (`Layout`); file offsets do not overflow;
opening the file succeeds; a message sent is received once, in any order whatever; the disk is never full.
-/
import Verif.Time.Model
import Verif.Patch.Model

namespace Verif.Restart

open Verif.TimeObj

abbrev Bytes := List UInt8

/-- Outcome of a call: a value, an exception (on some process), undefined behaviour, or waiting for ever. -/
inductive Res (α : Type)
  | ok (a : α)
  | exc
  | ub
  | hang
  deriving DecidableEq, Repr

/-! ### Integers and times as bytes -/

/-- The four bytes of an `int`. -/
def leBytes (i : Int) : Bytes :=
  [UInt8.ofNat (i % 256).toNat, UInt8.ofNat (i / 256 % 256).toNat, UInt8.ofNat (i / 65536 % 256).toNat,
   UInt8.ofNat (i / 16777216 % 256).toNat]

/-- `*((int*)(&(buffer[0])))`, OutputManagerComposite.cpp:383: the `int` at the beginning of a buffer, in two's
complement. -/
def leInt (b : Bytes) : Int :=
  let g := fun k => (b[k]?.getD 0).toNat
  let u : Nat := g 0 + 256 * g 1 + 65536 * g 2 + 16777216 * g 3
  if g 3 < 128 then (u : Int) else (u : Int) - 4294967296

/-- Conversion of a `size_t` to `int`, OutputManagerComposite.cpp:145-151: the low 32 bits. -/
def asInt (n : Nat) : Int :=
  if n % 4294967296 < 2147483648 then (n % 4294967296 : Nat) else (n % 4294967296 : Nat) - 4294967296

/-- Value of the enumeration `CalendarType`, TimeObj.h:37-41. -/
def calCode : Calendar → Int
  | .none => 0
  | .noLeap => 1
  | .standard => 2

/-- Value of the enumeration `TimeType`, TimeObj.h:46-49. -/
def typCode : TimeType → Int
  | .fixed => 0
  | .delta => 1

/-- The bytes of a `Time`: its seven members in the order of their declaration, TimeObj.h:415-449, as written by
OutputManagerComposite.cpp:219. -/
def timeBytes (t : Time) : Bytes :=
  leBytes t.year ++ leBytes t.month ++ leBytes t.day ++ leBytes t.second ++ leBytes t.usec ++
    leBytes (calCode t.cal) ++ leBytes (typCode t.typ)

/-- `sizeof(Time)`. -/
def timeSize : Nat := 28

/-- The calendar of a code; other values are not calendars. -/
def calOf (i : Int) : Option Calendar :=
  if i = 0 then some .none else if i = 1 then some .noLeap else if i = 2 then some .standard else none

/-- The type of a code. -/
def typOf (i : Int) : Option TimeType :=
  if i = 0 then some .fixed else if i = 1 then some .delta else none

/-- The `Time` with these members, the last two as codes; `none`: not codes. -/
def timeOfInts (year month day second usec cal typ : Int) : Option Time :=
  match calOf cal, typOf typ with
  | some c, some t => some ⟨year, month, day, second, usec, c, t⟩
  | _, _ => none

/-- The `Time` whose memory holds these bytes, OutputManagerComposite.cpp:464; `none`: not the bytes of a time. -/
def timeOf (b : Bytes) : Option Time :=
  timeOfInts (leInt b) (leInt (b.drop 4)) (leInt (b.drop 8)) (leInt (b.drop 12)) (leInt (b.drop 16))
    (leInt (b.drop 20)) (leInt (b.drop 24))

/-- `m_iCheck`, OutputManagerComposite.cpp:52. -/
def check : Int := 171456

/-! ### Files -/

/-- `seekp(pos); write(d)`: a gap before `pos` reads as zeros. -/
def writeAt (f : Bytes) (pos : Nat) (d : Bytes) : Bytes :=
  f.take pos ++ List.replicate (pos - f.length) 0 ++ d ++ f.drop (pos + d.length)

/-- An input stream: the file, the position and whether no read has failed. -/
structure Stream where
  file : Bytes
  pos : Nat
  good : Bool
  deriving DecidableEq, Repr

/-- `read(p, n)` where `p` points to `old`: bytes beyond the end of the file are not read and the stream fails; a
stream that has failed reads nothing. -/
def Stream.read (s : Stream) (n : Nat) (old : Bytes) : Bytes × Stream :=
  if s.good then
    let got := (s.file.drop s.pos).take n
    (got ++ old.drop got.length, { s with pos := s.pos + got.length, good := decide (n ≤ got.length) })
  else (old, s)

/-- `seekg(pos)`: does nothing on a stream that has failed. -/
def Stream.seek (s : Stream) (pos : Nat) : Stream := if s.good then { s with pos := pos } else s

/-! ### What a process holds -/

/-- How large things are, given the equation set: the parameters of the grid (Grid.cpp:52-80), the table of patches
(119-158, as a function of the parameters), the two containers of a patch (GridPatch.cpp:80-400); and the numbers
`m_nMaxPatchCount` (as a function of the parameters) and `m_nInitializedPatchBoxes` (of the table). -/
structure Layout where
  paramSize : Nat
  tableSize : Bytes → Nat
  rows : Bytes → Nat
  count : Bytes → Nat
  geoSize : Bytes → Bytes → Nat → Nat
  actSize : Bytes → Bytes → Nat → Nat

/-- Everything a run holds that is written: current time, grid parameters, table of patches, and the containers of
every patch. -/
structure World where
  time : Time
  params : Bytes
  table : Bytes
  geo : Nat → Bytes
  act : Nat → Bytes

/-! ### Writing -/

/-- `ExchangeDataType_Geometric` and `ExchangeDataType_ActiveState`, OutputManagerComposite.cpp:126-128: the bytes
of the container with this tag. -/
def World.container (w : World) (ix : Nat) (tag : Nat) : Bytes := if tag = 0 then w.geo ix else w.act ix

/-- Filling the table of sizes on the process with these active patches, OutputManagerComposite.cpp:131-153: an index
above the number of patches is refused, one equal to it is written past the end of the table. -/
def fillSizes (count : Nat) (size : Nat → Nat → Nat) : List Nat → (Nat → Nat → Int) → Res (Nat → Nat → Int)
  | [], t => .ok t
  | ix :: rest, t =>
    if count < ix then .exc
    else if ix = count then .ub
    else fillSizes count size rest (fun i c => if i = ix ∧ c < 2 then asInt (size ix c) else t i c)

/-- `MPI_Reduce` with `MPI_MAX`, OutputManagerComposite.cpp:156-178: the largest entry of all tables. -/
def maxTable : List (Nat → Nat → Int) → Nat → Nat → Int
  | [], _, _ => 0
  | [t], i, c => t i c
  | t :: u :: ts, i, c => max (t i c) (maxTable (u :: ts) i c)

/-- Tables of all processes, each starting with zeros (the array is cleared by `Allocate`). -/
def gather (count : Nat) (size : Nat → Nat → Nat) (rows procs : Nat) : Nat → Res (List (Nat → Nat → Int))
  | 0 => .ok []
  | n + 1 =>
    match gather count size rows procs n with
    | .ok ts =>
      match fillSizes count size (Patch.distribute rows procs n).active (fun _ _ => 0) with
      | .ok t => .ok (t :: ts)
      | .exc => .exc
      | .ub => .ub
      | .hang => .hang
    | r => r

/-- `m_vecGridPatchByteLoc[i][c]`, OutputManagerComposite.cpp:201-211 and 522-531. -/
def loc (size : Nat → Nat → Int) : Nat → Nat → Int
  | 0, c => if c = 0 then 0 else size 0 0
  | i + 1, c =>
    let first := loc size i 1 + size i 1
    if c = 0 then first else first + size (i + 1) 0

/-- A message to the root: its tag and its bytes. -/
structure Msg where
  tag : Nat
  data : Bytes
  deriving DecidableEq, Repr

/-- What a process other than the root sends, OutputManagerComposite.cpp:243-292: two messages for each of its
patches; a process without patches throws. -/
def sends (w : World) (active : List Nat) : Res (List Msg) :=
  if active = [] then .exc
  else .ok (active.flatMap fun ix => [⟨0, w.container ix 0⟩, ⟨1, w.container ix 1⟩])

/-- The messages of processes `1 … n`. -/
def allSends (w : World) (rows procs : Nat) : Nat → Res (List Msg)
  | 0 => .ok []
  | n + 1 =>
    match allSends w rows procs n, sends w (Patch.distribute rows procs (n + 1)).active with
    | .ok a, .ok b => .ok (a ++ b)
    | .ok _, r => r
    | r, _ => r

/-- Offset of container `c` of patch `ix` in the file. -/
def offset (size : Nat → Nat → Int) (ref : Nat) (ix c : Nat) : Int := ref + loc size ix c

/-- `seekp(posRefFile + loc); write(p, size)`, OutputManagerComposite.cpp:348-361 and 402-406, from memory that holds
`mem`: a negative position or length, or a length beyond the memory, is undefined. -/
def put (size : Nat → Nat → Int) (ref : Nat) (f : Bytes) (ix c : Nat) (mem : Bytes) : Res Bytes :=
  if offset size ref ix c < 0 ∨ size ix c < 0 ∨ (mem.length : Int) < size ix c then .ub
  else .ok (writeAt f (offset size ref ix c).toNat (mem.take (size ix c).toNat))

/-- The root writes its own patches, OutputManagerComposite.cpp:326-363. -/
def putOwn (w : World) (size : Nat → Nat → Int) (ref : Nat) : List Nat → Bytes → Res Bytes
  | [], f => .ok f
  | ix :: rest, f =>
    match put size ref f ix 0 (w.container ix 0) with
    | .ok f =>
      match put size ref f ix 1 (w.container ix 1) with
      | .ok f => putOwn w size ref rest f
      | r => r
    | r => r

/-- The receive buffer after a message: bytes beyond the message stay, OutputManagerComposite.cpp:370-381; a message
longer than the buffer is an error. -/
def receive (buf : Bytes) (m : Msg) : Option Bytes :=
  if buf.length < m.data.length then none else some (m.data ++ buf.drop m.data.length)

/-- One message is written, OutputManagerComposite.cpp:383-406, given the `int` at the beginning of the buffer: the
index of the patch. -/
def putOne (size : Nat → Nat → Int) (count ref : Nat) (tag : Nat) (ix : Int) (buf f : Bytes) : Res Bytes :=
  if 2 ≤ tag then .exc
  else if (count : Int) < ix then .exc
  else if ix < 0 ∨ ix = count then .ub
  else put size ref f ix.toNat tag buf

/-- `n` messages are received and written, OutputManagerComposite.cpp:366-407. -/
def putReceived (size : Nat → Nat → Int) (count ref : Nat) : Nat → List Msg → Bytes → Bytes → Res Bytes
  | 0, _, _, f => .ok f
  | _ + 1, [], _, _ => .hang
  | n + 1, m :: rest, buf, f =>
    match receive buf m with
    | none => .exc
    | some buf =>
      match putOne size count ref m.tag (leInt buf) buf f with
      | .ok f => putReceived size count ref n rest buf f
      | r => r

/-- `sMaxRecvBufferByteSize`, OutputManagerComposite.cpp:184-198: the largest size, at least zero.  (The buffer holds
that many `double`s; the number of bytes received at most is that many.) -/
def bufferSize (size : Nat → Nat → Int) : Nat → Int
  | 0 => 0
  | n + 1 => max (bufferSize size n) (max (size n 0) (size n 1))

/-- What is written before the patches, OutputManagerComposite.cpp:213-238. -/
def header (w : World) : Bytes := leBytes check ++ timeBytes w.time ++ w.params ++ w.table

/-- `OutputManagerComposite::Output`, OutputManagerComposite.cpp:108-418, on `procs` processes: the file, given the
order in which the messages arrive.  `ready` says whether the file is open and `already` how many outputs it
holds.  A table of no patches cannot be allocated (DataArray2D.h, `Allocate` with size zero). -/
def output (L : Layout) (w : World) (procs : Nat) (ready : Bool) (already : Nat) (arrive : List Msg → List Msg) :
    Res Bytes :=
  if ready = false then .exc
  else if already ≠ 0 then .exc
  else
    let rows := L.rows w.params
    let count := L.count w.table
    if count = 0 then .exc
    else match gather count (fun ix c => (w.container ix c).length) rows procs procs with
    | .ok ts =>
      let size := maxTable ts
      match allSends w rows procs (procs - 1) with
      | .ok msgs =>
        let own := (Patch.distribute rows procs 0).active
        let ref := (header w).length
        match putOwn w size ref own (header w) with
        | .ok f => putReceived size count ref (2 * (count - own.length)) (arrive msgs)
            (List.replicate (bufferSize size count).toNat 0) f
        | r => r
      | .exc => .exc
      | .ub => .ub
      | .hang => .hang
    | .exc => .exc
    | .ub => .ub
    | .hang => .hang

/-! ### Reading -/

/-- A container of a patch just created (GridPatch.cpp:330, 396, 482-485): zeros, with the index of the patch in the
first eight bytes. -/
def fresh (ix size : Nat) : Bytes := (leBytes ix ++ List.replicate (size - 4) 0).take size

/-- What a process holds after `Input`: time, parameters, table, and its patches in order with their containers. -/
structure Loaded where
  time : Time
  params : Bytes
  table : Bytes
  patches : List (Nat × Bytes × Bytes)
  deriving DecidableEq, Repr

/-- The loop over the active patches, OutputManagerComposite.cpp:540-572. -/
def loadPatches (size : Nat → Nat → Int) (ref : Nat) (g a : Nat → Nat) : List Nat → Stream →
    List (Nat × Bytes × Bytes)
  | [], _ => []
  | ix :: rest, s =>
    let s := s.seek (offset size ref ix 0).toNat
    let (geo, s) := s.read (size ix 0).toNat (fresh ix (g ix))
    let s := s.seek (offset size ref ix 1).toNat
    let (act, s) := s.read (size ix 1).toNat (fresh ix (a ix))
    (ix, geo, act) :: loadPatches size ref g a rest s

/-- `iCheckInput != m_iCheck`, OutputManagerComposite.cpp:456. -/
def isForeign (c : Int) : Bool := decide (c ≠ check)

/-- `OutputManagerComposite::Input` after the check, OutputManagerComposite.cpp:461-583.  `old` are the parameters of
the empty grid.  `InitializeDataLocal` sets up a table of zeros, which is then read.  A time that is not one is
undefined behaviour. -/
def inputRest (L : Layout) (procs rank : Nat) (old : Bytes) (s : Stream) : Res Loaded :=
  let (tb, s) := s.read timeSize (timeBytes zeroTime)
  let (params, s) := s.read L.paramSize old
  let (table, s) := s.read (L.tableSize params) (List.replicate (L.tableSize params) 0)
  let rows := L.rows params
  let count := L.count table
  let g := L.geoSize params table
  let a := L.actSize params table
  if count = 0 then .exc
  else match gather count (fun ix c => if c = 0 then g ix else a ix) rows procs procs with
  | .ok ts =>
    if s.good = false then .exc
    else match timeOf tb with
      | none => .ub
      | some t => .ok ⟨t, params, table,
          loadPatches (maxTable ts) s.pos g a (Patch.distribute rows procs rank).active s⟩
  | .exc => .exc
  | .ub => .ub
  | .hang => .hang

/-- `OutputManagerComposite::Input`, OutputManagerComposite.cpp:424-583, on process `rank` of `procs`, for a file that
could be opened.  `junk` is the value of the uninitialised `iCheckInput`. -/
def input (L : Layout) (procs rank : Nat) (junk old : Bytes) (file : Bytes) : Res Loaded :=
  let (c, s) := (Stream.mk file 0 true).read 4 junk
  if isForeign (leInt c) then .exc else inputRest L procs rank old s

/-! ### Setting up a model -/

/-- The choices of `_TempestSetupCubedSphereModel`, TempestInitialize.h:477-588, and
`_TempestSetupCartesianModel`, 592-705, that do not live in the containers: the vertical stretching
(`none`: uniform, GridGLL.cpp:407, 483) and whether the grid is a vertical slice (GridGLL.h:240, set only by
`SetParameters`, GridCartesianGLL.cpp:93). -/
structure Setup (S : Type) where
  stretch : Option S
  slice : Bool
  deriving DecidableEq, Repr

/-- TempestInitialize.h:520-580 and 638-697: on a restart neither is set. -/
def setupGrid {S : Type} (restart : Bool) (stretch : Option S) (slice : Bool) : Setup S :=
  if restart then ⟨none, false⟩ else ⟨stretch, slice⟩

/-- `Model::SetTestCase`, Model.cpp:224-258: the physical constants afterwards, given those of the newly constructed
model and what the test case makes of them. -/
def setTestCase {P : Type} (eval : P → P) (restart perturb : Bool) (phys : P) : P :=
  let phys := if restart then phys else eval phys
  if perturb ∧ restart then eval phys else phys

end Verif.Restart
