/-
Model of the array classes `DataArray1D` .. `DataArray4D` (src/base/DataArray1D.h .. DataArray4D.h) over an
explicit heap of byte blocks.

The four classes differ only in the number of dimensions, in the extra reallocation in
`DataArray2D::Assign` and in the number of bytes cleared by `DataArray1D::Zero`; they share one model in which
the dimension sizes form a list (its length is the number of dimensions).

Simplifications: a pointer is a block number with a byte offset; `malloc` never fails and returns a new
block; the `delete[]` applied to memory obtained from `malloc` is taken as a plain release; sizes are
unbounded naturals.  Accessing or releasing memory that is not there is the outcome `ub`.  Block 0.. given to
`AttachToData` by the caller are "external": not obtained from the array's own `malloc`.
-/
import Mathlib.Logic.Function.Basic

namespace Verif.Mem

/-- A block of memory: whether it came from `malloc` in an array class, its length and contents. -/
structure Block where
  malloced : Bool
  len : Nat
  dat : Nat → UInt8

/-- The heap: live blocks, the next unused block number, the (unspecified) initial contents `malloc`
returns. -/
structure Heap where
  blk : Nat → Option Block
  next : Nat
  junk : Nat → Nat → UInt8

/-- Data members of `DataArraynD<T>`: DataArray1D.h:393-419, DataArray2D.h:541-567; `sz` is `sizeof(T)`,
`none` is the null pointer. -/
structure Arr where
  shape : List Nat
  sz : Nat
  owns : Bool
  typ : Int
  loc : Int
  ptr : Option (Nat × Nat)

/-- All arrays of the program (by number) and the heap. -/
structure World where
  heap : Heap
  arr : Nat → Arr

/-- Outcome of a call: normal return, C++ exception (with the state it leaves), undefined behaviour. -/
inductive Res
  | ok (w : World)
  | exc (w : World)
  | ub

/-- Sequential composition: an exception or undefined behaviour ends the call. -/
def Res.bind : Res → (World → Res) → Res
  | .ok w, f => f w
  | .exc w, _ => .exc w
  | .ub, _ => .ub

/-- `GetTotalSize`, DataArray1D.h:187, 2D:218, 3D:229, 4D:246. -/
def total (a : Arr) : Nat := a.shape.prod

/-- Rounding up to whole words, `GetByteSize`, DataArray1D.h:93-102, 2D:113-121, 3D:118-126, 4D:123-132
(`sizeof(size_t)` = 8). -/
def byteSize (a : Arr) : Nat :=
  if (total a * a.sz) % 8 = 0 then total a * a.sz else ((total a * a.sz) / 8 + 1) * 8

/-- Replace array `i`. -/
def setArr (w : World) (i : Nat) (a : Arr) : World := { w with arr := Function.update w.arr i a }

/-- Replace or remove block `b`. -/
def setBlk (w : World) (b : Nat) (B : Option Block) : World :=
  { w with heap := { w.heap with blk := Function.update w.heap.blk b B } }

/-- A block with the `n` bytes from offset `o` on replaced by `f 0, f 1, ...`. -/
def patch (B : Block) (o n : Nat) (f : Nat → UInt8) : Block :=
  { B with dat := fun k => if o ≤ k ∧ k < o + n then f (k - o) else B.dat k }

/-- Store `n` bytes at `(b, o)`: `memset` / `memcpy` / element writes. -/
def store (b o n : Nat) (f : Nat → UInt8) (w : World) : Res :=
  match w.heap.blk b with
  | none => .ub
  | some B =>
    if o + n ≤ B.len then .ok (setBlk w b (some (patch B o n f))) else .ub

/-- `Detach`, DataArray1D.h:164-170, 2D:189-195, 3D:199-205, 4D:215-221.  Releasing anything but the start of
a live `malloc` block is undefined. -/
def detach (i : Nat) (w : World) : Res :=
  let a := w.arr i
  let w1 := setArr w i { a with owns := true, ptr := none }
  match a.owns, a.ptr with
  | true, some (b, o) =>
    match w.heap.blk b with
    | some B => if B.malloced = true ∧ o = 0 then .ok (setBlk w1 b none) else .ub
    | none => .ub
  | _, _ => .ok w1

/-- `m_data = malloc(GetByteSize())`, DataArray1D.h:125, 2D:152, 3D:163, 4D:179. -/
def mallocFor (i : Nat) (w : World) : Res :=
  let a := w.arr i
  let b := w.heap.next
  .ok { arr := Function.update w.arr i { a with ptr := some (b, 0) }
        heap := { w.heap with
          blk := Function.update w.heap.blk b (some ⟨true, byteSize a, w.heap.junk b⟩), next := b + 1 } }

/-- Number of bytes cleared by `Zero`: DataArray1D.h:303 clears `m_sSize * sizeof(T)`, the other classes
`GetByteSize()` (2D:343, 3D:375, 4D:384). -/
def zeroBytes (a : Arr) : Nat := if a.shape.length = 1 then total a * a.sz else byteSize a

/-- `Zero`, DataArray1D.h:295-304, 2D:335-344, 3D:367-376, 4D:376-385. -/
def zero (i : Nat) (w : World) : Res :=
  match (w.arr i).ptr with
  | none => .exc w
  | some (b, o) => store b o (zeroBytes (w.arr i)) (fun _ => 0) w

/-- Default arguments of `Allocate`: a zero stands for the present size. -/
def fillSizes (args cur : List Nat) : List Nat := List.zipWith (fun x y => if x = 0 then y else x) args cur

/-- `Allocate`, DataArray1D.h:107-131, 2D:126-159, 3D:131-169, 4D:137-185. -/
def allocate (i : Nat) (args : List Nat) (w : World) : Res :=
  let a := w.arr i
  if a.owns = false then .exc w
  else
    let s := fillSizes args a.shape
    if 0 ∈ s then .exc w
    else if a.ptr = none ∨ a.shape ≠ s then
      (detach i w).bind fun w1 =>
      (Res.ok (setArr w1 i { w1.arr i with shape := s })).bind fun w2 =>
      (mallocFor i w2).bind fun w3 =>
      zero i w3
    else zero i w

/-- `SetSize`, DataArray1D.h:136-144, 2D:164-174, 3D:174-186, 4D:190-203. -/
def setSize (i : Nat) (s : List Nat) (w : World) : Res :=
  if (w.arr i).ptr ≠ none then .exc w else .ok (setArr w i { w.arr i with shape := s })

/-- `AttachToData`, DataArray1D.h:152-159, 2D:177-184, 3D:187-194, 4D:203-210. -/
def attach (i b o : Nat) (w : World) : Res :=
  if (w.arr i).ptr ≠ none then .exc w
  else .ok (setArr w i { w.arr i with ptr := some (b, o), owns := false })

/-- `Deallocate`, DataArray1D.h:175-181, 2D:200-206, 3D:210-216, 4D:226-232. -/
def deallocate (i : Nat) (w : World) : Res :=
  if (w.arr i).owns = false then .exc w else detach i w

/-- `memcpy(m_data1D, da.m_data1D, GetByteSize())`.  Overlapping but different ranges are undefined; copying
a range onto itself is taken to change nothing. -/
def copyBytes (d s : Nat) (w : World) : Res :=
  match (w.arr d).ptr, (w.arr s).ptr with
  | some (b, o), some (b', o') =>
    match w.heap.blk b' with
    | none => .ub
    | some B' =>
      if o' + byteSize (w.arr d) ≤ B'.len
          ∧ (b ≠ b' ∨ o = o' ∨ o + byteSize (w.arr d) ≤ o' ∨ o' + byteSize (w.arr d) ≤ o) then
        store b o (byteSize (w.arr d)) (fun k => B'.dat (o' + k)) w
      else .ub
  | _, _ => .ub

/-- The tail of `Assign`: consistency checks and copy, DataArray1D.h:268-281, 2D:309-326, 3D:340-358,
4D:346-367. -/
def checkAndCopy (d s : Nat) (w : World) : Res :=
  if (w.arr s).shape ≠ (w.arr d).shape then .exc w
  else if (w.arr s).typ ≠ (w.arr d).typ then .exc w
  else if (w.arr s).loc ≠ (w.arr d).loc then .exc w
  else copyBytes d s w

/-- `m_eDataType = da.m_eDataType; m_eDataLocation = da.m_eDataLocation;` -/
def copyTags (d s : Nat) (w : World) : Res :=
  .ok (setArr w d { w.arr d with typ := (w.arr s).typ, loc := (w.arr s).loc })

/-- `Deallocate(); Allocate(da.m_sSize...)`. -/
def realloc (d s : Nat) (w : World) : Res :=
  (deallocate d w).bind fun w1 => allocate d (w1.arr s).shape w1

/-- "Allocate if necessary", first half: DataArray1D.h:252-256, 2D:290-294, 3D:317-321, 4D:316-325. -/
def assignAlloc (d s : Nat) (w : World) : Res :=
  if (w.arr d).ptr = none then (allocate d (w.arr s).shape w).bind (copyTags d s) else .ok w

/-- Second half, DataArray1D.h:257-265, 2D:295-307, 3D:322-337, 4D:326-343.  Only the 2D class reallocates
unconditionally (2D:304-305). -/
def assignRealloc (d s : Nat) (w : World) : Res :=
  if (w.arr d).ptr ≠ none ∧ (w.arr d).owns = true then
    (if (w.arr d).shape ≠ (w.arr s).shape then realloc d s w else .ok w).bind fun w1 =>
    (if (w1.arr d).shape.length = 2 then realloc d s w1 else .ok w1).bind fun w2 =>
    copyTags d s w2
  else .ok w

/-- `Assign` / `operator=`, DataArray1D.h:236-281, 2D:273-326, 3D:299-358, 4D:297-367, for the destination
array `d` and the source array `s` (possibly the same object). -/
def assign (d s : Nat) (w : World) : Res :=
  if (w.arr s).ptr = none then
    if (w.arr d).ptr = none then
      .ok (setArr w d { w.arr d with shape := (w.arr s).shape, typ := (w.arr s).typ, loc := (w.arr s).loc })
    else .exc w
  else
    (assignAlloc d s w).bind fun w1 =>
    (assignRealloc d s w1).bind fun w2 =>
    checkAndCopy d s w2

/-- The linear element offset computed by `operator()`: `m_data[i]` (1D:364-387), `i * s1 + j` (2D:469, 486),
`i * s1 * s2 + j * s2 + k` (3D:500), `i * s1 * s2 * s3 + j * s2 * s3 + k * s3 + l` (4D:513-514); `none` for a
number of indices none of the classes has. -/
def linear : List Nat → List Nat → Option Nat
  | [_], [i] => some i
  | [_, s1], [i, j] => some (i * s1 + j)
  | [_, s1, s2], [i, j, k] => some (i * s1 * s2 + j * s2 + k)
  | [_, s1, s2, s3], [i, j, k, l] => some (i * s1 * s2 * s3 + j * s2 * s3 + k * s3 + l)
  | _, _ => none

/-- The pointer returned by the slicers that fix all indices but the last: `m_data1D + i * s1` (2D:516, 533),
`m_data1D + i * s1 * s2 + j * s2` (3D:542).  Also what the subscript chain `a[i][j]` converts to
(Subscript.h:141-151), whose last subscript is then ordinary pointer indexing. -/
def slice : List Nat → List Nat → Option Nat
  | [_], [] => some 0
  | [_, s1], [i] => some (i * s1)
  | [_, s1, s2], [i, j] => some (i * s1 * s2 + j * s2)
  | [_, s1, s2, s3], [i, j, k] => some (i * s1 * s2 * s3 + j * s2 * s3 + k * s3)
  | _, _ => none

/-- The optional bounds check under `DEBUG_ARRAYOUTOFBOUNDS` (1D:365, 2D:465, 3D:496, 4D:509): it rejects
only indices *greater than* the size. -/
def debugAccepts (shape idx : List Nat) : Bool := (List.zipWith (fun s i => decide (i ≤ s)) shape idx).all id

/-- Read element `idx` of array `i` (its `sizeof(T)` bytes). -/
def readElem (i : Nat) (idx : List Nat) (w : World) : Option (List UInt8) :=
  match (w.arr i).ptr, linear (w.arr i).shape idx with
  | some (b, o), some k =>
    match w.heap.blk b with
    | some B => if o + (k + 1) * (w.arr i).sz ≤ B.len then
        some ((List.range (w.arr i).sz).map fun t => B.dat (o + k * (w.arr i).sz + t)) else none
    | none => none
  | _, _ => none

/-- Write element `idx` of array `i`. -/
def writeElem (i : Nat) (idx : List Nat) (v : Nat → UInt8) (w : World) : Res :=
  match (w.arr i).ptr, linear (w.arr i).shape idx with
  | some (b, o), some k => store b (o + k * (w.arr i).sz) (w.arr i).sz v w
  | _, _ => .ub

/-- The calls of the array interface. -/
inductive Op
  | allocate (i : Nat) (args : List Nat)
  | setSize (i : Nat) (s : List Nat)
  | attach (i b o : Nat)
  | detach (i : Nat)            -- also the destructor, 1D:86, 2D:106, 3D:111, 4D:116
  | deallocate (i : Nat)
  | zero (i : Nat)
  | assign (d s : Nat)
  | write (i : Nat) (idx : List Nat) (v : Nat → UInt8)

/-- One call. -/
def step : Op → World → Res
  | .allocate i args => allocate i args
  | .setSize i s => setSize i s
  | .attach i b o => attach i b o
  | .detach i => detach i
  | .deallocate i => deallocate i
  | .zero i => zero i
  | .assign d s => assign d s
  | .write i idx v => writeElem i idx v

/-- A sequence of calls; the program may catch an exception and go on with the state it left. -/
def runOps : List Op → World → Res
  | [], w => .ok w
  | op :: ops, w => match step op w with
    | .ok w' => runOps ops w'
    | .exc w' => runOps ops w'
    | .ub => .ub

end Verif.Mem
