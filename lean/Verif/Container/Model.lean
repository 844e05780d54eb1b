/-
`DataContainer`: one buffer shared out to a list of chunks (src/base/DataContainer.{h,cpp}).

A chunk is an array (`DataChunk`, src/base/DataChunk.h) that the container attaches as a view; only its byte size
and the place it is attached to matter here.  Chunks are not allocated on their own.  The log fields `alloced`
and `freed` record the calls of malloc and free.  Simplification: `AttachTo` is never given a null pointer.
-/
import Mathlib.Logic.Function.Basic

namespace Verif.Container

/-- A buffer: the `n`-th one this container obtained from malloc, or one of the caller's. -/
inductive Buf
  | own (n : Nat)
  | ext (n : Nat)
  deriving DecidableEq, Repr

/-- Container, its chunks and the memory log. -/
structure St where
  /-- `m_vecDataChunks`, DataContainer.h:111 -/
  chunks : List Nat
  /-- `GetByteSize()` of each chunk -/
  size : Nat → Nat
  /-- where each chunk points: buffer and byte offset -/
  at_ : Nat → Option (Buf × Nat)
  /-- `m_fOwnsData`, DataContainer.h:101 -/
  owns : Bool
  /-- `m_pAllocatedMemory`, DataContainer.h:106 -/
  ptr : Option Buf
  /-- sizes of the buffers obtained from malloc, in order -/
  alloced : List Nat
  /-- the buffers released, in order -/
  freed : List Buf
  /-- destructor has run -/
  dead : Bool

inductive Res
  | ok (s : St)
  | exc (s : St)

/-- State after the call, whether or not it threw. -/
def Res.st : Res → St
  | .ok s => s
  | .exc s => s

/-- Constructor, DataContainer.cpp:36-39. -/
def init (size : Nat → Nat) : St := ⟨[], size, fun _ => none, true, none, [], [], false⟩

/-- `PushDataChunk`, DataContainer.h:47-51. -/
def push (c : Nat) (s : St) : Res := .ok { s with chunks := s.chunks ++ [c] }

/-- `GetTotalByteSize`, DataContainer.cpp:55-73; `none` is the exception for a misaligned chunk. -/
def totalByteSize (size : Nat → Nat) : List Nat → Option Nat
  | [] => some 0
  | c :: cs => if size c % 8 ≠ 0 then none else (totalByteSize size cs).map (size c + ·)

/-- `DataChunk::AttachToData` of a chunk, DataArray1D.h:157-164 (likewise 2D-4D): throws when attached. -/
def attachChunk (c : Nat) (b : Buf) (o : Nat) (s : St) : Res :=
  if (s.at_ c).isSome then .exc s else .ok { s with at_ := Function.update s.at_ c (some (b, o)) }

/-- The loop handing out memory, DataContainer.cpp:102-114 and 137-146. -/
def attachAll (b : Buf) : List Nat → Nat → St → Res
  | [], _, s => .ok s
  | c :: cs, o, s =>
    match attachChunk c b o s with
    | .ok s' => attachAll b cs (o + s'.size c) s'
    | .exc s' => .exc s'

/-- `Allocate`, DataContainer.cpp:77-115; `mallocOk` says whether malloc gave memory. -/
def allocate (mallocOk : Bool) (s : St) : Res :=
  if s.ptr ≠ none then .exc s
  else match totalByteSize s.size s.chunks with
    | none => .exc s
    | some n =>
      if mallocOk = false then .exc s
      else attachAll (.own s.alloced.length) s.chunks 0
        { s with ptr := some (.own s.alloced.length), alloced := s.alloced ++ [n] }

/-- `AttachTo`, DataContainer.cpp:125-147. -/
def attachTo (n : Nat) (s : St) : Res :=
  if s.ptr ≠ none then .exc s
  else attachAll (.ext n) s.chunks 0 { s with owns := false, ptr := some (.ext n) }

/-- The chunk loop of `Detach`, DataContainer.cpp:153-158. -/
def detachAll (cs : List Nat) (at_ : Nat → Option (Buf × Nat)) : Nat → Option (Buf × Nat) :=
  cs.foldl (fun a c => Function.update a c none) at_

/-- The log after releasing the memory a container may own, DataContainer.cpp:160-162 and 44-50. -/
def release (s : St) : List Buf :=
  match s.owns, s.ptr with
  | true, some b => s.freed ++ [b]
  | _, _ => s.freed

/-- `Detach` and `Deallocate`, DataContainer.cpp:119-121, 151-166. -/
def detach (s : St) : Res :=
  .ok { s with at_ := detachAll s.chunks s.at_, freed := release s, owns := true, ptr := none }

/-- Destructor, DataContainer.cpp:43-51.  It does not detach the chunks. -/
def destroy (s : St) : St := { s with freed := release s, dead := true }

/-- Calls a program can make on a living container.  `resize` is `SetSize` on a chunk, which throws when the
chunk is attached. -/
inductive Op
  | push (c : Nat)
  | resize (c n : Nat)
  | allocate (mallocOk : Bool)
  | attachTo (n : Nat)
  | detach

/-- `SetSize` of a chunk, DataArray1D.h:136-144 (likewise 2D-4D). -/
def resize (c n : Nat) (s : St) : Res :=
  if (s.at_ c).isSome then .exc s else .ok { s with size := Function.update s.size c n }

def step (op : Op) (s : St) : Res :=
  match op with
  | .push c => push c s
  | .resize c n => resize c n s
  | .allocate m => allocate m s
  | .attachTo n => attachTo n s
  | .detach => detach s

/-- A run of a program that catches exceptions. -/
def run (ops : List Op) (s : St) : St := ops.foldl (fun s op => (step op s).st) s

end Verif.Container
