/-
Model of `ExchangeBufferRegistry` (src/atm/Connectivity.cpp:745-1123): allocation of the per-processor message
buffers, attachment of receive regions, and waiting for messages.

Simplifications: `int` and `size_t` unbounded; a registered exchange buffer is its target processor, message
size in bytes, and the two headers it sends and expects; the received bytes are seen through the headers found
at byte positions.  MPI is a reliable network: the environment decides when each message becomes visible to
`MPI_Test`.
-/
import Verif.Exchange.Model

namespace Verif.Registry

open Verif.Exchange (Header Dir)

/-- Outcome of a call. -/
inductive Res (σ : Type)
  | ok (s : σ)
  | exc
  | ub

/-- A registered `ExchangeBuffer`: the members the registry uses (Connectivity.h:75-352). -/
structure Entry where
  proc : Int
  size : Nat
  sendHdr : Header
  recvHdr : Header

/-- Everything `Allocate` computes (Connectivity.h:417-489): processors, buffer size per processor, registry
indices per processor, and for every entry the processor number and byte offset of its send region. -/
structure Alloc where
  procs : List Int
  sizes : List Nat
  byProc : List (List Nat)
  place : List (Nat × Nat)

/-- `mapProcessorToBufferSize[p] += n` on a map sorted by key, Connectivity.cpp:817-830. -/
def addSize (p : Int) (n : Nat) : List (Int × Nat) → List (Int × Nat)
  | [] => [(p, n)]
  | (q, m) :: l =>
    if p < q then (p, n) :: (q, m) :: l
    else if p = q then (q, m + n) :: l
    else (q, m) :: addSize p n l

/-- First loop of `Allocate`, Connectivity.cpp:808-832: sum of message sizes per target processor. -/
def sizeMap : List Entry → List (Int × Nat) → Option (List (Int × Nat))
  | [], M => some M
  | e :: es, M => if e.proc = -1 then none else sizeMap es (addSize e.proc e.size M)

/-- `for (; p < m_vecProcessors.size(); p++) if (... == m_vecProcessors[p]) break;`,
Connectivity.cpp:869-885, 897-903: position of a processor. -/
def findProc (q : Int) : List Int → Nat → Option Nat
  | [], _ => none
  | p :: ps, n => if q = p then some n else findProc q ps (n + 1)

/-- Second loop of `Allocate`, Connectivity.cpp:864-884: append registry index `m` to the list of its
processor. -/
def lookupTable (procs : List Int) : List Entry → Nat → List (List Nat) → Option (List (List Nat))
  | [], _, T => some T
  | e :: es, m, T =>
    match findProc e.proc procs 0 with
    | none => none
    | some p => lookupTable procs es (m + 1) (T.modify p (· ++ [m]))

/-- Third loop of `Allocate`, Connectivity.cpp:886-914: send regions one after the other, per processor; `pos` is
`vecSendBufferPosition`. -/
def placeAll (procs : List Int) : List Entry → List Nat → Option (List (Nat × Nat))
  | [], _ => some []
  | e :: es, pos =>
    if e.size % 8 ≠ 0 then none else
    match findProc e.proc procs 0 with
    | none => none
    | some p =>
      match pos[p]?, placeAll procs es (pos.modify p (· + e.size)) with
      | some o, some l => some ((p, o) :: l)
      | _, _ => none

/-- `ExchangeBufferRegistry::Allocate`, Connectivity.cpp:797-924, on a registry not yet allocated. -/
def allocate (es : List Entry) : Res Alloc :=
  match sizeMap es [] with
  | none => .exc
  | some M =>
    match lookupTable (M.map Prod.fst) es 0 (List.replicate M.length []),
      placeAll (M.map Prod.fst) es (List.replicate M.length 0) with
    | some T, some l => .ok ⟨M.map Prod.fst, M.map Prod.snd, T, l⟩
    | _, _ => .exc

/-- The search loop of `AttachRecvBuffers`, Connectivity.cpp:1018-1041: first of the processor's exchange
buffers expecting the given header. -/
def findHeader (h : Header) : List (Nat × Entry) → Option (Nat × Entry)
  | [] => none
  | (m, e) :: l => if e.recvHdr = h then some (m, e) else findHeader h l

/-- The outer loop of `AttachRecvBuffers`, Connectivity.cpp:1014-1053.  `at_ pos` is the header found at byte
`pos` of the received message (`none`: bytes that are no header); `got` lists the registry indices attached so
far with their offsets.  Attaching a buffer twice throws (DataArray1D.h:139); reading a header at the end of
the message would be out of bounds but the loop stops there.  Every message has at least the header, so the
position grows; with a zero size the loop could not end, which is the outcome `ub`. -/
def attachFrom (bufs : List (Nat × Entry)) (total : Nat) (at_ : Nat → Option Header) (pos : Nat)
    (got : List (Nat × Nat)) : Res (List (Nat × Nat)) :=
  match at_ pos with
  | none => .exc
  | some h =>
    match findHeader h bufs with
    | none => .exc
    | some (m, e) =>
      if got.any (fun x => x.1 == m) then .exc
      else if e.size = 0 then .ub
      else if total < pos + e.size then .exc
      else if pos + e.size = total then
        (if (got ++ [(m, pos)]).length = bufs.length then .ok (got ++ [(m, pos)]) else .exc)
      else attachFrom bufs total at_ (pos + e.size) (got ++ [(m, pos)])
  termination_by total - pos
  decreasing_by omega

/-- `ExchangeBufferRegistry::AttachRecvBuffers(p)`, Connectivity.cpp:997-1057. -/
def attach (es : List Entry) (A : Alloc) (p : Nat) (at_ : Nat → Option Header) : Res (List (Nat × Nat)) :=
  match A.byProc[p]?, A.sizes[p]? with
  | some ms, some total => attachFrom (ms.filterMap fun m => (es[m]?).map fun e => (m, e)) total at_ 0 []
  | _, _ => .exc

/-! ### Waiting -/

/-- `m_vecMessageReceived` and the number of `MPI_Test` calls made so far. -/
structure Wait where
  received : List Bool
  polls : Nat

/-- `PrepareExchange`, Connectivity.cpp:936-937: clear the flags. -/
def prepare (n : Nat) (polls : Nat) : Wait := ⟨List.replicate n false, polls⟩

/-- One pass of the `for` loop of `WaitReceive`, Connectivity.cpp:1070-1101, from processor `p` on; `ready k p`
is what the `k`-th `MPI_Test` call answers for processor `p`.  Returns the processor whose message was
received (if any), the number of messages already received, and the new state. -/
def pass (ready : Nat → Nat → Bool) (n : Nat) : Nat → Nat → Wait → Option Nat × Nat × Wait
  | 0, count, w => (none, count, w)
  | left + 1, count, w =>
    let p := n - (left + 1)
    if w.received[p]? = some true then pass ready n left (count + 1) w
    else if ready w.polls p then
      (some p, count, ⟨w.received.set p true, w.polls + 1⟩)
    else pass ready n left count ⟨w.received, w.polls + 1⟩

/-- `WaitReceive`, Connectivity.cpp:1061-1106: repeat passes until a message is received or all have been.
`fuel` bounds the number of passes; `none` means the loop has not ended by then.  The inner `none` is the NULL
return value. -/
def waitReceive (ready : Nat → Nat → Bool) (n : Nat) : Nat → Nat → Wait → Option (Option Nat × Wait)
  | 0, _, _ => none
  | fuel + 1, count, w =>
    if count = n then some (none, w)
    else
      match pass ready n n 0 w with
      | (some p, _, w') => some (some p, w')
      | (none, c, w') => waitReceive ready n fuel c w'

/-- The receive loop of `Grid::Exchange`, Grid.cpp:665-684: call `WaitReceive` until it returns NULL; the
processors returned, in order.  `calls` bounds the number of calls. -/
def receiveAll (ready : Nat → Nat → Bool) (n fuel : Nat) : Nat → Wait → Option (List Nat × Wait)
  | 0, _ => none
  | calls + 1, w =>
    match waitReceive ready n fuel 0 w with
    | none => none
    | some (none, w') => some ([], w')
    | some (some p, w') =>
      match receiveAll ready n fuel calls w' with
      | none => none
      | some (l, w'') => some (p :: l, w'')

end Verif.Registry
