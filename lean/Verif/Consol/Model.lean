/-
Model of the bookkeeping for collecting output on the root processor: message tags and the receive status
(src/atm/ConsolidationStatus.h and .cpp).

Simplifications: `int` unbounded (see C28_no_overflow); `<<` and `>>` are multiplication and floor division, `&` with
a mask of low bits is the remainder (two's complement).  `std::map` is a list of pairs; its order is never used.  A
call that throws gives `exc` and leaves the object unchanged, since the checks come first.
-/
import Verif.Exchange.Model

namespace Verif.Consol

open Verif.Exchange (Res)

/-- `DataTypeLocationPair::operator int`, ConsolidationStatus.h:58-60. -/
def pairKey (t l : Int) : Int := t * 4 + l

/-- `ConsolidationStatus::GenerateTag`, ConsolidationStatus.h:108-115. -/
def generateTag (ix t l : Int) : Int := ix * 64 + pairKey t l

/-- `ConsolidationStatus::ParseTag`, ConsolidationStatus.h:120-129: (patch, type, location). -/
def parseTag (tag : Int) : Int × Int × Int := (tag / 64, (tag / 4) % 16, tag % 4)

/-- Data members of `ConsolidationStatus`, ConsolidationStatus.h:172-195.  Of the send requests only the number matters. -/
structure Status where
  types : List (Int × Nat)
  counts : List Nat
  got : List (List Bool)
  sendNext : Nat
  sendTotal : Nat
  deriving DecidableEq, Repr

/-- `std::map::find`. -/
def find (map : List (Int × Nat)) (k : Int) : Option Nat :=
  match map with
  | [] => none
  | (k', m) :: rest => if k' = k then some m else find rest k

/-- `std::map::insert`: an existing entry is kept. -/
def insertNew (map : List (Int × Nat)) (k : Int) (m : Nat) : List (Int × Nat) :=
  match find map k with
  | some _ => map
  | none => map ++ [(k, m)]

/-- The loop of ConsolidationStatus.cpp:35-38 from position `m`. -/
def buildTypes : List (Int × Int) → Nat → List (Int × Nat) → List (Int × Nat)
  | [], _, map => map
  | (t, l) :: rest, m, map => buildTypes rest (m + 1) (insertNew map (pairKey t l) m)

/-- `ConsolidationStatus::ConsolidationStatus`, ConsolidationStatus.cpp:22-66, on a processor with `active` active
patches of `patches`. -/
def create (rank active patches : Nat) (req : List (Int × Int)) : Status :=
  let types := buildTypes req 0 []
  if rank ≠ 0 then ⟨types, [], [], 0, active * types.length⟩
  else ⟨types, List.replicate req.length 0, List.replicate patches (List.replicate req.length false), 0,
    active * types.length⟩

/-- `ConsolidationStatus::Contains`, ConsolidationStatus.cpp:70-80. -/
def contains (s : Status) (t l : Int) : Bool := (find s.types (pairKey t l)).isSome

/-- `ConsolidationStatus::Done`, ConsolidationStatus.cpp:84-91. -/
def done (s : Status) : Bool := s.counts.all fun c => c == s.got.length

/-- `ConsolidationStatus::SetReceiveStatus`, ConsolidationStatus.cpp:95-114. -/
def setReceive (s : Status) (ix t l : Int) : Res Status :=
  match find s.types (pairKey t l) with
  | none => .exc
  | some m =>
    if ix < 0 ∨ ix ≥ s.got.length then .exc
    else match s.got[ix.toNat]? with
      | none => .ub
      | some row => match row[m]? with
        | none => .ub
        | some true => .exc
        | some false =>
          .ok { s with counts := s.counts.modify m (· + 1), got := s.got.modify ix.toNat (·.set m true) }

/-- `ConsolidationStatus::GetNextSendRequest`, ConsolidationStatus.cpp:118-125: the number of the request. -/
def nextSend (s : Status) : Res (Nat × Status) :=
  if s.sendNext ≥ s.sendTotal then .exc
  else .ok (s.sendNext, { s with sendNext := s.sendNext + 1 })

/-- Messages arriving one after another; a refused message (exception) leaves the status as it was, undefined
behaviour ends the run. -/
def receive : Status → List (Int × Int × Int) → Option Status
  | s, [] => some s
  | s, (ix, t, l) :: rest =>
    match setReceive s ix t l with
    | .ok s' => receive s' rest
    | .exc => receive s rest
    | _ => none

end Verif.Consol
