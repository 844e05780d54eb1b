/-
Model of the driver loop `Model::Go` (src/atm/Model.cpp), of `OutputManager` (src/atm/OutputManager.cpp)
and of `WorkflowProcess` (src/atm/WorkflowProcess.cpp).

Simplifications: the numerical work of a time step is not part of this model, only the step length handed
to it; announcements, timers and MPI are left out; the pure virtual `OpenFile` is a given function saying
for which times opening succeeds, `Output` always returns; times are `Verif.TimeObj.Time`.
Ghost fields (not in the C++ classes) record what happened and never influence it.
-/
import Verif.Time.Model

namespace Verif.Run

open Verif.TimeObj

/-- Exceptions that can leave `Go`. -/
inductive GoErr
  | time (e : Err)      -- raised by Time operations
  | cannotOpen          -- OutputManager.cpp:110-113
  | zeroDeltaT          -- Model.cpp:339-342
  deriving DecidableEq, Repr

/-- An exception of a `Time` operation propagates. -/
def lift {α : Type} : Except Err α → Except GoErr α
  | .ok a => .ok a
  | .error e => .error (.time e)

/-- One call of `Output(time)`: the file number, the position in the file and the time. -/
structure Rec where
  file : Nat
  pos : Nat
  time : Time
  deriving DecidableEq, Repr

/-- Data members of `OutputManager`, OutputManager.h:147-204.  `log` and `opened` are ghosts: the records
written so far, and the time at which each file was opened (it determines the file name). -/
structure OutMan where
  freq : Time
  nPerFile : Int
  fromRestart : Bool
  canOpen : Time → Bool
  isOpen : Bool := false
  ixFile : Nat := 0
  ixTime : Nat := 0
  last : Time := zeroTime
  next : Time := zeroTime
  log : List Rec := []
  opened : List Time := []

/-- `OutputManager::IsOutputNeeded`, OutputManager.cpp:83-97. -/
def isOutputNeeded (om : OutMan) (t : Time) : Except GoErr Bool :=
  if isZero om.freq then .ok false
  else match lift (ltOp t om.next) with
    | .error e => .error e
    | .ok true => .ok false
    | .ok false => .ok true

/-- First half of `OutputManager::PerformOutput`: open the file if needed and write, OutputManager.cpp:104-118. -/
def writeRecord (om : OutMan) (t : Time) : OutMan :=
  { om with
    isOpen := true
    opened := if om.isOpen then om.opened else om.opened ++ [t]
    log := om.log ++ [⟨om.ixFile, om.ixTime, t⟩]
    ixTime := om.ixTime + 1 }

/-- Second half: close the file when it is full, OutputManager.cpp:120-126. -/
def closeIfFull (om : OutMan) : OutMan :=
  if (om.ixTime : Int) = om.nPerFile then { om with isOpen := false, ixFile := om.ixFile + 1, ixTime := 0 }
  else om

/-- `OutputManager::PerformOutput`, OutputManager.cpp:101-127. -/
def performOutput (om : OutMan) (t : Time) : Except GoErr OutMan :=
  if om.isOpen = false ∧ om.canOpen t = false then .error .cannotOpen
  else .ok (closeIfFull (writeRecord om t))

/-- `OutputManager::ManageOutput`, OutputManager.cpp:131-149. -/
def manageOutput (om : OutMan) (t : Time) : Except GoErr OutMan :=
  match performOutput om t with
  | .error e => .error e
  | .ok om1 =>
    match lift (addTime om1.next om1.freq) with
    | .error e => .error e
    | .ok nx => .ok { om1 with last := t, next := nx }

/-- `OutputManager::InitialOutput`, OutputManager.cpp:153-176. -/
def initialOutput (om : OutMan) (t : Time) : Except GoErr OutMan :=
  match (if om.fromRestart then .ok om else performOutput om t : Except GoErr OutMan) with
  | .error e => .error e
  | .ok om1 =>
    match lift (addTime t om1.freq) with
    | .error e => .error e
    | .ok nx => .ok { om1 with next := nx }

/-- `OutputManager::FinalOutput`, OutputManager.cpp:180-197. -/
def finalOutput (om : OutMan) (t : Time) : Except GoErr OutMan :=
  if eqOp t om.last then .ok om else performOutput om t

/-- Data members of `WorkflowProcess`, WorkflowProcess.h; `done` is a ghost list of performance times. -/
structure Workflow where
  freq : Time
  next : Time := zeroTime
  done : List Time := []

/-- `WorkflowProcess::Initialize`, WorkflowProcess.cpp:32-37. -/
def wfInit (w : Workflow) (t : Time) : Except GoErr Workflow :=
  match lift (addTime t w.freq) with
  | .error e => .error e
  | .ok nx => .ok { w with next := nx }

/-- `WorkflowProcess::IsReady`, WorkflowProcess.cpp:41-55. -/
def wfReady (w : Workflow) (t : Time) : Except GoErr Bool :=
  if isZero w.freq then .ok false
  else match lift (ltOp t w.next) with
    | .error e => .error e
    | .ok true => .ok false
    | .ok false => .ok true

/-- `WorkflowProcess::Perform`, WorkflowProcess.cpp:59-64 (base class part). -/
def wfPerform (w : Workflow) (t : Time) : Except GoErr Workflow :=
  match lift (addTime w.next w.freq) with
  | .error e => .error e
  | .ok nx => .ok { w with next := nx, done := w.done ++ [t] }

/-- Settings of a run: `m_timeDeltaT`, `m_timeStart`, `m_timeEnd`. -/
structure Cfg where
  dt : Time
  tstart : Time
  tend : Time

/-- State of the loop of `Model::Go`.  `dts` (step lengths handed to the integrator) and `times` (model time
after each step) are ghosts; `finished` is `fLastStep` of the latest step. -/
structure St where
  time : Time
  oms : List OutMan
  wfs : List Workflow
  finished : Bool := false
  dts : List ℚ := []
  times : List Time := []

/-- Apply a fallible update to every element in order (the `for` loops over output managers and workflow
processes, Model.cpp:371-388, 476-510). -/
def mapAll {α : Type} (f : α → Except GoErr α) : List α → Except GoErr (List α)
  | [] => .ok []
  | a :: as => match f a with
    | .error e => .error e
    | .ok b => match mapAll f as with
      | .error e => .error e
      | .ok bs => .ok (b :: bs)

/-- Body of the workflow loop, Model.cpp:476-480. -/
def wfStep (t : Time) (w : Workflow) : Except GoErr Workflow :=
  match wfReady w t with
  | .error e => .error e
  | .ok true => wfPerform w t
  | .ok false => .ok w

/-- Body of the output loop, Model.cpp:483-508. -/
def omStep (last : Bool) (t : Time) (om : OutMan) : Except GoErr OutMan :=
  if last then finalOutput om t
  else match isOutputNeeded om t with
    | .error e => .error e
    | .ok true => manageOutput om t
    | .ok false => .ok om

/-- End of one iteration: workflow processes then output at the new time `t`, Model.cpp:476-508. -/
def afterStep (s : St) (last : Bool) (d : ℚ) (t : Time) : Except GoErr St :=
  match mapAll (wfStep t) s.wfs with
  | .error e => .error e
  | .ok wfs => match mapAll (omStep last t) s.oms with
    | .error e => .error e
    | .ok oms => .ok { time := t, oms := oms, wfs := wfs, finished := last, dts := s.dts ++ [d],
                       times := s.times ++ [t] }

/-- One iteration of the loop, Model.cpp:395-518.  The comparison `timeNext >= m_timeEnd` is evaluated
twice by the code (410 and 470) with the same result. -/
def stepOnce (c : Cfg) (s : St) : Except GoErr St :=
  match lift (addTime s.time c.dt) with
  | .error e => .error e
  | .ok timeNext => match lift (geOp timeNext c.tend) with
    | .error e => .error e
    | .ok true => match lift (sub c.tend s.time) with
      | .error e => .error e
      | .ok d => afterStep s true d c.tend
    | .ok false => match lift (sub timeNext s.time) with
      | .error e => .error e
      | .ok d => afterStep s false d timeNext

/-- `n` iterations of the loop, stopping after the last step (`break`, Model.cpp:513-515). -/
def runN (c : Cfg) : Nat → St → Except GoErr St
  | 0, s => .ok s
  | n + 1, s => if s.finished then .ok s
    else match stepOnce c s with
      | .error e => .error e
      | .ok s' => runN c n s'

/-- The part of `Go` before the loop, Model.cpp:338-388: `none` when the start is not before the end (a
warning is announced and `Go` returns). -/
def goInit (c : Cfg) (oms : List OutMan) (wfs : List Workflow) : Except GoErr (Option St) :=
  if isZero c.dt then .error .zeroDeltaT
  else match lift (geOp c.tstart c.tend) with
    | .error e => .error e
    | .ok true => .ok none
    | .ok false => match mapAll (fun om => initialOutput om c.tstart) oms with
      | .error e => .error e
      | .ok oms' => match mapAll (fun w => wfInit w c.tstart) wfs with
        | .error e => .error e
        | .ok wfs' => .ok (some { time := c.tstart, oms := oms', wfs := wfs' })

end Verif.Run
