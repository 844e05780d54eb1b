/-
Vocabulary for the statements about runs.
-/
import Verif.Run.Model
import Verif.Time.Spec

namespace Verif.Run

open Verif.TimeObj

/-- A valid no-leap point in time. -/
def FV (t : Time) : Prop := Valid t ∧ t.typ = .fixed

/-- A duration with non-negative fields. -/
def NonNegDelta (d : Time) : Prop :=
  d.typ = .delta ∧ 0 ≤ d.year ∧ 0 ≤ d.month ∧ 0 ≤ d.day ∧ 0 ≤ d.second ∧ 0 ≤ d.usec

instance (t : Time) : Decidable (FV t) := by unfold FV; infer_instance
instance (t : Time) : Decidable (NonNegDelta t) := by unfold NonNegDelta; infer_instance

/-- A run whose start, end and step are sensible: no-leap times, start before end, a positive step. -/
structure CfgOk (c : Cfg) : Prop where
  start : FV c.tstart
  stop : FV c.tend
  dt : NonNegDelta c.dt
  pos : isZero c.dt = false
  year : 0 ≤ c.tstart.year
  lt : elapsedUs c.tstart < elapsedUs c.tend

/-- A newly constructed output manager with a sensible frequency whose files can be opened. -/
structure FreshOut (om : OutMan) : Prop where
  freq : NonNegDelta om.freq
  canOpen : ∀ t, om.canOpen t = true
  isOpen : om.isOpen = false
  ixFile : om.ixFile = 0
  ixTime : om.ixTime = 0
  last : om.last = zeroTime
  log : om.log = []
  opened : om.opened = []

/-- The schedule `t0, t0 + f, t0 + 2f, ...` -/
def IsSched (t0 f : Time) (due : ℕ → Time) : Prop := due 0 = t0 ∧ ∀ k, addTime (due k) f = .ok (due (k + 1))

/-- No application of the step is longer than any application of the frequency. -/
def StepNotLonger (dt f : Time) : Prop :=
  ∀ t u t' u', FV t → FV u → addTime t dt = .ok t' → addTime u f = .ok u' →
    elapsedUs t' - elapsedUs t ≤ elapsedUs u' - elapsedUs u

/-- Number of records written by `InitialOutput`. -/
def nInit (om : OutMan) : Nat := if om.fromRestart then 0 else 1

/-- A newly constructed workflow process with a sensible frequency. -/
structure FreshWf (w : Workflow) : Prop where
  freq : NonNegDelta w.freq
  done : w.done = []

/-- States reached by a run: after initialisation and any number of iterations of the loop. -/
def Reach (c : Cfg) (oms : List OutMan) (wfs : List Workflow) (s : St) : Prop :=
  ∃ s0 n, goInit c oms wfs = .ok (some s0) ∧ runN c n s0 = .ok s

/-- The model times at which an output manager has written. -/
def writeTimes (om : OutMan) : List Time := om.log.map Rec.time

/-- Length of a duration of days, seconds and microseconds, in microseconds. -/
def durUs (d : Time) : Int := (d.day * 86400 + d.second) * 1000000 + d.usec

/-- A sequence of calls of `PerformOutput`. -/
def performSeq (om : OutMan) : List Time → Except GoErr OutMan
  | [] => .ok om
  | t :: ts => match performOutput om t with
    | .error e => .error e
    | .ok om' => performSeq om' ts

end Verif.Run
