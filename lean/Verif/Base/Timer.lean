/-!
# Function timers

Models src/base/FunctionTimer.cpp:28-175 and src/base/FunctionTimer.h:62-85.  The
clock is an input: every call that reads it carries the reading.
-/

namespace Verif.Timer

abbrev Text := List Char

/-- `timeval`: seconds and microseconds. -/
structure Clock where
  sec : Int
  usec : Int
deriving DecidableEq

/-- `TimerGroupData` (src/base/FunctionTimer.h:45-48): `unsigned long` and
`unsigned int`. -/
structure Record where
  total : Nat
  entries : Nat
deriving DecidableEq

/-- A timer object: its group (empty if unnamed) and its start. -/
structure Timer where
  group : Text
  start : Clock
deriving DecidableEq

/-- `m_mapGroupData`, shared by all timers. -/
abbrev Groups := List (Text × Record)

/-- `m_mapGroupData.find`. -/
def find (g : Groups) (name : Text) : Option Record :=
  (g.find? (fun e => e.1 = name)).map (fun e => e.2)

/-- The constructor (src/base/FunctionTimer.cpp:28-39); `NULL` is the empty name. -/
def construct (name : Option Text) (now : Clock) : Timer := ⟨name.getD [], now⟩

/-- `Reset` (src/base/FunctionTimer.cpp:43-45). -/
def Timer.reset (t : Timer) (now : Clock) : Timer := { t with start := now }

/-- The elapsed time (src/base/FunctionTimer.cpp:53-55): computed in signed 64-bit
arithmetic mixed with the unsigned constant, hence modulo 2^64. -/
def elapsed (start now : Clock) : Nat :=
  ((1000000 * (now.sec - start.sec) + (now.usec - start.usec)) % 18446744073709551616).toNat

/-- Adding to the group record (src/base/FunctionTimer.cpp:63-83). -/
def record (g : Groups) (name : Text) (t : Nat) : Groups :=
  match find g name with
  | some _ =>
    g.map (fun e => if e.1 = name then
      (e.1, ⟨(e.2.total + t) % 18446744073709551616, (e.2.entries + 1) % 4294967296⟩) else e)
  | none => g ++ [(name, ⟨t, 1⟩)]

/-- `Time` (src/base/FunctionTimer.cpp:49-86): the elapsed time and the groups. -/
def time (g : Groups) (t : Timer) (now : Clock) (done : Bool) : Nat × Groups :=
  let e := elapsed t.start now
  if t.group = [] then (e, g)
  else if done then (e, record g t.group e)
  else (e, g)

/-- `StopTime` (src/base/FunctionTimer.cpp:90-92). -/
def stopTime (g : Groups) (t : Timer) (now : Clock) : Nat × Groups := time g t now true

/-- The destructor (src/base/FunctionTimer.h:68-70). -/
def destroy (g : Groups) (t : Timer) (now : Clock) : Groups := (stopTime g t now).2

/-- `GetGroupTimeRecord` (src/base/FunctionTimer.cpp:96-112): `none` is the exception. -/
def getRecord (g : Groups) (name : Text) : Option Record := find g name

/-- `GetAverageGroupTime` (src/base/FunctionTimer.cpp:116-134): `none` is a division by
zero (after 2^32 entries). -/
def getAverage (g : Groups) (name : Text) : Option Nat :=
  match find g name with
  | some r => if r.entries = 0 then none else some (r.total / r.entries)
  | none => some 0

/-- `GetNumberOfEntries` (src/base/FunctionTimer.cpp:138-156). -/
def getEntries (g : Groups) (name : Text) : Nat :=
  match find g name with
  | some r => r.entries
  | none => 0

/-- `ResetGroupTimeRecord` (src/base/FunctionTimer.cpp:160-175): `none` is the
exception. -/
def resetGroup (g : Groups) (name : Text) : Option Groups :=
  match find g name with
  | some _ => some (g.filter (fun e => e.1 ≠ name))
  | none => none

/-- What a program does with timers, one timer at a time by number. -/
inductive Op
  | create (id : Nat) (name : Option Text) (now : Clock)
  | restart (id : Nat) (now : Clock)
  | look (id : Nat) (now : Clock)
  | stop (id : Nat) (now : Clock)
  | delete (id : Nat) (now : Clock)
  | resetGroup (name : Text)
deriving DecidableEq

/-- The live timers and the groups. -/
structure State where
  timers : List (Nat × Timer)
  groups : Groups

def State.timer (s : State) (id : Nat) : Option Timer :=
  (s.timers.find? (fun e => e.1 = id)).map (fun e => e.2)

/-- One operation; `none` if it names a timer that does not exist, creates one that
does, or resets a group that has no record (the exception). -/
def step (s : State) : Op → Option State
  | .create id name now =>
    match s.timer id with
    | some _ => none
    | none => some { s with timers := s.timers ++ [(id, construct name now)] }
  | .restart id now =>
    match s.timer id with
    | none => none
    | some t => some { s with timers := s.timers.map (fun e => if e.1 = id then (id, t.reset now) else e) }
  | .look id now =>
    match s.timer id with
    | none => none
    | some t => some { s with groups := (time s.groups t now false).2 }
  | .stop id now =>
    match s.timer id with
    | none => none
    | some t => some { s with groups := (stopTime s.groups t now).2 }
  | .delete id now =>
    match s.timer id with
    | none => none
    | some t => some ⟨s.timers.filter (fun e => e.1 ≠ id), destroy s.groups t now⟩
  | .resetGroup name =>
    match resetGroup s.groups name with
    | none => none
    | some g => some { s with groups := g }

/-- A history. -/
def run (s : State) : List Op → Option State
  | [] => some s
  | o :: os => (step s o).bind (fun s' => run s' os)

end Verif.Timer
