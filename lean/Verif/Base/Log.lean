/-!
# Announcements

Models src/base/Announce.cpp:28-373 (built with MPI), as a state machine over the
calls made by one process.
-/

namespace Verif.Log

abbrev Text := List Char

/-- Where a write goes: to the configured output buffer, or (in parts of the banner)
directly to the console. -/
inductive Sink
  | buffer
  | console
deriving DecidableEq

/-- The file-scope variables (src/base/Announce.cpp:31-70) and everything written so
far, oldest first. -/
structure State where
  /-- `g_iVerbosityLevel` -/
  verbosity : Int
  /-- `g_fOnlyOutputOnRankZero` -/
  onlyRoot : Bool
  /-- `s_nIndentationLevel` -/
  level : Nat
  /-- `s_fBlockFlag` -/
  dangling : Bool
  log : List (Sink × Text)
deriving DecidableEq

/-- src/base/Announce.cpp:31, 41, 64, 69. -/
def init : State := ⟨0, false, 0, false, []⟩

/-- The calls.  Texts are optional (`NULL`).  The text of a message is the formatted
one: formatting of arguments is not modelled. -/
inductive Op
  | startBlock (text : Option Text)
  | startBlockAt (v : Int) (text : Option Text)
  | endBlock (text : Option Text)
  | endBlockAt (v : Int) (text : Option Text)
  | announce (text : Option Text)
  | announceAt (v : Int) (text : Option Text)
  | banner (text : Option Text)
  | setVerbosity (v : Int)
  | onlyRankZero
  | allRanks
deriving DecidableEq

/-- Writing to the output buffer. -/
def put (s : State) (t : Text) : State := { s with log := s.log ++ [(.buffer, t)] }

/-- `printf`, which bypasses the output buffer. -/
def console (s : State) (t : Text) : State := { s with log := s.log ++ [(.console, t)] }

/-- The indentation: two dots for each level (src/base/Announce.cpp:129-132). -/
def dots (n : Nat) : Text := List.replicate (2 * n) '.'

/-- Only rank zero speaks (src/base/Announce.cpp:110-120). -/
def silent (rank : Nat) (s : State) : Bool := s.onlyRoot && decide (rank > 0)

/-- Ending a dangling line (src/base/Announce.cpp:228-232). -/
def freshLine (s : State) : State :=
  if s.dangling then { put s ['\n'] with dangling := false } else s

/-- `Announce` after the checks (src/base/Announce.cpp:228-261).  `none` is undefined
behaviour: a text that does not fit the 1024-character buffer.  The indentation, the
text and the newline are written separately; they are one entry here. -/
def say (s : State) : Option Text → Option State
  | none => some (freshLine s)
  | some t =>
    if t.length ≥ 1024 then none
    else some (put (freshLine s) (dots s.level ++ t ++ ['\n']))

/-- `AnnounceStartBlock` (src/base/Announce.cpp:103-142). -/
def start (rank : Nat) (s : State) (text : Option Text) : State :=
  if s.level = 16 then s
  else if silent rank s then s
  else
    let s1 := if s.dangling then put s ['\n'] else s
    let s2 := put s1 (dots s.level)
    match text with
    | none => { s2 with level := s.level + 1 }
    | some t => { put s2 t with dangling := true, level := s.level + 1 }

/-- `AnnounceEndBlock` (src/base/Announce.cpp:159-195).  When no start is dangling the
text is handed to `Announce` as a format string: a percent sign in it is undefined
behaviour. -/
def stop (rank : Nat) (s : State) (text : Option Text) : Option State :=
  if s.level = 0 then some s
  else if silent rank s then some s
  else
    match text with
    | none => some { s with level := s.level - 1 }
    | some t =>
      if s.dangling then
        some { put s ('.' :: '.' :: ' ' :: t ++ ['\n']) with dangling := false, level := s.level - 1 }
      else if t.contains '%' then none
      else (say s (some t)).map (fun s' => { s' with level := s'.level - 1 })

/-- `AnnounceBanner` (src/base/Announce.cpp:327-373). -/
def bannerOp (rank : Nat) (s : State) (text : Option Text) : State :=
  if silent rank s then s
  else
    let s1 := freshLine s
    match text with
    | none => put (console s1 (List.replicate 60 '-')) ['\n']
    | some t =>
      let len := t.length + 2
      let s2 := console s1 ['-', '-']
      if len > 58 then put s2 (t ++ ['-', '-'] ++ ['\n'])
      else put s2 (' ' :: t ++ [' '] ++ List.replicate (60 - len - 2) '-' ++ ['\n'])

/-- One call. -/
def step (rank : Nat) (s : State) : Op → Option State
  | .startBlock t => some (start rank s t)
  -- src/base/Announce.cpp:146-155
  | .startBlockAt v t => if v > s.verbosity then some s else some (start rank s t)
  | .endBlock t => stop rank s t
  -- src/base/Announce.cpp:199-208
  | .endBlockAt v t => if v > s.verbosity then some s else stop rank s t
  | .announce t => if silent rank s then some s else say s t
  -- src/base/Announce.cpp:265-323
  | .announceAt v t =>
    if silent rank s then some s else if v > s.verbosity then some s else say s t
  | .banner t => some (bannerOp rank s t)
  | .setVerbosity v => some { s with verbosity := v }
  | .onlyRankZero => some { s with onlyRoot := true }
  | .allRanks => some { s with onlyRoot := false }

/-- A sequence of calls. -/
def run (rank : Nat) (s : State) : List Op → Option State
  | [] => some s
  | o :: os => (step rank s o).bind (fun s' => run rank s' os)

end Verif.Log
