import Verif.Base.Timer

/-!
# What the timers of a history should have recorded
-/

namespace Verif.Timer.Spec

/-- Microseconds from one reading of the clock to another. -/
def between (a b : Clock) : Int := 1000000 * (b.sec - a.sec) + (b.usec - a.usec)

/-- For each live timer, its group and when it was last started. -/
abbrev Live := Nat → Option (Text × Clock)

/-- The timers alive after an operation. -/
def live (l : Live) : Op → Live
  | .create id name now => fun i => if i = id then some (name.getD [], now) else l i
  | .restart id now => fun i => if i = id then (l id).map (fun x => (x.1, now)) else l i
  | .delete id _ => fun i => if i = id then none else l i
  | _ => l

/-- The durations recorded for group `name`, given those recorded so far: stopping and
deleting a timer of the group record the time since it was started, resetting the
group forgets them. -/
def recorded (name : Text) (l : Live) (sofar : List Int) : Op → List Int
  | .stop id now | .delete id now =>
    match l id with
    | some (n, start) => if n = name then sofar ++ [between start now] else sofar
    | none => sofar
  | .resetGroup n => if n = name then [] else sofar
  | _ => sofar

/-- The durations recorded by a whole history. -/
def durations (name : Text) : Live → List Int → List Op → List Int
  | _, sofar, [] => sofar
  | l, sofar, o :: os => durations name (live l o) (recorded name l sofar o) os

/-- Nothing is alive at the beginning. -/
def nobody : Live := fun _ => none

end Verif.Timer.Spec
