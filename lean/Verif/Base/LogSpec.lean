import Verif.Base.Log

/-!
# Vocabulary for announcements
-/

namespace Verif.Log.Spec

/-- All text shown when the output buffer is the console, which is the default. -/
def shown (s : State) : Text := s.log.flatMap (fun e => e.2)

/-- The text that reached the output buffer. -/
def buffered (s : State) : Text :=
  (s.log.filter (fun e => e.1 = .buffer)).flatMap (fun e => e.2)

/-- The cursor is at the beginning of a line. -/
def AtLineStart (t : Text) : Prop := t = [] ∨ t.getLast? = some '\n'

/-- Calls that are properly nested to a depth of at most `d`: blocks started are ended,
at the same verbosity. -/
inductive Nested : Nat → List Op → Prop
  | nil (d : Nat) : Nested d []
  | announce (d : Nat) (t : Option Text) (ops : List Op) : Nested d ops → Nested d (.announce t :: ops)
  | announceAt (d : Nat) (v : Int) (t : Option Text) (ops : List Op) : Nested d ops →
      Nested d (.announceAt v t :: ops)
  | banner (d : Nat) (t : Option Text) (ops : List Op) : Nested d ops → Nested d (.banner t :: ops)
  | block (d : Nat) (t u : Option Text) (body ops : List Op) : Nested d body → Nested (d + 1) ops →
      Nested (d + 1) (.startBlock t :: (body ++ .endBlock u :: ops))
  | blockAt (d : Nat) (v : Int) (t u : Option Text) (body ops : List Op) : Nested d body →
      Nested (d + 1) ops → Nested (d + 1) (.startBlockAt v t :: (body ++ .endBlockAt v u :: ops))

/-- Every block that is started has a text. -/
def Texted : Op → Prop
  | .startBlock none => False
  | .startBlockAt _ none => False
  | _ => True

end Verif.Log.Spec
