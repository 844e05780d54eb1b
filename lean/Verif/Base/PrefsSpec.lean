/-!
# The meaning of a preference file

Written without reference to the program.
-/

namespace Verif.Prefs.Spec

abbrev Text := List Char

/-- Only spaces. -/
def Blank (s : Text) : Prop := ∀ c ∈ s, c = ' '

/-- Neither begins nor ends with a space. -/
def Trim (s : Text) : Prop := s.head? ≠ some ' ' ∧ s.getLast? ≠ some ' '

/-- What one line says: nothing, or that a name has a value. -/
inductive Means : Text → Option (Text × Text) → Prop
  | blank : Means [] none
  | comment (s : Text) : Means ('#' :: s) none
  | entry (a name b c value d : Text) : Blank a → Blank b → Blank c → Blank d →
      name ≠ [] → Trim name → Trim value → '=' ∉ name →
      (a = [] → name.head? ≠ some '#') →
      Means (a ++ name ++ b ++ '=' :: (c ++ value ++ d)) (some (name, value))

/-- The value a file gives to a name: that of the first line that mentions it. -/
def first (name : Text) : List (Option (Text × Text)) → Option Text
  | [] => none
  | none :: r => first name r
  | some (n, v) :: r => if n = name then some v else first name r

/-- A file made of the given lines, each ended by a newline, with `rest` after the
last newline. -/
def file (lines : List Text) (rest : Text) : Text :=
  lines.flatMap (fun l => l ++ ['\n']) ++ rest

end Verif.Prefs.Spec
