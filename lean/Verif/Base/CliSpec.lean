import Verif.Base.Cli

/-!
# What a command line asks for
-/

namespace Verif.Cli.Spec

/-- One setting: a parameter, by position, with the text to give it (empty for a
switch). -/
structure Setting where
  position : Nat
  text : Text
deriving DecidableEq

/-- Written on the command line: the option, and for a parameter with a value the value
after it. -/
def written (ps : List Param) (s : Setting) : List Text :=
  match ps[s.position]? with
  | none => []
  | some p =>
    match p.kind with
    | .switch => [('-' :: '-' :: p.name)]
    | .value => [('-' :: '-' :: p.name), s.text]

/-- The whole command line. -/
def commandLine (ps : List Param) (ss : List Setting) : List Text := ss.flatMap (written ps)

/-- A setting that can be written: it names a declared parameter; a value does not
itself look like an option. -/
def Writable (ps : List Param) (s : Setting) : Prop :=
  ∃ p, ps[s.position]? = some p ∧ (p.kind = .switch → s.text = []) ∧
    (p.kind = .value → ∀ c r, s.text ≠ '-' :: '-' :: c :: r)

/-- The last text given to a parameter, if any. -/
def last (i : Nat) : List Setting → Option Text
  | [] => none
  | s :: ss =>
    match last i ss with
    | some t => some t
    | none => if s.position = i then some s.text else none

end Verif.Cli.Spec
