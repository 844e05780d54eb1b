import Verif.Time.StringModel

/-!
# Command line

Models `ParseCommandLine` as it appears in src/base/CommandLine.h:428-468 (used by
the stand-alone programs) and in src/atm/CommandLine.h:558-596 (used by the models).
-/

namespace Verif.Cli

abbrev Text := List Char

/-- Kinds of parameter (src/base/CommandLine.h:105-365): a switch takes no value, the
others (string, integer, double, time) take one. -/
inductive Kind
  | switch
  | value
deriving DecidableEq

/-- A declared parameter: the name without the leading dashes and its kind.
Descriptions and usage text are not modelled. -/
structure Param where
  name : Text
  kind : Kind
deriving DecidableEq

/-- `m_strName` (src/base/CommandLine.h:51). -/
def Param.full (p : Param) : Text := '-' :: '-' :: p.name

/-- What each parameter, by position, has been given: `none` is its default, a switch
that is on holds the empty text, another parameter the text handed to `SetValue`
(the conversion of that text is applied afterwards: `asInt` for integers, the text
itself for strings; `atof` and the time parser are not repeated here). -/
abbrev Store := List (Option Text)

/-- `strlen > 2` and two leading dashes (src/base/CommandLine.h:444-447). -/
def looksLikeOption : Text → Bool
  | '-' :: '-' :: _ :: _ => true
  | _ => false

/-- How the inner loop ends: normally, with the current argument, the remaining
arguments, whether a parameter matched and the store; or with an error. -/
inductive Inner
  | done (found : Bool) (rest : List Text) (store : Store)
  | error (store : Store)
deriving DecidableEq

/-- The inner loop over the declared parameters (src/base/CommandLine.h:430-461,
src/atm/CommandLine.h:560-591), from the parameter at position `i`.  `cur` is
`argv[_command]`; note that it changes when a value has been consumed, and that the
loop goes on over the remaining parameters. -/
def inner : List Param → Nat → Text → List Text → Bool → Store → Inner
  | [], _, _, rest, found, st => .done found rest st
  | p :: ps, i, cur, rest, found, st =>
    if p.full = cur then
      match p.kind with
      | .switch => inner ps (i + 1) cur rest true (st.set i (some []))
      | .value =>
        match rest with
        | [] => .error st
        | v :: r =>
          if looksLikeOption v then .error st
          else inner ps (i + 1) v r true (st.set i (some v))
    else inner ps (i + 1) cur rest found st

theorem inner_rest (ps : List Param) (i : Nat) (cur : Text) (rest : List Text) (found : Bool)
    (st : Store) {f r s} (h : inner ps i cur rest found st = .done f r s) :
    r.length ≤ rest.length := by
  induction ps generalizing i cur rest found st with
  | nil => simp only [inner, Inner.done.injEq] at h; rw [h.2.1]
  | cons p ps ih =>
    unfold inner at h
    by_cases hp : p.full = cur
    · rw [if_pos hp] at h
      cases hk : p.kind with
      | switch => simp only [hk] at h; exact ih _ _ _ _ _ h
      | value =>
        simp only [hk] at h
        cases rest with
        | nil => simp at h
        | cons v r' =>
          simp only at h
          by_cases hv : looksLikeOption v = true
          · rw [if_pos hv] at h; simp at h
          · rw [if_neg hv] at h
            have := ih _ _ _ _ _ h
            simp; omega
    · rw [if_neg hp] at h; exact ih _ _ _ _ _ h

/-- The outer loop: the store, whether the error flag was raised, and how many unknown
arguments were reported.  With `strict` (src/base/CommandLine.h:462-466) an unknown
argument is an error that ends the loop; otherwise (src/atm/CommandLine.h:592-594)
it is only reported. -/
def outer (strict : Bool) (ps : List Param) (args : List Text) (st : Store) (warned : Nat) :
    Store × Bool × Nat :=
  match args with
  | [] => (st, false, warned)
  | cur :: rest =>
    match h : inner ps 0 cur rest false st with
    | .error s => (s, true, warned)
    | .done true r s => outer strict ps r s warned
    | .done false r s => if strict then (s, true, warned + 1) else outer strict ps r s (warned + 1)
termination_by args.length
decreasing_by
  · have := inner_rest _ _ _ _ _ _ h; simp; omega
  · have := inner_rest _ _ _ _ _ _ h; simp; omega

/-- `BeginCommandLine` … `ParseCommandLine`: all parameters start at their default. -/
def parse (strict : Bool) (ps : List Param) (args : List Text) : Store × Bool × Nat :=
  outer strict ps args (List.replicate ps.length none) 0

/-- `CommandLineParameterInt::SetValue` (src/base/CommandLine.h:283-291): `atoi`, with
the default when the parameter was not given.  Out-of-range text is undefined in C;
it is not wrapped here. -/
def asInt (dflt : Int) : Option Text → Int
  | none => dflt
  | some s => TimeObj.atoi s

end Verif.Cli
