/-
C151: the exceptions of the code.
-/
import Verif.Base.Failure
import Mathlib.Data.Nat.Digits.Defs
namespace Verif.Base.Failure

/-- Specification: a message is made of pieces: text as it is, a text given as argument, a whole number given as argument. -/
inductive Piece where
  | literal (t : List Char)
  | text (t : List Char)
  | number (n : Int)

/-- What the reader of a message should see. -/
def meant (ps : List Piece) : List Char :=
  ps.flatMap fun p => match p with
    | .literal t => t
    | .text t => t
    | .number n => (toString n).toList

/-- The format of a message: literal text with every percent sign doubled, %s for texts, %i for numbers. -/
def formatOf (ps : List Piece) : List Char :=
  ps.flatMap fun p => match p with
    | .literal t => t.flatMap fun c => if c = '%' then ['%', '%'] else [c]
    | .text _ => ['%', 's']
    | .number _ => ['%', 'i']

/-- The arguments of a message. -/
def argsOf (ps : List Piece) : List Arg :=
  ps.flatMap fun p => match p with
    | .literal _ => []
    | .text t => [.text t]
    | .number n => [.number n]

theorem format_char (c : Char) (h : c ≠ '%') (f : List Char) (args : List Arg) : format (c :: f) args = (format f args).map (c :: ·) := by
  rw [format]
  all_goals
    intros
    simp_all

theorem format_literal (t f : List Char) (args : List Arg) :
    format ((t.flatMap fun c => if c = '%' then ['%', '%'] else [c]) ++ f) args = (format f args).map (t ++ ·) := by
  induction t with
  | nil => simp
  | cons c t ih =>
    by_cases h : c = '%'
    · subst h
      simp only [List.flatMap_cons, if_true, List.cons_append, List.nil_append]
      rw [format, ih, Option.map_map]
      rfl
    · simp only [List.flatMap_cons, if_neg h, List.cons_append, List.nil_append]
      rw [format_char c h, ih, Option.map_map]
      rfl

theorem format_pieces (ps : List Piece) : format (formatOf ps) (argsOf ps) = some (meant ps) := by
  induction ps with
  | nil => simp [formatOf, argsOf, meant, format]
  | cons p ps ih =>
    cases p with
    | literal t =>
      have : formatOf (.literal t :: ps) = (t.flatMap fun c => if c = '%' then ['%', '%'] else [c]) ++ formatOf ps := rfl
      rw [this, format_literal]
      have : argsOf (.literal t :: ps) = argsOf ps := rfl
      rw [this, ih]
      rfl
    | text t =>
      have : formatOf (.text t :: ps) = '%' :: 's' :: formatOf ps := rfl
      rw [this]
      have : argsOf (.text t :: ps) = .text t :: argsOf ps := rfl
      rw [this, format, ih]
      rfl
    | number n =>
      have : formatOf (.number n :: ps) = '%' :: 'i' :: formatOf ps := rfl
      rw [this]
      have : argsOf (.number n :: ps) = .number n :: argsOf ps := rfl
      rw [this, format, ih]
      rfl

theorem line_fits (line : Nat) (h : line < 2 ^ 32) : (", Line ".toList ++ (toString line).toList ++ ") ".toList).length < 128 := by
  have : (toString line).toList.length ≤ 10 := by
    have := Nat.repr_length line 10 (by omega) (by omega)
    have e : (toString line).toList.length = line.repr.length := rfl
    rw [e]
    exact this
  simp only [List.length_append]
  have h1 : ", Line ".toList.length = 7 := by decide
  have h2 : ") ".toList.length = 2 := by decide
  omega

/-- **C151.** A message of fewer than 1024 characters, of any number of pieces, is reported as it is meant, after the file and the line; the line number of any
32-bit line fits. -/
theorem C151_reported (file : List Char) (line : Nat) (hl : line < 2 ^ 32) (ps : List Piece) (h : (meant ps).length < 1024) :
    ∃ e, withText file line (formatOf ps) (argsOf ps) = some e
      ∧ report e = some ("EXCEPTION (".toList ++ file ++ ", Line ".toList ++ (toString line).toList ++ ") ".toList ++ meant ps) := by
  refine ⟨⟨meant ps, file, line⟩, ?_, ?_⟩
  · unfold withText
    rw [format_pieces]
    simp only
    rw [if_neg (by omega)]
  · unfold report
    simp only
    rw [if_neg (by have := line_fits line hl; omega)]
    simp only [List.append_assoc]

/-- **C151.** That every message is reported is false: one of 1024 characters or more, with a long file name for instance, has no result, the buffer being left. -/
theorem C151_long_false (file : List Char) (line : Nat) (ps : List Piece) (h : 1024 ≤ (meant ps).length) :
    withText file line (formatOf ps) (argsOf ps) = none := by
  unfold withText
  rw [format_pieces]
  simp only
  rw [if_pos h]

/-- **C151.** Without text the report is that of a general exception. -/
theorem C151_plain (file : List Char) (line : Nat) (hl : line < 2 ^ 32) :
    report (plain file line)
      = some ("EXCEPTION (".toList ++ file ++ ", Line ".toList ++ (toString line).toList ++ ") ".toList ++ "General exception".toList) := by
  unfold report
  have e1 : (plain file line).file = file := rfl
  have e2 : (plain file line).line = line := rfl
  have e3 : (plain file line).text = "General exception".toList := rfl
  rw [e1, e2, e3]
  generalize "General exception".toList = t
  dsimp only
  rw [if_neg (by have := line_fits line hl; omega)]
  simp only [List.append_assoc]

/-- **C151.** An argument that is missing, or is a number where a text is meant, has no result, whatever comes before and after. -/
theorem C151_arguments (file : List Char) (line : Nat) (ps : List Piece) (rest : List Char) (n : Int) (more : List Arg) :
    withText file line (formatOf ps ++ '%' :: 's' :: rest) (argsOf ps) = none
      ∧ withText file line (formatOf ps ++ '%' :: 's' :: rest) (argsOf ps ++ .number n :: more) = none := by
  have key : ∀ tail : List Arg, format ('%' :: 's' :: rest) tail = none →
      format (formatOf ps ++ '%' :: 's' :: rest) (argsOf ps ++ tail) = none := by
    intro tail ht
    induction ps with
    | nil => exact ht
    | cons p ps ih =>
      cases p with
      | literal t =>
        have : formatOf (.literal t :: ps) ++ '%' :: 's' :: rest
            = (t.flatMap fun c => if c = '%' then ['%', '%'] else [c]) ++ (formatOf ps ++ '%' :: 's' :: rest) := by
          simp [formatOf]
        rw [this, format_literal]
        have : argsOf (.literal t :: ps) = argsOf ps := rfl
        rw [this, ih]
        rfl
      | text t =>
        have : formatOf (.text t :: ps) ++ '%' :: 's' :: rest = '%' :: 's' :: (formatOf ps ++ '%' :: 's' :: rest) := rfl
        rw [this]
        have : argsOf (.text t :: ps) ++ tail = .text t :: (argsOf ps ++ tail) := rfl
        rw [this, format, ih]
        rfl
      | number m =>
        have : formatOf (.number m :: ps) ++ '%' :: 's' :: rest = '%' :: 'i' :: (formatOf ps ++ '%' :: 's' :: rest) := rfl
        rw [this]
        have : argsOf (.number m :: ps) ++ tail = .number m :: (argsOf ps ++ tail) := rfl
        rw [this, format, ih]
        rfl
  constructor
  · have := key [] (by rw [format] <;> simp)
    rw [List.append_nil] at this
    unfold withText
    rw [this]
  · have := key (.number n :: more) (by rw [format] <;> simp)
    unfold withText
    rw [this]

/-- A message with a text, a number and a percent sign. -/
example : ∃ e, withText "Grid.cpp".toList 12 "File %s has %i%%".toList [.text "a.nc".toList, .number 7] = some e
    ∧ report e = some "EXCEPTION (Grid.cpp, Line 12) File a.nc has 7%".toList :=
  C151_reported "Grid.cpp".toList 12 (by decide)
    [.literal "File ".toList, .text "a.nc".toList, .literal " has ".toList, .number 7, .literal ['%']] (by decide)

end Verif.Base.Failure
