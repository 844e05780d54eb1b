/-
The exceptions of the code (src/base/Exception.h, src/base/Exception.cpp).

Of the conversions of printf those without width and precision for text, %s, and
whole numbers, %i, %d and %u, and the sign itself, %%, are modelled; any other,
one without its argument or with one of another type has no result (`none`), as
has a result that does not fit its buffer.
-/
namespace Verif.Base.Failure

/-- An argument of the constructor: a text or a whole number. -/
inductive Arg where
  | text (t : List Char)
  | number (n : Int)

/-- vsprintf (called at Exception.cpp:49) without the terminator: what is written for a format and arguments. -/
def format : List Char → List Arg → Option (List Char)
  | [], _ => some []
  | '%' :: 's' :: f, .text t :: args => (format f args).map (t ++ ·)
  | '%' :: 'i' :: f, .number n :: args => (format f args).map ((toString n).toList ++ ·)
  | '%' :: 'd' :: f, .number n :: args => (format f args).map ((toString n).toList ++ ·)
  | '%' :: 'u' :: f, .number n :: args => if n < 0 then none else (format f args).map ((toString n).toList ++ ·)
  | '%' :: '%' :: f, args => (format f args).map ('%' :: ·)
  | '%' :: _, _ => none
  | c :: f, args => (format f args).map (c :: ·)

/-- An exception: m_strText, m_strFile, m_uiLine (Exception.h:102-116). -/
structure Failure where
  text : List Char
  file : List Char
  line : Nat

/-- The constructor without text (Exception.cpp:21-28). -/
def plain (file : List Char) (line : Nat) : Failure := ⟨"General exception".toList, file, line⟩

/-- The constructor with text (Exception.cpp:32-55): the buffer has 1024 bytes (Exception.h:74), the last for the terminator. -/
def withText (file : List Char) (line : Nat) (f : List Char) (args : List Arg) : Option Failure :=
  match format f args with
  | none => none
  | some t => if 1024 ≤ t.length then none else some ⟨t, file, line⟩

/-- ToString (Exception.cpp:59-79): the line number is written into a buffer of 128 bytes. -/
def report (e : Failure) : Option (List Char) :=
  let preamble := "EXCEPTION (".toList
  let line := ", Line ".toList ++ (toString e.line).toList ++ ") ".toList
  if 128 ≤ line.length then none else some (preamble ++ e.file ++ line ++ e.text)

end Verif.Base.Failure
