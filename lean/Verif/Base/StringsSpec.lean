/-
What the helpers for text should do, without reference to their code.
-/
import Mathlib.Data.Nat.Digits.Defs
namespace Verif.Base.Strings.Spec

/-- The letters of the alphabet, small and capital. -/
def smallLetters : List Char := "abcdefghijklmnopqrstuvwxyz".toList

def capitalLetters : List Char := "ABCDEFGHIJKLMNOPQRSTUVWXYZ".toList

/-- The bytes of a text of characters. -/
def bytes (t : List Char) : List Nat := t.map Char.toNat

/-- A text: ASCII characters other than the terminator. -/
def Text (t : List Char) : Prop := ∀ c ∈ t, c.toNat < 128 ∧ c.toNat ≠ 0

/-- White space. -/
def Blank (c : Char) : Prop := c = ' ' ∨ c = '\t' ∨ c = '\r' ∨ c = '\n'

/-- A hexadecimal digit and its value. -/
def HexDigit (c : Char) (v : Nat) : Prop :=
  (c, v) ∈ "0123456789ABCDEF".toList.zip (List.range 16) ∨ (c, v) ∈ "0123456789abcdef".toList.zip (List.range 16)

/-- The number written in hexadecimal with the given values of the digits, the first the most significant, as numbers are written. -/
def written (values : List Nat) : Nat := Nat.ofDigits 16 values.reverse

end Verif.Base.Strings.Spec
