/-
The helpers for text (src/base/StringHelper.h, src/base/STLStringHelper.h).

A byte is its number, 0 to 255.  Memory from a pointer on is the list of its
bytes; reading beyond it has no result (`none`).  char is taken to be signed, so
that tolower and toupper of a byte of 128 or more are undefined (`none`); the
locale is "C".  An int has 32 bits; a value beyond its largest has no result.
-/
namespace Verif.Base.Strings

/-- tolower of the C library in the "C" locale, called at StringHelper.h:39 and STLStringHelper.h:41. -/
def lower (c : Nat) : Option Nat :=
  if 128 ≤ c then none else if 65 ≤ c ∧ c ≤ 90 then some (c + 32) else some c

/-- toupper of the C library in the "C" locale, called at StringHelper.h:48 and STLStringHelper.h:50. -/
def upper (c : Nat) : Option Nat :=
  if 128 ≤ c then none else if 97 ≤ c ∧ c ≤ 122 then some (c - 32) else some c

/-- The loop of ToLower and ToUpper on bytes up to a zero (StringHelper.h:38-41, 47-50). -/
def each (f : Nat → Option Nat) : List Nat → Option (List Nat)
  | [] => none
  | c :: t => if c = 0 then some (c :: t) else
    match f c with
    | none => none
    | some d => match each f t with
      | none => none
      | some u => some (d :: u)

/-- ToLower on bytes (StringHelper.h:37-42). -/
def toLower : List Nat → Option (List Nat) := each lower

/-- ToUpper on bytes (StringHelper.h:46-51). -/
def toUpper : List Nat → Option (List Nat) := each upper

/-- The loop of ToLower and ToUpper on a string with its length (STLStringHelper.h:40-42, 49-51).  The index of 32 bits is taken to reach the length. -/
def eachIn (f : Nat → Option Nat) : List Nat → Option (List Nat)
  | [] => some []
  | c :: t =>
    match f c with
    | none => none
    | some d => match eachIn f t with
      | none => none
      | some u => some (d :: u)

/-- ToLower on a string (STLStringHelper.h:38-43). -/
def toLowerIn : List Nat → Option (List Nat) := eachIn lower

/-- ToUpper on a string (STLStringHelper.h:47-52). -/
def toUpperIn : List Nat → Option (List Nat) := eachIn upper

/-- IgnoreWhitespace, both forms: how far the pointer moves (StringHelper.h:55-66, 70-81). -/
def ignoreWhitespace : List Nat → Option Nat
  | [] => none
  | c :: t => if c = 32 ∨ c = 9 ∨ c = 13 ∨ c = 10 then (ignoreWhitespace t).map (· + 1) else some 0

/-- FindWhitespace, both forms: how far the pointer moves (StringHelper.h:85-97, 101-113). -/
def findWhitespace : List Nat → Option Nat
  | [] => none
  | c :: t => if c ≠ 32 ∧ c ≠ 9 ∧ c ≠ 13 ∧ c ≠ 10 ∧ c ≠ 0 then (findWhitespace t).map (· + 1) else some 0

/-- strlen of the C library, called at StringHelper.h:122. -/
def length : List Nat → Option Nat
  | [] => none
  | c :: t => if c = 0 then some 0 else (length t).map (· + 1)

/-- The largest int. -/
def intMax : Nat := 2147483647

/-- One turn of the loop of StringToHex on the value so far: `some none` is the return of -1 (StringHelper.h:127-136).  The sums are formed from left to
right, so that the byte is added before '0' or 'A' is subtracted. -/
def hexStep (value c : Nat) : Option (Option Nat) :=
  if intMax < value * 16 then none else
  if 48 ≤ c ∧ c ≤ 57 then (if intMax < value * 16 + c then none else some (some (value * 16 + c - 48))) else
  if 65 ≤ c ∧ c ≤ 70 then (if intMax < value * 16 + 10 + c then none else some (some (value * 16 + 10 + c - 65))) else
  if 97 ≤ c ∧ c ≤ 102 then (if intMax < value * 16 + 10 + c then none else some (some (value * 16 + 10 + c - 97))) else
  some none

/-- The loop of StringToHex, from the last byte to the first (StringHelper.h:126-137). -/
def hexLoop : List Nat → Option (Option Nat)
  | [] => some (some 0)
  | c :: t =>
    match hexLoop t with
    | none => none
    | some none => some none
    | some (some value) => hexStep value c

/-- StringToHex (StringHelper.h:117-140).  No bytes are read when the length is negative; the last byte is read first, so a length beyond the memory has no
result. -/
def stringToHex (s : List Nat) (n : Int) : Option Int :=
  let bytes : Option (List Nat) :=
    if n = 0 then (length s).map fun k => s.take k
    else if n < 0 then some []
    else if s.length < n.toNat then none else some (s.take n.toNat)
  match bytes with
  | none => none
  | some b => match hexLoop b with
    | none => none
    | some none => some (-1)
    | some (some value) => some (value : Int)

end Verif.Base.Strings
