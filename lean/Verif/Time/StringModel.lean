/-
Model of the conversions between `Time` and text (src/base/TimeObj.cpp:387-810).

Simplifications: a `std::string` is a list of characters; `sprintf("%i")` and `atoi` are the functions
`fmtInt` and `atoi` below (C locale, no overflow of `int`); the fixed buffer `char szBuffer[100]` is not
modelled (no format here exceeds it for 32-bit fields).
-/
import Verif.Time.Model

namespace Verif.TimeObj

/-- The character of a decimal digit. -/
def digitChar (n : Nat) : Char := Char.ofNat (48 + n)

/-- `(c >= '0') && (c <= '9')`, TimeObj.cpp:548-552. -/
def isDigit (c : Char) : Bool := decide (48 ≤ c.toNat) && decide (c.toNat ≤ 57)

/-- Decimal digits of a natural number, as printed by `%i`. -/
def natStr (n : Nat) : List Char :=
  if n < 10 then [digitChar n] else natStr (n / 10) ++ [digitChar (n % 10)]
termination_by n
decreasing_by omega

/-- C library `sprintf("%0wi", n)`: zero padding to width `w`, sign counted in the width. -/
def fmtPad (w : Nat) (n : Int) : List Char :=
  if n < 0 then '-' :: (List.replicate (w - 1 - (natStr n.natAbs).length) '0' ++ natStr n.natAbs)
  else List.replicate (w - (natStr n.toNat).length) '0' ++ natStr n.toNat

/-- C library `sprintf("%i", n)`. -/
def fmtInt (n : Int) : List Char := fmtPad 0 n

/-- The digit loop of C library `atoi`: consume digits, stop at the first other character. -/
def atoiDigits (acc : Nat) : List Char → Nat
  | [] => acc
  | c :: cs => if isDigit c then atoiDigits (acc * 10 + (c.toNat - 48)) cs else acc

/-- C library `isspace` in the C locale. -/
def isSpace (c : Char) : Bool := c = ' ' || (decide (9 ≤ c.toNat) && decide (c.toNat ≤ 13))

/-- C library `atoi`: leading white space, an optional sign, then digits. -/
def atoi (s : List Char) : Int :=
  match s.dropWhile isSpace with
  | '-' :: cs => -(atoiDigits 0 cs : Int)
  | '+' :: cs => (atoiDigits 0 cs : Int)
  | cs => (atoiDigits 0 cs : Int)

/-- `Time::ToDateString`, TimeObj.cpp:389-400. -/
def toDateString (t : Time) : Except Err (List Char) :=
  if t.typ ≠ .fixed then .error .notFixed
  else .ok (fmtPad 4 t.year ++ '-' :: (fmtPad 2 (t.month + 1) ++ '-' :: fmtPad 2 (t.day + 1)))

/-- `Time::ToShortString`, TimeObj.cpp:404-415. -/
def toShortString (t : Time) : Except Err (List Char) :=
  if t.typ ≠ .fixed then .error .notFixed
  else .ok (fmtPad 4 t.year ++ '-' :: (fmtPad 2 (t.month + 1) ++ '-' :: (fmtPad 2 (t.day + 1) ++ '-' ::
    fmtPad 5 t.second)))

/-- `Time::ToLongString`, TimeObj.cpp:419-430. -/
def toLongString (t : Time) : Except Err (List Char) :=
  if t.typ ≠ .fixed then .error .notFixed
  else .ok (fmtPad 4 t.year ++ '-' :: (fmtPad 2 (t.month + 1) ++ '-' :: (fmtPad 2 (t.day + 1) ++ '-' ::
    (fmtPad 5 t.second ++ '-' :: fmtPad 6 t.usec))))

/-- `Time::ToString`, TimeObj.cpp:434-462.  C++ `/` and `%` truncate. -/
def toStringOp (t : Time) : Except Err (List Char) :=
  if t.typ ≠ .fixed then .error .notFixed
  else .ok (fmtPad 4 t.year ++ '-' :: (fmtPad 2 (t.month + 1) ++ '-' :: (fmtPad 2 (t.day + 1) ++ ' ' ::
    (fmtPad 2 (t.second.tdiv 3600) ++ ':' :: (fmtPad 2 ((t.second.tmod 3600).tdiv 60) ++ ':' ::
      (fmtPad 2 (t.second.tmod 60) ++ (if t.usec = 0 then [] else '.' :: fmtPad 6 t.usec)))))))

/-- One field of `ToFreeString`: the block `if (v != 0) { sprintf("%i<c>", v); += }`. -/
def freeField (v : Int) (c : Char) : List Char := if v ≠ 0 then fmtInt v ++ [c] else []

/-- `Time::ToFreeString`, TimeObj.cpp:466-493. -/
def toFreeString (t : Time) : List Char :=
  freeField t.year 'y' ++ freeField t.month 'M' ++ freeField t.day 'd' ++ freeField t.second 's'
    ++ freeField t.usec 'u'

/-- `Time::FromLongString`, TimeObj.cpp:497-508, on the receiving object `r` (whose calendar and type are
kept).  The pointer arithmetic `c_str()+k` is `List.drop k`. -/
def fromLongString (r : Time) (s : List Char) : Except Err Time :=
  if s.length ≠ 23 then .error .badString
  else
    let t : Time := { r with
      year := atoi s, month := atoi (s.drop 5) - 1, day := atoi (s.drop 8) - 1,
      second := atoi (s.drop 11), usec := atoi (s.drop 17) }
    match verify t with
    | .ok _ => .ok t
    | .error e => .error e

/-- `FormatState`, TimeObj.cpp:536-540. -/
inductive FmtState
  | date | time | free
  deriving DecidableEq, Repr

/-- Local variables of `FromFormattedString`, TimeObj.cpp:515-546.  A `const char *` into the string is the
remaining text from there on (`none` for NULL); `cur` is the text from index `j`; `moved` says `j != 0`. -/
structure Scan where
  year : Option (List Char) := none
  month : Option (List Char) := none
  day : Option (List Char) := none
  hour : Option (List Char) := none
  minute : Option (List Char) := none
  second : Option (List Char) := none
  usec : Option (List Char) := none
  st : FmtState := .date
  cur : List Char
  moved : Bool := false

/-- The body of the character loop for a non-digit `c`, TimeObj.cpp:554-694; `rest` is the text after `c`. -/
def scanStep (z : Scan) (c : Char) (rest : List Char) : Except Err Scan :=
  if c = '-' ∨ c = ' ' then
    if z.st ≠ .date then .error .badString
    else if z.year = none then .ok { z with year := some z.cur, cur := rest, moved := true }
    else if z.month = none then .ok { z with month := some z.cur, cur := rest, moved := true }
    else if z.day = none then .ok { z with day := some z.cur, cur := rest, moved := true }
    else .error .badString
  else if c = ':' ∨ c = '.' then
    if z.st = .free then .error .badString
    else if z.hour = none then .ok { z with st := .time, hour := some z.cur, cur := rest, moved := true }
    else if z.minute = none then
      .ok { z with st := .time, minute := some z.cur, cur := rest, moved := true }
    else if z.second = none then
      .ok { z with st := .time, second := some z.cur, cur := rest, moved := true }
    else .error .badString
  else if z.st = .time then .error .badString
  else if z.st = .date ∧ z.moved = true then .error .badString
  else if c = 'y' then
    if z.year = none then .ok { z with st := .free, year := some z.cur, cur := rest, moved := true }
    else .error .badString
  else if c = 'M' then
    if z.month = none then .ok { z with st := .free, month := some z.cur, cur := rest, moved := true }
    else .error .badString
  else if c = 'd' then
    if z.day = none then .ok { z with st := .free, day := some z.cur, cur := rest, moved := true }
    else .error .badString
  else if c = 'h' then
    if z.hour = none then .ok { z with st := .free, hour := some z.cur, cur := rest, moved := true }
    else .error .badString
  else if c = 'm' then
    if z.minute = none then .ok { z with st := .free, minute := some z.cur, cur := rest, moved := true }
    else .error .badString
  else if c = 's' then
    if z.second = none then .ok { z with st := .free, second := some z.cur, cur := rest, moved := true }
    else .error .badString
  else if c = 'u' then
    if z.usec = none then .ok { z with st := .free, usec := some z.cur, cur := rest, moved := true }
    else .error .badString
  else .error .badString

/-- The loop over all characters, TimeObj.cpp:545-696. -/
def scanLoop (z : Scan) : List Char → Except Err Scan
  | [] => .ok z
  | c :: rest => if isDigit c then scanLoop z rest
    else match scanStep z c rest with
      | .ok z' => scanLoop z' rest
      | .error e => .error e

/-- "Finalize formatting", TimeObj.cpp:698-745.  `i != j` holds exactly when text is left at `j`. -/
def scanFinish (z : Scan) : Except Err Scan :=
  if z.cur = [] then .ok z
  else match z.st with
    | .date =>
      if z.year = none then .error .badString
      else if z.month = none then .ok { z with month := some z.cur }
      else if z.day = none then .ok { z with day := some z.cur }
      else if z.second = none then .ok { z with second := some z.cur }
      else .error .badString
    | .time =>
      if z.minute = none then .ok { z with minute := some z.cur }
      else if z.second = none then .ok { z with second := some z.cur }
      else if z.usec = none then .ok { z with usec := some z.cur }
      else .error .badString
    | .free => .error .badString

/-- `if (sz != NULL) atoi(sz)` with 0 otherwise. -/
def optAtoi : Option (List Char) → Int
  | none => 0
  | some s => atoi s

/-- `if (sz != NULL) { Free ? atoi(sz) : atoi(sz) - 1 }`, TimeObj.cpp:759-772. -/
def optAtoiBased (st : FmtState) : Option (List Char) → Int
  | none => 0
  | some s => if st = .free then atoi s else atoi s - 1

/-- `Time::FromFormattedString`, TimeObj.cpp:512-810, on the receiving object `r`. -/
def fromFormattedString (r : Time) (s : List Char) : Except Err Time :=
  if s = [] then .ok { r with year := 0, month := 0, day := 0, second := 0, usec := 0 }
  else match scanLoop { cur := s } s with
    | .error e => .error e
    | .ok z =>
      match scanFinish z with
      | .error e => .error e
      | .ok z =>
        normalize {
          year := optAtoi z.year, month := optAtoiBased z.st z.month, day := optAtoiBased z.st z.day,
          second := 3600 * optAtoi z.hour + 60 * optAtoi z.minute + optAtoi z.second,
          usec := optAtoi z.usec, cal := r.cal,
          typ := if z.st = .date ∨ z.st = .time then .fixed else .delta }

end Verif.TimeObj
