/-!
# Preference files

Models `Preferences::ParsePreferences` and the lookups
(src/base/Preferences.cpp:29-335).  A file is a list of characters; it is taken to
contain no NUL characters (the program would treat one as the end of the line).
-/

namespace Verif.Prefs

abbrev Text := List Char

/-- What reading a file comes to: a table in insertion order (first entry of a name
first), an exception, an endless loop, or undefined behaviour. -/
inductive Outcome
  | ok (entries : List (Text × Text))
  | throws
  | hangs
  | undefined
deriving DecidableEq

/-- The file cut at newlines: the complete lines, and what follows the last newline.
This is what successive calls of `getline` deliver (src/base/Preferences.cpp:46-50). -/
def cut : Text → List Text × Text
  | [] => ([], [])
  | c :: cs =>
    let r := cut cs
    if c = '\n' then ([] :: r.1, r.2)
    else match r.1 with
      | [] => ([], c :: r.2)
      | l :: ls => ((c :: l) :: ls, r.2)

/-- Removing spaces at the end of the name, from index `i` down
(src/base/Preferences.cpp:77-88): `none` is the exception for a name made of
spaces only.  Writing NUL at index `i` cuts the string there. -/
def nameEnd (s : Text) : Nat → Option Text
  | 0 => if s[0]? = some ' ' then none else some s
  | i + 1 => if s[i + 1]? = some ' ' then nameEnd (s.take (i + 1)) i else some s

/-- Removing spaces at the end of the value (src/base/Preferences.cpp:102-113); a
value made of spaces only becomes empty. -/
def valueEnd (s : Text) : Nat → Text
  | 0 => if s[0]? = some ' ' then s.take 0 else s
  | i + 1 => if s[i + 1]? = some ' ' then valueEnd (s.take (i + 1)) i else s

/-- Removing spaces at the beginning (src/base/Preferences.cpp:90-98, 115-123): the
pointer advances while it points at a space; the counter goes to -1 and back to 0
each time, so the loop ends at the first other character. -/
def dropSpaces : Text → Text
  | ' ' :: cs => dropSpaces cs
  | s => s

/-- `std::map::insert` (src/base/Preferences.cpp:126-128): an existing name keeps its
value. -/
def insert (m : List (Text × Text)) (name value : Text) : List (Text × Text) :=
  if m.any (fun e => e.1 = name) then m else m ++ [(name, value)]

/-- The effect of one line (src/base/Preferences.cpp:52-128), given as the text in the
buffer.

An empty name makes the program read `szName[-1]`, outside the buffer: undefined.
An empty value makes it read `szEqual[-1]`, which is the NUL just written over the
equal sign, so the loop ends at once and the value is empty (this relies on the
index `(size_t)-1` wrapping around to one before the pointer). -/
def line (m : List (Text × Text)) (s : Text) : Outcome :=
  if s = [] then .ok m
  else if s.head? = some '#' then .ok m
  else if s.contains '=' = false then .throws
  else
    let name := s.takeWhile (fun c => c ≠ '=')
    let value := (s.dropWhile (fun c => c ≠ '=')).drop 1
    if name = [] then .undefined
    else match nameEnd name (name.length - 1) with
      | none => .throws
      | some n =>
        let v := if value = [] then value else valueEnd value (value.length - 1)
        .ok (insert m (dropSpaces n) (dropSpaces v))

/-- The loop over lines (src/base/Preferences.cpp:46-129).  A line of more than 255
characters fills the buffer and sets the stream's fail bit: its first 255
characters are treated as a line, and every further `getline` fails without
reaching the end of the file, so the loop never ends. -/
def run (m : List (Text × Text)) : List Text → Text → Outcome
  | [], rest =>
    if rest.length > 255 then
      match line m (rest.take 255) with
      | .ok _ => .hangs
      | o => o
    else .ok m
  | l :: ls, rest =>
    if l.length > 255 then
      match line m (l.take 255) with
      | .ok _ => .hangs
      | o => o
    else match line m l with
      | .ok m' => run m' ls rest
      | o => o

/-- `ParsePreferences` on a file that could be opened: the table is emptied first
(src/base/Preferences.cpp:33). -/
def parse (file : Text) : Outcome := run [] (cut file).1 (cut file).2

/-- `m_mapPreferences.find` (src/base/Preferences.cpp:137). -/
def find (m : List (Text × Text)) (name : Text) : Option Text :=
  (m.find? (fun e => e.1 = name)).map (fun e => e.2)

/-- `GetPreferenceAsString_NoThrow` (src/base/Preferences.cpp:149-167): the string and
the error code. -/
def asStringNoThrow (m : List (Text × Text)) (name : Text) : Text × Int :=
  match find m name with
  | none => ([], 1)
  | some v => (v, 0)

/-- `GetPreferenceAsString` (src/base/Preferences.cpp:266-291): `none` is the
exception. -/
def asString (m : List (Text × Text)) (name : Text) : Option Text := find m name

/-- `tolower` in the C locale. -/
def lower (c : Char) : Char :=
  if 65 ≤ c.toNat ∧ c.toNat ≤ 90 then Char.ofNat (c.toNat + 32) else c

/-- `GetPreferenceAsString_NoCase` (src/base/Preferences.cpp:295-302). -/
def asStringNoCase (m : List (Text × Text)) (name : Text) : Option Text :=
  (find m name).map (fun v => v.map lower)

end Verif.Prefs
