/-
What the statements about restart files mean.
-/
import Verif.Restart.Model

namespace Verif.Restart

open Verif.TimeObj

/-- An `int`. -/
def IsInt (i : Int) : Prop := -2147483648 ≤ i ∧ i < 2147483648

/-- The first four bytes of an index, low byte first. -/
def indexBytes (i : Nat) : Bytes :=
  [UInt8.ofNat (i % 256), UInt8.ofNat (i / 256 % 256), UInt8.ofNat (i / 65536 % 256), UInt8.ofNat (i / 16777216 % 256)]

/-- What a run holds is of the shape its grid prescribes: every box of the table is set, containers have their
prescribed lengths, below two gigabytes, and begin with the index of their patch; the time is made of `int`s. -/
structure Fits (L : Layout) (w : World) : Prop where
  params : w.params.length = L.paramSize
  table : w.table.length = L.tableSize w.params
  pos : 0 < L.count w.table
  bound : L.count w.table < 2147483648
  rows : L.rows w.params = L.count w.table
  geo : ∀ i, i < L.count w.table → (w.geo i).length = L.geoSize w.params w.table i ∧
    (w.geo i).length < 2147483648 ∧ ∃ r, w.geo i = indexBytes i ++ r
  act : ∀ i, i < L.count w.table → (w.act i).length = L.actSize w.params w.table i ∧
    (w.act i).length < 2147483648 ∧ ∃ r, w.act i = indexBytes i ++ r
  time : IsInt w.time.year ∧ IsInt w.time.month ∧ IsInt w.time.day ∧ IsInt w.time.second ∧ IsInt w.time.usec

/-- Length of what comes before the patches: an `int`, seven `int`s, the parameters and the table. -/
def headerSize (L : Layout) (w : World) : Nat := 4 + 28 + L.paramSize + L.tableSize w.params

/-- Where the two containers of patch `i` begin. -/
def geoPlace (L : Layout) (w : World) : Nat → Nat
  | 0 => headerSize L w
  | i + 1 => geoPlace L w i + (w.geo i).length + (w.act i).length

def actPlace (L : Layout) (w : World) (i : Nat) : Nat := geoPlace L w i + (w.geo i).length

/-- The container of a patch just created: its index and zeros. -/
def blank (i n : Nat) : Bytes := (indexBytes i ++ List.replicate (n - 4) 0).take n

/-- What is left of a container that begins at `place` when only `cut` bytes of the file exist: the rest is as in a
patch just created. -/
def torn (cut place i : Nat) (saved : Bytes) : Bytes :=
  saved.take (cut - place) ++ (blank i saved.length).drop (cut - place)

/-- Messages arrive in some order, each once. -/
def AnyOrder (arrive : List Msg → List Msg) : Prop := ∀ l, (arrive l).Perm l

end Verif.Restart
