/-
One value in memory of its own or in memory given to it
(src/base/DataStruct.h, DataStruct<T>).

The value is an integer.  Memory is a function of places; a place is a block the
object has allocated, by number, or a place outside it.  malloc is taken to
succeed.  Arguments of the type DataStruct are attached outside, or not at all.
-/
namespace Verif.Container.Struct

/-- A place in memory: the n-th block malloc has returned to this object, or a place outside. -/
inductive Place where
  | block (n : Nat)
  | outside (k : Nat)
  deriving DecidableEq

/-- The functions that release memory. -/
inductive Release where
  | free
  | deleteArray
  deriving DecidableEq

/-- The object (m_fOwnsData, m_data; DataStruct.h:243-249) and memory: its contents, how many blocks were allocated, what was released and how. -/
structure World where
  owns : Bool
  data : Option Place
  mem : Place → Int
  blocks : Nat
  released : List (Place × Release)

/-- The default constructor (DataStruct.h:35-38). -/
def construct (mem : Place → Int) : World := ⟨true, none, mem, 0, []⟩

/-- What a call does: it returns, perhaps with a value, throws and leaves all as it was, or is undefined. -/
inductive Outcome where
  | ret (w : World) (value : Option Int)
  | thrown
  | undefined

/-- A value stored at a place. -/
def store (w : World) (p : Place) (v : Int) : World := { w with mem := fun q => if q = p then v else w.mem q }

/-- Detach, and with it the destructor (DataStruct.h:53-55, 112-118). -/
def detach (w : World) : World :=
  let w := match w.owns, w.data with
    | true, some p => { w with released := w.released ++ [(p, Release.deleteArray)] }
    | _, _ => w
  { w with owns := true, data := none }

/-- Zero (DataStruct.h:176-185). -/
def zero (w : World) : Outcome :=
  match w.data with
  | none => .thrown
  | some p => .ret (store w p 0) none

/-- Allocate (DataStruct.h:73-88); its call of Detach comes when there are no data. -/
def allocate (w : World) : Outcome :=
  if w.owns = false then .thrown
  else
    let w := match w.data with
      | none => let w := detach w; { w with data := some (.block w.blocks), blocks := w.blocks + 1 }
      | some _ => w
    match zero w with
    | .ret w _ => .ret { w with owns := true } none
    | o => o

/-- AttachToData (DataStruct.h:100-107); `none` is a null pointer. -/
def attach (w : World) (ptr : Option Nat) : Outcome :=
  if w.data.isSome then .thrown else .ret { w with data := ptr.map .outside, owns := false } none

/-- Deallocate (DataStruct.h:123-129). -/
def deallocate (w : World) : Outcome := if w.owns = false then .thrown else .ret (detach w) none

/-- Scale (DataStruct.h:190-199). -/
def scale (w : World) (x : Int) : Outcome :=
  match w.data with
  | none => .thrown
  | some p => .ret (store w p (w.mem p * x)) none

/-- AddProduct (DataStruct.h:204-218). -/
def addProduct (w : World) (src : Option Nat) (x : Int) : Outcome :=
  match w.data with
  | none => .thrown
  | some p => match src with
    | none => .thrown
    | some k => .ret (store w p (w.mem p + x * w.mem (.outside k))) none

/-- Assign from another object (DataStruct.h:143-164). -/
def assign (w : World) (src : Option Nat) : Outcome :=
  match src with
  | none => if w.data.isSome then .thrown else .ret w none
  | some k =>
    let o := if w.data.isSome then .ret w none else allocate w
    match o with
    | .ret w _ => match w.data with
      | none => .undefined
      | some p => .ret (store w p (w.mem (.outside k))) none
    | o => o

/-- Assignment of a value (DataStruct.h:231-237). -/
def set (w : World) (t : Int) : Outcome :=
  match w.data with
  | none => .thrown
  | some p => .ret (store w p t) none

/-- The cast to the value (DataStruct.h:224-226), which reads through the pointer unchecked. -/
def read (w : World) : Outcome :=
  match w.data with
  | none => .undefined
  | some p => .ret w (some (w.mem p))

/-- The calls. -/
inductive Call where
  | allocate
  | attach (ptr : Option Nat)
  | detach
  | deallocate
  | zero
  | scale (x : Int)
  | addProduct (src : Option Nat) (x : Int)
  | assign (src : Option Nat)
  | set (t : Int)
  | read

/-- One call. -/
def call (w : World) : Call → Outcome
  | .allocate => allocate w
  | .attach ptr => attach w ptr
  | .detach => .ret (detach w) none
  | .deallocate => deallocate w
  | .zero => zero w
  | .scale x => scale w x
  | .addProduct src x => addProduct w src x
  | .assign src => assign w src
  | .set t => set w t
  | .read => read w

/-- A history of calls; one that throws is caught, an undefined one ends it. -/
def run (w : World) : List Call → Option World
  | [] => some w
  | c :: cs =>
    match call w c with
    | .ret w _ => run w cs
    | .thrown => run w cs
    | .undefined => none

/-- GetByteSize for a type of the given size and words of the given size (DataStruct.h:60-68). -/
def byteSize (size word : Nat) : Nat := if size % word = 0 then size else (size / word + 1) * word

end Verif.Container.Struct
