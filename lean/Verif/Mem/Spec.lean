/-
Vocabulary for the statements about arrays and their memory.
-/
import Verif.Mem.Model
import Mathlib.Data.List.Forall2

namespace Verif.Mem

/-- The bytes an array refers to, if it is attached. -/
def contents (w : World) (i : Nat) : Option (List UInt8) :=
  match (w.arr i).ptr with
  | none => none
  | some (b, o) => match w.heap.blk b with
    | none => none
    | some B => some ((List.range (byteSize (w.arr i))).map fun k => B.dat (o + k))

/-- A program start: no array attached, no array-owned memory, finitely many caller buffers. -/
structure Start (w : World) : Prop where
  fresh : ∀ b, w.heap.next ≤ b → w.heap.blk b = none
  ext : ∀ b B, w.heap.blk b = some B → B.malloced = false
  null : ∀ i, (w.arr i).ptr = none ∧ (w.arr i).owns = true

/-- What the caller must respect: static typing of the calls (number of dimensions, element type), memory
given to `AttachToData` is the caller's own and large enough, element writes use indices in range, and
assigned views do not partially overlap. -/
def OpOk (w : World) : Op → Prop
  | .allocate i args => args.length = (w.arr i).shape.length
  | .setSize i s => s.length = (w.arr i).shape.length
  | .attach i b o => ∃ B, w.heap.blk b = some B ∧ B.malloced = false ∧ o + byteSize (w.arr i) ≤ B.len
  | .detach _ => True
  | .deallocate _ => True
  | .zero _ => True
  | .assign d s => (w.arr d).shape.length = (w.arr s).shape.length ∧ (w.arr d).sz = (w.arr s).sz ∧
      ∀ b o o', (w.arr d).ptr = some (b, o) → (w.arr s).ptr = some (b, o') →
        o = o' ∨ o + byteSize (w.arr d) ≤ o' ∨ o' + byteSize (w.arr d) ≤ o
  | .write i idx _ => (w.arr i).ptr ≠ none ∧ 1 ≤ (w.arr i).shape.length ∧ (w.arr i).shape.length ≤ 4 ∧
      List.Forall₂ (· < ·) idx (w.arr i).shape

/-- A sequence of calls each of which the caller may make in the state it is made in. -/
def OpsOk (w : World) : List Op → Prop
  | [] => True
  | op :: ops => OpOk w op ∧ match step op w with
    | .ok w' => OpsOk w' ops
    | .exc w' => OpsOk w' ops
    | .ub => True

/-- States a program can reach. -/
def Reachable (w : World) : Prop := ∃ w0 ops, Start w0 ∧ OpsOk w0 ops ∧ runOps ops w0 = .ok w

end Verif.Mem
