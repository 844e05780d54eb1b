/-
Model of linear column operators (src/atm/LinearColumnOperator.{h,cpp}).

Simplifications: `double` is the real numbers.  A row of the coefficient matrix is a function of the column index, with the
stored range `[ibegin, iend)`.  Columns of data are functions of the index.  The input and output columns are different
arrays, as they are at every call.  The `DEBUG` check that the operator was initialised is left out.
-/
import Mathlib.Data.Real.Basic

namespace Verif.Column

/-- A row of coefficients with its range (`m_dCoeff[k]`, `m_iBegin[k]`, `m_iEnd[k]`). -/
structure Row where
  coeff : Nat → ℝ
  ibegin : Nat
  iend : Nat

/-- `LinearColumnOperator`, LinearColumnOperator.h:28 and 280-300: the rows, the number of rows (outputs) and of columns
(inputs). -/
structure Op where
  rows : Nat
  cols : Nat
  row : Nat → Row

/-- A row after allocation: zeros and an empty range. -/
def blank : Row := ⟨fun _ => 0, 0, 0⟩

/-- `Initialize`, LinearColumnOperator.cpp:37-45 (allocation zeroes the arrays). -/
def allocated (nIn nOut : Nat) : Op := ⟨nOut, nIn, fun _ => blank⟩

/-- `InitializeIdentity`, LinearColumnOperator.cpp:49-62. -/
def identity (n : Nat) : Op :=
  ⟨n, n, fun i => if i < n then ⟨fun j => if j = i then 1 else 0, i, i + 1⟩ else blank⟩

/-- The inner loop of `ComposeWith`, LinearColumnOperator.cpp:96-98. -/
noncomputable def product (A B : Op) (i j : Nat) : ℝ :=
  (List.range A.cols).foldl (fun s k => s + (A.row i).coeff k * (B.row k).coeff j) 0

/-- The scan for the non-zero interval of a row, LinearColumnOperator.cpp:104-113: begin, end and `fFoundBegin`. -/
structure Scan where
  ibegin : Nat
  iend : Nat
  found : Bool

open Classical in
/-- One pass of the scan, LinearColumnOperator.cpp:106-112. -/
noncomputable def scanStep (c : Nat → ℝ) (s : Scan) (j : Nat) : Scan :=
  if c j ≠ 0 then ⟨if s.found then s.ibegin else j, j + 1, true⟩ else s

/-- The scan of a row of `n` coefficients. -/
noncomputable def scan (c : Nat → ℝ) (n : Nat) : Scan := (List.range n).foldl (scanStep c) ⟨0, 0, false⟩

/-- `ComposeWith`, LinearColumnOperator.cpp:66-120; `none` is an exception. -/
noncomputable def compose (A B : Op) : Option Op :=
  if A.cols ≠ B.rows then none
  else if A.rows = 0 then none
  else if B.cols = 0 then none
  else some ⟨A.rows, B.cols, fun i =>
    let s := scan (product A B i) B.cols
    ⟨product A B i, s.ibegin, s.iend⟩⟩

/-- The loop over the stored range starting from `start`: `start + Σ coeff[l] * f(l)`. -/
noncomputable def rowLoop (r : Row) (start : ℝ) (f : Nat → ℝ) : ℝ :=
  (List.range (r.iend - r.ibegin)).foldl (fun s t => s + r.coeff (r.ibegin + t) * f (r.ibegin + t)) start

/-- `Apply` for one row, LinearColumnOperator.h:82-97. -/
noncomputable def applyRow (A : Op) (x : Nat → ℝ) (k : Nat) : ℝ := rowLoop (A.row k) 0 x

/-- `Apply` for one row with a stride, LinearColumnOperator.h:103-121. -/
noncomputable def applyRowStride (A : Op) (x : Nat → ℝ) (k stride : Nat) : ℝ :=
  rowLoop (A.row k) 0 fun l => x (l * stride)

/-- `Apply` for one row with a reference state, LinearColumnOperator.h:127-147. -/
noncomputable def applyRowRef (A : Op) (x xref : Nat → ℝ) (refOut : ℝ) (k stride : Nat) : ℝ :=
  rowLoop (A.row k) refOut fun l => x (l * stride) - xref (l * stride)

/-- `Apply` to a whole column with strides, LinearColumnOperator.h:178-203; strides 1 and 1 are 153-172. -/
noncomputable def applyAll (A : Op) (x out : Nat → ℝ) (strideIn strideOut : Nat) : Nat → ℝ :=
  (List.range A.rows).foldl
    (fun o k => Function.update o (k * strideOut) (rowLoop (A.row k) 0 fun l => x (l * strideIn))) out

/-- `ApplyWithRef` with strides, LinearColumnOperator.h:236-266; strides 1 and 1 are 208-230. -/
noncomputable def applyAllRef (A : Op) (x xref out outref : Nat → ℝ) (strideIn strideOut : Nat) : Nat → ℝ :=
  (List.range A.rows).foldl
    (fun o k => Function.update o (k * strideOut)
      (rowLoop (A.row k) (outref (k * strideOut)) fun l => x (l * strideIn) - xref (l * strideIn))) out

end Verif.Column
