import Verif.Horiz.Basis
import Verif.Horiz.Loop
import Verif.Interp.Props
import Mathlib.Tactic.NormNum
import Mathlib.Tactic.IntervalCases
import Mathlib.Tactic.FieldSimp
import Mathlib.Tactic.Linarith

/-!
# C74: the derivative and stiffness coefficients
-/

namespace Verif.Horiz

open Verif.Interp

/-- Derivative and stiffness coefficients that belong together for weights `ω`: the derivative of a constant is zero and
the stiffness is the weighted transpose of the derivative. -/
structure Paired (n : Nat) (B : Basis) (ω : Nat → ℝ) : Prop where
  constant : ∀ i, i < n → ∑ m ∈ Finset.range n, B.dx m i = 0
  transpose : ∀ m i, m < n → i < n → ω m * B.stiff m i = ω i * B.dx m i

/-- The weights of the Gauss-Lobatto rule of order four on `[0, 1]`. -/
noncomputable def lobattoFour (i : Nat) : ℝ := if i = 0 ∨ i = 3 then 1 / 12 else 5 / 12

/-- **C74 (coefficients).**  For every order other than four, the derivative and stiffness coefficients of the grid
belong together for the weights of the quadrature rule in use. -/
theorem C74_paired (n : Nat) (hn : 0 < n) (h4 : n ≠ 4) (x w : Nat → ℝ) (hx : ApartNodes n x)
    (hw : ∀ i, i < n → w i ≠ 0) : Paired n (basisOf n x w) w := by
  constructor
  · intro i _
    have h := (C39_sum_zero n hn x hx (x i)).1
    unfold diffCoeffs at h
    rw [← h]
    unfold basisOf
    rw [if_neg h4]
    rfl
  · intro m i hm _
    unfold basisOf
    rw [if_neg h4]
    have := hw m hm
    simp only
    field_simp

/-- **C74 (coefficients, order four).**  The table for order four belongs together for the Gauss-Lobatto weights
`1/12, 5/12, 5/12, 1/12`. -/
theorem C74_paired_four (x w : Nat → ℝ) : Paired 4 (basisOf 4 x w) lobattoFour := by
  constructor
  · intro i hi
    unfold basisOf
    rw [if_pos rfl]
    interval_cases i <;>
      norm_num [Finset.sum_range_succ, dxTable, lit8090, lit3090, lit1618, lit2236, lit0618]
  · intro m i hm hi
    unfold basisOf
    rw [if_pos rfl]
    interval_cases m <;> interval_cases i <;>
      norm_num [lobattoFour, dxTable, stiffTable, lit8090, lit3090, lit1618, lit2236, lit0618]

/-- The doubles of the table are within half a unit in the last place of the literals of the code. -/
theorem table_literals :
    |lit1618 - 1.61803398874989490252573887119| ≤ 1 / 2 ^ 53 ∧ |lit2236 - 2.23606797749978980505147774238| ≤ 1 / 2 ^ 52 ∧
    |lit0618 - 0.618033988749894902525738871191| ≤ 1 / 2 ^ 54 ∧
    |lit8090 - 8.09016994374947451262869435595| ≤ 1 / 2 ^ 50 ∧ |lit3090 - 3.09016994374947451262869435595| ≤ 1 / 2 ^ 52 := by
  refine ⟨?_, ?_, ?_, ?_, ?_⟩ <;> (rw [abs_le]; constructor <;>
    norm_num [lit8090, lit3090, lit1618, lit2236, lit0618])

/-- The nodes of the grid for order four, src/atm/GridGLL.cpp:111-114. -/
def nodesFour : Nat → ℚ
  | 0 => 0
  | 1 => 2.76393202250021063903773210768 / 10
  | 2 => 7.23606797749978936096226789232 / 10
  | _ => 1

/-- **C74 (table).**  The table for order four differentiates every cubic at the nodes, up to rounding: the derivative of
`q₀ + q₁ x + q₂ x² + q₃ x³` is found to within `10⁻¹⁴` times the size of the coefficients. -/
theorem C74_table (i : Nat) (hi : i < 4) (q : Nat → ℝ) (f : ℝ → ℝ)
    (hf : ∀ x, f x = q 0 + q 1 * x + q 2 * x ^ 2 + q 3 * x ^ 3) (x w : Nat → ℝ) :
    |∑ m ∈ Finset.range 4, (basisOf 4 x w).dx m i * f (nodesFour m) -
      (q 1 + 2 * q 2 * nodesFour i + 3 * q 3 * nodesFour i ^ 2)| ≤
      1 / 10 ^ 14 * (|q 0| + |q 1| + |q 2| + |q 3|) := by
  have hb : ∀ e c Q : ℝ, |e| ≤ c → |e * Q| ≤ c * |Q| := by
    intro e c Q he
    rw [abs_mul]
    exact mul_le_mul_of_nonneg_right he (abs_nonneg Q)
  unfold basisOf
  rw [if_pos rfl]
  simp only [hf]
  set e0 : ℝ := ∑ m ∈ Finset.range 4, (dxTable m i : ℝ) with he0
  set e1 : ℝ := ∑ m ∈ Finset.range 4, (dxTable m i : ℝ) * nodesFour m - 1 with he1
  set e2 : ℝ := ∑ m ∈ Finset.range 4, (dxTable m i : ℝ) * nodesFour m ^ 2 - 2 * nodesFour i with he2
  set e3 : ℝ := ∑ m ∈ Finset.range 4, (dxTable m i : ℝ) * nodesFour m ^ 3 - 3 * nodesFour i ^ 2 with he3
  have b0 : |e0| ≤ 1 / 10 ^ 14 := by
    rw [he0, abs_le]
    interval_cases i <;> constructor <;>
      norm_num [Finset.sum_range_succ, dxTable, lit8090, lit3090, lit1618, lit2236, lit0618]
  have b1 : |e1| ≤ 1 / 10 ^ 14 := by
    rw [he1, abs_le]
    interval_cases i <;> constructor <;>
      norm_num [Finset.sum_range_succ, dxTable, nodesFour, lit8090, lit3090, lit1618, lit2236, lit0618]
  have b2 : |e2| ≤ 1 / 10 ^ 14 := by
    rw [he2, abs_le]
    interval_cases i <;> constructor <;>
      norm_num [Finset.sum_range_succ, dxTable, nodesFour, lit8090, lit3090, lit1618, lit2236, lit0618]
  have b3 : |e3| ≤ 1 / 10 ^ 14 := by
    rw [he3, abs_le]
    interval_cases i <;> constructor <;>
      norm_num [Finset.sum_range_succ, dxTable, nodesFour, lit8090, lit3090, lit1618, lit2236, lit0618]
  have he : ∑ m ∈ Finset.range 4, (dxTable m i : ℝ) *
        (q 0 + q 1 * nodesFour m + q 2 * (nodesFour m : ℝ) ^ 2 + q 3 * (nodesFour m : ℝ) ^ 3) -
      (q 1 + 2 * q 2 * nodesFour i + 3 * q 3 * nodesFour i ^ 2) = e0 * q 0 + e1 * q 1 + e2 * q 2 + e3 * q 3 := by
    rw [he0, he1, he2, he3]
    simp only [Finset.sum_range_succ, Finset.sum_range_zero]
    ring
  rw [he]
  have t1 := abs_add_le (e0 * q 0 + e1 * q 1 + e2 * q 2) (e3 * q 3)
  have t2 := abs_add_le (e0 * q 0 + e1 * q 1) (e2 * q 2)
  have t3 := abs_add_le (e0 * q 0) (e1 * q 1)
  have := hb e0 _ (q 0) b0
  have := hb e1 _ (q 1) b1
  have := hb e2 _ (q 2) b2
  have := hb e3 _ (q 3) b3
  linarith

end Verif.Horiz
