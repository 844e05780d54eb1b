/-
C40: evaluation of Legendre polynomials.
-/
import Verif.Legendre.Integral

namespace Verif.Legendre

open Polynomial

theorem val_of_succ (n : Nat) (x : ℝ) :
    val (n + 2) x = ((2 * n + 3) * x * val (n + 1) x - (n + 1) * val n x) / (n + 2) := by
  have h : ((n : ℝ) + 2) ≠ 0 := by positivity
  rw [eq_div_iff h, mul_comm]; exact val_succ n x

theorem der_of_succ (n : Nat) (x : ℝ) :
    der (n + 2) x = ((2 * n + 3) * (val (n + 1) x + x * der (n + 1) x) - (n + 1) * der n x) / (n + 2) := by
  have h : ((n : ℝ) + 2) ≠ 0 := by positivity
  rw [eq_div_iff h, mul_comm]; exact der_succ n x

/-- **C40.**  For every degree and every point, whichever branch computes them, the value is that of the Legendre
polynomial and the derivative is that of its derivative polynomial. -/
theorem C40_evaluate (n : Nat) (x : ℝ) :
    evaluate n x = some ((legendre n).eval x, (derivative (legendre n)).eval x) := by
  change evaluate n x = some (val n x, der n x)
  have v2 := val_of_succ 0 x
  have v3 := val_of_succ 1 x
  have v4 := val_of_succ 2 x
  have v5 := val_of_succ 3 x
  have v6 := val_of_succ 4 x
  have v7 := val_of_succ 5 x
  have v8 := val_of_succ 6 x
  have d2 := der_of_succ 0 x
  have d3 := der_of_succ 1 x
  have d4 := der_of_succ 2 x
  have d5 := der_of_succ 3 x
  have d6 := der_of_succ 4 x
  have d7 := der_of_succ 5 x
  have d8 := der_of_succ 6 x
  norm_num [val_zero, val_one, der_zero, der_one] at v2 v3 v4 v5 v6 v7 v8 d2 d3 d4 d5 d6 d7 d8
  rw [v2] at v3 v4 d3
  rw [v3] at v4 v5 d4
  rw [v4] at v5 v6 d5
  rw [v5] at v6 v7 d6
  rw [v6] at v7 v8 d7
  rw [v7] at v8 d8
  rw [d2] at d3 d4
  rw [d3] at d4 d5
  rw [d4] at d5 d6
  rw [d5] at d6 d7
  rw [d6] at d7 d8
  rw [d7] at d8
  unfold evaluate
  by_cases h9 : (n : Int) < 9
  · rw [if_pos h9]
    have : n < 9 := by omega
    interval_cases n
    · simp [val_zero, der_zero]
    · simp [val_one, der_one]
    · norm_num [v2, d2]; first | done | (constructor <;> ring) | ring
    · norm_num [v3, d3]; first | done | (constructor <;> ring) | ring
    · norm_num [v4, d4]; first | done | (constructor <;> ring) | ring
    · norm_num [v5, d5]; first | done | (constructor <;> ring) | ring
    · norm_num [v6, d6]; first | done | (constructor <;> ring) | ring
    · norm_num [v7, d7]; first | done | (constructor <;> ring) | ring
    · norm_num [v8, d8]; first | done | (constructor <;> ring) | ring
  · rw [if_neg h9]
    obtain ⟨-, h1, -, h2⟩ := loop_spec x (n - 1)
    simp only [Int.toNat_natCast, h1, h2]
    rw [show n - 1 + 1 = n by omega]

/-- **C40 (negative degrees).**  Exactly for negative degrees nothing is computed. -/
theorem C40_negative (n : Int) (x : ℝ) : evaluate n x = none ↔ n < 0 := by
  constructor
  · intro h
    by_contra hn
    obtain ⟨m, rfl⟩ := Int.eq_ofNat_of_zero_le (not_lt.1 hn)
    rw [C40_evaluate] at h
    cases h
  · intro h
    unfold evaluate
    rw [if_pos (by omega), if_neg (by omega), if_neg (by omega), if_neg (by omega), if_neg (by omega), if_neg (by omega),
      if_neg (by omega), if_neg (by omega), if_neg (by omega), if_neg (by omega)]

/-- **C40 (derivative).**  The derivative reported is the derivative of the value reported, as functions of the point. -/
theorem C40_derivative (n : Nat) (x : ℝ) : ∃ v d, evaluate n x = some (v, d) ∧
    HasDerivAt (fun y => ((evaluate n y).map Prod.fst).getD 0) d x := by
  refine ⟨_, _, C40_evaluate n x, ?_⟩
  have : (fun y => ((evaluate n y).map Prod.fst).getD 0) = fun y => (legendre n).eval y := by
    ext y; rw [C40_evaluate]; rfl
  rw [this]
  exact (legendre n).hasDerivAt x

/-- **C40 (recurrence).**  The values of three consecutive degrees satisfy Bonnet's recurrence; those of degrees 0 and 1
are 1 and the point. -/
theorem C40_recurrence (n : Nat) (x : ℝ) : ∃ a b c a' b' c', evaluate n x = some (a, a') ∧
    evaluate (n + 1 : ℕ) x = some (b, b') ∧ evaluate (n + 2 : ℕ) x = some (c, c') ∧
    (n + 2) * c = (2 * n + 3) * x * b - (n + 1) * a ∧ evaluate 0 x = some (1, 0) ∧ evaluate 1 x = some (x, 1) := by
  refine ⟨_, _, _, _, _, _, C40_evaluate n x, C40_evaluate (n + 1) x, C40_evaluate (n + 2) x, val_succ n x, ?_, ?_⟩
  · simp [evaluate]
  · simp [evaluate]

/-- **C40 (ends).**  The value is 1 at 1 and `(-1)ⁿ` at -1. -/
theorem C40_ends (n : Nat) : ∃ d d', evaluate n 1 = some (1, d) ∧ evaluate n (-1) = some ((-1) ^ n, d') := by
  have h1 := val_at_one n
  have h2 := val_neg n 1
  rw [h1, mul_one] at h2
  unfold val at h1 h2
  exact ⟨_, _, by rw [C40_evaluate, h1], by rw [C40_evaluate, h2]⟩

/-- **C40 (second derivative).**  The expression used in refining the roots of the derivative is the second
derivative. -/
theorem C40_second (n : Nat) (x : ℝ) (hx : 1 - x * x ≠ 0) :
    secondDerivative n x ((legendre n).eval x) ((derivative (legendre n)).eval x) =
      (derivative (derivative (legendre n))).eval x := by
  have h := congrArg (eval x) (ode n)
  simp only [derivative_mul, derivative_sub, derivative_one, eval_add, eval_mul, eval_neg, eval_sub, eval_C,
    derivative_X_pow, eval_pow, eval_X, eval_one] at h
  have hx' : 1 - x ^ 2 ≠ 0 := by rw [pow_two]; exact hx
  unfold secondDerivative
  simp at h
  push_cast
  field_simp
  linear_combination -h

/-- **C40 (characterisation).**  What is evaluated is, for each degree `n`, a polynomial of that degree orthogonal over
[-1, 1] to all polynomials of lower degree. -/
theorem C40_orthogonal (n : Nat) : ∃ P : ℝ[X], P.natDegree = n ∧ (∀ x, ∃ d, evaluate n x = some (P.eval x, d)) ∧
    ∀ q : ℝ[X], q.degree < n → ∫ x in (-1 : ℝ)..1, P.eval x * q.eval x = 0 := by
  refine ⟨legendre n, ?_, fun x => ⟨_, C40_evaluate n x⟩, ?_⟩
  · exact natDegree_eq_of_le_of_coeff_ne_zero (legendre_natDegree_le n) (legendre_coeff_pos n).ne'
  · intro q hq
    have := integ_orthogonal n q hq
    rw [integ_apply] at this
    simp only [eval_mul] at this
    rw [← this]
    congr 1
    ext x
    ring

/-- Degree 12 at one half, by the recurrence. -/
example : ¬ ((12 : ℕ) : Int) < 9 ∧ (1 : ℝ) - (1 / 2) * (1 / 2) ≠ 0 ∧ (X : ℝ[X]).degree < (12 : ℕ) := by
  refine ⟨by norm_num, by norm_num, ?_⟩
  rw [degree_X]; norm_num

end Verif.Legendre
