/-
Integrals of polynomials over [-1, 1]: orthogonality and norm of the Legendre polynomials.
-/
import Mathlib.Analysis.Calculus.Deriv.Polynomial
import Mathlib.Topology.Algebra.Polynomial
import Mathlib.Algebra.Polynomial.Eval.SMul
import Mathlib.MeasureTheory.Integral.IntervalIntegral.FundThmCalculus
import Verif.Legendre.Lemmas

namespace Verif.Legendre

open Polynomial

/-- Integral of a polynomial over an interval, as a linear map. -/
noncomputable def integ (a b : ℝ) : ℝ[X] →ₗ[ℝ] ℝ where
  toFun p := ∫ x in a..b, p.eval x
  map_add' p q := by
    simp only [eval_add]
    exact intervalIntegral.integral_add (p.continuous.intervalIntegrable _ _) (q.continuous.intervalIntegrable _ _)
  map_smul' c p := by
    simp only [eval_smul, smul_eq_mul, RingHom.id_apply]
    exact intervalIntegral.integral_const_mul c _

theorem integ_apply (a b : ℝ) (p : ℝ[X]) : integ a b p = ∫ x in a..b, p.eval x := rfl

theorem integ_C_mul (a b c : ℝ) (p : ℝ[X]) : integ a b (C c * p) = c * integ a b p := by
  rw [C_mul', map_smul, smul_eq_mul]

theorem integ_derivative (a b : ℝ) (p : ℝ[X]) : integ a b (derivative p) = p.eval b - p.eval a := by
  rw [integ_apply]
  exact intervalIntegral.integral_eq_sub_of_hasDerivAt (fun x _ => p.hasDerivAt x)
    ((derivative p).continuous.intervalIntegrable _ _)

/-- Integration by parts. -/
theorem integ_parts (a b : ℝ) (p q : ℝ[X]) : integ a b (p * derivative q) =
    (p * q).eval b - (p * q).eval a - integ a b (derivative p * q) := by
  have := integ_derivative a b (p * q)
  rw [derivative_mul, map_add] at this
  linarith

theorem legendre_succ_eq (n : Nat) : X * legendre (n + 1) =
    C (((n : ℝ) + 2) / (2 * n + 3)) * legendre (n + 2) + C (((n : ℝ) + 1) / (2 * n + 3)) * legendre n := by
  apply Polynomial.funext
  intro x
  have := val_succ n x
  simp only [val] at this
  simp only [eval_mul, eval_add, eval_X, eval_C]
  have h3 : (2 * (n : ℝ) + 3) ≠ 0 := by positivity
  field_simp
  linear_combination -this

theorem integ_legendre (n : Nat) (hn : 0 < n) : integ (-1) 1 (legendre n) = 0 := by
  have h := congrArg (integ (-1) 1) (ode n)
  rw [integ_derivative, neg_mul, map_neg, integ_C_mul] at h
  simp at h
  rcases h with (h | h) | h
  · omega
  · exact absurd h (by positivity)
  · exact h

/-- Legendre polynomials are orthogonal to all lower powers. -/
theorem integ_pow (k : Nat) : ∀ n, k < n → integ (-1) 1 (X ^ k * legendre n) = 0 := by
  induction k with
  | zero => intro n hn; rw [pow_zero, one_mul]; exact integ_legendre n hn
  | succ k ih =>
    intro n hn
    obtain ⟨m, rfl⟩ : ∃ m, n = m + 1 := ⟨n - 1, by omega⟩
    rw [pow_succ, mul_assoc, legendre_succ_eq, mul_add, ← mul_assoc, mul_comm (X ^ k) (C _), mul_assoc, ← mul_assoc _ (C _),
      mul_comm (X ^ k) (C _), mul_assoc, map_add, integ_C_mul, integ_C_mul, ih _ (by omega), ih _ (by omega)]
    ring

theorem integ_orthogonal (n : Nat) (r : ℝ[X]) (h : r.degree < n) : integ (-1) 1 (r * legendre n) = 0 := by
  rw [r.as_sum_range_C_mul_X_pow, Finset.sum_mul, map_sum]
  apply Finset.sum_eq_zero
  intro k hk
  rw [mul_assoc, integ_C_mul]
  by_cases hc : r.coeff k = 0
  · rw [hc, zero_mul]
  · rw [integ_pow k n, mul_zero]
    have h1 := le_degree_of_ne_zero hc
    exact_mod_cast lt_of_le_of_lt h1 h

theorem legendre_natDegree_le (n : Nat) : (legendre n).natDegree ≤ n := by
  induction n using Nat.twoStepInduction with
  | zero => simp [legendre]
  | one => simp [legendre]
  | more n h1 h2 =>
    rw [legendre]
    refine (natDegree_sub_le _ _).trans (max_le ?_ ?_)
    · rw [mul_assoc]
      refine (natDegree_C_mul_le _ _).trans ?_
      refine natDegree_mul_le.trans ?_
      rw [natDegree_X]; omega
    · exact (natDegree_C_mul_le _ _).trans (by omega)

/-- The coefficient of `xⁿ` is positive. -/
theorem legendre_coeff_pos (n : Nat) : 0 < (legendre n).coeff n := by
  induction n with
  | zero => simp [legendre]
  | succ n ih =>
    cases n with
    | zero => simp [legendre]
    | succ n =>
      have h1 := legendre_natDegree_le n
      rw [legendre, coeff_sub, coeff_C_mul, mul_assoc, coeff_C_mul, coeff_X_mul,
        coeff_eq_zero_of_natDegree_lt (p := legendre n) (by omega), mul_zero, sub_zero]
      positivity

theorem legendre_degree_lt (n : Nat) : (legendre n).degree < (n + 1 : ℕ) :=
  lt_of_le_of_lt degree_le_natDegree (by exact_mod_cast Nat.lt_succ_of_le (legendre_natDegree_le n))

theorem derivative_degree_lt (p : ℝ[X]) (n : Nat) (h : p.degree < (n + 1 : ℕ)) : (derivative p).degree < n := by
  by_cases hp : p = 0
  · subst hp; simp
  · by_cases h0 : p.natDegree = 0
    · rw [eq_C_of_natDegree_eq_zero h0]; simp
    · have h1 := natDegree_derivative_lt h0
      have h2 : p.natDegree < n + 1 := (natDegree_lt_iff_degree_lt hp).2 h
      exact lt_of_le_of_lt degree_le_natDegree (by exact_mod_cast (by omega))

/-- `∫ Pₙ² = 2 / (2n + 1)`. -/
theorem integ_norm (n : Nat) : integ (-1) 1 (legendre n * legendre n) = 2 / (2 * n + 1) := by
  cases n with
  | zero => simp [legendre, integ_apply]; norm_num
  | succ n =>
    have h2 : X * derivative (legendre (n + 1)) - derivative (legendre n) = C ((n : ℝ) + 1) * legendre (n + 1) := by
      apply Polynomial.funext
      intro x
      have := (der_identities n x).2
      simp only [val, der] at this
      simp only [eval_mul, eval_sub, eval_X, eval_C]
      linear_combination this
    have h3 : integ (-1) 1 (C ((n : ℝ) + 1) * legendre (n + 1) * legendre (n + 1)) =
        integ (-1) 1 (X * derivative (legendre (n + 1)) * legendre (n + 1)) -
        integ (-1) 1 (derivative (legendre n) * legendre (n + 1)) := by
      rw [← h2, sub_mul, map_sub]
    rw [integ_orthogonal (n + 1) (derivative (legendre n)), sub_zero, mul_assoc, integ_C_mul] at h3
    · have h4 := integ_parts (-1) 1 (X * legendre (n + 1)) (legendre (n + 1))
      have e1 : X * derivative (legendre (n + 1)) * legendre (n + 1) =
          X * legendre (n + 1) * derivative (legendre (n + 1)) := by ring
      have e2 : derivative (X * legendre (n + 1)) * legendre (n + 1) = legendre (n + 1) * legendre (n + 1) +
          X * legendre (n + 1) * derivative (legendre (n + 1)) := by
        rw [derivative_mul, derivative_X]; ring
      rw [e2, map_add] at h4
      rw [e1] at h3
      have v1 := val_at_one (n + 1)
      have v2 := val_neg (n + 1) 1
      simp only [val] at v1 v2
      rw [v1, mul_one] at v2
      simp only [eval_mul, eval_X, v1, v2] at h4
      have v3 : ((-1 : ℝ) ^ (n + 1)) * (-1) ^ (n + 1) = 1 := by rw [← mul_pow]; norm_num
      have h5 : (2 * ((n + 1 : ℕ) : ℝ) + 1) ≠ 0 := by positivity
      rw [eq_div_iff h5]
      push_cast
      generalize integ (-1) 1 (legendre (n + 1) * legendre (n + 1)) = A at *
      generalize integ (-1) 1 (X * legendre (n + 1) * derivative (legendre (n + 1))) = B at *
      have h6 : B = 1 - A / 2 := by
        rw [mul_assoc (-1 : ℝ), v3] at h4
        linarith
      rw [h6] at h3
      linarith
    · have := legendre_degree_lt n
      exact lt_trans (derivative_degree_lt _ _ this) (by exact_mod_cast Nat.lt_succ_self n)

end Verif.Legendre
