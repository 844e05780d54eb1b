/-
Lemmas on Legendre polynomials: derivative identities from the recurrence.
-/
import Mathlib.Algebra.Polynomial.Roots
import Mathlib.Algebra.CharZero.Infinite
import Mathlib.Tactic.FieldSimp
import Mathlib.Tactic.Ring
import Mathlib.Tactic.Linarith
import Mathlib.Tactic.LinearCombination
import Verif.Legendre.Model
import Verif.Legendre.Spec

namespace Verif.Legendre

open Polynomial

/-- Value and derivative at a point. -/
noncomputable def val (n : Nat) (x : ℝ) : ℝ := (legendre n).eval x
noncomputable def der (n : Nat) (x : ℝ) : ℝ := (derivative (legendre n)).eval x

theorem val_zero (x : ℝ) : val 0 x = 1 := by simp [val, legendre]
theorem val_one (x : ℝ) : val 1 x = x := by simp [val, legendre]
theorem der_zero (x : ℝ) : der 0 x = 0 := by simp [der, legendre]
theorem der_one (x : ℝ) : der 1 x = 1 := by simp [der, legendre]

theorem val_succ (n : Nat) (x : ℝ) :
    (n + 2) * val (n + 2) x = (2 * n + 3) * x * val (n + 1) x - (n + 1) * val n x := by
  have h : ((n : ℝ) + 2) ≠ 0 := by positivity
  simp only [val, legendre, eval_sub, eval_mul, eval_C, eval_X]
  field_simp

theorem der_succ (n : Nat) (x : ℝ) :
    (n + 2) * der (n + 2) x = (2 * n + 3) * (val (n + 1) x + x * der (n + 1) x) - (n + 1) * der n x := by
  have h : ((n : ℝ) + 2) ≠ 0 := by positivity
  simp only [val, der, legendre, derivative_sub, derivative_mul, derivative_C, derivative_X, eval_sub, eval_mul,
    eval_add, eval_C, eval_X, zero_mul, zero_add, mul_one]
  field_simp

/-- `(1 - x²) Pₙ₊₁' = (n + 1) (Pₙ - x Pₙ₊₁)` and `x Pₙ₊₁' - Pₙ' = (n + 1) Pₙ₊₁`. -/
theorem der_identities (n : Nat) (x : ℝ) :
    (1 - x * x) * der (n + 1) x = (n + 1) * (val n x - x * val (n + 1) x) ∧
    x * der (n + 1) x - der n x = (n + 1) * val (n + 1) x := by
  induction n with
  | zero => simp [val_zero, val_one, der_zero, der_one]
  | succ n ih =>
    obtain ⟨h1, h2⟩ := ih
    have hv := val_succ n x
    have hd := der_succ n x
    have hn : ((n : ℝ) + 2) ≠ 0 := by positivity
    push_cast
    -- Pₙ₊₂' = x Pₙ₊₁' + (n + 2) Pₙ₊₁
    have h3 : der (n + 2) x = x * der (n + 1) x + (n + 2) * val (n + 1) x := by
      apply mul_left_cancel₀ hn
      linear_combination hd + (n + 1) * h2
    constructor
    · apply mul_left_cancel₀ hn
      rw [h3]
      linear_combination (n + 2) * x * h1 + (n + 2) * x * hv
    · rw [h3]
      apply mul_left_cancel₀ hn
      linear_combination -(n + 2) * h1 - (n + 2) * hv

theorem val_at_one (n : Nat) : val n 1 = 1 := by
  induction n using Nat.twoStepInduction with
  | zero => exact val_zero 1
  | one => exact val_one 1
  | more n h1 h2 =>
    have h := val_succ n 1
    rw [h1, h2] at h
    have hn : ((n : ℝ) + 2) ≠ 0 := by positivity
    apply mul_left_cancel₀ hn
    rw [h]; ring

theorem val_neg (n : Nat) (x : ℝ) : val n (-x) = (-1) ^ n * val n x := by
  induction n using Nat.twoStepInduction with
  | zero => simp [val_zero]
  | one => simp [val_one]
  | more n h1 h2 =>
    have h := val_succ n (-x)
    have h' := val_succ n x
    rw [h1, h2] at h
    have hn : ((n : ℝ) + 2) ≠ 0 := by positivity
    apply mul_left_cancel₀ hn
    rw [h]
    linear_combination -((-1) ^ n) * h'

/-- `Pₙ'(±1) = ½ n (n + 1) (±1)ⁿ⁺¹`. -/
theorem der_at_unit (n : Nat) (x : ℝ) (hx : x * x = 1) :
    der n x = 1 / 2 * x ^ (n + 1) * n * (n + 1) ∧ val n x = x ^ n := by
  induction n with
  | zero => simp [der_zero, val_zero]
  | succ n ih =>
    obtain ⟨h1, h2⟩ := ih
    obtain ⟨e1, e2⟩ := der_identities n x
    have hv : val (n + 1) x = x ^ (n + 1) := by
      have : ((n : ℝ) + 1) ≠ 0 := by positivity
      have h3 : val n x - x * val (n + 1) x = 0 := by
        apply mul_left_cancel₀ this
        rw [← e1, hx]; ring
      have : x * val (n + 1) x = x ^ n := by rw [← h2]; linarith
      calc val (n + 1) x = x * x * val (n + 1) x := by rw [hx, one_mul]
        _ = x * x ^ n := by rw [mul_assoc, this]
        _ = x ^ (n + 1) := by ring
    refine ⟨?_, hv⟩
    push_cast
    have : x * der (n + 1) x = 1 / 2 * x ^ (n + 1) * n * (n + 1) + (n + 1) * x ^ (n + 1) := by
      rw [← h1, ← hv]; linarith
    calc der (n + 1) x = x * (x * der (n + 1) x) := by rw [← mul_assoc, hx, one_mul]
      _ = _ := by rw [this]; ring

theorem loop_spec (x : ℝ) (m : Nat) : (loop x m).p0 = val m x ∧ (loop x m).p1 = val (m + 1) x ∧
    (loop x m).xk = x ^ (m + 2) ∧ (loop x m).pd = der (m + 1) x := by
  induction m with
  | zero => simp [loop, val_zero, val_one, der_one, pow_two]
  | succ m ih =>
    obtain ⟨h0, h1, h2, -⟩ := ih
    have hn : ((m : ℝ) + 2) ≠ 0 := by positivity
    have hv := val_succ m x
    have hp : (2 * ((m + 2 : ℕ) : ℝ) - 1) / ((m + 2 : ℕ) : ℝ) * x * val (m + 1) x -
        (((m + 2 : ℕ) : ℝ) - 1) / ((m + 2 : ℕ) : ℝ) * val m x = val (m + 2) x := by
      push_cast
      field_simp
      linarith
    simp only [loop, step, h0, h1, h2, hp]
    refine ⟨trivial, trivial, by ring, ?_⟩
    by_cases hx : |x| = 1
    · rw [if_pos hx]
      have hxx : x * x = 1 := by rw [← abs_mul_abs_self, hx, one_mul]
      rw [(der_at_unit (m + 2) x hxx).1]
      push_cast; ring
    · rw [if_neg hx]
      have hxx : 1 - x * x ≠ 0 := by
        intro h
        have : |x| * |x| = 1 := by rw [abs_mul_abs_self]; linarith
        apply hx
        nlinarith [abs_nonneg x]
      have e1 := (der_identities (m + 1) x).1
      push_cast at e1 ⊢
      rw [div_eq_iff hxx]
      linear_combination -e1

theorem ode (n : Nat) : derivative ((1 - X ^ 2) * derivative (legendre n)) = -C ((n : ℝ) * (n + 1)) * legendre n := by
  cases n with
  | zero => simp [legendre]
  | succ n =>
    have h1 : (1 - X ^ 2) * derivative (legendre (n + 1)) = C ((n : ℝ) + 1) * (legendre n - X * legendre (n + 1)) := by
      apply Polynomial.funext
      intro x
      have := (der_identities n x).1
      simp only [val, der] at this
      simp only [eval_mul, eval_sub, eval_pow, eval_X, eval_one, eval_C]
      linear_combination this
    have h2 : X * derivative (legendre (n + 1)) - derivative (legendre n) = C ((n : ℝ) + 1) * legendre (n + 1) := by
      apply Polynomial.funext
      intro x
      have := (der_identities n x).2
      simp only [val, der] at this
      simp only [eval_mul, eval_sub, eval_X, eval_C]
      linear_combination this
    rw [h1, derivative_mul, derivative_C, zero_mul, zero_add, derivative_sub, derivative_mul, derivative_X, one_mul]
    have : derivative (legendre n) = X * derivative (legendre (n + 1)) - C ((n : ℝ) + 1) * legendre (n + 1) := by
      rw [← h2]; ring
    rw [this]
    have hc : (C (((n + 1 : ℕ) : ℝ) * ((n + 1 : ℕ) + 1)) : ℝ[X]) = C ((n : ℝ) + 1) * (C ((n : ℝ) + 1) + 1) := by
      rw [← C_1, ← C_add, ← C_mul]; push_cast; rfl
    rw [hc]
    ring

end Verif.Legendre
