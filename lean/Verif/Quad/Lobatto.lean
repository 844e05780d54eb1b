/-
Gauss-Lobatto weights: exactness of the rule whose nodes are the ends and the roots of the derivative of a Legendre
polynomial.
-/
import Verif.Quad.Weights

namespace Verif.Quad

open Polynomial Verif.Legendre

/-- The polynomial `(1 - X²) P'` that vanishes at the nodes. -/
noncomputable def om (N : Nat) : ℝ[X] := (1 - X ^ 2) * derivative (legendre N)

theorem om_derivative (N : Nat) : derivative (om N) = -C ((N : ℝ) * (N + 1)) * legendre N := ode N

theorem om_one (N : Nat) : (om N).eval 1 = 0 := by simp [om]

theorem om_neg_one (N : Nat) : (om N).eval (-1) = 0 := by simp [om]

theorem om_orthogonal (N : Nat) (q : ℝ[X]) (hq : q.degree < (N - 1 : ℕ)) : integ (-1) 1 (om N * q) = 0 := by
  rw [q.as_sum_range_C_mul_X_pow, Finset.mul_sum, map_sum]
  apply Finset.sum_eq_zero
  intro k hk
  by_cases hc : q.coeff k = 0
  · rw [hc]; simp
  have hkN : k < N - 1 := by
    have h1 : (k : WithBot ℕ) ≤ q.degree := le_degree_of_ne_zero hc
    exact_mod_cast lt_of_le_of_lt h1 hq
  have e : (X : ℝ[X]) ^ k = derivative (C (1 / ((k : ℝ) + 1)) * X ^ (k + 1)) := by
    have : ((k : ℝ) + 1) ≠ 0 := by positivity
    rw [derivative_C_mul, derivative_X_pow, ← mul_assoc, Nat.add_sub_cancel, ← C_mul]
    push_cast
    rw [one_div, inv_mul_cancel₀ this]; simp
  rw [mul_left_comm, integ_C_mul, e, integ_parts, om_derivative]
  simp only [eval_mul, om_one, om_neg_one, zero_mul, sub_zero, zero_sub]
  rw [show -C ((N : ℝ) * (N + 1)) * legendre N * (C (1 / ((k : ℝ) + 1)) * X ^ (k + 1)) =
    C (-((N : ℝ) * (N + 1)) * (1 / ((k : ℝ) + 1))) * (X ^ (k + 1) * legendre N) by simp only [C_mul, C_neg]; ring,
    integ_C_mul, integ_pow (k + 1) N (by omega)]
  ring

theorem om_coeff (N : Nat) (hN : 1 ≤ N) : (om N).coeff (N + 1) = -((N : ℝ) * (legendre N).coeff N) := by
  have h := congrArg (fun p => coeff p N) (om_derivative N)
  simp only [coeff_derivative] at h
  rw [neg_mul, coeff_neg, coeff_C_mul] at h
  have : ((N : ℝ) + 1) ≠ 0 := by positivity
  have h2 : ((N : ℝ) + 1) * (om N).coeff (N + 1) = ((N : ℝ) + 1) * -((N : ℝ) * (legendre N).coeff N) := by
    rw [mul_comm, h]; ring
  exact mul_left_cancel₀ this h2

theorem om_natDegree_le (N : Nat) (hN : 1 ≤ N) : (om N).natDegree ≤ N + 1 := by
  unfold om
  refine natDegree_mul_le.trans ?_
  have h1 : (1 - X ^ 2 : ℝ[X]).natDegree ≤ 2 := by
    refine (natDegree_sub_le _ _).trans (max_le ?_ ?_) <;> simp
  have h2 := natDegree_derivative_le (legendre N)
  rw [legendre_natDegree] at h2
  omega

theorem om_natDegree (N : Nat) (hN : 1 ≤ N) : (om N).natDegree = N + 1 := by
  apply natDegree_eq_of_le_of_coeff_ne_zero (om_natDegree_le N hN)
  rw [om_coeff N hN]
  have := legendre_coeff_pos N
  have hN' : (0 : ℝ) < N := by exact_mod_cast hN
  exact (neg_lt_zero.2 (mul_pos hN' this)).ne

theorem om_ne_zero (N : Nat) (hN : 1 ≤ N) : om N ≠ 0 := by
  intro h
  have := om_natDegree N hN
  rw [h] at this
  simp at this

theorem om_degree (N : Nat) (hN : 1 ≤ N) : (om N).degree = (N + 1 : ℕ) := by
  rw [degree_eq_natDegree (om_ne_zero N hN), om_natDegree N hN]

/-- **Gauss-Lobatto.** -/
theorem lobatto (N : Nat) (hN : 1 ≤ N) (s : Finset ℝ) (hc : s.card = N + 1) (h0 : ∀ x ∈ s, (om N).eval x = 0) :
    (∀ p : ℝ[X], p.degree < (2 * N : ℕ) → ∑ x ∈ s, W s x * p.eval x = integ (-1) 1 p) ∧
    ∀ x ∈ s, (N : ℝ) * (N + 1) * (legendre N).eval x * (legendre N).eval x * W s x = 2 := by
  have ex : ∀ p : ℝ[X], p.degree < (2 * N : ℕ) → ∑ x ∈ s, W s x * p.eval x = integ (-1) 1 p := by
    intro p hp
    refine exact_of_orthogonal s (om N) (N - 1) (om_ne_zero N hN) (by rw [om_degree N hN, hc]) h0
      (om_orthogonal N) p ?_
    rw [hc, show N + 1 + (N - 1) = 2 * N by omega]; exact hp
  refine ⟨ex, fun x hx => ?_⟩
  obtain ⟨h, hh, hhx⟩ := factor (om N) x (h0 x hx)
  have hNr : (0 : ℝ) < N := by exact_mod_cast hN
  have hh0 : h ≠ 0 := by
    intro e
    rw [e, mul_zero] at hh
    exact om_ne_zero N hN hh
  have hhd : h.natDegree = N := by
    have := congrArg natDegree hh
    rw [natDegree_mul (X_sub_C_ne_zero x) hh0, natDegree_X_sub_C, om_natDegree N hN] at this
    omega
  have hlc : h.coeff N = -((N : ℝ) * (legendre N).coeff N) := by
    rw [← om_coeff N hN]
    have : (om N).leadingCoeff = h.leadingCoeff := by
      rw [hh, leadingCoeff_mul, leadingCoeff_X_sub_C, one_mul]
    rw [leadingCoeff, leadingCoeff, om_natDegree N hN, hhd] at this
    exact this.symm
  -- `h + N P` has lower degree
  set r := h + C (N : ℝ) * legendre N with hr
  have hrd : r.degree < N := by
    rw [degree_lt_iff_coeff_zero]
    intro m hm
    rcases Nat.lt_or_eq_of_le hm with hm | hm
    · rw [hr, coeff_add, coeff_C_mul, coeff_eq_zero_of_natDegree_lt (by omega),
        coeff_eq_zero_of_natDegree_lt (by rw [legendre_natDegree]; omega)]
      simp
    · subst hm
      rw [hr, coeff_add, coeff_C_mul, hlc]; ring
  -- integral of `h P`
  have hhP : integ (-1) 1 (h * legendre N) = -(N * (2 / (2 * N + 1))) := by
    have e : h = r - C (N : ℝ) * legendre N := by rw [hr]; ring
    rw [e, sub_mul, map_sub, integ_orthogonal N r hrd, mul_assoc, integ_C_mul, integ_norm]
    ring
  -- integral of `h²`
  have hhh : integ (-1) 1 (h * h) = -(2 * (N * (N + 1)) * integ (-1) 1 (h * legendre N)) := by
    have p1 := integ_parts (-1) 1 (h * h) (X - C x)
    rw [derivative_X_sub_C, mul_one] at p1
    have z1 : (h * h * (X - C x)).eval 1 = 0 := by
      rw [show h * h * (X - C x) = om N * h by rw [hh]; ring, eval_mul, om_one, zero_mul]
    have z2 : (h * h * (X - C x)).eval (-1) = 0 := by
      rw [show h * h * (X - C x) = om N * h by rw [hh]; ring, eval_mul, om_neg_one, zero_mul]
    rw [z1, z2, show derivative (h * h) * (X - C x) = C 2 * (om N * derivative h) by
      rw [derivative_mul, hh, C_ofNat]; ring, integ_C_mul, integ_parts, om_derivative, eval_mul, eval_mul, om_one,
      om_neg_one, show -C ((N : ℝ) * (N + 1)) * legendre N * h = C (-((N : ℝ) * (N + 1))) * (h * legendre N) by
        rw [C_neg]; ring, integ_C_mul] at p1
    rw [p1]; ring
  have key := one_term s (om N) h r h0 x hx hh
  rw [ex _ ?_] at key
  · have e1 : integ (-1) 1 (h * r) = -(N * (2 * N + 1) * integ (-1) 1 (h * legendre N)) := by
      rw [hr, mul_add, map_add, mul_left_comm, integ_C_mul, hhh]; ring
    rw [e1, hhP, hr, eval_add, eval_mul, eval_C, hhx, om_derivative] at key
    simp only [eval_mul, eval_neg, eval_C] at key
    generalize eval x (legendre N) = P at *
    generalize W s x = w at *
    have h3 : (2 * (N : ℝ) + 1) ≠ 0 := by positivity
    have h4 : (N : ℝ) ≠ 0 := hNr.ne'
    have h5 : (2 : ℝ) * (N * N) = N * N * (N * (N + 1) * P * P * w) := by
      field_simp at key
      nlinarith [key]
    have h6 : (N : ℝ) * N ≠ 0 := mul_ne_zero h4 h4
    apply mul_left_cancel₀ h6
    linarith
  · refine lt_of_le_of_lt (degree_mul_le _ _) ?_
    by_cases hr0 : r = 0
    · rw [hr0, degree_zero, WithBot.add_bot]; exact WithBot.bot_lt_coe _
    rw [degree_eq_natDegree hr0] at hrd ⊢
    rw [degree_eq_natDegree hh0, hhd]
    have a2 : r.natDegree < N := by exact_mod_cast hrd
    exact_mod_cast (by omega : N + r.natDegree < 2 * N)

end Verif.Quad
