/-
The classical facts behind the quadrature formulas: the weights written in terms of Legendre polynomials at the exact
nodes make the rules exact.
-/
import Mathlib.LinearAlgebra.Lagrange
import Verif.Legendre.Integral

namespace Verif.Quad

open Polynomial Verif.Legendre

/-- The integral of the Lagrange basis polynomial of a node. -/
noncomputable def W (s : Finset ℝ) (x : ℝ) : ℝ := integ (-1) 1 (Lagrange.basis s id x)

theorem interpolatory (s : Finset ℝ) (p : ℝ[X]) (hp : p.degree < s.card) :
    ∑ x ∈ s, W s x * p.eval x = integ (-1) 1 p := by
  have h := Lagrange.eq_interpolate (s := s) (v := id) (f := p) (fun _ _ _ _ h => h) hp
  conv_rhs => rw [h, Lagrange.interpolate_apply, map_sum]
  refine Finset.sum_congr rfl fun x _ => ?_
  rw [integ_C_mul, W, mul_comm]; rfl

/-- If `w` vanishes at the nodes, has their number as degree and is orthogonal to low degrees, the interpolatory rule is
exact up to higher degrees. -/
theorem exact_of_orthogonal (s : Finset ℝ) (w : ℝ[X]) (m : Nat) (hw : w ≠ 0) (hd : w.degree = s.card)
    (h0 : ∀ x ∈ s, w.eval x = 0) (ho : ∀ q : ℝ[X], q.degree < m → integ (-1) 1 (w * q) = 0)
    (p : ℝ[X]) (hp : p.degree < (s.card + m : ℕ)) : ∑ x ∈ s, W s x * p.eval x = integ (-1) 1 p := by
  have hdiv := EuclideanDomain.div_add_mod p w
  have hmod : (p % w).degree < s.card := hd ▸ degree_mod_lt p hw
  have hq : (p / w).degree < m := by
    by_cases hq0 : p / w = 0
    · rw [hq0, degree_zero]; exact WithBot.bot_lt_coe m
    by_cases hle : w.degree ≤ p.degree
    · have h := degree_add_div hw hle
      rw [← h, hd, degree_eq_natDegree hq0] at hp
      rw [degree_eq_natDegree hq0]
      have hp' : ((s.card + (p / w).natDegree : ℕ) : WithBot ℕ) < (s.card + m : ℕ) := by exact_mod_cast hp
      have : s.card + (p / w).natDegree < s.card + m := WithBot.coe_lt_coe.1 hp'
      exact_mod_cast (by omega : (p / w).natDegree < m)
    · exact absurd ((Polynomial.div_eq_zero_iff hw).2 (not_le.1 hle)) hq0
  have h1 := interpolatory s (p % w) hmod
  have h2 := ho _ hq
  have h3 : integ (-1) 1 p = integ (-1) 1 (p % w) := by
    conv_lhs => rw [← hdiv, map_add, h2, zero_add]
  rw [h3, ← h1]
  refine Finset.sum_congr rfl fun x hx => ?_
  congr 1
  conv_lhs => rw [← hdiv, eval_add, eval_mul, h0 x hx, zero_mul, zero_add]

/-- Taking a node out of `w`. -/
theorem factor (w : ℝ[X]) (x : ℝ) (h : w.eval x = 0) : ∃ q : ℝ[X], w = (X - C x) * q ∧ q.eval x = (derivative w).eval x := by
  obtain ⟨q, hq⟩ := dvd_iff_isRoot.2 h
  refine ⟨q, hq, ?_⟩
  rw [hq, derivative_mul]
  simp

/-- With `q` the quotient of `w` by the linear factor of the node `x`, a product `q * r` is summed by one term. -/
theorem one_term (s : Finset ℝ) (w q r : ℝ[X]) (h0 : ∀ y ∈ s, w.eval y = 0) (x : ℝ) (hx : x ∈ s)
    (hq : w = (X - C x) * q) : ∑ y ∈ s, W s y * (q * r).eval y = W s x * (q.eval x * r.eval x) := by
  rw [Finset.sum_eq_single x]
  · rw [eval_mul]
  · intro y hy hne
    have : (y - x) * q.eval y = 0 := by
      have := h0 y hy
      rw [hq] at this
      simpa using this
    rcases mul_eq_zero.1 this with h | h
    · exact absurd (sub_eq_zero.1 h) hne
    · rw [eval_mul, h]; ring
  · exact fun h => absurd hx h

theorem legendre_ne_zero (n : Nat) : legendre n ≠ 0 := by
  intro h
  have := legendre_coeff_pos n
  rw [h] at this
  simp at this

theorem legendre_natDegree (n : Nat) : (legendre n).natDegree = n :=
  natDegree_eq_of_le_of_coeff_ne_zero (legendre_natDegree_le n) (legendre_coeff_pos n).ne'

theorem legendre_degree (n : Nat) : (legendre n).degree = n := by
  rw [degree_eq_natDegree (legendre_ne_zero n), legendre_natDegree]

theorem eval_one_legendre (n : Nat) : (legendre n).eval 1 = 1 := val_at_one n

theorem eval_neg_one_legendre (n : Nat) : (legendre n).eval (-1) = (-1) ^ n := by
  have := val_neg n 1
  rw [val_at_one, mul_one] at this
  exact this

theorem sq_neg_one_pow (n : Nat) : ((-1 : ℝ) ^ n) * (-1) ^ n = 1 := by rw [← mul_pow]; norm_num

/-- **Gauss.** -/
theorem gauss (n : Nat) (s : Finset ℝ) (hc : s.card = n) (h0 : ∀ x ∈ s, (legendre n).eval x = 0) :
    (∀ p : ℝ[X], p.degree < (2 * n : ℕ) → ∑ x ∈ s, W s x * p.eval x = integ (-1) 1 p) ∧
    ∀ x ∈ s, (1 - x * x) * (derivative (legendre n)).eval x * (derivative (legendre n)).eval x * W s x = 2 ∧
      1 - x * x ≠ 0 := by
  have ex : ∀ p : ℝ[X], p.degree < (2 * n : ℕ) → ∑ x ∈ s, W s x * p.eval x = integ (-1) 1 p := by
    intro p hp
    refine exact_of_orthogonal s (legendre n) n (legendre_ne_zero n) (by rw [legendre_degree, hc]) h0 ?_ p
      (by rw [hc, ← two_mul]; exact hp)
    intro q hq
    rw [mul_comm]; exact integ_orthogonal n q hq
  refine ⟨ex, fun x hx => ?_⟩
  have h1 : (1 : ℝ) - x ≠ 0 := by
    intro h
    have := h0 x hx
    rw [show x = 1 by linarith, eval_one_legendre] at this
    norm_num at this
  have h2 : (1 : ℝ) + x ≠ 0 := by
    intro h
    have := h0 x hx
    rw [show x = -1 by linarith, eval_neg_one_legendre] at this
    have h3 := sq_neg_one_pow n
    rw [this] at h3
    norm_num at h3
  refine ⟨?_, by rw [show 1 - x * x = (1 - x) * (1 + x) by ring]; exact mul_ne_zero h1 h2⟩
  obtain ⟨q, hq, hqx⟩ := factor (legendre n) x (h0 x hx)
  have hn : 0 < n := by
    rcases Nat.eq_zero_or_pos n with h | h
    · subst h
      rw [Finset.card_eq_zero] at hc
      subst hc
      simp at hx
    · exact h
  have hqd : q.degree < n := by
    have h3 := congrArg degree hq
    rw [legendre_degree, degree_mul, degree_X_sub_C] at h3
    by_cases hq0 : q = 0
    · rw [hq0, degree_zero]; exact WithBot.bot_lt_coe n
    · rw [degree_eq_natDegree hq0] at h3 ⊢
      have h4 : ((n : ℕ) : WithBot ℕ) = ((1 + q.natDegree : ℕ) : WithBot ℕ) := by exact_mod_cast h3
      have : n = 1 + q.natDegree := WithBot.coe_inj.1 h4
      exact_mod_cast (by omega : q.natDegree < n)
  have hdd : (derivative (legendre n)).degree < n := derivative_degree_lt _ _ (legendre_degree_lt n)
  have key := one_term s (legendre n) q (derivative (legendre n)) h0 x hx hq
  rw [ex _ ?_] at key
  · have hp := integ_parts (-1) 1 q (legendre n)
    have hq' : integ (-1) 1 (derivative q * legendre n) = 0 :=
      integ_orthogonal n _ (lt_of_le_of_lt (degree_derivative_le) hqd)
    rw [hq', key, hqx] at hp
    simp only [eval_mul, eval_one_legendre, eval_neg_one_legendre] at hp
    have e1 := congrArg (eval 1) hq
    have e2 := congrArg (eval (-1)) hq
    simp only [eval_mul, eval_sub, eval_X, eval_C, eval_one_legendre, eval_neg_one_legendre] at e1 e2
    have h3 := sq_neg_one_pow n
    generalize (-1 : ℝ) ^ n = e at *
    generalize eval x (derivative (legendre n)) = d at *
    generalize eval 1 q = a at *
    generalize eval (-1) q = b at *
    have ha : a = 1 / (1 - x) := by rw [eq_div_iff h1]; linarith
    have hb : b * e = - (1 / (1 + x)) := by
      rw [eq_neg_iff_add_eq_zero]
      field_simp
      have : (-1 - x) * b * e = 1 := by rw [← e2]; exact h3
      linarith
    have : d * d * W s x = 2 / ((1 - x) * (1 + x)) := by
      rw [mul_comm]
      rw [hp, hb, ha]
      field_simp
      ring
    rw [show (1 - x * x) * d * d * W s x = (1 - x) * (1 + x) * (d * d * W s x) by ring, this]
    field_simp
  · refine lt_of_le_of_lt (degree_mul_le _ _) ?_
    by_cases hq0 : q = 0
    · rw [hq0, degree_zero, WithBot.bot_add]; exact WithBot.bot_lt_coe _
    by_cases hd0 : derivative (legendre n) = 0
    · rw [hd0, degree_zero, WithBot.add_bot]; exact WithBot.bot_lt_coe _
    rw [degree_eq_natDegree hq0] at hqd ⊢
    rw [degree_eq_natDegree hd0] at hdd ⊢
    have a1 : q.natDegree < n := by exact_mod_cast hqd
    have a2 : (derivative (legendre n)).natDegree < n := by exact_mod_cast hdd
    exact_mod_cast (by omega : q.natDegree + (derivative (legendre n)).natDegree < 2 * n)

end Verif.Quad
