/-
The Legendre polynomial of degree n has n distinct roots inside (-1, 1), and its derivative has n - 1: the exact nodes
of the quadrature rules exist.
-/
import Mathlib.Analysis.Calculus.LocalExtr.Rolle
import Mathlib.Topology.Order.IntermediateValue
import Verif.Quad.Lobatto

namespace Verif.Quad

open Polynomial Verif.Legendre

theorem legendre_factor (n : Nat) (x : Nat → ℝ) (hinj : Set.InjOn x (Finset.range n))
    (h0 : ∀ i < n, (legendre n).eval (x i) = 0) :
    legendre n = C ((legendre n).coeff n) * Lagrange.nodal (Finset.range n) x := by
  rw [← sub_eq_zero]
  refine eq_zero_of_degree_lt_of_eval_index_eq_zero (Finset.range n) hinj ?_ ?_
  · rw [Finset.card_range, degree_lt_iff_coeff_zero]
    intro m hm
    rcases Nat.lt_or_eq_of_le hm with hm | hm
    · rw [coeff_sub, coeff_C_mul, coeff_eq_zero_of_natDegree_lt (n := m) (by rw [legendre_natDegree]; exact hm),
        coeff_eq_zero_of_natDegree_lt (p := Lagrange.nodal (Finset.range n) x) (n := m) (by rw [Lagrange.natDegree_nodal, Finset.card_range]; exact hm)]
      simp
    · subst hm
      have : (Lagrange.nodal (Finset.range n) x).coeff n = 1 := by
        have h := Lagrange.nodal_monic (s := Finset.range n) (v := x)
        rw [Monic, leadingCoeff, Lagrange.natDegree_nodal, Finset.card_range] at h
        exact h
      rw [coeff_sub, coeff_C_mul, this]; ring
  · intro i hi
    rw [eval_sub, eval_mul, h0 i (Finset.mem_range.1 hi), Lagrange.eval_nodal_at_node hi]; simp

/-- Sign of the Legendre polynomial at a point with `j` of its roots below. -/
theorem legendre_sign (n : Nat) (x : Nat → ℝ) (hinj : Set.InjOn x (Finset.range n))
    (h0 : ∀ i < n, (legendre n).eval (x i) = 0) (j : Nat) (hj : j ≤ n) (y : ℝ) (hlo : ∀ i < j, x i < y)
    (hhi : ∀ i < n, j ≤ i → y < x i) : 0 < (-1) ^ (n - j) * (legendre n).eval y := by
  have key : ∀ k, j ≤ k → k ≤ n → 0 < (-1) ^ (k - j) * ∏ i ∈ Finset.range k, (y - x i) := by
    intro k hk
    induction k, hk using Nat.le_induction with
    | base =>
      intro _
      rw [Nat.sub_self, pow_zero, one_mul]
      exact Finset.prod_pos fun i hi => sub_pos.2 (hlo i (Finset.mem_range.1 hi))
    | succ k hk ih =>
      intro hkn
      rw [Finset.prod_range_succ, show k + 1 - j = k - j + 1 by omega, pow_succ]
      have := mul_pos (ih (by omega)) (sub_pos.2 (hhi k (by omega) hk))
      nlinarith
  rw [legendre_factor n x hinj h0, eval_mul, eval_C, Lagrange.eval_nodal]
  have := mul_pos (legendre_coeff_pos n) (key n hj le_rfl)
  nlinarith

/-- A root strictly between two points where the polynomial has opposite signs. -/
theorem root_between (p : ℝ[X]) (a b e : ℝ) (hab : a < b) (ha : 0 < -(e * p.eval a)) (hb : 0 < e * p.eval b) :
    ∃ y, a < y ∧ y < b ∧ p.eval y = 0 := by
  have hc : ContinuousOn (fun y => e * p.eval y) (Set.Icc a b) := (continuous_const.mul p.continuous).continuousOn
  have h0 : (0 : ℝ) ∈ Set.Ioo (e * p.eval a) (e * p.eval b) := ⟨by linarith, hb⟩
  obtain ⟨y, hy, hy0⟩ := intermediate_value_Ioo hab.le hc h0
  refine ⟨y, hy.1, hy.2, ?_⟩
  rcases mul_eq_zero.1 hy0 with h | h
  · rw [h, zero_mul] at hb; exact absurd hb (lt_irrefl _)
  · exact h

theorem legendre_roots_aux (n : Nat) : ∃ x : Nat → ℝ, (∀ i < n + 1, -1 < x i ∧ x i < 1) ∧
    (∀ i < n + 1, (legendre (n + 1)).eval (x i) = 0) ∧ (∀ i j, i < j → j < n + 1 → x i < x j) ∧
    ∀ i < n + 1, 0 < (-1) ^ (n - i) * (legendre n).eval (x i) := by
  induction n with
  | zero =>
    refine ⟨fun _ => 0, ?_, ?_, ?_, ?_⟩
    · intro i _; norm_num
    · intro i _; simp [legendre]
    · intro i j h1 h2; omega
    · intro i _; simp [legendre]
  | succ n ih =>
    obtain ⟨x, hx1, hx0, hxm, hxs⟩ := ih
    have hinj : Set.InjOn x (Finset.range (n + 1)) := by
      intro i hi j hj hij
      have hi' := Finset.mem_range.1 hi
      have hj' := Finset.mem_range.1 hj
      rcases Nat.lt_trichotomy i j with h | h | h
      · exact absurd hij (hxm i j h hj').ne
      · exact h
      · exact absurd hij (hxm j i h hi').ne'
    -- the points -1, roots, 1
    let z : Nat → ℝ := fun j => if j = 0 then -1 else if j = n + 2 then 1 else x (j - 1)
    have hzlt : ∀ j < n + 2, z j < z (j + 1) := by
      intro j hj
      simp only [z]
      by_cases h0 : j = 0
      · subst h0
        rw [if_pos rfl, if_neg (by omega), if_neg (by omega)]
        exact (hx1 0 (by omega)).1
      · rw [if_neg h0, if_neg (by omega), if_neg (by omega)]
        by_cases h1 : j + 1 = n + 2
        · rw [if_pos h1]; exact (hx1 _ (by omega)).2
        · rw [if_neg h1]; exact hxm _ _ (by omega) (by omega)
    have hzs : ∀ j, j ≤ n + 2 → 0 < (-1) ^ (n + 2 - j) * (legendre (n + 2)).eval (z j) := by
      intro j hj
      simp only [z]
      by_cases h0 : j = 0
      · subst h0
        rw [if_pos rfl, eval_neg_one_legendre, Nat.sub_zero, sq_neg_one_pow]; norm_num
      · rw [if_neg h0]
        by_cases h1 : j = n + 2
        · subst h1; rw [if_pos rfl, eval_one_legendre]; simp
        · rw [if_neg h1]
          have hrec := val_succ n (x (j - 1))
          have e0 := hx0 (j - 1) (by omega)
          have s0 := hxs (j - 1) (by omega)
          simp only [val] at hrec
          rw [e0] at hrec
          have hn2 : (0 : ℝ) < (n : ℝ) + 2 := by positivity
          have hn1 : (0 : ℝ) < (n : ℝ) + 1 := by positivity
          have e2 : (-1 : ℝ) ^ (n + 2 - j) = -(-1) ^ (n - (j - 1)) := by
            rw [show n - (j - 1) = n + 1 - j by omega, show n + 2 - j = n + 1 - j + 1 by omega, pow_succ]; ring
          rw [e2]
          have : ((n : ℝ) + 2) * (-(-1) ^ (n - (j - 1)) * (legendre (n + 2)).eval (x (j - 1))) =
              ((n : ℝ) + 1) * ((-1) ^ (n - (j - 1)) * (legendre n).eval (x (j - 1))) := by
            linear_combination -(-1) ^ (n - (j - 1)) * hrec
          have hpos := mul_pos hn1 s0
          rw [← this] at hpos
          exact (mul_pos_iff_of_pos_left hn2).1 hpos
    have hy : ∀ j, ∃ y, j < n + 2 → z j < y ∧ y < z (j + 1) ∧ (legendre (n + 2)).eval y = 0 := by
      intro j
      by_cases hj : j < n + 2
      · obtain ⟨y, h1, h2, h3⟩ := root_between (legendre (n + 2)) (z j) (z (j + 1)) ((-1) ^ (n + 2 - (j + 1)))
          (hzlt j hj) (by
            have := hzs j (by omega)
            rw [show n + 2 - j = n + 2 - (j + 1) + 1 by omega, pow_succ] at this
            linarith) (hzs (j + 1) (by omega))
        exact ⟨y, fun _ => ⟨h1, h2, h3⟩⟩
      · exact ⟨0, fun h => absurd h hj⟩
    choose y hy using hy
    have hzmono : ∀ i j, i ≤ j → j ≤ n + 2 → z i ≤ z j := by
      intro i j hij
      induction j, hij using Nat.le_induction with
      | base => intro _; exact le_rfl
      | succ j _ ih => intro hj; exact (ih (by omega)).trans (hzlt j (by omega)).le
    have hz0 : z 0 = -1 := by simp [z]
    have hz1 : z (n + 2) = 1 := by simp [z]
    have hzx : ∀ i < n + 1, z (i + 1) = x i := by
      intro i hi
      simp only [z]
      rw [if_neg (by omega), if_neg (by omega), Nat.add_sub_cancel]
    refine ⟨y, ?_, ?_, ?_, ?_⟩
    · intro i hi
      obtain ⟨h1, h2, -⟩ := hy i hi
      have a1 := hzmono 0 i (by omega) (by omega)
      have a2 := hzmono (i + 1) (n + 2) (by omega) (by omega)
      rw [hz0] at a1
      rw [hz1] at a2
      exact ⟨by linarith, by linarith⟩
    · intro i hi; exact (hy i hi).2.2
    · intro i j hij hj
      have a1 := (hy i (by omega)).2.1
      have a2 := (hy j hj).1
      have a3 := hzmono (i + 1) j (by omega) (by omega)
      linarith
    · intro i hi
      refine legendre_sign (n + 1) x hinj hx0 i (by omega) (y i) ?_ ?_
      · intro k hk
        rw [← hzx k (by omega)]
        exact lt_of_le_of_lt (hzmono (k + 1) i (by omega) (by omega)) (hy i hi).1
      · intro k hk hik
        rw [← hzx k hk]
        exact lt_of_lt_of_le (hy i hi).2.1 (hzmono (i + 1) (k + 1) (by omega) (by omega))

/-- The `n` roots in increasing order. -/
theorem legendre_roots (n : Nat) : ∃ x : Nat → ℝ, (∀ i < n, -1 < x i ∧ x i < 1) ∧
    (∀ i < n, (legendre n).eval (x i) = 0) ∧ ∀ i j, i < j → j < n → x i < x j := by
  cases n with
  | zero => exact ⟨fun _ => 0, fun i h => absurd h (by omega), fun i h => absurd h (by omega), fun i j _ h => absurd h (by omega)⟩
  | succ n =>
    obtain ⟨x, h1, h2, h3, -⟩ := legendre_roots_aux n
    exact ⟨x, h1, h2, h3⟩

/-- The `n - 1` roots of the derivative in increasing order. -/
theorem derivative_roots (n : Nat) : ∃ x : Nat → ℝ, (∀ i < n - 1, -1 < x i ∧ x i < 1) ∧
    (∀ i < n - 1, (derivative (legendre n)).eval (x i) = 0) ∧ ∀ i j, i < j → j < n - 1 → x i < x j := by
  obtain ⟨x, hx1, hx0, hxm⟩ := legendre_roots n
  have hy : ∀ i, ∃ y, i < n - 1 → x i < y ∧ y < x (i + 1) ∧ (derivative (legendre n)).eval y = 0 := by
    intro i
    by_cases hi : i < n - 1
    · obtain ⟨y, hy, hd⟩ := exists_hasDerivAt_eq_zero (f := fun y => (legendre n).eval y)
        (hxm i (i + 1) (by omega) (by omega)) (legendre n).continuous.continuousOn
        (by simp only [hx0 i (by omega), hx0 (i + 1) (by omega)]) (fun y _ => (legendre n).hasDerivAt y)
      exact ⟨y, fun _ => ⟨hy.1, hy.2, hd⟩⟩
    · exact ⟨0, fun h => absurd h hi⟩
  choose y hy using hy
  refine ⟨y, ?_, fun i hi => (hy i hi).2.2, ?_⟩
  · intro i hi
    have := hy i hi
    have h1 := hx1 i (by omega)
    have h2 := hx1 (i + 1) (by omega)
    exact ⟨by linarith, by linarith⟩
  · intro i j hij hj
    have a1 := (hy i (by omega)).2.1
    have a2 := (hy j hj).1
    have a3 : x (i + 1) ≤ x j := by
      rcases Nat.lt_or_eq_of_le (show i + 1 ≤ j by omega) with h | h
      · exact (hxm _ _ h (by omega)).le
      · rw [h]
    linarith

end Verif.Quad
