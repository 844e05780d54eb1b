/-
C41: quadrature rules integrate polynomials.
-/
import Mathlib.Tactic.IntervalCases
import Verif.Quad.Model
import Verif.Quad.Spec
import Verif.Quad.Roots
import Verif.Legendre.Props

namespace Verif.Quad

open Polynomial Verif.Legendre

/-- **C41 (counts).**  Fewer than one point (Gauss) or two points (Gauss-Lobatto) are refused, and nothing else. -/
theorem C41_refused (roots : Nat → List ℝ) (n : Int) :
    (gaussPoints roots n = none ↔ n < 1) ∧ (lobattoPoints roots n = none ↔ n < 2) := by
  constructor
  · unfold gaussPoints
    by_cases h : n < 1
    · simp [h]
    · rw [if_neg h]; dsimp only; split <;> simp [h]
  · unfold lobattoPoints
    by_cases h : n < 2
    · simp [h]
    · rw [if_neg h]; dsimp only; split <;> simp [h]

/-! ### The tables -/

/-- Moment of a rational rule. -/
def moment (r : List ℚ × List ℚ) (k : Nat) : ℚ := ((r.1.zip r.2).map fun gw => gw.2 * gw.1 ^ k).sum

/-- Integral of a power over [-1, 1]. -/
def exactMoment (k : Nat) : ℚ := if k % 2 = 0 then 2 / (k + 1) else 0

def momentsOk (r : List ℚ × List ℚ) (d : Nat) (eps : ℚ) : Bool :=
  (List.range d).all fun k => decide (|moment r k - exactMoment k| ≤ eps)

def momentOff (r : List ℚ × List ℚ) (k : Nat) (c : ℚ) : Bool := !decide (|moment r k - exactMoment k| ≤ c)

def sizeOk (r : List ℚ × List ℚ) (n : Nat) : Bool := r.1.length == n && r.2.length == n

theorem gaussTable_ok (n : Nat) (h1 : 1 ≤ n) (h10 : n ≤ 10) (h9 : n ≠ 9) :
    ∃ r, gaussTable n = some r ∧ sizeOk r n = true ∧ momentsOk r (2 * n) (3 / 10 ^ 16) = true := by
  have : n = 1 ∨ n = 2 ∨ n = 3 ∨ n = 4 ∨ n = 5 ∨ n = 6 ∨ n = 7 ∨ n = 8 ∨ n = 10 := by omega
  rcases this with h | h | h | h | h | h | h | h | h <;> subst h <;>
    exact ⟨_, rfl, by decide +kernel, by decide +kernel⟩

theorem lobattoTable_ok (n : Nat) (h1 : 2 ≤ n) (h10 : n ≤ 10) :
    ∃ r, lobattoTable n = some r ∧ sizeOk r n = true ∧ momentsOk r (2 * n - 2) (3 / 10 ^ 15) = true := by
  have : n = 2 ∨ n = 3 ∨ n = 4 ∨ n = 5 ∨ n = 6 ∨ n = 7 ∨ n = 8 ∨ n = 9 ∨ n = 10 := by omega
  rcases this with h | h | h | h | h | h | h | h | h <;> subst h <;>
    exact ⟨_, rfl, by decide +kernel, by decide +kernel⟩

/-- A rule as a linear functional. -/
noncomputable def quadLin (r : List ℝ × List ℝ) : ℝ[X] →ₗ[ℝ] ℝ where
  toFun p := quad r (fun x => p.eval x)
  map_add' p q := by
    unfold quad
    induction r.1.zip r.2 with
    | nil => simp
    | cons a l ih => rw [List.map_cons, List.sum_cons, ih]; simp only [List.map_cons, List.sum_cons, eval_add]; ring
  map_smul' c p := by
    unfold quad
    induction r.1.zip r.2 with
    | nil => simp
    | cons a l ih =>
      rw [List.map_cons, List.sum_cons, ih]
      simp only [List.map_cons, List.sum_cons, eval_smul, smul_eq_mul, RingHom.id_apply]; ring

theorem quad_cast (r : List ℚ × List ℚ) (k : Nat) :
    quad (r.1.map (fun q : ℚ => (q : ℝ)), r.2.map (fun q : ℚ => (q : ℝ))) (fun x => x ^ k) = (moment r k : ℝ) := by
  unfold quad moment
  simp only [List.zip_map, List.map_map]
  induction r.1.zip r.2 with
  | nil => simp
  | cons a l ih => simp only [List.map_cons, List.sum_cons, ih, Rat.cast_add]; simp

theorem integ_X_pow (k : Nat) : integ (-1) 1 (X ^ k) = (exactMoment k : ℝ) := by
  have hk : ((k : ℝ) + 1) ≠ 0 := by positivity
  have e : (X : ℝ[X]) ^ k = derivative (C (1 / ((k : ℝ) + 1)) * X ^ (k + 1)) := by
    rw [derivative_C_mul, derivative_X_pow, ← mul_assoc, Nat.add_sub_cancel, ← C_mul]
    push_cast
    rw [one_div, inv_mul_cancel₀ hk]; simp
  rw [e, integ_derivative]
  simp only [eval_mul, eval_C, eval_pow, eval_X, one_pow]
  unfold exactMoment
  split_ifs with h
  · rw [Odd.neg_one_pow (by rw [Nat.odd_iff]; omega)]; push_cast; field_simp; ring
  · rw [Even.neg_one_pow (by rw [Nat.even_iff]; omega)]; simp

theorem table_bound (r : List ℚ × List ℚ) (d : Nat) (eps : ℚ) (h : momentsOk r d eps = true) (p : ℝ[X])
    (hp : p.degree < d) :
    |quad (r.1.map (fun q : ℚ => (q : ℝ)), r.2.map (fun q : ℚ => (q : ℝ))) (fun x => p.eval x) -
      ∫ x in (-1 : ℝ)..1, p.eval x| ≤ eps * coeffSum p := by
  rw [← integ_apply]
  set R := (r.1.map (fun q : ℚ => (q : ℝ)), r.2.map (fun q : ℚ => (q : ℝ))) with hR
  change |quadLin R p - integ (-1) 1 p| ≤ _
  have hlin : quadLin R p - integ (-1) 1 p = ∑ k ∈ p.support, p.coeff k * ((moment r k : ℝ) - exactMoment k) := by
    conv_lhs => rw [p.as_sum_support_C_mul_X_pow]
    rw [map_sum, map_sum, ← Finset.sum_sub_distrib]
    refine Finset.sum_congr rfl fun k _ => ?_
    rw [integ_C_mul, C_mul', map_smul, smul_eq_mul, integ_X_pow]
    have : quadLin R (X ^ k) = (moment r k : ℝ) := by
      rw [← quad_cast]
      change quad R (fun x => (X ^ k : ℝ[X]).eval x) = _
      simp only [eval_pow, eval_X]
      rfl
    rw [this]; ring
  rw [hlin, coeffSum, Finset.mul_sum]
  refine (Finset.abs_sum_le_sum_abs _ _).trans (Finset.sum_le_sum fun k hk => ?_)
  rw [abs_mul, mul_comm]
  refine mul_le_mul_of_nonneg_right ?_ (abs_nonneg _)
  have hkd : k < d := by
    have := le_degree_of_ne_zero (mem_support_iff.1 hk)
    exact_mod_cast lt_of_le_of_lt this hp
  have h1 := List.all_eq_true.1 h k (List.mem_range.2 hkd)
  have h2 : |moment r k - exactMoment k| ≤ eps := of_decide_eq_true h1
  exact_mod_cast h2

/-- **C41 (Gauss tables), all but nine points.**  The tabulated rules for 1 to 10 points, except 9, integrate every
polynomial of degree below `2n` over [-1, 1] up to `3e-16` times the sum of the absolute values of its coefficients.

What is missing is nine points: see `C41_false`. -/
theorem C41_gauss_table_partial (roots : Nat → List ℝ) (n : Nat) (h1 : 1 ≤ n) (h10 : n ≤ 10) (h9 : n ≠ 9) :
    ∃ r, gaussPoints roots n = some r ∧ HasSize r n ∧ ∀ p : ℝ[X], p.degree < (2 * n : ℕ) →
      |quad r (fun x => p.eval x) - ∫ x in (-1 : ℝ)..1, p.eval x| ≤ 3 / 10 ^ 16 * coeffSum p := by
  obtain ⟨r, hr, hs, hm⟩ := gaussTable_ok n h1 h10 h9
  refine ⟨(r.1.map (fun q : ℚ => (q : ℝ)), r.2.map (fun q : ℚ => (q : ℝ))), ?_, ?_, ?_⟩
  · unfold gaussPoints
    rw [if_neg (by omega)]
    simp only [Int.toNat_natCast, hr]
  · simp only [sizeOk, Bool.and_eq_true, beq_iff_eq] at hs
    exact ⟨by simpa using hs.1, by simpa using hs.2⟩
  · intro p hp
    have := table_bound r (2 * n) _ hm p hp
    push_cast at this
    exact this

/-- **C41 (Gauss-Lobatto tables).**  The tabulated rules for 2 to 10 points integrate every polynomial of degree below
`2n - 2` over [-1, 1] up to `3e-15` times the sum of the absolute values of its coefficients. -/
theorem C41_lobatto_table (roots : Nat → List ℝ) (n : Nat) (h1 : 2 ≤ n) (h10 : n ≤ 10) :
    ∃ r, lobattoPoints roots n = some r ∧ HasSize r n ∧ ∀ p : ℝ[X], p.degree < (2 * n - 2 : ℕ) →
      |quad r (fun x => p.eval x) - ∫ x in (-1 : ℝ)..1, p.eval x| ≤ 3 / 10 ^ 15 * coeffSum p := by
  obtain ⟨r, hr, hs, hm⟩ := lobattoTable_ok n h1 h10
  refine ⟨(r.1.map (fun q : ℚ => (q : ℝ)), r.2.map (fun q : ℚ => (q : ℝ))), ?_, ?_, ?_⟩
  · unfold lobattoPoints
    rw [if_neg (by omega)]
    simp only [Int.toNat_natCast, hr]
  · simp only [sizeOk, Bool.and_eq_true, beq_iff_eq] at hs
    exact ⟨by simpa using hs.1, by simpa using hs.2⟩
  · intro p hp
    have := table_bound r (2 * n - 2) _ hm p hp
    push_cast at this
    exact this

/-- **C41 is false for nine points.**  The nine-point Gauss rule is wrong by more than a tenth on the square, whose
integral is 2/3. -/
theorem C41_false (roots : Nat → List ℝ) : ∃ r, gaussPoints roots 9 = some r ∧
    1 / 10 < |quad r (fun x => (X ^ 2 : ℝ[X]).eval x) - ∫ x in (-1 : ℝ)..1, (X ^ 2 : ℝ[X]).eval x| := by
  obtain ⟨r, hr, hm⟩ : ∃ r, gaussTable 9 = some r ∧ momentOff r 2 (1 / 10) = true :=
    ⟨_, rfl, by decide +kernel⟩
  refine ⟨(r.1.map (fun q : ℚ => (q : ℝ)), r.2.map (fun q : ℚ => (q : ℝ))), ?_, ?_⟩
  · unfold gaussPoints
    rw [if_neg (by omega)]
    simp only [show (9 : Int).toNat = 9 from rfl, hr]
  · rw [← integ_apply, integ_X_pow]
    simp only [eval_pow, eval_X]
    rw [quad_cast]
    have h2 : 1 / 10 < |moment r 2 - exactMoment 2| := by simpa [momentOff] using hm
    have h3 : ((1 / 10 : ℚ) : ℝ) < ((|moment r 2 - exactMoment 2| : ℚ) : ℝ) := by exact_mod_cast h2
    push_cast at h3
    norm_num at h3 ⊢
    exact h3

/-! ### The formulas -/

theorem gaussTable_none (n : Nat) (h : 10 < n) : gaussTable n = none := by
  unfold gaussTable
  split <;> first | rfl | omega

theorem lobattoTable_none (n : Nat) (h : 10 < n) : lobattoTable n = none := by
  unfold lobattoTable
  split <;> first | rfl | omega

theorem quad_map (g : List ℝ) (hg : g.Nodup) (w : ℝ → ℝ) (f : ℝ → ℝ) :
    quad (g, g.map w) f = ∑ x ∈ g.toFinset, w x * f x := by
  rw [List.sum_toFinset _ hg, quad]
  congr 1
  induction g with
  | nil => rfl
  | cons a l ih => simp only [List.map_cons, List.zip_cons_cons]; rw [ih (List.nodup_cons.1 hg).2]

/-- **C41 (Gauss, more than ten points).**  If the root finder returns the `n` different roots of the Legendre
polynomial, the rule integrates every polynomial of degree below `2n` exactly. -/
theorem C41_gauss_formula (roots : Nat → List ℝ) (n : Nat) (hn : 10 < n) (hlen : (roots n).length = n)
    (hnd : (roots n).Nodup) (hroot : ∀ x ∈ roots n, (legendre n).eval x = 0) :
    ∃ r, gaussPoints roots n = some r ∧ HasSize r n ∧ r.1 = roots n ∧
      ∀ p : ℝ[X], p.degree < (2 * n : ℕ) → quad r (fun x => p.eval x) = ∫ x in (-1 : ℝ)..1, p.eval x := by
  have hcard : (roots n).toFinset.card = n := by rw [List.toFinset_card_of_nodup hnd, hlen]
  obtain ⟨hex, hw⟩ := gauss n (roots n).toFinset hcard (fun x hx => hroot x (List.mem_toFinset.1 hx))
  refine ⟨(roots n, (roots n).map fun x => 2 / ((1 - x * x) * evalDerivative n x * evalDerivative n x)), ?_,
    ⟨hlen, by simpa using hlen⟩, rfl, ?_⟩
  · unfold gaussPoints
    rw [if_neg (by omega)]
    simp only [Int.toNat_natCast, gaussTable_none n hn]
  · intro p hp
    rw [quad_map _ hnd, ← integ_apply, ← hex p hp]
    refine Finset.sum_congr rfl fun x hx => ?_
    congr 1
    have hev : evalDerivative n x = (derivative (legendre n)).eval x := by
      unfold evalDerivative; rw [C40_evaluate]; rfl
    rw [hev]
    obtain ⟨h2, h3⟩ := hw x hx
    generalize (derivative (legendre n)).eval x = d at *
    have : (1 - x * x) * d * d ≠ 0 := by intro h; rw [h, zero_mul] at h2; norm_num at h2
    rw [div_eq_iff this, ← h2]; ring

/-- **C41 (Gauss-Lobatto, more than ten points).**  If the root finder returns the `n - 2` different roots of the
derivative of the Legendre polynomial of degree `n - 1`, the rule with the ends added integrates every polynomial of
degree below `2n - 2` exactly. -/
theorem C41_lobatto_formula (roots : Nat → List ℝ) (n : Nat) (hn : 10 < n) (hlen : (roots (n - 1)).length = n - 2)
    (hnd : (roots (n - 1)).Nodup) (hroot : ∀ x ∈ roots (n - 1), (derivative (legendre (n - 1))).eval x = 0) :
    ∃ r, lobattoPoints roots n = some r ∧ HasSize r n ∧ r.1 = -1 :: roots (n - 1) ++ [1] ∧
      ∀ p : ℝ[X], p.degree < (2 * n - 2 : ℕ) → quad r (fun x => p.eval x) = ∫ x in (-1 : ℝ)..1, p.eval x := by
  obtain ⟨N, rfl⟩ : ∃ N, n = N + 1 := ⟨n - 1, by omega⟩
  rw [Nat.add_sub_cancel] at hlen hnd hroot ⊢
  have hN : (0 : ℝ) < N := by exact_mod_cast (by omega : 0 < N)
  set g : List ℝ := -1 :: roots N ++ [1] with hg
  have hd1 : ∀ e : ℝ, |e| = 1 → (derivative (legendre N)).eval e ≠ 0 := by
    intro e he h
    obtain ⟨k, rfl⟩ : ∃ k, N = k + 1 := ⟨N - 1, by omega⟩
    have h1 := congrArg (eval e) (ode (k + 1))
    have he2 : e ^ 2 = 1 := by rw [← sq_abs, he]; norm_num
    simp only [derivative_mul, derivative_sub, derivative_one, eval_add, eval_mul, eval_neg, eval_sub, eval_C,
      derivative_X_pow, eval_pow, eval_X, eval_one, he2, h] at h1
    simp only [sub_self, zero_mul, mul_zero, add_zero, neg_mul] at h1
    have h2 : (legendre (k + 1)).eval e = 0 := by
      have : ((k + 1 : ℕ) : ℝ) * ((k + 1 : ℕ) + 1) ≠ 0 := by positivity
      exact (mul_eq_zero.1 (neg_eq_zero.1 h1.symm)).resolve_left this
    rcases (abs_eq (by norm_num : (0 : ℝ) ≤ 1)).1 he with h3 | h3
    · rw [h3, eval_one_legendre] at h2; norm_num at h2
    · rw [h3, eval_neg_one_legendre] at h2
      have := sq_neg_one_pow (k + 1)
      rw [h2] at this; norm_num at this
  have hm1 : (-1 : ℝ) ∉ roots N := fun h => hd1 (-1) (by norm_num) (hroot _ h)
  have hp1 : (1 : ℝ) ∉ roots N := fun h => hd1 1 (by norm_num) (hroot _ h)
  have hgnd : g.Nodup := by
    rw [hg, List.cons_append, List.nodup_cons, List.nodup_append]
    refine ⟨?_, hnd, by simp, ?_⟩
    · rw [List.mem_append, List.mem_singleton]
      rintro (h | h)
      · exact hm1 h
      · norm_num at h
    · intro a ha b hb hab
      rw [List.mem_singleton] at hb
      rw [hab, hb] at ha
      exact hp1 ha
  have hglen : g.length = N + 1 := by
    rw [hg]; simp [hlen]; omega
  have hcard : g.toFinset.card = N + 1 := by rw [List.toFinset_card_of_nodup hgnd, hglen]
  have h0 : ∀ x ∈ g.toFinset, (om N).eval x = 0 := by
    intro x hx
    rw [List.mem_toFinset, hg, List.cons_append, List.mem_cons, List.mem_append, List.mem_singleton] at hx
    rcases hx with h | h | h
    · rw [h]; exact om_neg_one N
    · rw [om, eval_mul, hroot x h, mul_zero]
    · rw [h]; exact om_one N
  obtain ⟨hex, hw⟩ := lobatto N (by omega) g.toFinset hcard h0
  refine ⟨(g, g.map fun x => 2 / (((N + 1 : ℕ) : ℝ) * (((N + 1 : ℕ) : ℝ) - 1) * evalValue N x * evalValue N x)), ?_,
    ⟨hglen, by simpa using hglen⟩, rfl, ?_⟩
  · unfold lobattoPoints
    rw [if_neg (by omega)]
    simp only [Int.toNat_natCast, lobattoTable_none (N + 1) hn, Nat.add_sub_cancel]
    rw [List.take_of_length_le (by omega)]
  · intro p hp
    rw [quad_map _ hgnd, ← integ_apply, ← hex p (by rw [show 2 * N = 2 * (N + 1) - 2 by omega]; exact hp)]
    refine Finset.sum_congr rfl fun x hx => ?_
    congr 1
    have hev : evalValue N x = (legendre N).eval x := by
      unfold evalValue; rw [C40_evaluate]; rfl
    rw [hev]
    have h2 := hw x hx
    push_cast
    generalize (legendre N).eval x = d at *
    have : ((N : ℝ) + 1) * ((N : ℝ) + 1 - 1) * d * d ≠ 0 := by
      intro h
      have h3 : (N : ℝ) * (N + 1) * d * d = 0 := by rw [← h]; ring
      rw [h3, zero_mul] at h2; norm_num at h2
    rw [div_eq_iff this, ← h2]; ring

/-- **C41 (the roots exist).**  For every degree there are lists as the last two theorems ask for: increasing, inside
(-1, 1). -/
theorem C41_roots_exist : ∃ rootsG rootsL : Nat → List ℝ, ∀ n,
    ((rootsG n).length = n ∧ (rootsG n).Pairwise (· < ·) ∧
      ∀ x ∈ rootsG n, (legendre n).eval x = 0 ∧ -1 < x ∧ x < 1) ∧
    ((rootsL n).length = n - 1 ∧ (rootsL n).Pairwise (· < ·) ∧
      ∀ x ∈ rootsL n, (derivative (legendre n)).eval x = 0 ∧ -1 < x ∧ x < 1) := by
  choose x hx using legendre_roots
  choose y hy using derivative_roots
  refine ⟨fun n => (List.range n).map (x n), fun n => (List.range (n - 1)).map (y n), fun n => ⟨⟨by simp, ?_, ?_⟩, by simp, ?_, ?_⟩⟩
  · rw [List.pairwise_map]
    refine List.Pairwise.imp_of_mem ?_ List.pairwise_lt_range
    intro a b _ hb hab
    exact (hx n).2.2 a b hab (List.mem_range.1 hb)
  · intro z hz
    obtain ⟨i, hi, rfl⟩ := List.mem_map.1 hz
    rw [List.mem_range] at hi
    exact ⟨(hx n).2.1 i hi, (hx n).1 i hi⟩
  · rw [List.pairwise_map]
    refine List.Pairwise.imp_of_mem ?_ List.pairwise_lt_range
    intro a b _ hb hab
    exact (hy n).2.2 a b hab (List.mem_range.1 hb)
  · intro z hz
    obtain ⟨i, hi, rfl⟩ := List.mem_map.1 hz
    rw [List.mem_range] at hi
    exact ⟨(hy n).2.1 i hi, (hy n).1 i hi⟩

/-! ### Other intervals -/

/-- **C41 (other intervals).**  On [a, b] the rescaled rule is off, for a polynomial, by half the length of the interval
times what the rule is off on [-1, 1] for the polynomial carried over, which has the same degree or less; so a rule
exact up to a degree stays exact up to that degree. -/
theorem C41_rescale (r : List ℝ × List ℝ) (a b : ℝ) (p : ℝ[X]) : ∃ q : ℝ[X], q.degree ≤ p.degree ∧
    (∀ x, q.eval x = p.eval (a + (b - a) / 2 * (x + 1))) ∧
    quad (rescale a b r) (fun x => p.eval x) - ∫ x in a..b, p.eval x =
      (b - a) / 2 * (quad r (fun x => q.eval x) - ∫ x in (-1 : ℝ)..1, q.eval x) := by
  refine ⟨p.comp (C ((b - a) / 2) * X + C (a + (b - a) / 2)), ?_, ?_, ?_⟩
  · by_cases hp : p = 0
    · rw [hp, zero_comp]
    · have h1 : (p.comp (C ((b - a) / 2) * X + C (a + (b - a) / 2))).natDegree ≤ p.natDegree := by
        refine natDegree_comp_le.trans ?_
        have := natDegree_linear_le (a := (b - a) / 2) (b := a + (b - a) / 2)
        nlinarith [Nat.zero_le p.natDegree]
      refine degree_le_natDegree.trans ?_
      rw [degree_eq_natDegree hp]
      exact_mod_cast h1
  · intro x
    rw [eval_comp]
    simp only [eval_add, eval_mul, eval_C, eval_X]
    congr 1; ring
  · have hq : ∀ x, (p.comp (C ((b - a) / 2) * X + C (a + (b - a) / 2))).eval x =
        p.eval (a + (b - a) / 2 * (x + 1)) := by
      intro x
      rw [eval_comp]
      simp only [eval_add, eval_mul, eval_C, eval_X]
      congr 1; ring
    have h1 : quad (rescale a b r) (fun x => p.eval x) =
        (b - a) / 2 * quad r (fun x => (p.comp (C ((b - a) / 2) * X + C (a + (b - a) / 2))).eval x) := by
      simp only [hq]
      unfold quad rescale
      simp only [List.zip_map, List.map_map]
      induction r.1.zip r.2 with
      | nil => simp
      | cons c l ih =>
        simp only [List.map_cons, List.sum_cons, ih, Function.comp, Prod.map]
        rw [show (0.5 : ℝ) * (b - a) = (b - a) / 2 by ring]; ring
    have h2 : ∫ x in a..b, p.eval x =
        (b - a) / 2 * ∫ x in (-1 : ℝ)..1, (p.comp (C ((b - a) / 2) * X + C (a + (b - a) / 2))).eval x := by
      simp only [hq]
      have := intervalIntegral.smul_integral_comp_add_mul (a := -1) (b := 1) (fun x => p.eval x) ((b - a) / 2)
        (a + (b - a) / 2)
      rw [show a + (b - a) / 2 + (b - a) / 2 * -1 = a by ring, show a + (b - a) / 2 + (b - a) / 2 * 1 = b by ring,
        smul_eq_mul] at this
      rw [← this]
      congr 2
      ext x
      congr 1; ring
    rw [h1, h2]; ring

/-- Eleven points: the hypotheses of the formulas are met by the lists that exist. -/
example : ∃ roots : Nat → List ℝ, (roots 11).length = 11 ∧ (roots 11).Nodup ∧
    ∀ x ∈ roots 11, (legendre 11).eval x = 0 := by
  obtain ⟨g, _, h⟩ := C41_roots_exist
  obtain ⟨⟨h1, h2, h3⟩, -⟩ := h 11
  exact ⟨g, h1, h2.imp fun h => h.ne, fun x hx => (h3 x hx).1⟩

/-- The same for Gauss-Lobatto. -/
example : ∃ roots : Nat → List ℝ, (roots (11 - 1)).length = 11 - 2 ∧ (roots (11 - 1)).Nodup ∧
    ∀ x ∈ roots (11 - 1), (derivative (legendre (11 - 1))).eval x = 0 := by
  obtain ⟨_, l, h⟩ := C41_roots_exist
  obtain ⟨-, h1, h2, h3⟩ := h 10
  exact ⟨l, h1, h2.imp fun h => h.ne, fun x hx => (h3 x hx).1⟩

end Verif.Quad
