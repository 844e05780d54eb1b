/-
The flux correction function is well defined and its derivatives are computed (C87).
-/
import Mathlib.Analysis.SpecialFunctions.Integrals.Basic
import Mathlib.Algebra.Polynomial.Derivative
import Mathlib.Algebra.Polynomial.FieldDivision
import Mathlib.Topology.Algebra.Polynomial
import Mathlib.LinearAlgebra.FiniteDimensional.Basic
import Mathlib.Tactic.LinearCombination
import Verif.Column.Correction
import Verif.Column.CorrectionSpec

namespace Verif.Column

open Finset Polynomial

theorem cont (p : ℝ[X]) (a b : ℝ) : IntervalIntegrable (fun x => p.eval x) MeasureTheory.volume a b :=
  p.continuous.intervalIntegrable _ _

/-- Perpendicular to itself times a weight that does not vanish inside. -/
theorem weight_zero (t : Nat) (r : ℝ[X]) (h : ∫ x in (0 : ℝ)..1, x ^ t * (x - 1) * (r.eval x * r.eval x) = 0) : r = 0 := by
  by_contra hr
  have hinf : (Set.Ioo (0 : ℝ) 1).Infinite := Set.Ioo_infinite one_pos
  obtain ⟨c, hc, hcr⟩ : ∃ c ∈ Set.Ioo (0 : ℝ) 1, r.eval c ≠ 0 := by
    by_contra hno
    push Not at hno
    exact hinf (Set.Finite.subset (r.roots.toFinset.finite_toSet) fun x hx => by
      rw [Finset.mem_coe, Multiset.mem_toFinset, mem_roots hr]
      exact hno x hx)
  have hpos : 0 < ∫ x in (0 : ℝ)..1, x ^ t * (1 - x) * (r.eval x * r.eval x) := by
    apply intervalIntegral.integral_pos one_pos
    · exact (by have := r.continuous; fun_prop : Continuous fun x : ℝ => x ^ t * (1 - x) * (r.eval x * r.eval x)).continuousOn
    · intro x hx
      exact mul_nonneg (mul_nonneg (pow_nonneg hx.1.le _) (by linarith [hx.2])) (mul_self_nonneg _)
    · exact ⟨c, ⟨hc.1.le, hc.2.le⟩, mul_pos (mul_pos (pow_pos hc.1 _) (by linarith [hc.2])) (mul_self_pos.2 hcr)⟩
  have e : (∫ x in (0 : ℝ)..1, x ^ t * (1 - x) * (r.eval x * r.eval x)) =
      -∫ x in (0 : ℝ)..1, x ^ t * (x - 1) * (r.eval x * r.eval x) := by
    rw [← intervalIntegral.integral_neg]
    congr 1
    funext x
    ring
  rw [e, h] at hpos
  simp at hpos

/-- The conditions with right-hand side zero have only the solution zero. -/
theorem hom_zero (t n : Nat) (g : ℝ[X]) (hd : g.degree ≤ n) (h1 : g.eval 1 = 0) (ht : X ^ t ∣ g)
    (ho : ∀ p : ℝ[X], p.degree < (n - t : ℕ) → ∫ x in (0 : ℝ)..1, g.eval x * p.eval x = 0) : g = 0 := by
  by_contra hg
  obtain ⟨s, rfl⟩ := ht
  have hs : s.eval 1 = 0 := by simpa using h1
  obtain ⟨r, rfl⟩ := dvd_iff_isRoot.2 (show s.IsRoot 1 from hs)
  have hr : r ≠ 0 := by rintro rfl; simp at hg
  have hdeg : t + (1 + r.natDegree) ≤ n := by
    have := natDegree_le_of_degree_le hd
    rwa [natDegree_mul (pow_ne_zero _ X_ne_zero) (mul_ne_zero (X_sub_C_ne_zero _) hr),
      natDegree_mul (X_sub_C_ne_zero _) hr, natDegree_X_pow, natDegree_X_sub_C] at this
  have := ho r (by rw [← natDegree_lt_iff_degree_lt hr]; omega)
  apply hr
  apply weight_zero t
  rw [← this]
  congr 1
  funext x
  simp
  ring

/-- Perpendicular to all monomials is perpendicular to all polynomials. -/
theorem perp_of_monomials (q : ℝ[X]) (k : Nat) (a b : ℝ) (h : ∀ m < k, ∫ x in a..b, q.eval x * x ^ m = 0) (p : ℝ[X])
    (hp : p.degree < (k : ℕ)) : ∫ x in a..b, q.eval x * p.eval x = 0 := by
  have e : ∀ x, q.eval x * p.eval x = ∑ m ∈ range k, p.coeff m * (q.eval x * x ^ m) := by
    intro x
    have : p.natDegree < k ∨ p = 0 := by
      by_cases hz : p = 0
      · exact Or.inr hz
      · exact Or.inl ((natDegree_lt_iff_degree_lt hz).2 hp)
    rcases this with h | rfl
    · rw [eval_eq_sum_range' h, mul_sum]
      exact sum_congr rfl fun m _ => by ring
    · simp
  simp only [e]
  rw [intervalIntegral.integral_finsetSum]
  · apply sum_eq_zero
    intro m hm
    rw [intervalIntegral.integral_const_mul, h m (mem_range.1 hm), mul_zero]
  · intro m _
    exact (by have := q.continuous; fun_prop : Continuous fun x : ℝ => p.coeff m * (q.eval x * x ^ m)).intervalIntegrable _ _

/-- The polynomial on [-1, 1] with the solved coefficients, highest power first. -/
noncomputable def reconPoly (n : Nat) (b : Nat → ℝ) : ℝ[X] := ∑ i ∈ range (n + 1), C (b i) * X ^ (n - i)

theorem derivCoeff_eq (n k i : Nat) : derivCoeff n k i = ((n - i).descFactorial k : ℕ) := by
  induction k with
  | zero => simp [derivCoeff]
  | succ k ih =>
    rw [derivCoeff, Nat.descFactorial_succ, ih]
    by_cases h : i < n - k
    · rw [if_pos h, Nat.cast_mul, show n - k - i = n - i - k by omega]
    · rw [if_neg h, show n - i - k = 0 by omega]; simp

theorem eq_left (t n : Nat) (b : Nat → ℝ) :
    ∑ i ∈ range (n + 1), vandermondeEntry t n i 0 * b i = (reconPoly n b).eval (-1) := by
  rw [reconPoly, eval_finsetSum]
  apply sum_congr rfl
  intro i _
  simp [vandermondeEntry]
  ring

theorem eq_right (t n : Nat) (b : Nat → ℝ) (k : Nat) (hk : k < t) :
    ∑ i ∈ range (n + 1), vandermondeEntry t n i (k + 1) * b i = (derivative^[k] (reconPoly n b)).eval 1 := by
  rw [reconPoly, iterate_derivative_sum, eval_finsetSum]
  apply sum_congr rfl
  intro i hi
  rw [mem_range] at hi
  rw [iterate_derivative_C_mul, iterate_derivative_X_pow_eq_C_mul]
  rw [vandermondeEntry, if_neg (by omega), if_pos (by omega), Nat.add_sub_cancel, derivCoeff_eq n k i]
  simp
  ring

theorem int_pow (s : Nat) : ∫ x in (-1 : ℝ)..1, x ^ s = if s % 2 = 0 then 2 / ((s : ℝ) + 1) else 0 := by
  rw [integral_pow, one_pow]
  by_cases h : s % 2 = 0
  · rw [if_pos h, Odd.neg_one_pow (by rw [Nat.odd_iff]; omega)]
    norm_num
  · rw [if_neg h, Even.neg_one_pow (by rw [Nat.even_iff]; omega)]
    norm_num

theorem eq_perp (t n : Nat) (b : Nat → ℝ) (m : Nat) :
    ∑ i ∈ range (n + 1), vandermondeEntry t n i (t + 1 + m) * b i = ∫ x in (-1 : ℝ)..1, (reconPoly n b).eval x * x ^ m := by
  have e : ∀ x : ℝ, (reconPoly n b).eval x * x ^ m = ∑ i ∈ range (n + 1), b i * x ^ (n - i + m) := by
    intro x
    rw [reconPoly, eval_finsetSum, sum_mul]
    exact sum_congr rfl fun i _ => by simp; ring
  simp only [e]
  rw [intervalIntegral.integral_finsetSum]
  · apply sum_congr rfl
    intro i _
    rw [intervalIntegral.integral_const_mul, int_pow, vandermondeEntry, if_neg (by omega), if_neg (by omega),
      show n - i + (t + 1 + m - t - 1) = n - i + m by omega]
    ring
  · intro i _
    exact (by fun_prop : Continuous fun x : ℝ => b i * x ^ (n - i + m)).intervalIntegrable _ _

theorem recon_degree (n : Nat) (b : Nat → ℝ) : (reconPoly n b).degree ≤ n := by
  rw [reconPoly]
  refine (degree_sum_le _ _).trans (Finset.sup_le fun i _ => ?_)
  exact (degree_C_mul_X_pow_le _ _).trans (by exact_mod_cast Nat.sub_le n i)

theorem recon_coeff (n : Nat) (b : Nat → ℝ) (i : Nat) (hi : i ≤ n) : (reconPoly n b).coeff (n - i) = b i := by
  rw [reconPoly, finsetSum_coeff, sum_eq_single i]
  · simp
  · intro j hj hne
    rw [mem_range] at hj
    rw [coeff_C_mul, coeff_X_pow, if_neg (by omega), mul_zero]
  · intro h
    exact absurd (mem_range.2 (by omega)) h

/-- The reflection from [0, 1] to [-1, 1]. -/
noncomputable def flip : ℝ[X] := C 1 - C 2 * X

theorem flip_natDegree : flip.natDegree = 1 := by
  unfold flip
  compute_degree
  all_goals norm_num

theorem comp_degree (q l : ℝ[X]) (hl : l.natDegree ≤ 1) (n : Nat) (hq : q.degree ≤ n) : (q.comp l).degree ≤ n := by
  apply degree_le_of_natDegree_le
  refine natDegree_comp_le.trans ?_
  have := natDegree_le_of_degree_le hq
  nlinarith

theorem comp_degree_lt (q l : ℝ[X]) (hl : l.natDegree ≤ 1) (n : Nat) (hq : q.degree < n) : (q.comp l).degree < n := by
  by_cases hz : q.comp l = 0
  · rw [hz, degree_zero]; exact WithBot.bot_lt_coe _
  have h0 : q ≠ 0 := by rintro rfl; simp at hz
  rw [← natDegree_lt_iff_degree_lt hz]
  have := (natDegree_lt_iff_degree_lt h0).2 hq
  refine lt_of_le_of_lt natDegree_comp_le (lt_of_le_of_lt ?_ this)
  nlinarith

/-- The conditions on the solved coefficients say that the reflected polynomial meets the ones on [0, 1]. -/
theorem recon_conditions (t n : Nat) (b : Nat → ℝ) (v : ℝ)
    (h0 : ∑ i ∈ range (n + 1), vandermondeEntry t n i 0 * b i = v)
    (h : ∀ j, 1 ≤ j → j < n + 1 → ∑ i ∈ range (n + 1), vandermondeEntry t n i j * b i = 0) (htn : t ≤ n) :
    ((reconPoly n b).comp flip).degree ≤ n ∧ ((reconPoly n b).comp flip).eval 1 = v ∧ X ^ t ∣ (reconPoly n b).comp flip ∧
    ∀ p : ℝ[X], p.degree < (n - t : ℕ) → ∫ x in (0 : ℝ)..1, ((reconPoly n b).comp flip).eval x * p.eval x = 0 := by
  refine ⟨comp_degree _ _ flip_natDegree.le n (recon_degree n b), ?_, ?_, ?_⟩
  · rw [eval_comp, show flip.eval 1 = -1 by norm_num [flip], ← eq_left t, h0]
  · by_cases hz : reconPoly n b = 0
    · rw [hz, zero_comp]; exact dvd_zero _
    have hdvd : (X - C 1) ^ t ∣ reconPoly n b := by
      rw [← le_rootMultiplicity_iff hz]
      cases t with
      | zero => exact Nat.zero_le _
      | succ t =>
        refine (lt_rootMultiplicity_iff_isRoot_iterate_derivative_of_mem_nonZeroDivisors' hz (n := t) ?_).2 ?_
        · intro m _ hm
          rw [mem_nonZeroDivisors_iff_ne_zero]
          exact_mod_cast hm
        · intro m hm
          rw [IsRoot, ← eq_right (t + 1) n b m (by omega)]
          exact h (m + 1) (by omega) (by omega)
    obtain ⟨r, hr⟩ := hdvd
    rw [hr, mul_comp, pow_comp, sub_comp, X_comp, C_comp]
    refine Dvd.dvd.mul_right ?_ _
    rw [show flip - C 1 = X * C (-2) by unfold flip; rw [show (-2 : ℝ) = -(2 : ℝ) by norm_num, C_neg]; ring, mul_pow]
    exact Dvd.intro _ rfl
  · intro p hp
    have hq := perp_of_monomials (reconPoly n b) (n - t) (-1) 1 (fun m hm => by
      rw [← eq_perp t n b m]
      exact h _ (by omega) (by omega)) (p.comp (C (1 / 2) - C (1 / 2) * X)) (comp_degree_lt _ _ (by compute_degree) _ hp)
    have hs := intervalIntegral.integral_comp_sub_mul (a := 0) (b := 1) (c := 2)
      (fun x => (reconPoly n b).eval x * (p.comp (C (1 / 2) - C (1 / 2) * X)).eval x) (by norm_num) 1
    have e1 : (1 : ℝ) - 2 * 1 = -1 := by norm_num
    have e2 : (1 : ℝ) - 2 * 0 = 1 := by norm_num
    rw [e1, e2, hq, smul_zero] at hs
    rw [← hs]
    congr 1
    funext x
    rw [eval_comp, eval_comp]
    congr 2
    · norm_num [flip]
    · simp; ring

/-- The system the code sets up has one solution. -/
theorem nonsingular (t n : Nat) (htn : t ≤ n) (c : Nat → ℝ)
    (h : ∀ j < n + 1, ∑ i ∈ range (n + 1), vandermondeEntry t n i j * c i = 0) : ∀ i < n + 1, c i = 0 := by
  obtain ⟨a1, a2, a3, a4⟩ := recon_conditions t n c 0 (h 0 (by omega)) (fun j _ hj => h j hj) htn
  have hz := hom_zero t n _ a1 a2 a3 a4
  have hr : reconPoly n c = 0 := by
    by_contra hne
    have := (comp_eq_zero_iff.1 hz).resolve_left hne
    have h2 : flip.natDegree = 0 := by rw [this.2]; exact natDegree_C _
    rw [flip_natDegree] at h2
    exact one_ne_zero h2
  intro i hi
  rw [← recon_coeff n c i (by omega), hr, coeff_zero]

theorem differentiate_at (n : Nat) (b : Nat → ℝ) (i : Nat) (hi : i < n) :
    differentiate n b (n - i) = ((i + 1 : Nat) : ℝ) * (b (n - i - 1) * (-1) ^ (i + 1)) := by
  unfold differentiate
  rw [Function.update_of_ne (by omega)]
  have key : ∀ m ≤ n, ∀ j, (List.range m).foldl
      (fun c i => Function.update c (n - i) (((i + 1 : Nat) : ℝ) * c (n - i - 1))) (fun i => b i * (-1) ^ (n - i)) j =
      if n - m < j ∧ j ≤ n then ((n - j + 1 : Nat) : ℝ) * (b (j - 1) * (-1) ^ (n - (j - 1))) else b j * (-1) ^ (n - j) := by
    intro m
    induction m with
    | zero => intro _ j; simp
    | succ m ih =>
      intro hm j
      rw [List.range_succ, List.foldl_append, List.foldl_cons, List.foldl_nil]
      by_cases hj : j = n - m
      · rw [hj, Function.update_self, ih (by omega), if_neg (by omega), if_pos (by omega),
          show n - (n - m) + 1 = m + 1 by omega]
      · rw [Function.update_of_ne hj, ih (by omega)]
        by_cases hc : n - m < j ∧ j ≤ n
        · rw [if_pos hc, if_pos (by omega)]
        · rw [if_neg hc, if_neg (by omega)]
  rw [key n le_rfl, if_pos (by omega), show n - (n - i) + 1 = i + 1 by omega, show n - (n - i - 1) = i + 1 by omega]

theorem evalDeriv_eq (n : Nat) (d : Nat → ℝ) (x : ℝ) :
    evalDeriv n d x = (∑ i ∈ range n, d (n - i) * (2 * x - 1) ^ i) * 2 := by
  unfold evalDeriv
  congr 1
  have : ∀ m, (List.range m).foldl (fun s i => (s.1 + d (n - i) * s.2, s.2 * (2 * x - 1))) ((0 : ℝ), (1 : ℝ)) =
      (∑ i ∈ range m, d (n - i) * (2 * x - 1) ^ i, (2 * x - 1) ^ m) := by
    intro m
    induction m with
    | zero => simp
    | succ m ih => rw [List.range_succ, List.foldl_append, ih]; simp [sum_range_succ, pow_succ]
  rw [this]

theorem recon_deriv (n : Nat) (b : Nat → ℝ) (x : ℝ) :
    evalDeriv n (differentiate n b) x = (derivative ((reconPoly n b).comp flip)).eval x := by
  rw [evalDeriv_eq, derivative_comp, eval_mul, eval_comp]
  have f1 : (derivative flip).eval x = -2 := by norm_num [flip]
  have f2 : flip.eval x = -(2 * x - 1) := by norm_num [flip]
  rw [f1, f2, reconPoly, sum_range_succ, Nat.sub_self, pow_zero, mul_one, derivative_add, derivative_C, add_zero,
    derivative_sum, eval_finsetSum, ← sum_range_reflect (fun i => (derivative (C (b i) * X ^ (n - i))).eval (-(2 * x - 1))),
    sum_mul, mul_sum]
  apply sum_congr rfl
  intro i hi
  rw [mem_range] at hi
  rw [differentiate_at n b i hi, show n - 1 - i = n - i - 1 by omega, show n - (n - i - 1) = i + 1 by omega]
  simp only [derivative_mul, derivative_C, zero_mul, zero_add, derivative_X_pow, eval_mul, eval_C, eval_pow, eval_X,
    Nat.add_sub_cancel]
  rw [show (-(2 * x - 1)) = (-1) * (2 * x - 1) by ring, mul_pow, pow_succ]
  push_cast
  ring

/-- **C87 (flux correction function).**  For a type between 1 and the order there is exactly one flux correction function, and
whatever solver of linear systems is linked in, the values computed are its derivative at the nodes. -/
theorem C87_correction (solve : Dgesv) (hs : Solves solve) (t n : Nat) (h1 : 1 ≤ t) (htn : t ≤ n) :
    (∃! g, IsCorrection t n g) ∧ ∃ f, getDerivatives solve t n = .ok f ∧
      ∀ g, IsCorrection t n g → ∀ x, f x = (derivative g).eval x := by
  have hsol := hs (n + 1) (vandermondeEntry t n) correctionRhs (nonsingular t n htn)
  have hg : IsCorrection t n ((reconPoly n (solve (n + 1) (vandermondeEntry t n) correctionRhs)).comp flip) :=
    recon_conditions t n _ 1 (by rw [hsol 0 (by omega)]; simp [correctionRhs])
      (fun j hj hjn => by rw [hsol j hjn]; rw [correctionRhs, if_neg (by omega)]) htn
  have huniq : ∀ g, IsCorrection t n g → g = (reconPoly n (solve (n + 1) (vandermondeEntry t n) correctionRhs)).comp flip := by
    intro g hgg
    rw [← sub_eq_zero]
    apply hom_zero t n
    · exact (degree_sub_le _ _).trans (max_le hgg.1 hg.1)
    · rw [eval_sub, hgg.2.1, hg.2.1, sub_self]
    · exact dvd_sub hgg.2.2.1 hg.2.2.1
    · intro p hp
      simp only [eval_sub, sub_mul]
      rw [intervalIntegral.integral_sub, hgg.2.2.2 p hp, hg.2.2.2 p hp, sub_self]
      · exact (g.continuous.mul p.continuous).intervalIntegrable _ _
      · exact ((Polynomial.continuous _).mul p.continuous).intervalIntegrable _ _
  refine ⟨⟨_, hg, huniq⟩,
    evalDeriv n (differentiate n (solve (n + 1) (vandermondeEntry t n) correctionRhs)), ?_, ?_⟩
  · rw [getDerivatives, if_neg (by omega), if_neg (by omega), if_neg (by omega)]
  · intro g hgg x
    rw [huniq g hgg]
    exact recon_deriv n _ x

/-- **C87 (refused).**  A type or an order below 1 is refused; a type above the order writes outside the matrix. -/
theorem C87_correction_refused (solve : Dgesv) (t n : Nat) :
    (getDerivatives solve t n = .exc ↔ t < 1 ∨ n < 1) ∧ (getDerivatives solve t n = .ub ↔ 1 ≤ n ∧ n < t) := by
  unfold getDerivatives
  by_cases h1 : t < 1
  · rw [if_pos h1]; simp; omega
  · rw [if_neg h1]
    by_cases h2 : n < 1
    · rw [if_pos h2]; simp; omega
    · rw [if_neg h2]
      by_cases h3 : n < t
      · rw [if_pos h3]; simp; omega
      · rw [if_neg h3]; simp; omega

/-- There is a correct solver. -/
theorem solver_exists : ∃ solve : Dgesv, Solves solve := by
  classical
  have : ∀ (n : Nat) (A : Nat → Nat → ℝ) (b : Nat → ℝ), ∃ x : Nat → ℝ,
      (∀ c : Nat → ℝ, (∀ j < n, ∑ i ∈ Finset.range n, A i j * c i = 0) → ∀ i < n, c i = 0) →
      ∀ j < n, ∑ i ∈ Finset.range n, A i j * x i = b j := by
    intro n A b
    by_cases hinj : ∀ c : Nat → ℝ, (∀ j < n, ∑ i ∈ Finset.range n, A i j * c i = 0) → ∀ i < n, c i = 0
    swap
    · exact ⟨0, fun h => absurd h hinj⟩
    let L : (Fin n → ℝ) →ₗ[ℝ] (Fin n → ℝ) :=
      { toFun := fun c j => ∑ i : Fin n, A i j * c i
        map_add' := fun u v => by funext j; simp [mul_add, sum_add_distrib]
        map_smul' := fun k u => by funext j; simp [mul_sum]; exact sum_congr rfl fun i _ => by ring }
    let ext : (Fin n → ℝ) → Nat → ℝ := fun c i => if h : i < n then c ⟨i, h⟩ else 0
    have hext : ∀ c (j : Fin n), ∑ i ∈ range n, A i j * ext c i = L c j := by
      intro c j
      rw [← Fin.sum_univ_eq_sum_range (fun i => A i j * ext c i)]
      apply sum_congr rfl
      intro i _
      simp [ext]
    have hi : Function.Injective L := by
      rw [← LinearMap.ker_eq_bot, LinearMap.ker_eq_bot']
      intro c hc
      have := hinj (ext c) (fun j hj => by rw [hext c ⟨j, hj⟩, hc]; rfl)
      funext i
      simpa [ext] using this i i.2
    obtain ⟨x, hx⟩ := (LinearMap.injective_iff_surjective.1 hi) (fun j => b j)
    exact ⟨ext x, fun _ j hj => by rw [hext x ⟨j, hj⟩, hx]⟩
  choose f hf using this
  exact ⟨f, hf⟩

/-- The hypotheses are met, and the function of type 2 and order 2 is `x ^ 2`. -/
example : (∃ solve : Dgesv, Solves solve) ∧ IsCorrection 2 2 (X ^ 2) := by
  refine ⟨solver_exists, by simp, by simp, dvd_rfl, fun p hp => ?_⟩
  have : p = 0 := by
    rw [← degree_eq_bot]
    by_contra hb
    rw [degree_eq_natDegree (fun h => hb (by rw [h, degree_zero]))] at hp
    have : p.natDegree < 0 := by exact_mod_cast hp
    omega
  simp [this]

end Verif.Column
