/-
C38 and C39: interpolation and differentiation coefficients are exact on polynomials.
-/
import Verif.Interp.Lemmas

namespace Verif.Interp

open Polynomial

theorem lagrangeCoeff_eq (n : Nat) (x : Nat → ℝ) (s : ℝ) (i : Nat) : lagrangeCoeff n x s i = (basis n x i).eval s := by
  have key : ∀ (l : List Nat) (c : ℝ) , l.foldl (lagrangeStep x s i) c = c * (factors x i i l).eval s := by
    intro l
    induction l with
    | nil => intro c; simp [factors]
    | cons j l ih =>
      intro c
      rw [List.foldl_cons, ih, factors, eval_mul]
      unfold lagrangeStep
      by_cases h : i = j
      · rw [if_pos h, if_pos (Or.inl h.symm)]; simp
      · rw [if_neg h, if_neg (by rintro (h' | h') <;> exact h h'.symm)]; simp [div_eq_mul_inv]; ring
  unfold lagrangeCoeff
  rw [key, one_mul, basis]

/-- **C38 (exactness).**  The coefficients at any point, applied to the samples of a polynomial of degree below the
number of nodes, give the value of the polynomial at that point. -/
theorem C38_exact (n : Nat) (x : Nat → ℝ) (hx : DistinctNodes n x) (s : ℝ) (p : ℝ[X]) (hp : p.degree < n) :
    apply (lagrangeCoeffs n x s) (fun i => p.eval (x i)) = p.eval s :=
  functional n x hx (leval s) _ (fun i _ => by simp [lagrangeCoeff_eq]) p hp

/-- **C38 (partition of unity).**  The coefficients add up to one. -/
theorem C38_sum (n : Nat) (hn : 0 < n) (x : Nat → ℝ) (hx : DistinctNodes n x) (s : ℝ) :
    (lagrangeCoeffs n x s).sum = 1 := by
  have h := C38_exact n x hx s 1 (by rw [degree_one]; exact_mod_cast hn)
  simp only [eval_one] at h
  rw [← h, apply]
  congr 1
  simp only [mul_one]
  exact (List.zipIdx_map_fst 0 _).symm

/-- **C38 (nodes).**  At a node, the coefficient of that node is one and the others are zero. -/
theorem C38_delta (n : Nat) (x : Nat → ℝ) (hx : DistinctNodes n x) (k : Nat) (hk : k < n) :
    lagrangeCoeffs n x (x k) = (List.range n).map fun i => if i = k then 1 else 0 := by
  unfold lagrangeCoeffs
  apply List.map_congr_left
  intro i hi
  rw [List.mem_range] at hi
  have hinj : Set.InjOn x (Finset.range n) := by
    intro i hi j hj hij
    by_contra hne
    exact hx i j (Finset.mem_range.1 hi) (Finset.mem_range.1 hj) hne hij
  rw [lagrangeCoeff_eq, basis_eq]
  by_cases h : i = k
  · rw [if_pos h, ← h]; exact Lagrange.eval_basis_self hinj (Finset.mem_range.2 hi)
  · rw [if_neg h]; exact Lagrange.eval_basis_of_ne h (Finset.mem_range.2 hk)

theorem interpolate_eq (n : Nat) (x y : Nat → ℝ) (s : ℝ) :
    interpolate n x y s = ∑ i ∈ Finset.range n, lagrangeCoeff n x s i * y i := by
  have key : ∀ (m : Nat) (c : Nat → ℝ) (v : ℝ), (List.range m).foldl (fun v i => v + c i) v =
      v + ∑ i ∈ Finset.range m, c i := by
    intro m c v
    induction m with
    | zero => simp
    | succ m ih => rw [List.range_succ, List.foldl_append, ih, Finset.sum_range_succ]; simp; ring
  unfold interpolate
  rw [key, zero_add]
  rfl

/-- **C38 (interpolation).**  Interpolating any values at distinct nodes is evaluating one polynomial, of degree below
the number of nodes, that takes those values at the nodes; and there is only one such polynomial. -/
theorem C38_interpolate (n : Nat) (x y : Nat → ℝ) (hx : DistinctNodes n x) :
    ∃! p : ℝ[X], p.degree < n ∧ (∀ i, i < n → p.eval (x i) = y i) ∧ ∀ s, interpolate n x y s = p.eval s := by
  have hinj : Set.InjOn x (Finset.range n) := by
    intro i hi j hj hij
    by_contra hne
    exact hx i j (Finset.mem_range.1 hi) (Finset.mem_range.1 hj) hne hij
  refine ⟨Lagrange.interpolate (Finset.range n) x y, ⟨?_, ?_, ?_⟩, ?_⟩
  · simpa using Lagrange.degree_interpolate_lt y hinj
  · intro i hi; exact Lagrange.eval_interpolate_at_node y hinj (Finset.mem_range.2 hi)
  · intro s
    rw [interpolate_eq, Lagrange.interpolate_apply, eval_finsetSum]
    refine Finset.sum_congr rfl fun i _ => ?_
    rw [eval_mul, eval_C, lagrangeCoeff_eq, basis_eq, mul_comm]
  · rintro q ⟨-, -, hq⟩
    apply Polynomial.funext
    intro s
    rw [← hq s, interpolate_eq, Lagrange.interpolate_apply, eval_finsetSum]
    refine Finset.sum_congr rfl fun i _ => ?_
    rw [eval_mul, eval_C, lagrangeCoeff_eq, basis_eq, mul_comm]

/-- **C38 (fixed degrees).**  The linear, quadratic and cubic interpolation functions are the general one for two given
nodes and for three and four equally spaced nodes from 0. -/
theorem C38_fixed (y : Nat → ℝ) (s : ℝ) :
    (∀ x : Nat → ℝ, x 0 ≠ x 1 → linearInterpolate s (x 0) (x 1) (y 0) (y 1) = interpolate 2 x y s) ∧
    (∀ h : ℝ, h ≠ 0 → quadraticInterpolate s h (y 0) (y 1) (y 2) = interpolate 3 (fun i => i * h) y s) ∧
    (∀ h : ℝ, h ≠ 0 → cubicInterpolate s h (y 0) (y 1) (y 2) (y 3) = interpolate 4 (fun i => i * h) y s) := by
  refine ⟨?_, ?_, ?_⟩
  · intro x hx
    have h1 : x 1 - x 0 ≠ 0 := sub_ne_zero.2 hx.symm
    have h2 : x 0 - x 1 ≠ 0 := sub_ne_zero.2 hx
    simp [interpolate, lagrangeStep, List.range_succ, linearInterpolate]
    rw [← neg_sub (x 1) (x 0), div_neg, div_eq_mul_inv, div_eq_mul_inv]
    field_simp
    ring_nf
    simp
  · intro h hh
    simp [interpolate, lagrangeStep, List.range_succ, quadraticInterpolate]
    have e1 : 2 * h - h ≠ 0 := by rw [show 2 * h - h = h by ring]; exact hh
    have e2 : h - 2 * h ≠ 0 := by rw [show h - 2 * h = -h by ring]; exact neg_ne_zero.2 hh
    rw [show 2 * h - h = h by ring, show h - 2 * h = -h by ring]
    field_simp
    ring
  · intro h hh
    simp [interpolate, lagrangeStep, List.range_succ, cubicInterpolate]
    rw [show 2 * h - h = h by ring, show h - 2 * h = -h by ring, show h - 3 * h = -(2 * h) by ring,
      show 2 * h - 3 * h = -h by ring, show 3 * h - h = 2 * h by ring, show 3 * h - 2 * h = h by ring]
    field_simp
    ring

/-- **C38 (monomial coefficients).**  The system set up to find the coefficients of the interpolating polynomial about
a point has, in the row of node `j` and the column of power `i`, that power of the distance of the node from the point
(the storage is by columns); so its solutions are exactly the coefficients of polynomials through the samples. -/
theorem C38_vandermonde (n : Nat) (x y a : Nat → ℝ) (mid : ℝ) :
    (∀ i j, i < n → j < n → vandermonde n x mid (i * n + j) = (x j - mid) ^ i) ∧
    ((∀ j, j < n → ∑ i ∈ Finset.range n, vandermonde n x mid (i * n + j) * a i = y j) ↔
      ∀ j, j < n → (∑ i ∈ Finset.range n, C (a i) * (X - C mid) ^ i : ℝ[X]).eval (x j) = y j) := by
  have h : ∀ i j, i < n → j < n → vandermonde n x mid (i * n + j) = (x j - mid) ^ i := by
    intro i j hi hj
    induction i with
    | zero => rw [vandermonde, dif_pos (Or.inr (by omega))]; simp
    | succ i ih =>
      have e : (i + 1) * n + j = i * n + j + n := by ring
      rw [vandermonde, dif_neg (by rw [not_or]; constructor <;> omega), e, Nat.add_sub_cancel, ih (by omega),
        show (i * n + j + n) % n = j by rw [Nat.add_mod_right, Nat.mul_add_mod_self_right, Nat.mod_eq_of_lt hj]]
      ring
  refine ⟨h, ?_⟩
  refine forall_congr' fun j => forall_congr' fun hj => ?_
  rw [eval_finsetSum]
  have : ∑ i ∈ Finset.range n, vandermonde n x mid (i * n + j) * a i =
      ∑ i ∈ Finset.range n, (C (a i) * (X - C mid) ^ i : ℝ[X]).eval (x j) := by
    refine Finset.sum_congr rfl fun i hi => ?_
    rw [h i j (Finset.mem_range.1 hi) hj]
    simp [mul_comm]
  rw [this]

/-! ### C39 -/

theorem apart_distinct {n : Nat} {x : Nat → ℝ} (h : ApartNodes n x) : DistinctNodes n x := by
  intro i j hi hj hij he
  have := h i j hi hj hij
  rw [he, sub_self, abs_zero] at this
  norm_num at this

theorem findMatch_some {n : Nat} {x : Nat → ℝ} {s : ℝ} {m : Nat} (h : findMatch n x s = some m) :
    m < n ∧ |s - x m| < 1 / 10 ^ 14 := by
  unfold findMatch at h
  have h1 := List.mem_of_find?_eq_some h
  have h2 := List.find?_some h
  exact ⟨List.mem_range.1 h1, by simpa using h2⟩

theorem findMatch_none {n : Nat} {x : Nat → ℝ} {s : ℝ} (h : findMatch n x s = none) (j : Nat) (hj : j < n) :
    s ≠ x j := by
  unfold findMatch at h
  rw [List.find?_eq_none] at h
  have := h j (List.mem_range.2 hj)
  intro he
  rw [he, sub_self, abs_zero] at this
  norm_num at this

theorem match_ne {n : Nat} {x : Nat → ℝ} (hx : ApartNodes n x) {s : ℝ} {m : Nat} (h : findMatch n x s = some m)
    (j : Nat) (hj : j < n) (hjm : j ≠ m) : s ≠ x j := by
  obtain ⟨hm, hs⟩ := findMatch_some h
  intro he
  have := hx j m hj hm hjm
  rw [he] at hs
  linarith

/-- The three derivative coefficients are the derivatives of the basis polynomial. -/
theorem diff_jet (n : Nat) (x : Nat → ℝ) (hx : ApartNodes n x) (s : ℝ) (i : Nat) (_hi : i < n) :
    diffCoeff n x s i = (jet (basis n x i) s).2.1 ∧ diffDiffCoeff n x s i = (jet (basis n x i) s).2.2.1 ∧
    diffDiffDiffCoeff n x s i = (jet (basis n x i) s).2.2.2 := by
  unfold diffCoeff diffDiffCoeff diffDiffDiffCoeff
  cases h : findMatch n x s with
  | none =>
    simp only
    have hd := describes_match n x s i i (fun j hj _ _ => findMatch_none h j hj)
    rw [sumAcc_eq]
    unfold Describes at hd
    rw [basis, hd]
    exact ⟨rfl, rfl, rfl⟩
  | some m =>
    obtain ⟨hm, -⟩ := findMatch_some h
    have hd := describes_match n x s i m (fun j hj _ hjm => match_ne hx h j hj hjm)
    unfold Describes at hd
    simp only
    by_cases him : i = m
    · subst him
      rw [basis, hd]
      simp
    · simp only [ne_eq, him, not_false_eq_true, if_true]
      rw [basis_split n x i m hm him, jet_linear_mul, hd]
      simp only [div_eq_mul_inv]
      generalize (x i - x m)⁻¹ = k
      refine ⟨?_, ?_, ?_⟩ <;> ring

/-- **C39 (first derivative).**  At any point, at a node, near one or between nodes, the first derivative coefficients
applied to the samples of a polynomial of degree below the number of nodes give its derivative there. -/
theorem C39_first (n : Nat) (x : Nat → ℝ) (hx : ApartNodes n x) (s : ℝ) (p : ℝ[X]) (hp : p.degree < n) :
    apply (diffCoeffs n x s) (fun i => p.eval (x i)) = p.derivative.eval s :=
  functional n x (apart_distinct hx) ((leval s).comp derivative) _ (fun i hi => (diff_jet n x hx s i hi).1) p hp

/-- **C39 (second derivative).** -/
theorem C39_second (n : Nat) (x : Nat → ℝ) (hx : ApartNodes n x) (s : ℝ) (p : ℝ[X]) (hp : p.degree < n) :
    apply (diffDiffCoeffs n x s) (fun i => p.eval (x i)) = p.derivative.derivative.eval s :=
  functional n x (apart_distinct hx) (((leval s).comp derivative).comp derivative) _
    (fun i hi => (diff_jet n x hx s i hi).2.1) p hp

/-- **C39 (third derivative).** -/
theorem C39_third (n : Nat) (x : Nat → ℝ) (hx : ApartNodes n x) (s : ℝ) (p : ℝ[X]) (hp : p.degree < n) :
    apply (diffDiffDiffCoeffs n x s) (fun i => p.eval (x i)) = p.derivative.derivative.derivative.eval s :=
  functional n x (apart_distinct hx) ((((leval s).comp derivative).comp derivative).comp derivative) _
    (fun i hi => (diff_jet n x hx s i hi).2.2) p hp

/-- **C39 (constants).**  The derivative coefficients of each order add up to zero. -/
theorem C39_sum_zero (n : Nat) (hn : 0 < n) (x : Nat → ℝ) (hx : ApartNodes n x) (s : ℝ) :
    (diffCoeffs n x s).sum = 0 ∧ (diffDiffCoeffs n x s).sum = 0 ∧ (diffDiffDiffCoeffs n x s).sum = 0 := by
  have hd : (1 : ℝ[X]).degree < n := by rw [degree_one]; exact_mod_cast hn
  have key : ∀ c : List ℝ, apply c (fun _ => 1) = c.sum := by
    intro c
    unfold apply
    congr 1
    simp only [mul_one]
    exact List.zipIdx_map_fst 0 _
  have h1 := C39_first n x hx s 1 hd
  have h2 := C39_second n x hx s 1 hd
  have h3 := C39_third n x hx s 1 hd
  simp only [eval_one, key] at h1 h2 h3
  simp [h1, h2, h3]

/-- Three nodes and a parabola: hypotheses are met and the derivative at a node is as expected. -/
example : ApartNodes 3 (fun i => (i : ℝ)) ∧ (X ^ 2 : ℝ[X]).degree < (3 : Nat) ∧
    apply (diffCoeffs 3 (fun i => (i : ℝ)) 1) (fun i => (X ^ 2 : ℝ[X]).eval (i : ℝ)) = 2 := by
  have h1 : ApartNodes 3 (fun i => (i : ℝ)) := by
    intro i j _ _ hij
    have : (1 : ℝ) ≤ |(i : ℝ) - j| := by
      have h : (1 : ℤ) ≤ |(i : ℤ) - j| := Int.one_le_abs (by omega)
      exact_mod_cast h
    have : (1 : ℝ) / 10 ^ 14 ≤ 1 := by norm_num
    linarith
  have h2 : (X ^ 2 : ℝ[X]).degree < (3 : Nat) := by rw [degree_X_pow]; norm_num
  refine ⟨h1, h2, ?_⟩
  rw [C39_first 3 _ h1 1 _ h2]
  norm_num

/-- Four distinct nodes, a cubic and a point that is not a node. -/
example : DistinctNodes 4 (fun i => (i : ℝ)) ∧ (X ^ 3 : ℝ[X]).degree < (4 : Nat) ∧
    apply (lagrangeCoeffs 4 (fun i => (i : ℝ)) (1 / 2)) (fun i => (X ^ 3 : ℝ[X]).eval (i : ℝ)) = 1 / 8 := by
  have h1 : DistinctNodes 4 (fun i => (i : ℝ)) := fun i j _ _ hij h => hij (Nat.cast_injective h)
  have h2 : (X ^ 3 : ℝ[X]).degree < (4 : Nat) := by rw [degree_X_pow]; norm_num
  refine ⟨h1, h2, ?_⟩
  rw [C38_exact 4 _ h1 _ _ h2]
  norm_num

end Verif.Interp
