/-
Lemmas for C38 and C39: the loops compute values and derivatives of the Lagrange basis polynomials.
-/
import Mathlib.LinearAlgebra.Lagrange
import Mathlib.Algebra.Polynomial.Derivative
import Mathlib.Tactic.FieldSimp
import Mathlib.Tactic.Ring
import Mathlib.Tactic.Linarith
import Verif.Interp.Model
import Verif.Interp.Spec

namespace Verif.Interp

open Polynomial

theorem apply_map_range (n : Nat) (c y : Nat → ℝ) :
    apply ((List.range n).map c) y = ∑ i ∈ Finset.range n, c i * y i := by
  unfold apply
  induction n with
  | zero => simp
  | succ n ih =>
    rw [List.range_succ, List.map_append, List.zipIdx_append, List.map_append, List.sum_append, ih,
      Finset.sum_range_succ]
    simp

/-- The product of the linear factors for the nodes in the list, except `i` and `m`. -/
noncomputable def factors (x : Nat → ℝ) (i m : Nat) : List Nat → ℝ[X]
  | [] => 1
  | j :: l => (if j = i ∨ j = m then 1 else C ((x i - x j)⁻¹) * (X - C (x j))) * factors x i m l

/-- Value and the first three derivatives of a polynomial at a point. -/
noncomputable def jet (p : ℝ[X]) (s : ℝ) : ℝ × ℝ × ℝ × ℝ :=
  (p.eval s, p.derivative.eval s, p.derivative.derivative.eval s, p.derivative.derivative.derivative.eval s)

theorem jet_linear_mul (a r s : ℝ) (p : ℝ[X]) : jet ((C a * (X - C r)) * p) s =
    (a * (s - r) * (jet p s).1, a * (s - r) * (jet p s).2.1 + a * (jet p s).1,
      a * (s - r) * (jet p s).2.2.1 + 2 * a * (jet p s).2.1,
      a * (s - r) * (jet p s).2.2.2 + 3 * a * (jet p s).2.2.1) := by
  simp [jet]
  refine ⟨?_, ?_, ?_⟩ <;> ring

/-- The accumulated quantities describe the jet. -/
def Describes (a : Acc) (v : ℝ × ℝ × ℝ × ℝ) : Prop :=
  v = (a.c, a.c * a.sum, a.c * (a.sum * a.sum - a.sum2), a.c * (a.sum * a.sum * a.sum - 3 * a.sum * a.sum2 + a.sum3))

theorem describes_step {x : Nat → ℝ} {s : ℝ} {i m : Nat} {a : Acc} {p : ℝ[X]} (j : Nat) (h : Describes a (jet p s))
    (hj : j ≠ i → j ≠ m → s ≠ x j) :
    Describes (matchStep x s i m a j) (jet ((if j = i ∨ j = m then 1 else C ((x i - x j)⁻¹) * (X - C (x j))) * p) s) := by
  unfold matchStep
  by_cases hc : j = i ∨ j = m
  · rw [if_pos hc, if_pos hc, one_mul]; exact h
  · rw [if_neg hc, if_neg hc, jet_linear_mul]
    rw [not_or] at hc
    have hs := sub_ne_zero.2 (hj hc.1 hc.2)
    unfold Describes at h ⊢
    rw [h]
    simp only [Prod.mk.injEq, div_eq_mul_inv]
    generalize (x i - x j)⁻¹ = k
    generalize s - x j = e at *
    refine ⟨by ring, ?_, ?_, ?_⟩ <;> field_simp <;> ring

theorem factors_comm (x : Nat → ℝ) (i m : Nat) (l : List Nat) (j : Nat) (p : ℝ[X]) :
    factors x i m l * ((if j = i ∨ j = m then 1 else C ((x i - x j)⁻¹) * (X - C (x j))) * p) =
      factors x i m (j :: l) * p := by
  rw [factors]; ring

theorem describes_fold {x : Nat → ℝ} {s : ℝ} {i m : Nat} (l : List Nat) (a : Acc) (p : ℝ[X])
    (h : Describes a (jet p s)) (hl : ∀ j ∈ l, j ≠ i → j ≠ m → s ≠ x j) :
    Describes (l.foldl (matchStep x s i m) a) (jet (factors x i m l * p) s) := by
  induction l generalizing a p with
  | nil => simpa [factors] using h
  | cons j l ih =>
    rw [List.foldl_cons, ← factors_comm]
    exact ih _ _ (describes_step j h (hl j (by simp))) (fun k hk => hl k (by simp [hk]))

theorem describes_one (s : ℝ) : Describes ⟨1, 0, 0, 0⟩ (jet 1 s) := by simp [Describes, jet]

theorem describes_match (n : Nat) (x : Nat → ℝ) (s : ℝ) (i m : Nat) (h : ∀ j, j < n → j ≠ i → j ≠ m → s ≠ x j) :
    Describes (matchAcc n x s i m) (jet (factors x i m (List.range n)) s) := by
  have := describes_fold (List.range n) _ 1 (describes_one s) (fun j hj => h j (List.mem_range.1 hj))
  rwa [mul_one] at this

/-- The product loop of `LagrangianPolynomialCoeffs` and the loop of sums together are the loop for a match with the
node itself. -/
theorem lagrange_fold (x : Nat → ℝ) (s : ℝ) (i : Nat) (l : List Nat) (a : Acc) :
    l.foldl (lagrangeStep x s i) a.c = (l.foldl (matchStep x s i i) a).c := by
  induction l generalizing a with
  | nil => rfl
  | cons j l ih =>
    rw [List.foldl_cons, List.foldl_cons, ← ih]
    congr 1
    unfold lagrangeStep matchStep
    by_cases h : i = j
    · rw [if_pos h, if_pos (Or.inl h.symm)]
    · rw [if_neg h, if_neg (by rintro (h' | h') <;> exact h h'.symm)]

theorem sum_fold (x : Nat → ℝ) (s : ℝ) (i : Nat) (l : List Nat) (a b : Acc) (h : a.sum = b.sum ∧ a.sum2 = b.sum2 ∧
    a.sum3 = b.sum3) :
    l.foldl (sumStep x s i) a = { l.foldl (matchStep x s i i) b with c := a.c } := by
  induction l generalizing a b with
  | nil => obtain ⟨h1, h2, h3⟩ := h; simp [← h1, ← h2, ← h3]
  | cons j l ih =>
    obtain ⟨h1, h2, h3⟩ := h
    rw [List.foldl_cons, List.foldl_cons]
    by_cases hc : i = j
    · have e1 : sumStep x s i a j = a := by unfold sumStep; rw [if_pos hc]
      have e2 : matchStep x s i i b j = b := by unfold matchStep; rw [if_pos (Or.inl hc.symm)]
      rw [e1, e2]; exact ih a b ⟨h1, h2, h3⟩
    · have e2 : ¬ (j = i ∨ j = i) := by rintro (h' | h') <;> exact hc h'.symm
      have := ih (sumStep x s i a j) (matchStep x s i i b j) (by
        unfold sumStep matchStep
        rw [if_neg hc, if_neg e2]
        simp [h1, h2, h3])
      rw [this]
      congr 1
      unfold sumStep; rw [if_neg hc]

theorem sumAcc_eq (n : Nat) (x : Nat → ℝ) (s : ℝ) (i : Nat) : sumAcc n x s i = matchAcc n x s i i := by
  unfold sumAcc
  rw [sum_fold x s i (List.range n) ⟨lagrangeCoeff n x s i, 0, 0, 0⟩ ⟨1, 0, 0, 0⟩ ⟨rfl, rfl, rfl⟩]
  unfold matchAcc lagrangeCoeff
  rw [lagrange_fold x s i _ ⟨1, 0, 0, 0⟩]

/-- The Lagrange basis polynomial of node `i`. -/
noncomputable def basis (n : Nat) (x : Nat → ℝ) (i : Nat) : ℝ[X] := factors x i i (List.range n)

theorem factors_prod (x : Nat → ℝ) (i m n : Nat) : factors x i m (List.range n) =
    ∏ j ∈ (Finset.range n).filter (fun j => ¬ (j = i ∨ j = m)), Lagrange.basisDivisor (x i) (x j) := by
  have key : ∀ l : List Nat, l.Nodup → factors x i m l =
      ∏ j ∈ l.toFinset.filter (fun j => ¬ (j = i ∨ j = m)), Lagrange.basisDivisor (x i) (x j) := by
    intro l hl
    induction l with
    | nil => simp [factors]
    | cons j l ih =>
      rw [List.nodup_cons] at hl
      rw [factors, ih hl.2, List.toFinset_cons, Finset.filter_insert]
      by_cases hc : j = i ∨ j = m
      · rw [if_pos hc, if_neg (not_not.2 hc), one_mul]
      · rw [if_neg hc, if_pos hc, Finset.prod_insert (by simp [hl.1])]
        rfl
  rw [key _ List.nodup_range, List.toFinset_range]

theorem basis_eq (n : Nat) (x : Nat → ℝ) (i : Nat) : basis n x i = Lagrange.basis (Finset.range n) x i := by
  rw [basis, factors_prod, Lagrange.basis]
  congr 1
  ext j
  simp only [or_self, Finset.mem_filter, Finset.mem_range, Finset.mem_erase]
  tauto

/-- Splitting off the factor of the matching node. -/
theorem basis_split (n : Nat) (x : Nat → ℝ) (i m : Nat) (hm : m < n) (h : i ≠ m) :
    basis n x i = C ((x i - x m)⁻¹) * (X - C (x m)) * factors x i m (List.range n) := by
  rw [basis, factors_prod, factors_prod]
  have : (Finset.range n).filter (fun j => ¬ (j = i ∨ j = i)) =
      insert m ((Finset.range n).filter (fun j => ¬ (j = i ∨ j = m))) := by
    ext j
    simp only [or_self, Finset.mem_filter, Finset.mem_range, Finset.mem_insert, not_or]
    constructor
    · rintro ⟨h1, h2⟩
      by_cases hj : j = m
      · exact Or.inl hj
      · exact Or.inr ⟨h1, h2, hj⟩
    · rintro (rfl | ⟨h1, h2, -⟩)
      · exact ⟨hm, h.symm⟩
      · exact ⟨h1, h2⟩
  rw [this, Finset.prod_insert (by simp)]
  rfl

theorem interp_eq (n : Nat) (x : Nat → ℝ) (hx : DistinctNodes n x) (p : ℝ[X]) (hp : p.degree < n) :
    p = ∑ i ∈ Finset.range n, C (p.eval (x i)) * basis n x i := by
  have hinj : Set.InjOn x (Finset.range n) := by
    intro i hi j hj hij
    by_contra hne
    exact hx i j (Finset.mem_range.1 hi) (Finset.mem_range.1 hj) hne hij
  have := Lagrange.eq_interpolate hinj (f := p) (by simpa using hp)
  rw [Lagrange.interpolate_apply] at this
  conv_lhs => rw [this]
  exact Finset.sum_congr rfl fun i _ => by rw [basis_eq]

/-- What coefficients that are a linear functional of the basis polynomials do to polynomials. -/
theorem functional (n : Nat) (x : Nat → ℝ) (hx : DistinctNodes n x) (φ : ℝ[X] →ₗ[ℝ] ℝ) (c : Nat → ℝ)
    (hc : ∀ i, i < n → c i = φ (basis n x i)) (p : ℝ[X]) (hp : p.degree < n) :
    apply ((List.range n).map c) (fun i => p.eval (x i)) = φ p := by
  rw [apply_map_range]
  conv_rhs => rw [interp_eq n x hx p hp, map_sum]
  refine Finset.sum_congr rfl fun i hi => ?_
  rw [hc i (Finset.mem_range.1 hi), C_mul', map_smul, smul_eq_mul, mul_comm]

end Verif.Interp
