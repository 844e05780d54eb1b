/-
C145: with more iterations per restart than equations every step by
generalised minimal residuals of regular linear equations is done.
-/
import Verif.Newton.GmresSpace
import Mathlib.LinearAlgebra.Dimension.Constructions
import Mathlib.LinearAlgebra.Dimension.Finite

namespace Verif.Newton

open Finset

/-- Specification: the matrix is regular. -/
def Regular {n : Nat} (a : Fin n → Fin n → ℝ) : Prop := ∀ v : Fin n → ℝ, (∀ j, ∑ l, a j l * v l = 0) → ∀ l, v l = 0

theorem backSubst_some (H : Nat → Nat → ℝ) (k : Nat) (hH : ∀ l, l < k → H l l ≠ 0) : ∀ y, ∃ z, backSubst H k y = some z := by
  induction k with
  | zero => intro y; exact ⟨y, rfl⟩
  | succ k ih =>
    intro y
    unfold backSubst
    by_cases h0 : y k = 0
    · rw [if_pos h0]
      exact ih (fun l hl => hH l (by omega)) y
    · rw [if_neg h0, if_neg (hH k (by omega))]
      exact ih (fun l hl => hH l (by omega)) _

section
variable {n : Nat} {S : Solver n} {a : Fin n → Fin n → ℝ} {b : Fin n → ℝ}

theorem combine {V p : Nat → Fin n → ℝ} {H : Nat → Nat → ℝ} {y r : Nat → ℝ} (m : Nat) (j : Fin n)
    (hc : ∀ c, c < m → ∑ l, a j l * V c l = ∑ k ∈ range (c + 1), H c k * p k j)
    (hy : ∀ l, l < m → ∑ c ∈ range m, (if l ≤ c then H c l else 0) * y c = r l) :
    ∑ l, a j l * ∑ c ∈ range m, y c * V c l = ∑ k ∈ range m, r k * p k j := by
  have e1 : ∑ l, a j l * ∑ c ∈ range m, y c * V c l = ∑ c ∈ range m, y c * ∑ l, a j l * V c l := by
    simp only [mul_sum]
    rw [sum_comm]
    exact sum_congr rfl fun c _ => sum_congr rfl fun l _ => by ring
  have e2 : ∑ c ∈ range m, y c * ∑ l, a j l * V c l
      = ∑ c ∈ range m, ∑ k ∈ range m, (if k ≤ c then H c k else 0) * y c * p k j := by
    refine sum_congr rfl fun c hcm => ?_
    have hcm := mem_range.1 hcm
    rw [hc c hcm, mul_sum]
    have : range (c + 1) ⊆ range m := range_subset_range.2 (by omega)
    rw [← sum_subset this]
    · refine sum_congr rfl fun k hk => ?_
      rw [if_pos (by have := mem_range.1 hk; omega)]
      ring
    · intro k _ hk
      rw [if_neg (by rw [mem_range] at hk; omega)]
      ring
  rw [e1, e2, sum_comm]
  refine sum_congr rfl fun k hk => ?_
  rw [← sum_mul, hy k (mem_range.1 hk)]

theorem next_diag (h : Affine S.eval a b) (hr : Regular a) (he : S.eps ≠ 0) (x f : Fin n → ℝ) {i : Nat} {K : Krylov n}
    (I : Inv a f i K) (hd : ∀ l, l < i → K.H l l ≠ 0) : ∀ l, l < i + 1 → (K.next S x i).H l l ≠ 0 := by
  obtain ⟨_, _, n3, _, _⟩ := next_inv h he x f I
  have hdL : ∀ l, l < i → (K.next S x i).H l l ≠ 0 := by
    intro l hl
    rw [(next_cs l hl).2.2.1]
    exact hd l hl
  intro l hl
  rcases Nat.lt_succ_iff_lt_or_eq.1 hl with hl | rfl
  · exact hdL l hl
  · intro h0
    obtain ⟨y, hy⟩ := backSubst_some (K.next S x l).H l hdL (fun k => (K.next S x l).H l k)
    have hs := (backSubst_spec _ _ _ _ hy).1
    have hz := hr (fun c => (K.next S x l).V l c - ∑ j ∈ range l, y j * (K.next S x l).V j c) (by
      intro j
      simp only [mul_sub, sum_sub_distrib]
      rw [combine l j (fun c hc => n3 c (by omega) j) hs, n3 l (by omega) j, sum_range_succ, h0]
      ring)
    have hV : ∀ c, K.V l c = ∑ j ∈ range l, y j * K.V j c := by
      intro c
      have := hz c
      rw [next_V l le_rfl] at this
      rw [sub_eq_zero.1 this]
      refine sum_congr rfl fun j hj => ?_
      rw [next_V j (by have := mem_range.1 hj; omega)]
    have hone : dot (K.V l) (K.V l) = 1 := by rw [I.ortho l l (by omega) (by omega), if_pos rfl]
    have hzero : dot (K.V l) (K.V l) = ∑ j ∈ range l, y j * dot (K.V j) (K.V l) := by
      conv_lhs => unfold dot
      unfold dot
      simp only [mul_sum]
      rw [sum_comm]
      refine sum_congr rfl fun c _ => ?_
      have e : K.V l c * K.V l c = (∑ j ∈ range l, y j * K.V j c) * K.V l c := by rw [← hV c]
      rw [e, sum_mul]
      exact sum_congr rfl fun j _ => by ring
    rw [hzero, sum_eq_zero] at hone
    · exact zero_ne_one hone
    · intro j hj
      have := mem_range.1 hj
      rw [I.ortho j l (by omega) (by omega), if_neg (by omega), mul_zero]

theorem ortho_card {V : Nat → Fin n → ℝ} {k : Nat} (h : Ortho V k) : k ≤ n := by
  have hli : LinearIndependent ℝ (fun i : Fin k => V i.1) := by
    rw [linearIndependent_iff']
    intro s g hg i hi
    have h1 : dot (∑ j ∈ s, g j • V j.1) (V i.1) = ∑ j ∈ s, g j * dot (V j.1) (V i.1) := by
      unfold dot
      simp only [Finset.sum_apply, Pi.smul_apply, smul_eq_mul, sum_mul, mul_sum]
      rw [sum_comm]
      exact sum_congr rfl fun j _ => sum_congr rfl fun c _ => by ring
    rw [hg] at h1
    have h2 : ∑ j ∈ s, g j * dot (V j.1) (V i.1) = g i := by
      rw [sum_eq_single i]
      · rw [h i.1 i.1 i.2 i.2, if_pos rfl, mul_one]
      · intro j _ hj
        rw [h j.1 i.1 j.2 i.2, if_neg (fun e => hj (Fin.ext e)), mul_zero]
      · intro hn
        exact absurd hi hn
    rw [h2] at h1
    rw [← h1]
    simp [dot]
  simpa using hli.fintype_card_le_finrank

theorem cycle_done (h : Affine S.eval a b) (hr : Regular a) (he : S.eps ≠ 0) (x f : Fin n → ℝ) (bn tol : ℝ) (ht : 0 ≤ tol) (left : Nat) :
    ∀ (i : Nat) (K : Krylov n), Inv a f i K → (∀ l, l < i → K.H l l ≠ 0) → n ≤ i + left →
      ∃ g e, Krylov.cycle S x bn tol left i K = .ret (g, e) := by
  induction left with
  | zero =>
    intro i K I _ hn
    have := ortho_card I.ortho
    omega
  | succ left ih =>
    intro i K I hd hn
    obtain ⟨n1, n2, n3, n4, n5⟩ := next_inv h he x f I
    have hdL := next_diag h hr he x f I hd
    unfold Krylov.cycle
    dsimp only
    by_cases hte : |(K.next S x i).s (i + 1)| * (1 / bn) ≤ tol
    · rw [if_pos hte]
      obtain ⟨y, hy⟩ := backSubst_some _ (i + 1) hdL (K.next S x i).s
      rw [hy]
      exact ⟨_, _, rfl⟩
    · rw [if_neg hte]
      have hz : K.length S x i ≠ 0 := by
        intro hz
        apply hte
        rw [n5 hz]
        simpa using ht
      rw [if_neg hz]
      exact ih (i + 1) _ ⟨n4 hz, n1, n2, n3⟩ hdL (by omega)

/-- C145: with more iterations per restart than equations every step of regular linear equations returns, and leaves at
most the tolerance times what was left before. -/
theorem C145_done (h : Affine S.eval a b) (hr : Regular a) (he : S.eps ≠ 0) (hi : n < S.iter) (x : Fin n → ℝ) (maxIter : Int)
    (hm : 0 < maxIter) (tol : ℝ) (ht : 0 ≤ tol) :
    ∃ y e, gmresStep S x maxIter tol = .ret (y, e) ∧
      (Real.sqrt (misfit S.eval y) < 1 / 10 ^ 14 ∨ Real.sqrt (misfit S.eval y) ≤ tol * Real.sqrt (misfit S.eval x)) := by
  have hret : ∃ y e, gmresStep S x maxIter tol = .ret (y, e) := by
    unfold gmresStep
    dsimp only
    by_cases h1 : |norm2 (S.eval x)| < 1 / 10 ^ 14
    · rw [if_pos h1]
      exact ⟨_, _, rfl⟩
    rw [if_neg h1, if_neg (by omega)]
    have hp : norm2 (S.eval x) ≠ 0 := by
      intro h0
      apply h1
      rw [h0]
      norm_num
    by_cases h3 : norm2 (S.eval x) * (1 / norm2 (S.eval x)) ≤ tol
    · rw [if_pos h3]
      exact ⟨_, _, rfl⟩
    rw [if_neg h3, if_neg he]
    obtain ⟨g, e, hc⟩ := cycle_done h hr he x (S.eval x) (norm2 (S.eval x)) tol ht (S.iter - 1) 0 _ (start_inv hp a)
      (fun l hl => by omega) (by omega)
    rw [hc]
    exact ⟨_, _, rfl⟩
  obtain ⟨y, e, hs⟩ := hret
  refine ⟨y, e, hs, ?_⟩
  rcases C145_residual h x y maxIter tol e hs with ⟨h1, h2, _⟩ | ⟨_, h2, h3⟩
  · left
    rw [h2]
    exact h1
  · right
    rw [h3]
    exact mul_le_mul_of_nonneg_right h2 (Real.sqrt_nonneg _)

/-- C145: with a tolerance of zero the step then solves the equations, to almost nothing. -/
theorem C145_solved (h : Affine S.eval a b) (hr : Regular a) (he : S.eps ≠ 0) (hi : n < S.iter) (x : Fin n → ℝ) (maxIter : Int)
    (hm : 0 < maxIter) : ∃ y e, gmresStep S x maxIter 0 = .ret (y, e) ∧ Real.sqrt (misfit S.eval y) < 1 / 10 ^ 14 := by
  obtain ⟨y, e, hs, hy⟩ := C145_done h hr he hi x maxIter hm 0 le_rfl
  refine ⟨y, e, hs, ?_⟩
  rcases hy with hy | hy
  · exact hy
  · rw [zero_mul] at hy
    exact lt_of_le_of_lt hy (by positivity)

/-- C145: with more iterations per restart than equations, iteration on regular linear equations with a tolerance of the
step below that of the solution reports success, at a state that leaves at most the tolerance of the step times what
was left. -/
theorem C145_linear (h : Affine S.eval a b) (hr : Regular a) (he : S.eps ≠ 0) (hi : n < S.iter) (x : Fin n → ℝ) (maxIter gIter : Int)
    (hm : 0 < maxIter) (hg : 0 < gIter) (solnTol gTol : ℝ) (h0 : 0 ≤ gTol) (ht : gTol < solnTol) :
    ∃ y, newton S x maxIter solnTol gIter gTol = .ret (y, true) ∧
      (Real.sqrt (misfit S.eval y) < 1 / 10 ^ 14 ∨ Real.sqrt (misfit S.eval y) ≤ gTol * Real.sqrt (misfit S.eval x)) := by
  obtain ⟨y, e, hs, hy⟩ := C145_done h hr he hi x gIter hg gTol h0
  exact ⟨y, C145_one_step x maxIter hm solnTol gIter gTol (lt_of_le_of_lt h0 ht) ht y e hs, hy⟩

end

/-- Two equations with three iterations per restart meet the hypotheses: `x + 1 = 0` and `2 y + 1 = 0` from zero, which
with two iterations leave the array. -/
example : ∃ y e, gmresStep (⟨3, 1 / 100000, fun x j => (if j = 0 then x 0 else 2 * x 1) + 1⟩ : Solver 2) (fun _ => 0) 5 0 = .ret (y, e) ∧
    Real.sqrt (misfit (fun (x : Fin 2 → ℝ) j => (if j = 0 then x 0 else 2 * x 1) + 1) y) < 1 / 10 ^ 14 := by
  refine C145_solved (S := ⟨3, 1 / 100000, fun x j => (if j = 0 then x 0 else 2 * x 1) + 1⟩)
    (a := fun j l => if j = l then (if j = 0 then 1 else 2) else 0) (b := fun _ => 1) ?_ ?_ (by norm_num) (by norm_num) _ _ (by norm_num)
  · intro x j
    fin_cases j <;> simp
  · intro v hv l
    have h0 := hv 0
    have h1 := hv 1
    simp at h0 h1
    fin_cases l
    · exact h0
    · exact h1

end Verif.Newton
