/-
C145: which states a step by generalised minimal residuals can reach, and
when it leaves its array.
-/
import Verif.Newton.GmresProps
import Mathlib.LinearAlgebra.Span.Basic

namespace Verif.Newton

open Finset

/-- Specification: the right hand side multiplied by the matrix `k` times. -/
def image {n : Nat} (a : Fin n → Fin n → ℝ) (f : Fin n → ℝ) : Nat → Fin n → ℝ
  | 0 => f
  | k + 1 => fun j => ∑ l, a j l * image a f k l

/-- Specification: the combinations of the first `d` of these vectors. -/
def Space {n : Nat} (a : Fin n → Fin n → ℝ) (f : Fin n → ℝ) (d : Nat) : Submodule ℝ (Fin n → ℝ) :=
  Submodule.span ℝ {v | ∃ k, k < d ∧ v = image a f k}

section
variable {n : Nat} {S : Solver n} {a : Fin n → Fin n → ℝ} {b : Fin n → ℝ}

theorem space_mono {f : Fin n → ℝ} {d d' : Nat} (h : d ≤ d') : Space a f d ≤ Space a f d' :=
  Submodule.span_mono fun _ ⟨k, hk, hv⟩ => ⟨k, by omega, hv⟩

theorem space_image {f : Fin n → ℝ} {d : Nat} {v : Fin n → ℝ} (hv : v ∈ Space a f d) :
    (fun j => ∑ l, a j l * v l) ∈ Space a f (d + 1) := by
  unfold Space at hv
  induction hv using Submodule.span_induction with
  | mem v hv =>
    obtain ⟨k, hk, rfl⟩ := hv
    exact Submodule.subset_span ⟨k + 1, by omega, rfl⟩
  | zero =>
    have : (fun j => ∑ l, a j l * (0 : Fin n → ℝ) l) = 0 := by funext j; simp
    rw [this]
    exact Submodule.zero_mem _
  | add u v _ _ hu hv =>
    have : (fun j => ∑ l, a j l * (u + v) l) = (fun j => ∑ l, a j l * u l) + fun j => ∑ l, a j l * v l := by
      funext j
      simp [mul_add, sum_add_distrib]
    rw [this]
    exact Submodule.add_mem _ hu hv
  | smul c v _ hv =>
    have : (fun j => ∑ l, a j l * (c • v) l) = c • fun j => ∑ l, a j l * v l := by
      funext j
      simp only [Pi.smul_apply, smul_eq_mul, mul_sum]
      exact sum_congr rfl fun l _ => by ring
    rw [this]
    exact Submodule.smul_mem _ c hv

theorem gram_space {f : Fin n → ℝ} {V : Nat → Fin n → ℝ} {d : Nat} {w : Fin n → ℝ} (hw : w ∈ Space a f d) (k : Nat)
    (hV : ∀ l, l < k → V l ∈ Space a f d) : gramW V w k ∈ Space a f d := by
  induction k with
  | zero => exact hw
  | succ k ih =>
    have : gramW V w (k + 1) = (-dot (gramW V w k) (V k)) • V k + gramW V w k := by
      funext j
      simp [gramW, axpy]
    rw [this]
    exact Submodule.add_mem _ (Submodule.smul_mem _ _ (hV k (by omega))) (ih fun l hl => hV l (by omega))

theorem next_space (h : Affine S.eval a b) (he : S.eps ≠ 0) (x f : Fin n → ℝ) {i : Nat} {K : Krylov n}
    (hK : ∀ l, l ≤ i → K.V l ∈ Space a f (l + 1)) : ∀ l, l ≤ i + 1 → (K.next S x i).V l ∈ Space a f (l + 1) := by
  intro l hl
  rcases Nat.lt_succ_iff_lt_or_eq.1 (Nat.lt_succ_of_le hl) with hl | rfl
  · rw [next_V l (by omega)]
    exact hK l (by omega)
  · have hw : S.along x (K.V i) ∈ Space a f (i + 1 + 1) := by
      have : S.along x (K.V i) = fun j => ∑ l, a j l * K.V i l := funext fun j => along_affine h he x _ j
      rw [this]
      exact space_image (hK i le_rfl)
    have : (K.next S x i).V (i + 1) = (1 / K.length S x i) • gramW K.V (S.along x (K.V i)) (i + 1) := by
      funext j
      simp [Krylov.next]
    rw [this]
    exact Submodule.smul_mem _ _ (gram_space hw (i + 1) fun l hl => space_mono (by omega) (hK l (by omega)))

theorem cycle_space (h : Affine S.eval a b) (he : S.eps ≠ 0) (x f : Fin n → ℝ) (bn tol : ℝ) (left : Nat) :
    ∀ (i : Nat) (K : Krylov n), (∀ l, l ≤ i → K.V l ∈ Space a f (l + 1)) →
      (∀ g e, Krylov.cycle S x bn tol left i K = .ret (g, e) → g ∈ Space a f (i + left)) ∧
      Krylov.cycle S x bn tol left i K ≠ .thrown := by
  induction left with
  | zero => intro i K _; exact ⟨fun g e hc => (by cases hc), fun hc => (by cases hc)⟩
  | succ left ih =>
    intro i K hK
    have hn := next_space h he x f hK
    unfold Krylov.cycle
    dsimp only
    by_cases ht : |(K.next S x i).s (i + 1)| * (1 / bn) ≤ tol
    · rw [if_pos ht]
      cases hb : backSubst (K.next S x i).H (i + 1) (K.next S x i).s with
      | none => exact ⟨fun g e hc => (by cases hc), fun hc => (by cases hc)⟩
      | some y =>
        refine ⟨fun g e hc => ?_, fun hc => (by cases hc)⟩
        simp only [Out.ret.injEq, Prod.mk.injEq] at hc
        rw [← hc.1]
        have : (fun c => (List.range (i + 1)).foldl (fun g j => y j * (K.next S x i).V j c + g) 0)
            = ∑ j ∈ range (i + 1), y j • (K.next S x i).V j := by
          funext c
          rw [foldl_sum]
          simp [Finset.sum_apply]
        rw [this]
        refine Submodule.sum_mem _ fun j hj => Submodule.smul_mem _ _ ?_
        have := mem_range.1 hj
        exact space_mono (by omega) (hn j (by omega))
    · rw [if_neg ht]
      by_cases hz : K.length S x i = 0
      · rw [if_pos hz]
        exact ⟨fun g e hc => (by cases hc), fun hc => (by cases hc)⟩
      · rw [if_neg hz]
        have := ih (i + 1) _ hn
        rw [show i + 1 + left = i + (left + 1) by omega] at this
        exact this

/-- C145: a step never throws, and changes the state by a combination of the right hand side and its images, one fewer
than there are iterations per restart. -/
theorem C145_space (h : Affine S.eval a b) (x : Fin n → ℝ) (maxIter : Int) (tol : ℝ) :
    gmresStep S x maxIter tol ≠ .thrown ∧
    ∀ y e, gmresStep S x maxIter tol = .ret (y, e) → (fun j => x j - y j) ∈ Space a (S.eval x) (S.iter - 1) := by
  unfold gmresStep
  dsimp only
  have hz : (fun j => x j - x j) ∈ Space a (S.eval x) (S.iter - 1) := by
    have : (fun j => x j - x j) = 0 := by funext j; simp
    rw [this]
    exact Submodule.zero_mem _
  by_cases h1 : |norm2 (S.eval x)| < 1 / 10 ^ 14
  · rw [if_pos h1]
    refine ⟨fun hc => (by cases hc), fun y e hc => ?_⟩
    simp only [Out.ret.injEq, Prod.mk.injEq] at hc
    rw [← hc.1]
    exact hz
  rw [if_neg h1]
  by_cases h2 : maxIter ≤ 0
  · rw [if_pos h2]
    exact ⟨fun hc => (by cases hc), fun y e hc => (by cases hc)⟩
  rw [if_neg h2]
  by_cases h3 : norm2 (S.eval x) * (1 / norm2 (S.eval x)) ≤ tol
  · rw [if_pos h3]
    refine ⟨fun hc => (by cases hc), fun y e hc => ?_⟩
    simp only [Out.ret.injEq, Prod.mk.injEq, sub_zero] at hc
    rw [← hc.1]
    exact hz
  rw [if_neg h3]
  by_cases h4 : S.eps = 0
  · rw [if_pos h4]
    exact ⟨fun hc => (by cases hc), fun y e hc => (by cases hc)⟩
  rw [if_neg h4]
  have hs : ∀ l, l ≤ 0 → (Krylov.start (S.eval x)).V l ∈ Space a (S.eval x) (l + 1) := by
    intro l hl
    have : (Krylov.start (S.eval x)).V l = (1 / norm2 (S.eval x)) • S.eval x := by
      funext j
      simp [Krylov.start]
    rw [this]
    exact Submodule.smul_mem _ _ (Submodule.subset_span ⟨0, by omega, rfl⟩)
  obtain ⟨c1, c2⟩ := cycle_space h h4 x (S.eval x) (norm2 (S.eval x)) tol (S.iter - 1) 0 _ hs
  rw [zero_add] at c1
  cases hc : Krylov.cycle S x (norm2 (S.eval x)) tol (S.iter - 1) 0 (Krylov.start (S.eval x)) with
  | thrown => exact absurd hc c2
  | undefined => exact ⟨fun hc => (by cases hc), fun y e hc => (by cases hc)⟩
  | ret q =>
    obtain ⟨g, e'⟩ := q
    refine ⟨fun hc => (by cases hc), fun y e hr => ?_⟩
    simp only [Out.ret.injEq, Prod.mk.injEq] at hr
    rw [← hr.1]
    have : (fun j => x j - (x j - g j)) = g := by funext j; ring
    rw [this]
    exact c1 g e' hc

/-- C145, that every step is done, is false for any number of equations and of iterations per restart: a step that needs
as many vectors as there are iterations per restart assigns behind the end of an array. -/
theorem C145_outside_general (h : Affine S.eval a b) (x : Fin n → ℝ) (hx : 1 / 10 ^ 14 ≤ Real.sqrt (misfit S.eval x)) (maxIter : Int)
    (tol : ℝ) (hno : ∀ g ∈ Space a (S.eval x) (S.iter - 1),
      tol * Real.sqrt (misfit S.eval x) < Real.sqrt (misfit S.eval fun j => x j - g j)) :
    gmresStep S x maxIter tol = .undefined := by
  obtain ⟨h1, h2⟩ := C145_space h x maxIter tol
  cases hr : gmresStep S x maxIter tol with
  | thrown => exact absurd hr h1
  | undefined => rfl
  | ret q =>
    obtain ⟨y, e⟩ := q
    exfalso
    have hg := hno _ (h2 y e hr)
    have hy : (fun j => x j - (x j - y j)) = y := by funext j; ring
    rw [hy] at hg
    rcases C145_residual h x y maxIter tol e hr with ⟨h3, _, _⟩ | ⟨_, h3, h4⟩
    · exact absurd h3 (not_lt.2 hx)
    · rw [h4] at hg
      exact absurd (mul_le_mul_of_nonneg_right h3 (Real.sqrt_nonneg _)) (not_le.2 hg)

end

/-- Two equations with two iterations per restart, as the vertical methods take them, meet the hypotheses: `x + 1 = 0` and
`2 y + 1 = 0` from zero. -/
example : gmresStep (⟨2, 1 / 100000, fun x j => (if j = 0 then x 0 else 2 * x 1) + 1⟩ : Solver 2) (fun _ => 0) 5 (1 / 10) = .undefined := by
  refine C145_outside_general (a := fun j l => if j = l then (if j = 0 then 1 else 2) else 0) (b := fun _ => 1) ?_ _ ?_ _ _ ?_
  · intro x j
    fin_cases j <;> simp [Fin.sum_univ_two]
  · refine Real.le_sqrt_of_sq_le ?_
    norm_num [misfit, Fin.sum_univ_two]
  · intro g hg
    have hg' : ∃ c : ℝ, g = fun _ => c := by
      unfold Space at hg
      induction hg using Submodule.span_induction with
      | mem v hv =>
        obtain ⟨k, hk, rfl⟩ := hv
        have hk : k = 0 := by simpa using hk
        subst hk
        exact ⟨1, by funext j; simp [image]⟩
      | zero => exact ⟨0, rfl⟩
      | add u v _ _ hu hv =>
        obtain ⟨c, rfl⟩ := hu
        obtain ⟨d, rfl⟩ := hv
        exact ⟨c + d, rfl⟩
      | smul r v _ hv =>
        obtain ⟨c, rfl⟩ := hv
        exact ⟨r * c, rfl⟩
    obtain ⟨c, rfl⟩ := hg'
    have e1 : misfit (fun (x : Fin 2 → ℝ) j => (if j = 0 then x 0 else 2 * x 1) + 1) (fun _ => 0) = 2 := by
      norm_num [misfit, Fin.sum_univ_two]
    have e2 : misfit (fun (x : Fin 2 → ℝ) j => (if j = 0 then x 0 else 2 * x 1) + 1) (fun _ => 0 - c) = (1 - c) ^ 2 + (1 - 2 * c) ^ 2 := by
      simp [misfit, Fin.sum_univ_two]
      ring
    dsimp only
    rw [e1, e2]
    refine Real.lt_sqrt_of_sq_lt ?_
    rw [mul_pow, Real.sq_sqrt (by norm_num)]
    nlinarith [sq_nonneg (5 * c - 3)]

end Verif.Newton
