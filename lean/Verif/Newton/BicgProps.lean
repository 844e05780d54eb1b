/-
C144: the Newton step by stabilised biconjugate gradients.
-/
import Verif.Newton.Bicg
import Mathlib.Algebra.Module.LinearMap.Defs
import Mathlib.Algebra.BigOperators.Ring.Finset
import Mathlib.Tactic.Linarith
import Mathlib.Tactic.FieldSimp
import Mathlib.Tactic.NormNum

namespace Verif.Newton

/-- Specification: the equations are linear, with matrix `a` and constant terms `b`. -/
def Affine {n : Nat} (f : (Fin n → ℝ) → Fin n → ℝ) (a : Fin n → Fin n → ℝ) (b : Fin n → ℝ) : Prop :=
  ∀ x j, f x j = (∑ i, a j i * x i) + b j

/-- Specification: the squared length of what is left of the equations at a state. -/
def misfit {n : Nat} (f : (Fin n → ℝ) → Fin n → ℝ) (x : Fin n → ℝ) : ℝ := ∑ j, f x j ^ 2

section
variable {n : Nat} {S : Solver n} {a : Fin n → Fin n → ℝ} {b : Fin n → ℝ}

theorem along_affine (h : Affine S.eval a b) (he : S.eps ≠ 0) (x w : Fin n → ℝ) (j : Fin n) :
    S.along x w j = ∑ i, a j i * w i := by
  unfold Solver.along
  rw [h, h, div_eq_iff he, Finset.sum_mul]
  have : ∑ i, a j i * axpy S.eps w x i = (∑ i, a j i * w i * S.eps) + ∑ i, a j i * x i := by
    rw [← Finset.sum_add_distrib]
    refine Finset.sum_congr rfl fun i _ => ?_
    unfold axpy
    ring
  rw [this]
  ring

theorem affine_sub (h : Affine S.eval a b) (x g : Fin n → ℝ) (j : Fin n) :
    S.eval (fun i => x i - g i) j = S.eval x j - ∑ i, a j i * g i := by
  rw [h, h]
  simp only [mul_sub, Finset.sum_sub_distrib]
  ring

theorem next_residual (h : Affine S.eval a b) (x : Fin n → ℝ) {B C : Bicg n} {e : ℝ} (hn : B.next S x = .ret (C, e))
    (hB : ∀ j, B.r j = S.eval x j - ∑ i, a j i * B.g i) :
    (∀ j, C.r j = S.eval x j - ∑ i, a j i * C.g i) ∧ e = ∑ j, C.r j ^ 2 := by
  unfold Bicg.next at hn
  dsimp only at hn
  by_cases h1 : S.iter ≠ n
  · rw [if_pos h1] at hn
    cases hn
  rw [if_neg h1] at hn
  by_cases h2 : (B.first = false ∧ (B.rhoOld = 0 ∨ B.omega = 0) ∨ S.eps = 0 ∨ dot (S.eval x) (S.along x
      (if B.first then B.r else axpy 1 B.r (fun j => dot (S.eval x) B.r / B.rhoOld * (B.alpha / B.omega) *
        axpy (-B.omega) B.v B.p j))) = 0)
  · rw [if_pos h2] at hn
    cases hn
  rw [if_neg h2] at hn
  push Not at h2
  have he : S.eps ≠ 0 := h2.2.1
  simp only [Out.ret.injEq, Prod.mk.injEq] at hn
  obtain ⟨rfl, rfl⟩ := hn
  refine ⟨fun j => ?_, ?_⟩
  · dsimp only
    generalize (if B.first = true then B.r else _) = p
    generalize dot (S.eval x) B.r / dot (S.eval x) (S.along x p) = al
    generalize (if dot _ _ = 0 then (0 : ℝ) else _) = om
    have e1 : ∀ s : Fin n → ℝ, ∑ i, a j i * axpy om s (axpy al p B.g) i
        = om * (∑ i, a j i * s i) + al * (∑ i, a j i * p i) + ∑ i, a j i * B.g i := by
      intro s
      rw [Finset.mul_sum, Finset.mul_sum, ← Finset.sum_add_distrib, ← Finset.sum_add_distrib]
      refine Finset.sum_congr rfl fun i _ => ?_
      unfold axpy
      ring
    rw [e1]
    have e2 : axpy (-al) (S.along x p) B.r j = -al * (∑ i, a j i * p i) + (S.eval x j - ∑ i, a j i * B.g i) := by
      unfold axpy
      rw [along_affine h he, hB]
    change -om * S.along x (axpy (-al) (S.along x p) B.r) j + axpy (-al) (S.along x p) B.r j = _
    rw [along_affine h he, e2]
    ring
  · unfold dot
    refine Finset.sum_congr rfl fun i _ => ?_
    ring

theorem loop_residual (h : Affine S.eval a b) (x : Fin n → ℝ) (tol : ℝ) (k : Nat) :
    ∀ {B C : Bicg n} {e : ℝ}, Bicg.loop S x tol k B = .ret (C, e) →
      (∀ j, B.r j = S.eval x j - ∑ i, a j i * B.g i) →
      (∀ j, C.r j = S.eval x j - ∑ i, a j i * C.g i) ∧ e = ∑ j, C.r j ^ 2 := by
  induction k with
  | zero =>
    intro B C e hl hB
    unfold Bicg.loop at hl
    cases hn : B.next S x with
    | thrown => simp [hn] at hl
    | undefined => simp [hn] at hl
    | ret q =>
      obtain ⟨C', e'⟩ := q
      simp only [hn, Out.ret.injEq, Prod.mk.injEq] at hl
      obtain ⟨rfl, rfl⟩ := hl
      exact next_residual h x hn hB
  | succ k ih =>
    intro B C e hl hB
    unfold Bicg.loop at hl
    cases hn : B.next S x with
    | thrown => simp [hn] at hl
    | undefined => simp [hn] at hl
    | ret q =>
      obtain ⟨C', e'⟩ := q
      simp only [hn] at hl
      split at hl
      · simp only [Out.ret.injEq, Prod.mk.injEq] at hl
        obtain ⟨rfl, rfl⟩ := hl
        exact next_residual h x hn hB
      · exact ih hl (next_residual h x hn hB).1

/-- C144: for linear equations, whatever the number of iterations, the returned value is the squared length of what is
left of the equations at the new state. -/
theorem C144_residual (h : Affine S.eval a b) (x y : Fin n → ℝ) (maxIter : Int) (tol e : ℝ)
    (hs : bicgStep S x maxIter tol = .ret (y, e)) : e = misfit S.eval y := by
  unfold bicgStep at hs
  split at hs
  · cases hs
  · rename_i k _
    cases hl : Bicg.loop S x tol k (Bicg.start S x) with
    | thrown => simp [hl] at hs
    | undefined => simp [hl] at hs
    | ret q =>
      obtain ⟨B, e'⟩ := q
      simp only [hl, Out.ret.injEq, Prod.mk.injEq] at hs
      obtain ⟨rfl, rfl⟩ := hs
      have := loop_residual h x tol k hl (by intro j; simp [Bicg.start])
      rw [this.2]
      unfold misfit
      refine Finset.sum_congr rfl fun j _ => ?_
      rw [affine_sub h, this.1]

/-- C144: for linear equations the returned value is not negative, and zero exactly where the new state is a solution. -/
theorem C144_solution (h : Affine S.eval a b) (x y : Fin n → ℝ) (maxIter : Int) (tol e : ℝ)
    (hs : bicgStep S x maxIter tol = .ret (y, e)) : 0 ≤ e ∧ (e = 0 ↔ ∀ j, S.eval y j = 0) := by
  rw [C144_residual h x y maxIter tol e hs]
  unfold misfit
  refine ⟨Finset.sum_nonneg fun j _ => sq_nonneg _, ?_⟩
  rw [Finset.sum_eq_zero_iff_of_nonneg fun j _ => sq_nonneg _]
  simp

/-- C144: with other than `n` iterations per restart, which initialisation allows, every step of at least one iteration
is refused. -/
theorem C144_refused (hn : S.iter ≠ n) (x : Fin n → ℝ) (maxIter : Int) (hm : 0 < maxIter) (tol : ℝ) :
    bicgStep S x maxIter tol = .thrown := by
  unfold bicgStep
  obtain ⟨k, hk⟩ : ∃ k, maxIter.toNat = k + 1 := ⟨maxIter.toNat - 1, by omega⟩
  have : ∀ B : Bicg n, B.next S x = .thrown := by
    intro B
    unfold Bicg.next
    simp [hn]
  rw [hk]
  have hl : Bicg.loop S x tol k (Bicg.start S x) = .thrown := by
    unfold Bicg.loop
    rw [this]
  simp only [hl]

/-- C144: a step without iterations returns a value never assigned. -/
theorem C144_unassigned (x : Fin n → ℝ) (maxIter : Int) (hm : maxIter ≤ 0) (tol : ℝ) :
    bicgStep S x maxIter tol = .undefined := by
  unfold bicgStep
  rw [Int.toNat_of_nonpos hm]

/-- C144, that a solution stays as it is, is false: at every solution the first coefficient is a quotient of zeros. -/
theorem C144_solution_kept_false (hn : S.iter = n) (x : Fin n → ℝ) (hx : ∀ j, S.eval x j = 0) (maxIter : Int) (hm : 0 < maxIter)
    (tol : ℝ) : bicgStep S x maxIter tol = .undefined := by
  unfold bicgStep
  obtain ⟨k, hk⟩ : ∃ k, maxIter.toNat = k + 1 := ⟨maxIter.toNat - 1, by omega⟩
  have : (Bicg.start S x).next S x = .undefined := by
    unfold Bicg.next
    dsimp only
    rw [if_neg (by simp [hn]), if_pos]
    right
    right
    unfold dot
    simp [hx]
  rw [hk]
  have hl : Bicg.loop S x tol k (Bicg.start S x) = .undefined := by
    unfold Bicg.loop
    rw [this]
  simp only [hl]

end

/-- C144: one linear equation is solved by the first iteration, from every state that does not solve it. -/
theorem C144_single (S : Solver 1) (hi : S.iter = 1) (he : S.eps ≠ 0) (c d : ℝ) (hc : c ≠ 0) (hS : ∀ x, S.eval x 0 = c * x 0 + d)
    (x : Fin 1 → ℝ) (hx : c * x 0 + d ≠ 0) (maxIter : Int) (tol : ℝ) (hm : maxIter = 1 ∨ 0 < maxIter ∧ 0 < tol) :
    bicgStep S x maxIter tol = .ret (fun _ => -d / c, 0) := by
  have hal : ∀ w, S.along x w = fun _ => c * w 0 := by
    intro w
    funext j
    unfold Solver.along
    fin_cases j
    simp only [Fin.zero_eta, hS, axpy]
    rw [div_eq_iff he]
    ring
  have hf : S.eval x = fun _ => c * x 0 + d := by funext j; fin_cases j; exact hS x
  obtain ⟨f, hfd⟩ : ∃ f, f = c * x 0 + d := ⟨_, rfl⟩
  rw [← hfd] at hf hx
  obtain ⟨k, hk⟩ : ∃ k, maxIter.toNat = k + 1 := ⟨maxIter.toNat - 1, by omega⟩
  have hne : f * (c * f) ≠ 0 := mul_ne_zero hx (mul_ne_zero hc hx)
  have hnext : ∃ (C : Bicg 1) (e : ℝ), (Bicg.start S x).next S x = .ret (C, e) ∧ (C.g = fun _ => f / c) ∧ e = 0 := by
    unfold Bicg.next
    dsimp only
    have h0 : axpy (-(dot (S.eval x) (Bicg.start S x).r / dot (S.eval x) (S.along x (Bicg.start S x).r)))
        (S.along x (Bicg.start S x).r) (Bicg.start S x).r = fun _ => 0 := by
      funext j
      simp only [Bicg.start, hal, hf, dot, axpy, Fin.sum_univ_one, Finset.univ_unique, Finset.sum_singleton]
      field_simp
      ring
    have hp : (if (Bicg.start S x).first = true then (Bicg.start S x).r else
        axpy 1 (Bicg.start S x).r fun j => dot (S.eval x) (Bicg.start S x).r / (Bicg.start S x).rhoOld *
          ((Bicg.start S x).alpha / (Bicg.start S x).omega) * axpy (-(Bicg.start S x).omega) (Bicg.start S x).v (Bicg.start S x).p j)
        = (Bicg.start S x).r := by simp [Bicg.start]
    rw [hp, h0, if_neg (by simp [hi]), if_neg]
    · refine ⟨_, _, rfl, ?_, ?_⟩
      · funext j
        simp only [Bicg.start, hal, hf, dot, axpy, Finset.univ_unique, Finset.sum_singleton]
        field_simp
        simp
      · simp [hal, dot, axpy]
    · push Not
      refine ⟨by simp [Bicg.start], he, ?_⟩
      simp only [Bicg.start, hal, hf, dot, Finset.univ_unique, Finset.sum_singleton]
      exact hne
  obtain ⟨C, e, h1, h2, rfl⟩ := hnext
  have hl : Bicg.loop S x tol k (Bicg.start S x) = .ret (C, 0) := by
    unfold Bicg.loop
    rw [h1]
    cases k with
    | zero => rfl
    | succ k =>
      dsimp only
      rw [if_pos]
      rcases hm with hm | hm
      · rw [hm] at hk; simp at hk
      · exact hm.2
  unfold bicgStep
  rw [hk]
  simp only [hl, h2, Out.ret.injEq, Prod.mk.injEq, and_true]
  funext j
  have : x j = x 0 := by fin_cases j; rfl
  rw [this, hfd]
  field_simp
  ring

/-- One equation meets the hypotheses: `3 x + 6 = 0` from `x = 1`. -/
example : bicgStep (⟨1, 1 / 100000, fun x _ => 3 * x 0 + 6⟩ : Solver 1) (fun _ => 1) 5 (1 / 10) = .ret (fun _ => -6 / 3, 0) :=
  C144_single _ rfl (by norm_num) 3 6 (by norm_num) (fun _ => rfl) _ (by norm_num) 5 _ (Or.inr ⟨by norm_num, by norm_num⟩)

end Verif.Newton
