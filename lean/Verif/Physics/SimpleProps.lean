import Verif.Physics.Simple
import Verif.Physics.KesslerProps

/-!
# C116: mixing in the boundary layer
-/

namespace Verif.Physics

open Real

/-! ### Vocabulary -/

/-- A column: at least one level, levels and interfaces with increasing heights, the lowest level above zero and the
ground not below it, positive density and time step. -/
structure Setting.Proper (S : Setting) : Prop where
  levels : 1 ≤ S.nz
  rho : ∀ k < S.nz, 0 < S.rho k
  dt : 0 < S.dt
  z : ∀ k, k + 1 < S.nz → S.z k < S.z (k + 1)
  zi : ∀ k < S.nz, S.zi k < S.zi (k + 1)
  low : 0 < S.z 0
  ground : 0 ≤ S.zi 0

/-- The flux of a quantity `y` through interface `k` by mixing with the coefficients `K`: none through the ground and the
top. -/
noncomputable def flux (S : Setting) (rhom K y : Nat → ℝ) (k : Nat) : ℝ :=
  if k = 0 ∨ k = S.nz then 0
  else (rhom (k - 1) + rhom k) / 2 * K k * ((y k - y (k - 1)) / (S.z k - S.z (k - 1)))

/-! ### The coefficients -/

section Mixing

variable (S : Setting) (hS : S.Proper) (rhom K : Nat → ℝ) (hrho : ∀ k < S.nz, 0 < rhom k)
  (hK : ∀ k ≤ S.nz, 0 ≤ K k)
include hS hrho hK

theorem coefA_nonneg (k : Nat) (hk : k < S.nz) : 0 ≤ coefA S rhom k * K k := by
  unfold coefA
  refine mul_nonneg ?_ (hK k hk.le)
  split
  · exact le_rfl
  · rename_i h
    have h1 := hrho k hk
    have h2 := hrho (k - 1) (by omega)
    have h3 := hS.zi k hk
    have h4 := hS.z (k - 1) (by omega)
    rw [show k - 1 + 1 = k by omega] at h4
    have h5 := hS.dt
    have : 0 < S.z k - S.z (k - 1) := by linarith
    have : 0 < S.zi (k + 1) - S.zi k := by linarith
    positivity

theorem coefC_nonneg (k : Nat) (hk : k < S.nz) : 0 ≤ coefC S rhom k * K (k + 1) := by
  unfold coefC
  refine mul_nonneg ?_ (hK (k + 1) hk)
  split
  · exact le_rfl
  · rename_i h
    have h1 := hrho k hk
    have h2 := hrho (k + 1) (by omega)
    have h3 := hS.zi k hk
    have h4 := hS.z k (by omega)
    have h5 := hS.dt
    have : 0 < S.z (k + 1) - S.z k := by linarith
    have : 0 < S.zi (k + 1) - S.zi k := by linarith
    positivity

omit hS hrho hK in
theorem coefA_zero : coefA S rhom 0 * K 0 = 0 := by simp [coefA]

/-- The coefficients are between zero and one, and the denominators are positive. -/
theorem coefE_bounds (k : Nat) (hk : k < S.nz) :
    0 ≤ coefE S rhom K k ∧ coefE S rhom K k ≤ 1 ∧
      (k + 1 < S.nz → 0 < 1 + coefA S rhom (k + 1) * K (k + 1) + coefC S rhom (k + 1) * K (k + 2)
        - coefA S rhom (k + 1) * K (k + 1) * coefE S rhom K k) := by
  have step : ∀ k, coefE S rhom K k ≤ 1 → k + 1 < S.nz →
      0 < 1 + coefA S rhom (k + 1) * K (k + 1) + coefC S rhom (k + 1) * K (k + 2)
        - coefA S rhom (k + 1) * K (k + 1) * coefE S rhom K k := by
    intro k h1 h
    have a := coefA_nonneg S hS rhom K hrho hK (k + 1) h
    have c := coefC_nonneg S hS rhom K hrho hK (k + 1) h
    nlinarith
  induction k with
  | zero =>
    have c := coefC_nonneg S hS rhom K hrho hK 0 hk
    have h0 : 0 ≤ coefE S rhom K 0 := by
      unfold coefE
      rw [coefA_zero]
      exact div_nonneg c (by simp only [Nat.zero_add] at c ⊢; linarith)
    have h1 : coefE S rhom K 0 ≤ 1 := by
      unfold coefE
      rw [coefA_zero]
      simp only [Nat.zero_add] at c ⊢
      rw [div_le_one (by linarith)]
      linarith
    exact ⟨h0, h1, step 0 h1⟩
  | succ k ih =>
    obtain ⟨i0, i1, i2⟩ := ih (by omega)
    have d := i2 hk
    have a := coefA_nonneg S hS rhom K hrho hK (k + 1) hk
    have c := coefC_nonneg S hS rhom K hrho hK (k + 1) hk
    have h0 : 0 ≤ coefE S rhom K (k + 1) := by
      unfold coefE
      exact div_nonneg c d.le
    have h1 : coefE S rhom K (k + 1) ≤ 1 := by
      unfold coefE
      rw [div_le_one d]
      nlinarith
    exact ⟨h0, h1, step (k + 1) h1⟩

theorem coefE_top : coefE S rhom K (S.nz - 1) = 0 := by
  have h := hS.levels
  have hc : coefC S rhom (S.nz - 1) = 0 := by unfold coefC; rw [if_pos (by omega)]
  cases hn : S.nz - 1 with
  | zero => rw [hn] at hc; unfold coefE; rw [hc]; simp
  | succ n => rw [hn] at hc; unfold coefE; rw [hc]; simp

/-- The right-hand sides are bounded as the data are. -/
theorem coefF_le (x : Nat → ℝ) (b : ℝ) (hx : ∀ k < S.nz, x k ≤ b) (k : Nat) (hk : k < S.nz) :
    coefF S rhom K x k ≤ b * (1 - coefE S rhom K k) := by
  induction k with
  | zero =>
    have c := coefC_nonneg S hS rhom K hrho hK 0 hk
    simp only [Nat.zero_add] at c
    unfold coefF coefE
    rw [coefA_zero, one_sub_div (by linarith), mul_div_assoc', add_zero]
    refine div_le_div_of_nonneg_right ?_ (by linarith)
    have := hx 0 hk
    linarith
  | succ k ih =>
    have i := ih (by omega)
    have d := (coefE_bounds S hS rhom K hrho hK k (by omega)).2.2 hk
    have a := coefA_nonneg S hS rhom K hrho hK (k + 1) hk
    unfold coefF
    rw [show coefE S rhom K (k + 1) = coefC S rhom (k + 1) * K (k + 2) /
      (1 + coefA S rhom (k + 1) * K (k + 1) + coefC S rhom (k + 1) * K (k + 2)
        - coefA S rhom (k + 1) * K (k + 1) * coefE S rhom K k) from rfl, one_sub_div d.ne', mul_div_assoc']
    refine div_le_div_of_nonneg_right ?_ d.le
    have := hx (k + 1) hk
    have := mul_le_mul_of_nonneg_left i a
    nlinarith

theorem back_le (x : Nat → ℝ) (b : ℝ) (hx : ∀ k < S.nz, x k ≤ b) (d : Nat) (hd : d < S.nz) :
    back S rhom K x d ≤ b := by
  induction d with
  | zero =>
    have := coefF_le S hS rhom K hrho hK x b hx (S.nz - 1) (by omega)
    rw [coefE_top S hS rhom K hrho hK] at this
    unfold back
    linarith
  | succ d ih =>
    have i := ih (by omega)
    have f := coefF_le S hS rhom K hrho hK x b hx (S.nz - 1 - (d + 1)) (by omega)
    have e := (coefE_bounds S hS rhom K hrho hK (S.nz - 1 - (d + 1)) (by omega)).1
    unfold back
    nlinarith [mul_le_mul_of_nonneg_left i e]

omit hS hrho hK in
theorem coefF_neg (x : Nat → ℝ) (k : Nat) : coefF S rhom K (fun k => -x k) k = -coefF S rhom K x k := by
  induction k with
  | zero => unfold coefF; ring
  | succ k ih => unfold coefF; rw [ih]; ring

omit hS hrho hK in
theorem back_neg (x : Nat → ℝ) (d : Nat) : back S rhom K (fun k => -x k) d = -back S rhom K x d := by
  induction d with
  | zero => unfold back; exact coefF_neg S rhom K x _
  | succ d ih => unfold back; rw [ih, coefF_neg]; ring

/-- **C116 (no new extremes).**  Mixing leaves every quantity between the bounds it had in the column. -/
theorem C116_bounds (x : Nat → ℝ) (a b : ℝ) (hx : ∀ k < S.nz, a ≤ x k ∧ x k ≤ b) (k : Nat) (hk : k < S.nz) :
    a ≤ mix S rhom K x k ∧ mix S rhom K x k ≤ b := by
  unfold mix
  refine ⟨?_, back_le S hS rhom K hrho hK x b (fun k hk => (hx k hk).2) _ (by omega)⟩
  have := back_le S hS rhom K hrho hK (fun k => -x k) (-a) (fun k hk => neg_le_neg (hx k hk).1) (S.nz - 1 - k) (by omega)
  rw [back_neg] at this
  linarith

omit hS hrho hK in
/-- Back substitution in the order of the levels. -/
theorem mix_rec (x : Nat → ℝ) (k : Nat) (hk : k + 1 < S.nz) :
    mix S rhom K x k = coefE S rhom K k * mix S rhom K x (k + 1) + coefF S rhom K x k := by
  unfold mix
  obtain ⟨d, hd⟩ : ∃ d, S.nz - 1 - k = d + 1 := ⟨S.nz - 1 - k - 1, by omega⟩
  rw [hd, show S.nz - 1 - (k + 1) = d by omega,
    show back S rhom K x (d + 1) = coefE S rhom K (S.nz - 1 - (d + 1)) * back S rhom K x d +
      coefF S rhom K x (S.nz - 1 - (d + 1)) from rfl, show S.nz - 1 - (d + 1) = k by omega]

/-- The system that is solved. -/
theorem mix_solves (x : Nat → ℝ) (k : Nat) (hk : k < S.nz) :
    mix S rhom K x k + coefA S rhom k * K k * (mix S rhom K x k - mix S rhom K x (k - 1)) +
      coefC S rhom k * K (k + 1) * (mix S rhom K x k - mix S rhom K x (k + 1)) = x k := by
  -- the recursion also at the highest level
  have hrec : mix S rhom K x k = coefE S rhom K k * mix S rhom K x (k + 1) + coefF S rhom K x k := by
    by_cases h : k + 1 < S.nz
    · exact mix_rec S rhom K x k h
    · have e : k = S.nz - 1 := by omega
      have ht := coefE_top S hS rhom K hrho hK
      rw [← e] at ht
      rw [ht, zero_mul, zero_add]
      unfold mix
      rw [show S.nz - 1 - k = 0 by omega]
      unfold back
      rw [← e]
  cases k with
  | zero =>
    have c := coefC_nonneg S hS rhom K hrho hK 0 hk
    simp only [Nat.zero_add] at c hrec ⊢
    unfold coefE coefF at hrec
    rw [coefA_zero, add_zero] at hrec
    rw [coefA_zero]
    have hne : 1 + coefC S rhom 0 * K 1 ≠ 0 := by linarith
    have := congrArg (· * (1 + coefC S rhom 0 * K 1)) hrec
    simp only [add_mul] at this
    rw [div_mul_eq_mul_div, div_mul_cancel₀ _ hne, div_mul_cancel₀ _ hne] at this
    linarith
  | succ k =>
    have d := (coefE_bounds S hS rhom K hrho hK k (by omega)).2.2 hk
    have hprev := mix_rec S rhom K x k hk
    rw [show k + 1 - 1 = k from rfl]
    rw [show coefE S rhom K (k + 1) = coefC S rhom (k + 1) * K (k + 2) /
      (1 + coefA S rhom (k + 1) * K (k + 1) + coefC S rhom (k + 1) * K (k + 2)
        - coefA S rhom (k + 1) * K (k + 1) * coefE S rhom K k) from rfl,
      show coefF S rhom K x (k + 1) = (x (k + 1) + coefA S rhom (k + 1) * K (k + 1) * coefF S rhom K x k) /
      (1 + coefA S rhom (k + 1) * K (k + 1) + coefC S rhom (k + 1) * K (k + 2)
        - coefA S rhom (k + 1) * K (k + 1) * coefE S rhom K k) from rfl] at hrec
    rw [div_mul_eq_mul_div, ← add_div, eq_div_iff d.ne'] at hrec
    rw [show k + 1 + 1 = k + 2 from rfl] at hrec ⊢
    rw [hprev]
    linear_combination hrec

/-- **C116 (mixing is diffusion).**  What a layer gains in the time step is the flux through its upper interface less that
through its lower one, for the state at the end of the step. -/
theorem C116_diffusion (x : Nat → ℝ) (k : Nat) (hk : k < S.nz) :
    rhom k * (S.zi (k + 1) - S.zi k) * (mix S rhom K x k - x k) =
      S.dt * (flux S rhom K (mix S rhom K x) (k + 1) - flux S rhom K (mix S rhom K x) k) := by
  have h := mix_solves S hS rhom K hrho hK x k hk
  have h1 := hrho k hk
  have h3 := hS.zi k hk
  have hzi : S.zi (k + 1) - S.zi k ≠ 0 := by linarith
  have eA : rhom k * (S.zi (k + 1) - S.zi k) * (coefA S rhom k * K k * (mix S rhom K x k - mix S rhom K x (k - 1))) =
      S.dt * flux S rhom K (mix S rhom K x) k := by
    unfold coefA flux
    by_cases h0 : k = 0
    · simp [h0]
    · rw [if_neg h0, if_neg (by omega)]
      have h4 := hS.z (k - 1) (by omega)
      rw [show k - 1 + 1 = k by omega] at h4
      have : S.z k - S.z (k - 1) ≠ 0 := by linarith
      rw [show (0.5 : ℝ) = 1 / 2 by norm_num]
      field_simp
  have eC : rhom k * (S.zi (k + 1) - S.zi k) * (coefC S rhom k * K (k + 1) * (mix S rhom K x k - mix S rhom K x (k + 1))) =
      -(S.dt * flux S rhom K (mix S rhom K x) (k + 1)) := by
    unfold coefC flux
    by_cases h0 : k + 1 = S.nz
    · simp [h0]
    · rw [if_neg h0, if_neg (by omega)]
      have h4 := hS.z k (by omega)
      have : S.z (k + 1) - S.z k ≠ 0 := by linarith
      rw [show (0.5 : ℝ) = 1 / 2 by norm_num, show k + 1 - 1 = k from rfl]
      field_simp
      ring
  rw [← h]
  linear_combination -eA - eC

/-- **C116 (mixing conserves).**  The sum over the layers of a quantity, weighted with the mass of the layers, is what it
was. -/
theorem C116_conserves (x : Nat → ℝ) :
    ∑ k ∈ Finset.range S.nz, rhom k * (S.zi (k + 1) - S.zi k) * mix S rhom K x k =
      ∑ k ∈ Finset.range S.nz, rhom k * (S.zi (k + 1) - S.zi k) * x k := by
  have key : ∀ n ≤ S.nz, ∑ k ∈ Finset.range n, rhom k * (S.zi (k + 1) - S.zi k) * (mix S rhom K x k - x k) =
      S.dt * (flux S rhom K (mix S rhom K x) n - flux S rhom K (mix S rhom K x) 0) := by
    intro n
    induction n with
    | zero => intro _; simp
    | succ n ih =>
      intro hn
      rw [Finset.sum_range_succ, ih (by omega), C116_diffusion S hS rhom K hrho hK x n (by omega)]
      ring
  have := key S.nz le_rfl
  have f1 : flux S rhom K (mix S rhom K x) S.nz = 0 := by simp [flux]
  have f0 : flux S rhom K (mix S rhom K x) 0 = 0 := by simp [flux]
  rw [f1, f0, sub_self, mul_zero] at this
  rw [← sub_eq_zero, ← Finset.sum_sub_distrib, ← this]
  exact Finset.sum_congr rfl (fun k _ => by ring)

end Mixing

/-- The hypotheses are met by a column of three levels. -/
example : ∃ (S : Setting) (rhom K x : Nat → ℝ), S.Proper ∧ (∀ k < S.nz, 0 < rhom k) ∧ (∀ k ≤ S.nz, 0 ≤ K k) ∧
    K 1 ≠ 0 ∧ x 0 ≠ x 1 ∧ S.nz = 3 := by
  refine ⟨⟨2, 3, fun _ => 1, 1, fun k => k + 1 / 2, fun k => k, 0, 0, 1⟩, fun _ => 1, fun _ => 1, fun k => k,
    ⟨by norm_num, fun _ _ => one_pos, one_pos, fun k _ => ?_, fun k _ => ?_, ?_, ?_⟩, fun _ _ => one_pos,
    fun _ _ => zero_le_one, one_ne_zero, by norm_num, rfl⟩
  · show (k : ℝ) + 1 / 2 < ((k + 1 : ℕ) : ℝ) + 1 / 2
    push_cast; linarith
  · show (k : ℝ) < ((k + 1 : ℕ) : ℝ)
    push_cast; linarith
  · show 0 < ((0 : ℕ) : ℝ) + 1 / 2
    norm_num
  · show 0 ≤ ((0 : ℕ) : ℝ)
    norm_num

end Verif.Physics
