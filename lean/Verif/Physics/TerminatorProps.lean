import Verif.Physics.Terminator
import Verif.Physics.TerminatorSpec
import Mathlib.Tactic.FieldSimp
import Mathlib.Tactic.LinearCombination
import Mathlib.Tactic.Positivity
import Mathlib.Tactic.Linarith

/-!
# C114: the chemistry of chlorine
-/

namespace Verif.Physics

open Real

/-! ### Lemmas -/

/-- The result of a time step, with `s` the product of `el` and the step. -/
theorem step_eq (a r D E s : ℝ) (h : 1 + E + s * a ≠ 0) :
    (a - r) + -s * (a - r - D + r) * (a - r + D + r) / (1 + E + s * a)
      = (a * (1 + E) + s * D ^ 2) / (1 + E + s * a) - r := by
  rw [add_comm, div_add' _ _ _ h, div_sub' h, div_left_inj' h]
  ring

theorem tendencyOf_fst (k1 k2 cl cl2 dt : ℝ) :
    dt * (tendencyOf k1 k2 cl cl2 dt).1 =
      -(dt * el (sqrt (k1 / (4 * k2) * (k1 / (4 * k2)) + 2 * (k1 / (4 * k2)) * (cl + 2 * cl2))) k2 dt) *
        (cl - sqrt (k1 / (4 * k2) * (k1 / (4 * k2)) + 2 * (k1 / (4 * k2)) * (cl + 2 * cl2)) + k1 / (4 * k2)) *
        (cl + sqrt (k1 / (4 * k2) * (k1 / (4 * k2)) + 2 * (k1 / (4 * k2)) * (cl + 2 * cl2)) + k1 / (4 * k2)) /
        (1 + exp (-4 * k2 * sqrt (k1 / (4 * k2) * (k1 / (4 * k2)) + 2 * (k1 / (4 * k2)) * (cl + 2 * cl2)) * dt) +
          dt * el (sqrt (k1 / (4 * k2) * (k1 / (4 * k2)) + 2 * (k1 / (4 * k2)) * (cl + 2 * cl2))) k2 dt *
            (cl + k1 / (4 * k2))) := by
  unfold tendencyOf
  simp only
  ring

/-- What the bounds need of `dt * el`. -/
theorem el_bounds (D dt : ℝ) (hD : 0 ≤ D) (hdt : 0 ≤ dt) :
    0 ≤ dt * el D 1 dt ∧ dt * el D 1 dt * D ≤ 1 + exp (-4 * 1 * D * dt) := by
  have hE : 0 < exp (-4 * 1 * D * dt) := exp_pos _
  have hE1 : exp (-4 * 1 * D * dt) ≤ 1 := exp_le_one_iff.2 (by nlinarith [mul_nonneg hD hdt])
  unfold el
  split
  · rename_i h
    have hDd : D * 1 * dt ≠ 0 := by
      intro h0
      rw [h0, abs_zero] at h
      norm_num at h
    have hD0 : D ≠ 0 := fun h0 => hDd (by rw [h0]; ring)
    have hd0 : dt ≠ 0 := fun h0 => hDd (by rw [h0]; ring)
    have e : dt * ((1 - exp (-4 * 1 * D * dt)) / D / dt) = (1 - exp (-4 * 1 * D * dt)) / D := by field_simp
    rw [e]
    refine ⟨div_nonneg (by linarith) hD, ?_⟩
    rw [div_mul_cancel₀ _ hD0]
    linarith
  · rename_i h
    have h1 : D * 1 * dt ≤ 1e-16 := le_trans (le_abs_self _) (not_lt.1 h)
    have h2 : (1e-16 : ℝ) ≤ 1 / 4 := by norm_num
    refine ⟨by positivity, ?_⟩
    nlinarith

/-- Bounds of a step, for any factor `s` with the bounds of `el_bounds`. -/
theorem step_bounds (cl cly r D E s : ℝ) (hcl : 0 ≤ cl) (hle : cl ≤ cly) (hr : 0 ≤ r) (hD : 0 ≤ D)
    (hD2 : D ^ 2 = r * r + 2 * r * cly) (hE : 0 < E) (hs : 0 ≤ s) (hsD : s * D ≤ 1 + E) :
    0 < 1 + E + s * (cl + r) ∧ 0 ≤ ((cl + r) * (1 + E) + s * D ^ 2) / (1 + E + s * (cl + r)) - r ∧
      ((cl + r) * (1 + E) + s * D ^ 2) / (1 + E + s * (cl + r)) - r ≤ cly := by
  have hpos : 0 < 1 + E + s * (cl + r) := by positivity
  have hrD : r ≤ D := by
    by_contra hc
    nlinarith [mul_nonneg hr (le_trans hcl hle)]
  refine ⟨hpos, ?_, ?_⟩
  · rw [sub_nonneg, le_div_iff₀ hpos, hD2]
    nlinarith [mul_nonneg hcl (by linarith : (0 : ℝ) ≤ 1 + E), mul_nonneg hs (mul_nonneg hr (by linarith : 0 ≤ 2 * cly - cl))]
  · rw [sub_le_iff_le_add, div_le_iff₀ hpos, hD2]
    have h1 : s * r ≤ 1 + E := le_trans (mul_le_mul_of_nonneg_left hrD hs) hsD
    nlinarith [mul_nonneg (sub_nonneg.2 hle) (sub_nonneg.2 h1), mul_nonneg hs (mul_nonneg hcl (le_trans hcl hle))]

/-- A step stays between nothing and all of the chlorine. -/
theorem tendencyOf_bounds (k1 cl cl2 dt : ℝ) (hk : 0 ≤ k1) (hcl : 0 ≤ cl) (hcl2 : 0 ≤ cl2) (hdt : 0 ≤ dt) :
    0 ≤ cl + dt * (tendencyOf k1 1 cl cl2 dt).1 ∧ cl + dt * (tendencyOf k1 1 cl cl2 dt).1 ≤ cl + 2 * cl2 := by
  rw [tendencyOf_fst]
  set r := k1 / (4 * 1) with hr
  set D := sqrt (r * r + 2 * r * (cl + 2 * cl2)) with hD
  have hr0 : 0 ≤ r := by positivity
  have hD0 : 0 ≤ D := sqrt_nonneg _
  have hD2 : D ^ 2 = r * r + 2 * r * (cl + 2 * cl2) := sq_sqrt (by positivity)
  obtain ⟨h1, h2⟩ := el_bounds D dt hD0 hdt
  obtain ⟨b1, b2, b3⟩ := step_bounds cl (cl + 2 * cl2) r D _ _ hcl (by linarith) hr0 hD0 hD2 (exp_pos _) h1 h2
  have e := step_eq (cl + r) r D (exp (-4 * 1 * D * dt)) (dt * el D 1 dt) (ne_of_gt b1)
  rw [add_sub_cancel_right] at e
  rw [e]
  exact ⟨b2, b3⟩

theorem photolysis_nonneg (lat lon : ℝ) : 0 ≤ photolysis lat lon := by
  unfold photolysis
  rw [one_mul]
  exact le_max_left _ _

theorem degrees (x : ℝ) : x * 180 / Real.pi * (Real.pi / 180) = x := by
  have := pi_ne_zero
  field_simp

/-! ### Theorems -/

/-- **C114 (sunlight).**  Molecules are split at the rate of the cosine of the angle of the sun above the place, and not
at all at night. -/
theorem C114_sunlight (lat lon : ℝ) : photolysis lat lon = max 0 (cosine (direction lat lon) sun) := by
  have e1 : latCenter = Real.pi / 9 := by unfold latCenter; ring
  have e2 : lonCenter = 5 * Real.pi / 3 := by unfold lonCenter; ring
  unfold photolysis cosine sun direction
  rw [e1, e2, one_mul, cos_sub]
  congr 1
  ring

/-- **C114 (chlorine is conserved).**  Whatever the step and the densities, atoms and twice the molecules of a point add
up to what they were. -/
theorem C114_conserves (lat lon rho dt cl cl2 : ℝ) :
    (react lat lon rho dt cl cl2).1 + 2 * (react lat lon rho dt cl cl2).2 = cl + 2 * cl2 := by
  unfold react tendency tendencyOf
  simp only
  ring

/-- **C114 (no negative amounts).**  From amounts that are not negative in air of positive density a step of any length
leads to amounts that are not negative. -/
theorem C114_nonnegative (lat lon rho dt cl cl2 : ℝ) (hrho : 0 < rho) (hdt : 0 ≤ dt) (hcl : 0 ≤ cl) (hcl2 : 0 ≤ cl2) :
    0 ≤ (react lat lon rho dt cl cl2).1 ∧ 0 ≤ (react lat lon rho dt cl cl2).2 := by
  have hb := tendencyOf_bounds (photolysis (lat * 180 / Real.pi * (Real.pi / 180)) (lon * 180 / Real.pi * (Real.pi / 180))) (cl / rho) (cl2 / rho)
    dt (photolysis_nonneg _ _) (by positivity) (by positivity) hdt
  have hc := C114_conserves lat lon rho dt cl cl2
  have e : (react lat lon rho dt cl cl2).1 = rho * (cl / rho + dt *
      (tendencyOf (photolysis (lat * 180 / Real.pi * (Real.pi / 180)) (lon * 180 / Real.pi * (Real.pi / 180))) 1 (cl / rho) (cl2 / rho) dt).1) := by
    unfold react tendency recombination
    simp only
    field_simp
  have e1 : 0 ≤ (react lat lon rho dt cl cl2).1 := by
    rw [e]
    exact mul_nonneg hrho.le hb.1
  have e2 : (react lat lon rho dt cl cl2).1 ≤ cl + 2 * cl2 := by
    rw [e]
    calc _ ≤ rho * (cl / rho + 2 * (cl2 / rho)) := mul_le_mul_of_nonneg_left hb.2 hrho.le
      _ = cl + 2 * cl2 := by field_simp
  exact ⟨e1, by linarith⟩

/-- The exact solution. -/
noncomputable def exact (r D a t : ℝ) : ℝ :=
  if D = 0 then a / (1 + 2 * t * a) - r
  else D * (a * (1 + exp (-4 * D * t)) + (1 - exp (-4 * D * t)) * D) /
    (D * (1 + exp (-4 * D * t)) + (1 - exp (-4 * D * t)) * a) - r

theorem exact_deriv (r D a t : ℝ) (hD : 0 ≤ D) (ha : 0 ≤ a) (ht : 0 ≤ t) :
    HasDerivAt (exact r D a) (-2 * ((exact r D a t + r) ^ 2 - D ^ 2)) t := by
  unfold exact
  by_cases h : D = 0
  · simp only [h, if_true]
    have hne : 1 + 2 * t * a ≠ 0 := by positivity
    have h1 : HasDerivAt (fun t : ℝ => 1 + 2 * t * a) (2 * a) t := by
      have := (((hasDerivAt_id t).const_mul 2).mul_const a).const_add 1
      simpa using this
    have h2 := ((hasDerivAt_const t a).div h1 hne).sub_const r
    refine h2.congr_deriv ?_
    field_simp
    ring
  · simp only [h, if_false]
    have hD' : 0 < D := lt_of_le_of_ne hD (Ne.symm h)
    have hE1 : exp (-4 * D * t) ≤ 1 := exp_le_one_iff.2 (by nlinarith [mul_nonneg hD ht])
    have hE0 := exp_pos (-4 * D * t)
    have hne : D * (1 + exp (-4 * D * t)) + (1 - exp (-4 * D * t)) * a ≠ 0 := by
      have : 0 < D * (1 + exp (-4 * D * t)) := by positivity
      have : 0 ≤ (1 - exp (-4 * D * t)) * a := mul_nonneg (by linarith) ha
      linarith
    have hE : HasDerivAt (fun t : ℝ => exp (-4 * D * t)) (exp (-4 * D * t) * (-4 * D)) t := by
      have := ((hasDerivAt_id t).const_mul (-4 * D)).exp
      simpa using this
    have hn : HasDerivAt (fun t : ℝ => D * (a * (1 + exp (-4 * D * t)) + (1 - exp (-4 * D * t)) * D))
        (D * (a * (exp (-4 * D * t) * (-4 * D)) + -(exp (-4 * D * t) * (-4 * D)) * D)) t :=
      (((hE.const_add 1).const_mul a).add ((hE.const_sub 1).mul_const D)).const_mul D
    have hd : HasDerivAt (fun t : ℝ => D * (1 + exp (-4 * D * t)) + (1 - exp (-4 * D * t)) * a)
        (D * (exp (-4 * D * t) * (-4 * D)) + -(exp (-4 * D * t) * (-4 * D)) * a) t :=
      ((hE.const_add 1).const_mul D).add ((hE.const_sub 1).mul_const a)
    have h2 := (hn.div hd hne).sub_const r
    refine h2.congr_deriv ?_
    set E := exp (-4 * D * t)
    have key : ∀ N q : ℝ, q ≠ 0 → -2 * (N ^ 2 / q ^ 2 - D ^ 2) * q ^ 2 = -2 * (N ^ 2 - D ^ 2 * q ^ 2) := by
      intro N q hq
      field_simp
    rw [sub_add_cancel, div_pow, div_eq_iff (pow_ne_zero 2 hne), key _ _ hne]
    ring

/-- The exact solution at time zero. -/
theorem exact_zero (r D a : ℝ) : exact r D a 0 = a - r := by
  unfold exact
  split
  · simp
  · rename_i h
    simp only [mul_zero, exp_zero]
    field_simp
    ring

/-- **C114 (the reaction is solved exactly).**  Let the atoms `cl` and molecules `cl2` per mass of air of a place react
from now on.  There are amounts that do so, and a step of any length ends with exactly these, unless it is so short that
the product of its length and of `sqrt (r² + 2 r (cl + 2 cl2))`, where `r` is a quarter of the rate of splitting, is
between zero and `1e-16`. -/
theorem C114_exact (lat lon rho cl cl2 : ℝ) (hrho : 0 < rho) (hcl : 0 ≤ cl) (hcl2 : 0 ≤ cl2) :
    ∃ a b : ℝ → ℝ, a 0 = cl ∧ b 0 = cl2 ∧ Reacts (max 0 (cosine (direction lat lon) sun)) 1 a b ∧
      ∀ dt, 0 ≤ dt →
        (let r := max 0 (cosine (direction lat lon) sun) / 4
         let d := sqrt (r ^ 2 + 2 * r * (cl + 2 * cl2))
         d = 0 ∨ 1e-16 < d * dt) →
        react lat lon rho dt (rho * cl) (rho * cl2) = (rho * a dt, rho * b dt) := by
  rw [← C114_sunlight]
  set k1 := photolysis lat lon with hk1
  have hk : 0 ≤ k1 := photolysis_nonneg _ _
  simp only
  set r := k1 / 4 with hr
  set D := sqrt (r ^ 2 + 2 * r * (cl + 2 * cl2)) with hD
  have hr0 : 0 ≤ r := by positivity
  have hD0 : 0 ≤ D := sqrt_nonneg _
  have hD2 : D ^ 2 = r ^ 2 + 2 * r * (cl + 2 * cl2) := sq_sqrt (by positivity)
  refine ⟨exact r D (cl + r), fun t => (cl + 2 * cl2 - exact r D (cl + r) t) / 2, ?_, ?_, ⟨?_, ?_⟩, ?_⟩
  · rw [exact_zero]; ring
  · simp only [exact_zero]; ring
  · intro t ht
    refine (exact_deriv r D (cl + r) t hD0 (by positivity) ht).congr_deriv ?_
    rw [hD2, show k1 = 4 * r by rw [hr]; ring]
    ring
  · intro t ht
    have h := ((exact_deriv r D (cl + r) t hD0 (by positivity) ht).const_sub (cl + 2 * cl2)).div_const 2
    refine h.congr_deriv ?_
    rw [hD2, show k1 = 4 * r by rw [hr]; ring]
    ring
  · intro dt hdt hb
    have key : cl + dt * (tendencyOf k1 1 cl cl2 dt).1 = exact r D (cl + r) dt := by
      rw [tendencyOf_fst]
      have er : k1 / (4 * 1) = r := by rw [hr]; ring
      have eD : sqrt (r * r + 2 * r * (cl + 2 * cl2)) = D := by rw [hD]; congr 1; ring
      rw [er, eD]
      obtain ⟨h1, h2⟩ := el_bounds D dt hD0 hdt
      have hpos : 0 < 1 + exp (-4 * 1 * D * dt) + dt * el D 1 dt * (cl + r) := by
        have := exp_pos (-4 * 1 * D * dt)
        positivity
      have e := step_eq (cl + r) r D (exp (-4 * 1 * D * dt)) (dt * el D 1 dt) (ne_of_gt hpos)
      rw [add_sub_cancel_right] at e
      rw [e]
      unfold exact
      rcases hb with hb | hb
      · rw [if_pos hb]
        have : dt * el D 1 dt = 4 * dt := by
          unfold el
          rw [hb, if_neg (by norm_num)]
          ring
        rw [this, hb]
        norm_num
        have hne : 1 + 2 * dt * (cl + r) ≠ 0 := by positivity
        have hne2 : 1 + 1 + 4 * dt * (cl + r) ≠ 0 := by positivity
        rw [div_eq_div_iff (by norm_num at hne2 ⊢; exact hne2) hne]
        ring
      · have hDt : D * dt ≠ 0 := by
          intro h0; rw [h0] at hb; norm_num at hb
        have hDne : D ≠ 0 := fun h0 => hDt (by rw [h0]; ring)
        have hdne : dt ≠ 0 := fun h0 => hDt (by rw [h0]; ring)
        rw [if_neg hDne]
        have e1 : dt * el D 1 dt = (1 - exp (-4 * D * dt)) / D := by
          unfold el
          rw [if_pos (by rw [mul_one]; exact lt_of_lt_of_le hb (le_abs_self _)), mul_one]
          field_simp
        have hE1 : exp (-4 * D * dt) ≤ 1 := exp_le_one_iff.2 (by nlinarith [mul_nonneg hD0 hdt])
        have hE0 := exp_pos (-4 * D * dt)
        have hDp : 0 < D := lt_of_le_of_ne hD0 (Ne.symm hDne)
        rw [e1, mul_one]
        rw [e1, mul_one] at hpos
        set E := exp (-4 * D * dt)
        have hne : D * (1 + E) + (1 - E) * (cl + r) ≠ 0 := by
          have : 0 < D * (1 + E) := by positivity
          have : 0 ≤ (1 - E) * (cl + r) := mul_nonneg (by linarith) (by positivity)
          linarith
        congr 1
        rw [div_eq_div_iff (ne_of_gt hpos) hne]
        field_simp
    have e : react lat lon rho dt (rho * cl) (rho * cl2) =
        (rho * (cl + dt * (tendencyOf k1 1 cl cl2 dt).1), rho * ((cl + 2 * cl2 - (cl + dt * (tendencyOf k1 1 cl cl2 dt).1)) / 2)) := by
      unfold react tendency recombination
      rw [degrees, degrees, mul_div_cancel_left₀ _ hrho.ne', mul_div_cancel_left₀ _ hrho.ne', ← hk1]
      refine Prod.ext ?_ ?_
      · simp only; ring
      · simp only [tendencyOf]; ring
    rw [e, key]

/-- **C114 (initial values are in equilibrium).**  The amounts the test case starts from are not negative, add up to four
millionths, and do not change. -/
theorem C114_equilibrium (lat lon rho dt : ℝ) (hrho : 0 < rho) :
    let q := initialValue (lat * 180 / Real.pi) (lon * 180 / Real.pi)
    0 ≤ q.1 ∧ 0 ≤ q.2 ∧ q.1 + 2 * q.2 = 4e-6 ∧
      react lat lon rho dt (rho * q.1) (rho * q.2) = (rho * q.1, rho * q.2) := by
  have hk := photolysis_nonneg lat lon
  unfold initialValue recombination
  rw [degrees, degrees]
  simp only
  set r := photolysis lat lon / (4 * 1) with hr
  have hr0 : 0 ≤ r := by positivity
  have hc : clyConstant = 4e-6 := rfl
  have hc0 : (0 : ℝ) < clyConstant := by rw [hc]; norm_num
  set D := sqrt (r * r + 2 * clyConstant * r) with hD
  have hD0 : 0 ≤ D := sqrt_nonneg _
  have hD2 : D ^ 2 = r * r + 2 * clyConstant * r := sq_sqrt (by positivity)
  have h1 : r ≤ D := by
    by_contra h
    nlinarith [mul_nonneg hc0.le hr0]
  have h2 : D ≤ r + clyConstant := by
    by_contra h
    nlinarith
  refine ⟨by linarith, by linarith, by rw [hc]; ring, ?_⟩
  unfold react tendency tendencyOf recombination
  rw [degrees, degrees, mul_div_cancel_left₀ _ hrho.ne', mul_div_cancel_left₀ _ hrho.ne', ← hr]
  simp only
  have e : sqrt (r * r + 2 * r * (D - r + 2 * (clyConstant / 2 - (D - r) / 2))) = D := by
    rw [hD]; congr 1; ring
  rw [e]
  have z : D - r - D + r = 0 := by ring
  rw [z]
  simp

end Verif.Physics
