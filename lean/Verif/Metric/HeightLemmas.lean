import Mathlib.Analysis.Calculus.Deriv.MeanValue
import Mathlib.Analysis.Real.Pi.Bounds
import Verif.Metric.Props

/-!
# Lemmas about heights
-/

namespace Verif.Metric

open Real Verif.Horiz

theorem put3_loop (n i j : Nat) (v : Nat → ℝ) (s : Nat → Nat → Nat → ℝ) (x y z : Nat) :
    loop n (fun k s => put3 s i j k (v k)) s x y z = if x = i ∧ y = j ∧ z < n then v z else s x y z := by
  induction n with
  | zero => simp [loop_zero]
  | succ n ih =>
    rw [loop_succ]
    unfold put3 at ih ⊢
    by_cases h1 : x = i ∧ y = j ∧ z = n
    · rw [if_pos h1, if_pos ⟨h1.1, h1.2.1, by omega⟩, h1.2.2]
    · rw [if_neg h1, ih]
      by_cases h2 : x = i ∧ y = j ∧ z < n
      · rw [if_pos h2, if_pos ⟨h2.1, h2.2.1, by omega⟩]
      · rw [if_neg h2, if_neg]
        rintro ⟨a, b, c⟩
        exact h2 ⟨a, b, by rcases Nat.lt_succ_iff_lt_or_eq.1 c with h | h; exact h; exact absurd ⟨a, b, h⟩ h1⟩

/-- Two nested loops over nodes whose passes each write one column of the array `pr s`. -/
theorem columns {σ : Type} (pr : σ → Nat → Nat → Nat → ℝ) (step : Nat → Nat → σ → σ) (v : Nat → Nat → Nat → ℝ)
    (C : Nat → Prop) [DecidablePred C] (I : σ → Prop) (hI : ∀ i j s, I s → I (step i j s))
    (h : ∀ i j s x y z, I s → pr (step i j s) x y z = if x = i ∧ y = j ∧ C z then v x y z else pr s x y z)
    (na nb : Nat) (s : σ) (hs : I s) :
    I (loop na (fun i s => loop nb (fun j s => step i j s) s) s) ∧ ∀ x y z,
      pr (loop na (fun i s => loop nb (fun j s => step i j s) s) s) x y z =
        if x < na ∧ y < nb ∧ C z then v x y z else pr s x y z := by
  have inner : ∀ i s, I s → I (loop nb (fun j s => step i j s) s) ∧ ∀ x y z,
      pr (loop nb (fun j s => step i j s) s) x y z = if x = i ∧ y < nb ∧ C z then v x y z else pr s x y z := by
    intro i s hs
    induction nb with
    | zero => exact ⟨hs, fun x y z => by simp [loop_zero]⟩
    | succ n ih =>
      rw [loop_succ]
      refine ⟨hI _ _ _ ih.1, fun x y z => ?_⟩
      rw [h i n _ x y z ih.1, ih.2]
      by_cases h1 : x = i ∧ y = n ∧ C z
      · rw [if_pos h1, if_pos ⟨h1.1, by omega, h1.2.2⟩]
      · rw [if_neg h1]
        by_cases h2 : x = i ∧ y < n ∧ C z
        · rw [if_pos h2, if_pos ⟨h2.1, by omega, h2.2.2⟩]
        · rw [if_neg h2, if_neg]
          rintro ⟨a, b, c⟩
          rcases Nat.lt_succ_iff_lt_or_eq.1 b with h3 | h3
          · exact h2 ⟨a, h3, c⟩
          · exact h1 ⟨a, h3, c⟩
  induction na with
  | zero => exact ⟨hs, fun x y z => by simp [loop_zero]⟩
  | succ n ih =>
    rw [loop_succ]
    have hin := inner n _ ih.1
    refine ⟨hin.1, fun x y z => ?_⟩
    rw [hin.2, ih.2]
    by_cases h1 : x = n ∧ y < nb ∧ C z
    · rw [if_pos h1, if_pos ⟨by omega, h1.2⟩]
    · rw [if_neg h1]
      by_cases h2 : x < n ∧ y < nb ∧ C z
      · rw [if_pos h2, if_pos ⟨by omega, h2.2⟩]
      · rw [if_neg h2, if_neg]
        rintro ⟨a, b, c⟩
        rcases Nat.lt_succ_iff_lt_or_eq.1 a with h3 | h3
        · exact h2 ⟨h3, b, c⟩
        · exact h1 ⟨h3, b, c⟩

/-- `cos⁵ sin` is at most 0.26. -/
theorem cos_pow_sin (c s : ℝ) (h : s ^ 2 + c ^ 2 = 1) : c ^ 5 * s ≤ 0.26 := by
  have hs : s ^ 2 = 1 - c ^ 2 := by linarith
  have hq : (c ^ 5 * s) ^ 2 ≤ 0.26 ^ 2 := by
    have e : (c ^ 5 * s) ^ 2 = (c ^ 2) ^ 5 * (1 - c ^ 2) := by rw [mul_pow, hs]; ring
    rw [e]
    have hu : 0 ≤ c ^ 2 := sq_nonneg c
    generalize c ^ 2 = u at *
    have id : u ^ 6 - u ^ 5 + 3125 / 46656 =
        (u - 5 / 6) ^ 2 * (u ^ 4 + 2 / 3 * u ^ 3 + 5 / 12 * u ^ 2 + 25 / 108 * u + 125 / 1296) := by ring
    have : 0 ≤ (u - 5 / 6) ^ 2 * (u ^ 4 + 2 / 3 * u ^ 3 + 5 / 12 * u ^ 2 + 25 / 108 * u + 125 / 1296) := by positivity
    norm_num at *
    nlinarith
  exact le_of_abs_le (abs_le_of_sq_le_sq hq (by norm_num))

theorem decaySlope_bounds (eta : ℝ) (h0 : 0 ≤ eta) (h1 : eta ≤ 1) : -4 < decaySlope eta ∧ decaySlope eta < 1 := by
  have hpi := Real.pi_pos
  have hpi2 := Real.pi_lt_d2
  have t0 : 0 ≤ 0.5 * π * eta := by positivity
  have t1 : 0.5 * π * eta ≤ π / 2 := by nlinarith
  have hc0 : 0 ≤ cos (0.5 * π * eta) := Real.cos_nonneg_of_mem_Icc ⟨by linarith, t1⟩
  have hs0 : 0 ≤ sin (0.5 * π * eta) := Real.sin_nonneg_of_nonneg_of_le_pi t0 (by linarith)
  have hc1 := Real.cos_le_one (0.5 * π * eta)
  have hs1 := Real.sin_le_one (0.5 * π * eta)
  have hsc := Real.sin_sq_add_cos_sq (0.5 * π * eta)
  unfold decaySlope
  generalize cos (0.5 * π * eta) = c at *
  generalize sin (0.5 * π * eta) = s at *
  have k1 := cos_pow_sin c s hsc
  have k0 : 0 ≤ c ^ 5 * s := by positivity
  have c6 : c ^ 6 ≤ 1 := pow_le_one₀ hc0 hc1
  have c60 : 0 ≤ c ^ 6 := by positivity
  have a0 : 0 ≤ (1 - eta) := by linarith
  have es : eta * s ≤ 1 := mul_le_one₀ h1 hs0 hs1
  have es0 : 0 ≤ eta * s := by positivity
  have p1 : (1 - eta) * (π * (c ^ 5 * s)) ≤ 3.15 * 0.26 := by
    have q1 : π * (c ^ 5 * s) ≤ 3.15 * 0.26 := mul_le_mul hpi2.le k1 k0 (by norm_num)
    have q0 : 0 ≤ π * (c ^ 5 * s) := by positivity
    nlinarith
  have p0 : 0 ≤ (1 - eta) * (π * (c ^ 5 * s)) := by positivity
  have r0 : 0 ≤ (1 - eta) * s := by positivity
  have r1 : (1 - eta) * s ≤ 1 := mul_le_one₀ (by linarith) hs0 hs1
  have w0 : 0 ≤ (1 - eta) * (π * (eta * c)) := by positivity
  have w1 : (1 - eta) * (π * (eta * c)) ≤ 3.15 := by
    have q1 : π * (eta * c) ≤ 3.15 * 1 := mul_le_mul hpi2.le (mul_le_one₀ h1 hc0 hc1) (by positivity) (by norm_num)
    have q0 : 0 ≤ π * (eta * c) := by positivity
    nlinarith
  have e : -c ^ 6 - 0.25 * eta * s + (1 - 1 * eta) * (-3 * π * c ^ 5 * s + 0.25 * s + π / 8 * eta * c) =
      -c ^ 6 - 0.25 * (eta * s) - 3 * ((1 - eta) * (π * (c ^ 5 * s))) + 0.25 * ((1 - eta) * s) +
        1 / 8 * ((1 - eta) * (π * (eta * c))) := by ring
  rw [e]
  norm_num at *
  constructor <;> linarith

/-- Below the height at which the surfaces fold, the height of the Cartesian grid increases with its coordinate. -/
theorem planeHeight_strictMono (ztop zs : ℝ) (hz : 0 < ztop) (h1 : -ztop ≤ zs) (h2 : zs ≤ ztop / 4) :
    StrictMonoOn (planeHeight ztop zs) (Set.Icc 0 1) := by
  have hd : ∀ eta, HasDerivAt (planeHeight ztop zs) (ztop + zs * decaySlope eta) eta := fun eta => by
    have := (planeTerms_slopes ztop zs 0 0 0 eta).2.2
    simpa [planeTerms] using this
  refine strictMonoOn_of_deriv_pos (convex_Icc 0 1) (fun eta _ => (hd eta).continuousAt.continuousWithinAt) ?_
  intro eta he
  rw [interior_Icc] at he
  rw [(hd eta).deriv]
  obtain ⟨b1, b2⟩ := decaySlope_bounds eta he.1.le he.2.le
  rcases le_or_gt 0 zs with h | h
  · nlinarith
  · nlinarith

end Verif.Metric
