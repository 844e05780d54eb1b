import Mathlib.Analysis.SpecialFunctions.Pow.Deriv
import Verif.Thermo.Constants

/-!
# C85: physical constants and the conversions of pressure
-/

namespace Verif.Thermo

/-! ### Vocabulary -/

/-- The values a fresh object holds. -/
noncomputable def fresh : Quantity → ℝ
  | .earthRadius => 6371220
  | .g => 980616 / 100000
  | .omega => 729212 / 10000000000
  | .alpha => 0
  | .r => 287
  | .cp => 10045 / 10
  | .t0 => 300
  | .p0 => 100000
  | .rhoWater => 1000
  | .rvap => 4615 / 10
  | .mvap => 608 / 1000
  | .lvap => 2500000

/-- The value that was set last, or the one of a fresh object. -/
noncomputable def latest (calls : List (Quantity × ℝ)) (q : Quantity) : ℝ :=
  match calls.reverse.find? (fun s => s.1 = q) with
  | some s => s.2
  | none => fresh q

/-- Values of a gas: gas constant positive and less than the heat capacity at constant pressure, reference pressure
positive. -/
structure Gas (calls : List (Quantity × ℝ)) : Prop where
  r : 0 < latest calls .r
  cp : latest calls .r < latest calls .cp
  p0 : 0 < latest calls .p0

/-! ### Lemmas -/

theorem latest_nil (q : Quantity) : latest [] q = fresh q := rfl

theorem latest_append (calls : List (Quantity × ℝ)) (s : Quantity × ℝ) (q : Quantity) :
    latest (calls ++ [s]) q = if s.1 = q then s.2 else latest calls q := by
  unfold latest
  rw [List.reverse_append, List.reverse_singleton, List.singleton_append, List.find?_cons]
  by_cases h : s.1 = q <;> simp [h]

theorem after_append (calls : List (Quantity × ℝ)) (s : Quantity × ℝ) :
    after (calls ++ [s]) = set s.1 s.2 (after calls) := by
  unfold after
  rw [List.foldl_append]
  rfl

theorem get_set (p q : Quantity) (x : ℝ) (c : Constants) : get q (set p x c) = if p = q then x else get q c := by
  cases p <;> cases q <;> rfl

theorem derived_set (p : Quantity) (x : ℝ) (c : Constants)
    (h : c.kappa = c.r / c.cp ∧ c.gamma = c.cp / (c.cp - c.r) ∧ c.scaling = c.p0 * (c.r / c.p0) ^ c.gamma) :
    (set p x c).kappa = (set p x c).r / (set p x c).cp ∧
      (set p x c).gamma = (set p x c).cp / ((set p x c).cp - (set p x c).r) ∧
      (set p x c).scaling = (set p x c).p0 * ((set p x c).r / (set p x c).p0) ^ (set p x c).gamma := by
  cases p <;> first | exact h | exact ⟨rfl, rfl, rfl⟩ | exact ⟨h.1, h.2.1, rfl⟩

theorem exp_log_mul (x y : ℝ) (hx : 0 < x) : Real.exp (y * Real.log x) = x ^ y := by
  rw [Real.rpow_def_of_pos hx, mul_comm]

theorem ratio_cancel (a b : ℝ) (ha : a ≠ 0) (hb : b ≠ 0) : a / b * (b / a) = 1 := by
  field_simp

/-! ### Properties -/

/-- **C85 (values).**  After any history of calls every getter returns the value that was set last, or the initial one. -/
theorem C85_values (calls : List (Quantity × ℝ)) (q : Quantity) : get q (after calls) = latest calls q := by
  induction calls using List.reverseRecOn with
  | nil =>
    rw [latest_nil]
    cases q <;> norm_num [get, after, initial, fresh, recalculateScaling, recalculateGamma, recalculateKappa]
  | append_singleton calls s ih => rw [after_append, get_set, latest_append, ih]

/-- **C85 (derived values).**  After any history of calls in any order the derived quantities are those of the present
values. -/
theorem C85_derived (calls : List (Quantity × ℝ)) :
    (after calls).kappa = latest calls .r / latest calls .cp ∧
    (after calls).gamma = latest calls .cp / (latest calls .cp - latest calls .r) ∧
    (after calls).scaling = latest calls .p0 * (latest calls .r / latest calls .p0) ^
      (latest calls .cp / (latest calls .cp - latest calls .r)) ∧
    getCv (after calls) = latest calls .cp - latest calls .r := by
  have key : (after calls).kappa = (after calls).r / (after calls).cp ∧
      (after calls).gamma = (after calls).cp / ((after calls).cp - (after calls).r) ∧
      (after calls).scaling = (after calls).p0 * ((after calls).r / (after calls).p0) ^ (after calls).gamma := by
    induction calls using List.reverseRecOn with
    | nil => exact ⟨rfl, rfl, rfl⟩
    | append_singleton calls s ih =>
      rw [after_append]
      exact derived_set _ _ _ ih
  have e1 : (after calls).r = latest calls .r := C85_values calls .r
  have e2 : (after calls).cp = latest calls .cp := C85_values calls .cp
  have e3 : (after calls).p0 = latest calls .p0 := C85_values calls .p0
  rw [e1, e2, e3] at key
  refine ⟨key.1, key.2.1, ?_, ?_⟩
  · rw [← key.2.1]
    exact key.2.2
  · rw [getCv, e1, e2]

section

variable (calls : List (Quantity × ℝ)) (h : Gas calls)

include h

/-- **C85 (equation of state).**  For the constants of any gas, set in any order, and positive arguments: pressure is
`p0 (r x / p0) ^ (cp / cv)` of density times potential temperature `x`; the Exner pressure is `cp (r x / p0) ^ (r / cv)`
of it and `cp (p / p0) ^ (r / cp)` of pressure. -/
theorem C85_state (x : ℝ) (hx : 0 < x) :
    pressureFromRhoTheta (after calls) x = latest calls .p0 * (latest calls .r * x / latest calls .p0) ^
      (latest calls .cp / (latest calls .cp - latest calls .r)) ∧
    exnerFromRhoTheta (after calls) x = latest calls .cp * (latest calls .r * x / latest calls .p0) ^
      (latest calls .r / (latest calls .cp - latest calls .r)) ∧
    exnerFromPressure (after calls) x = latest calls .cp * (x / latest calls .p0) ^
      (latest calls .r / latest calls .cp) := by
  obtain ⟨-, e1, e2, -⟩ := C85_derived calls
  have er : (after calls).r = latest calls .r := C85_values calls .r
  have ec : (after calls).cp = latest calls .cp := C85_values calls .cp
  have ep : (after calls).p0 = latest calls .p0 := C85_values calls .p0
  have hr := h.r
  have hp := h.p0
  refine ⟨?_, ?_, ?_⟩
  · unfold pressureFromRhoTheta
    rw [e1, e2, mul_comm (Real.log x), exp_log_mul x _ hx, mul_assoc,
      ← Real.mul_rpow (div_nonneg hr.le hp.le) hx.le]
    congr 2
    ring
  · unfold exnerFromRhoTheta
    rw [er, ec, ep, exp_log_mul _ _ (by positivity)]
    congr 2
    ring
  · unfold exnerFromPressure
    rw [er, ec, ep, exp_log_mul _ _ (by positivity)]

/-- **C85 (there and back).**  The three conversions and their opposites undo each other on positive numbers, give
positive numbers, and the two ways from density times potential temperature to Exner pressure agree. -/
theorem C85_inverse (x : ℝ) (hx : 0 < x) :
    (0 < pressureFromRhoTheta (after calls) x ∧
      rhoThetaFromPressure (after calls) (pressureFromRhoTheta (after calls) x) = x) ∧
    (0 < rhoThetaFromPressure (after calls) x ∧
      pressureFromRhoTheta (after calls) (rhoThetaFromPressure (after calls) x) = x) ∧
    (0 < exnerFromRhoTheta (after calls) x ∧
      rhoThetaFromExner (after calls) (exnerFromRhoTheta (after calls) x) = x) ∧
    (0 < rhoThetaFromExner (after calls) x ∧
      exnerFromRhoTheta (after calls) (rhoThetaFromExner (after calls) x) = x) ∧
    (0 < exnerFromPressure (after calls) x ∧
      pressureFromExner (after calls) (exnerFromPressure (after calls) x) = x) ∧
    (0 < pressureFromExner (after calls) x ∧
      exnerFromPressure (after calls) (pressureFromExner (after calls) x) = x) ∧
    exnerFromPressure (after calls) (pressureFromRhoTheta (after calls) x) = exnerFromRhoTheta (after calls) x := by
  obtain ⟨-, e1, e2, -⟩ := C85_derived calls
  have er : (after calls).r = latest calls .r := C85_values calls .r
  have ec : (after calls).cp = latest calls .cp := C85_values calls .cp
  have ep : (after calls).p0 = latest calls .p0 := C85_values calls .p0
  have hr := h.r
  have hp := h.p0
  have hc : 0 < latest calls .cp := hr.trans h.cp
  have hv : 0 < latest calls .cp - latest calls .r := sub_pos.2 h.cp
  have hs : 0 < (after calls).scaling := by
    rw [e2]
    exact mul_pos hp (Real.rpow_pos_of_pos (div_pos hr hp) _)
  have hg : 0 < (after calls).gamma := by
    rw [e1]
    exact div_pos hc hv
  refine ⟨⟨?_, ?_⟩, ⟨?_, ?_⟩, ⟨?_, ?_⟩, ⟨?_, ?_⟩, ⟨?_, ?_⟩, ⟨?_, ?_⟩, ?_⟩
  · exact mul_pos hs (Real.exp_pos _)
  · unfold rhoThetaFromPressure pressureFromRhoTheta
    rw [mul_div_cancel_left₀ _ hs.ne', Real.log_exp, mul_div_cancel_right₀ _ hg.ne', Real.exp_log hx]
  · exact Real.exp_pos _
  · unfold rhoThetaFromPressure pressureFromRhoTheta
    rw [Real.log_exp, div_mul_cancel₀ _ hg.ne', Real.exp_log (div_pos hx hs), mul_div_cancel₀ _ hs.ne']
  · unfold exnerFromRhoTheta
    rw [ec]
    exact mul_pos hc (Real.exp_pos _)
  · unfold exnerFromRhoTheta rhoThetaFromExner
    rw [er, ec, ep, mul_div_cancel_left₀ _ hc.ne', Real.log_exp, ← mul_assoc,
      ratio_cancel _ _ hv.ne' hr.ne', one_mul, Real.exp_log (by positivity)]
    field_simp
  · unfold rhoThetaFromExner
    rw [er, ep]
    exact mul_pos (div_pos hp hr) (Real.exp_pos _)
  · unfold exnerFromRhoTheta rhoThetaFromExner
    rw [er, ec, ep, ← mul_assoc, ratio_cancel _ _ hr.ne' hp.ne', one_mul, Real.log_exp, ← mul_assoc,
      ratio_cancel _ _ hr.ne' hv.ne', one_mul, Real.exp_log (div_pos hx hc), mul_div_cancel₀ _ hc.ne']
  · unfold exnerFromPressure
    rw [ec]
    exact mul_pos hc (Real.exp_pos _)
  · unfold exnerFromPressure pressureFromExner
    rw [er, ec, ep, mul_div_cancel_left₀ _ hc.ne', Real.log_exp, ← mul_assoc, ratio_cancel _ _ hc.ne' hr.ne', one_mul, Real.exp_log (div_pos hx hp), mul_div_cancel₀ _ hp.ne']
  · unfold pressureFromExner
    rw [ep]
    exact mul_pos hp (Real.exp_pos _)
  · unfold exnerFromPressure pressureFromExner
    rw [er, ec, ep, mul_div_cancel_left₀ _ hp.ne', Real.log_exp, ← mul_assoc, ratio_cancel _ _ hr.ne' hc.ne', one_mul, Real.exp_log (div_pos hx hc), mul_div_cancel₀ _ hc.ne']
  · have hP : 0 < pressureFromRhoTheta (after calls) x := mul_pos hs (Real.exp_pos _)
    rw [(C85_state calls h _ hP).2.2, (C85_state calls h x hx).1, (C85_state calls h x hx).2.1,
      mul_div_cancel_left₀ _ hp.ne', ← Real.rpow_mul (by positivity)]
    congr 2
    field_simp

/-- **C85 (monotony).**  Pressure and Exner pressure increase strictly with density times potential temperature, and
Exner pressure with pressure. -/
theorem C85_monotone (x y : ℝ) (hx : 0 < x) (hxy : x < y) :
    pressureFromRhoTheta (after calls) x < pressureFromRhoTheta (after calls) y ∧
    exnerFromRhoTheta (after calls) x < exnerFromRhoTheta (after calls) y ∧
    exnerFromPressure (after calls) x < exnerFromPressure (after calls) y := by
  have hy := hx.trans hxy
  have hr := h.r
  have hp := h.p0
  have hc : 0 < latest calls .cp := hr.trans h.cp
  have hv : 0 < latest calls .cp - latest calls .r := sub_pos.2 h.cp
  obtain ⟨a1, a2, a3⟩ := C85_state calls h x hx
  obtain ⟨b1, b2, b3⟩ := C85_state calls h y hy
  rw [a1, a2, a3, b1, b2, b3]
  have hq : latest calls .r * x / latest calls .p0 < latest calls .r * y / latest calls .p0 :=
    div_lt_div_of_pos_right (mul_lt_mul_of_pos_left hxy hr) hp
  refine ⟨?_, ?_, ?_⟩
  · exact mul_lt_mul_of_pos_left (Real.rpow_lt_rpow (by positivity) hq (by positivity)) hp
  · exact mul_lt_mul_of_pos_left (Real.rpow_lt_rpow (by positivity) hq (by positivity)) hc
  · exact mul_lt_mul_of_pos_left (Real.rpow_lt_rpow (by positivity) (div_lt_div_of_pos_right hxy hp) (by positivity)) hc

/-- **C85 (internal energy).**  The Exner pressure is the derivative of the internal energy per volume, pressure divided
by `cp / cv - 1`, with respect to density times potential temperature.  (This is what makes the weight of the heat term
in the energy balance C83 the right one.) -/
theorem C85_energy (x : ℝ) (hx : 0 < x) :
    HasDerivAt (fun x => pressureFromRhoTheta (after calls) x / ((after calls).gamma - 1))
      (exnerFromRhoTheta (after calls) x) x := by
  have hr := h.r
  have hp := h.p0
  have hc : 0 < latest calls .cp := hr.trans h.cp
  have hv : 0 < latest calls .cp - latest calls .r := sub_pos.2 h.cp
  obtain ⟨-, e1, e2, -⟩ := C85_derived calls
  have hl := (Real.hasDerivAt_log hx.ne').mul_const (after calls).gamma
  have hE := (hl.exp.const_mul (after calls).scaling).div_const ((after calls).gamma - 1)
  refine hE.congr_deriv ?_
  rw [(C85_state calls h x hx).2.1]
  have hP := (C85_state calls h x hx).1
  unfold pressureFromRhoTheta at hP
  rw [← mul_assoc, hP, e1]
  have hq : 0 < latest calls .r * x / latest calls .p0 := by positivity
  have hsplit : latest calls .cp / (latest calls .cp - latest calls .r) =
      1 + latest calls .r / (latest calls .cp - latest calls .r) := by
    field_simp
    ring
  have hpow : (latest calls .r * x / latest calls .p0) ^ (latest calls .cp / (latest calls .cp - latest calls .r)) =
      latest calls .r * x / latest calls .p0 *
        (latest calls .r * x / latest calls .p0) ^ (latest calls .r / (latest calls .cp - latest calls .r)) := by
    conv_lhs => rw [hsplit, Real.rpow_add hq, Real.rpow_one]
  rw [hpow]
  have hd : latest calls .cp / (latest calls .cp - latest calls .r) - 1 =
      latest calls .r / (latest calls .cp - latest calls .r) := by
    rw [hsplit]
    ring
  rw [hd]
  generalize (latest calls .r * x / latest calls .p0) ^ (latest calls .r / (latest calls .cp - latest calls .r)) = P
  field_simp

end

/-- A fresh object is a gas, and so is one whose constants were set several times, also through values that are not. -/
example : Gas [] ∧ Gas [(.r, 2000), (.cp, 5000), (.r, 4), (.p0, 1), (.cp, 14), (.g, -3)] := by
  constructor
  · constructor <;> rw [latest_nil] <;> norm_num [latest_nil, fresh]
  · constructor <;> simp [latest, List.find?] <;> norm_num

end Verif.Thermo
