import Verif.Forcing.Props

/-!
# C99: where the forcing is not that of Held and Suarez
-/

namespace Verif.Forcing

open Verif.Thermo

/-- The constants of any history of calls are those of a gas if the ones set are. -/
theorem gas_after (calls : List (Quantity × ℝ)) (hr : 0 < latest calls .r) (hc : 2 * latest calls .r ≤ latest calls .cp)
    (hp : 0 < latest calls .p0) : Gas (after calls) := by
  have er : (after calls).r = latest calls .r := C85_values calls .r
  have ec : (after calls).cp = latest calls .cp := C85_values calls .cp
  have ep : (after calls).p0 = latest calls .p0 := C85_values calls .p0
  obtain ⟨d1, d2, d3, -⟩ := C85_derived calls
  exact ⟨by rw [er]; exact hr, by rw [er, ec]; exact hc, by rw [ep]; exact hp, by rw [d1, er, ec], by rw [d2, er, ec],
    by rw [d3, er, ep, d2]⟩

/-- The initial constants are those of a gas. -/
theorem gas_initial : Gas initial :=
  gas_after [] (by rw [latest_nil]; norm_num [fresh]) (by rw [latest_nil, latest_nil]; norm_num [fresh])
    (by rw [latest_nil]; norm_num [fresh])

theorem initial_values : initial.r = 287 ∧ initial.cp = 1004.5 ∧ initial.p0 = 100000 := ⟨rfl, rfl, rfl⟩

/-- A column with the same values at all heights. -/
def still (u t r tEdge rEdge : ℝ) : Col :=
  ⟨fun _ => u, fun _ => 0, fun _ => t, fun _ => 0, fun _ => r, fun _ => tEdge, fun _ => 0, fun _ => rEdge⟩

/-- A patch of one node. -/
def single : Box := ⟨0, 1, 0, 1⟩

theorem single_inside : single.Inside 0 0 := by unfold Box.Inside single; norm_num

/-- Friction is absent at relative pressures below 0.7. -/
theorem layer_zero (s : ℝ) (h : s ≤ 7 / 10) : layer s = 0 := by
  unfold layer
  exact max_eq_left (div_nonpos_of_nonpos_of_nonneg (by linarith) (by norm_num))

theorem layer_one : layer 1 = 1 := by unfold layer; norm_num

theorem half_pow (g : ℝ) (hg : 1 < g) : (1 / 2 : ℝ) ^ g ≤ 7 / 10 := by
  calc (1 / 2 : ℝ) ^ g ≤ (1 / 2) ^ (1 : ℝ) := Real.rpow_le_rpow_of_exponent_ge (by norm_num) (by norm_num) hg.le
    _ ≤ _ := by norm_num

/-- **C99 (friction) is false of the formulation the program is compiled with.**  At a level that has the pressure of the
surface but half its density the wind should be halved in a day, and is not damped at all. -/
theorem C99_friction_false (toNode toEdge : (Nat → ℝ) → Nat → ℝ) (lat : Int → Int → ℝ) :
    ∃ x : Columns,
      airPressure initial .rhoTheta ((x 0 0).r 0) ((x 0 0).t 0) =
        airPressure initial .rhoTheta ((x 0 0).rEdge 0) ((x 0 0).tEdge 0) ∧
      (x 0 0).u 0 / (1 + frictionRate (airPressure initial .rhoTheta ((x 0 0).r 0) ((x 0 0).t 0) /
        airPressure initial .rhoTheta ((x 0 0).rEdge 0) ((x 0 0).tEdge 0)) * 86400) = 10 ∧
      (perform initial toNode toEdge 1 .node 86400 single lat x 0 0).u 0 = 20 := by
  refine ⟨fun _ _ => still 20 300 (1 / 2) 300 1, rfl, ?_, ?_⟩
  · unfold airPressure Formulation.product still
    simp only
    rw [div_self (gasPressure_pos gas_initial 300 (by norm_num)).ne']
    unfold frictionRate
    rw [layer_one]
    norm_num
  · rw [C99_friction_rhoTheta gas_initial 0 0 single_inside 0 (by norm_num) _ rfl (by norm_num [current, still])
      (by norm_num [current, still]) (by norm_num [current, still]) (by norm_num [current, still])]
    unfold airPressure Formulation.product current still
    simp only
    rw [div_self (gasPressure_pos gas_initial 300 (by norm_num)).ne', one_mul, div_one]
    unfold frictionRate
    rw [layer_zero _ (half_pow _ gas_initial.gamma_gt)]
    norm_num

/-- At the reference pressure the equilibrium temperature of the equator is 315. -/
theorem equilibrium_reference (p0 kappa : ℝ) (hp : p0 ≠ 0) : equilibriumTemperature p0 kappa 0 p0 = 315 := by
  unfold equilibriumTemperature
  rw [div_self hp, Real.log_one, Real.one_rpow, Real.sin_zero]
  norm_num

theorem reference_pressure : gasPressure initial (100000 / 287) = 100000 := by
  unfold gasPressure
  rw [initial_values.1, initial_values.2.2]
  norm_num

/-- **C99 (rate) is false of the formulation the program is compiled with.**  Air at the surface of the equator, 290
kelvin warm at the reference pressure, should warm at the rate of once in four days towards 315 kelvin, and does not. -/
theorem C99_rate_false (toNode toEdge : (Nat → ℝ) → Nat → ℝ) :
    ∃ x : Columns,
      airPressure initial .rhoTheta ((x 0 0).r 0) ((x 0 0).t 0) =
        airPressure initial .rhoTheta ((x 0 0).rEdge 0) ((x 0 0).tEdge 0) ∧
      ¬ HasDerivWithinAt (fun dt => airTemperature initial .rhoTheta ((x 0 0).r 0)
          ((perform initial toNode toEdge 1 .node dt single (fun _ _ => 0) x 0 0).t 0))
        (relaxationRate 0 1 * (equilibriumTemperature initial.p0 initial.kappa 0
            (airPressure initial .rhoTheta ((x 0 0).r 0) ((x 0 0).t 0)) -
          airTemperature initial .rhoTheta ((x 0 0).r 0) ((x 0 0).t 0))) (Set.Ici 0) 0 := by
  refine ⟨fun _ _ => still 0 (100000 / 287) (6 / 5) (100000 / 287) (6 / 5), rfl, ?_⟩
  intro h
  have h' := C99_rate (c := initial) (toNode := toNode) (toEdge := toEdge) (n := 1) (loc := .node) (b := single)
    (lat := fun _ _ => 0) (x := fun _ _ => still 0 (100000 / 287) (6 / 5) (100000 / 287) (6 / 5)) gas_initial 0 0
    single_inside 0 (by unfold heldCount; norm_num) _ rfl (6 / 5) (100000 / 287) rfl rfl (by norm_num) (by norm_num)
    (by norm_num [current, still]) (by norm_num [current, still]) _ _ rfl rfl
  have hu := (uniqueDiffWithinAt_Ici (0 : ℝ)).eq_deriv _ h h'
  unfold airTemperature airPressure Formulation.product current still at hu
  simp only at hu
  rw [reference_pressure, div_self (by norm_num), initial_values.2.2, equilibrium_reference _ _ (by norm_num),
    initial_values.1] at hu
  have hne : (315 - 100000 / (6 / 5 * 287) : ℝ) ≠ 0 := by norm_num
  have e := mul_right_cancel₀ hne hu
  have hlt : (1 : ℝ) / (6 / 5) ^ initial.gamma < 1 := by
    rw [div_lt_one (by positivity)]
    exact Real.one_lt_rpow (by norm_num) (by have := gas_initial.gamma_gt; linarith)
  have l1 : layer (1 / (6 / 5) ^ initial.gamma) < 1 := by
    unfold layer
    rw [max_lt_iff]
    constructor
    · norm_num
    · rw [div_lt_one (by norm_num)]; linarith
  unfold relaxationRate at e
  rw [layer_one, Real.cos_zero] at e
  norm_num at e l1
  linarith

/-- **C99 (temperature) is false with potential temperature as the third component.**  Air at the reference pressure and
the equilibrium temperature at the equator should be left as it is, and is warmed. -/
theorem C99_theta_false (toNode toEdge : (Nat → ℝ) → Nat → ℝ) (dt : ℝ) (hdt : 0 < dt) :
    ∃ x : Columns,
      airTemperature initial .theta ((x 0 0).r 0) ((x 0 0).t 0) =
        equilibriumTemperature initial.p0 initial.kappa 0 (airPressure initial .theta ((x 0 0).r 0) ((x 0 0).t 0)) ∧
      (x 0 0).t 0 < (perform initial toNode toEdge 1 .node dt single (fun _ _ => 0) x 0 0).t 0 := by
  have hp : airPressure initial .theta (100000 / (315 * 287)) 315 = 100000 := by
    unfold airPressure Formulation.product
    simp only
    rw [show (100000 / (315 * 287) * 315 : ℝ) = 100000 / 287 by norm_num, reference_pressure]
  refine ⟨fun _ _ => still 0 315 (100000 / (315 * 287)) 315 1, ?_, ?_⟩
  · unfold airTemperature still
    simp only
    rw [hp, initial_values.2.2, equilibrium_reference _ _ (by norm_num), initial_values.1]
    norm_num
  · have g := gas_initial
    obtain ⟨T, hT⟩ : ∃ T, T = airTemperature initial .rhoTheta (100000 / (315 * 287)) 315 := ⟨_, rfl⟩
    obtain ⟨Teq, hTeq⟩ : ∃ Teq, Teq = equilibriumTemperature initial.p0 initial.kappa 0
      (airPressure initial .rhoTheta (100000 / (315 * 287)) 315) := ⟨_, rfl⟩
    obtain ⟨r, -, qp, up, -, -, -⟩ := C99_heating_partial (c := initial) (toNode := toNode) (toEdge := toEdge) (n := 1)
      (loc := .node) (b := single) (lat := fun _ _ => 0) (x := fun _ _ => still 0 315 (100000 / (315 * 287)) 315 1) g hdt
      0 0 single_inside 0 (by unfold heldCount; norm_num) _ rfl (100000 / (315 * 287)) 315 _ rfl rfl rfl (by norm_num)
      (by norm_num) T Teq _ hT hTeq rfl
    have hlt : T < Teq := by
      obtain ⟨z, hz⟩ : ∃ z : ℝ, z = (287 * 315 / 100000 : ℝ) ^ initial.gamma := ⟨_, rfl⟩
      have hp2 : airPressure initial .rhoTheta (100000 / (315 * 287)) 315 = 100000 * z := by
        unfold airPressure Formulation.product gasPressure
        rw [← g.gamma, initial_values.1, initial_values.2.2, hz]
      have z0 : 0 < z := by rw [hz]; positivity
      have z1 : z < 1 := by
        rw [hz]; exact Real.rpow_lt_one (by norm_num) (by norm_num) (by have := g.gamma_gt; linarith)
      have eT : T = 315 * z := by
        rw [hT]; unfold airTemperature; rw [hp2, initial_values.1]; norm_num
        ring
      have k0 : 0 < initial.kappa ∧ initial.kappa < 1 := by
        rw [g.kappa, initial_values.1, initial_values.2.1]; norm_num
      have hpow : z < z ^ initial.kappa := by
        calc z = z ^ (1 : ℝ) := (Real.rpow_one z).symm
          _ < _ := Real.rpow_lt_rpow_of_exponent_gt z0 z1 k0.2
      have hpos : 0 < z ^ initial.kappa := Real.rpow_pos_of_pos z0 _
      have hlog : Real.log z < 0 := Real.log_neg z0 z1
      have : (315 - 60 * Real.sin 0 ^ 2 - 10 * Real.log (100000 * z / 100000) * Real.cos 0 ^ 2) *
          (100000 * z / 100000) ^ initial.kappa ≤ Teq := by
        rw [hTeq, hp2]; exact le_max_right _ _
      rw [show 100000 * z / 100000 = z by ring, Real.sin_zero, Real.cos_zero] at this
      rw [eT]
      nlinarith
    have h1 := (up hlt).1
    rw [hT] at h1
    by_contra hn
    have hn' : (perform initial toNode toEdge 1 .node dt single (fun _ _ => 0)
      (fun _ _ => still 0 315 (100000 / (315 * 287)) 315 1) 0 0).t 0 ≤ 315 := not_lt.1 hn
    have q0 : 0 < (perform initial toNode toEdge 1 .node dt single (fun _ _ => 0)
      (fun _ _ => still 0 315 (100000 / (315 * 287)) 315 1) 0 0).t 0 := qp
    have : gasPressure initial ((perform initial toNode toEdge 1 .node dt single (fun _ _ => 0)
      (fun _ _ => still 0 315 (100000 / (315 * 287)) 315 1) 0 0).t 0) ≤ gasPressure initial 315 := by
      rw [← pressure_eq g _ q0, ← pressure_eq g _ (by norm_num), pressure_rpow _ q0, pressure_rpow _ (by norm_num)]
      exact mul_le_mul_of_nonneg_left (Real.rpow_le_rpow q0.le hn' (by have := g.gamma_gt; linarith)) g.scaling_pos.le
    unfold airTemperature airPressure Formulation.product Col.held at h1
    simp only at h1
    rw [initial_values.1] at h1
    have := div_le_div_of_nonneg_right this (c := 100000 / (315 * 287) * 287) (by norm_num)
    linarith

/-- **C99 (one state, one step) is false with all variables on levels.**  Two patches with the same state, that is the same
values on levels, are given different winds, because the pressure of the surface is taken from the arrays of
interfaces, which nothing has filled. -/
theorem C99_levels_false (toNode toEdge : (Nat → ℝ) → Nat → ℝ) (lat : Int → Int → ℝ) :
    ∃ x x' : Columns,
      (∀ i j, (x i j).u = (x' i j).u ∧ (x i j).v = (x' i j).v ∧ (x i j).t = (x' i j).t ∧ (x i j).w = (x' i j).w ∧
        (x i j).r = (x' i j).r) ∧
      (perform initial toNode toEdge 1 .node 86400 single lat x 0 0).u 0 ≠
        (perform initial toNode toEdge 1 .node 86400 single lat x' 0 0).u 0 := by
  have g := gas_initial
  refine ⟨fun _ _ => still 20 300 1 300 1, fun _ _ => still 20 300 1 600 1, fun _ _ => ⟨rfl, rfl, rfl, rfl, rfl⟩, ?_⟩
  rw [(C99_friction_partial g 0 0 single_inside 0 (by norm_num) _ rfl (by norm_num [current, still])
      (by norm_num [current, still]) (by norm_num [current, still]) (by norm_num [current, still])).1,
    (C99_friction_partial g 0 0 single_inside 0 (by norm_num) _ rfl (by norm_num [current, still])
      (by norm_num [current, still]) (by norm_num [current, still]) (by norm_num [current, still])).1]
  unfold airPressure Formulation.product current still
  simp only
  have p3 := gasPressure_pos g (1 * 300) (by norm_num)
  have e : gasPressure initial (1 * 300) = (1 / 2) ^ initial.gamma * gasPressure initial (1 * 600) := by
    rw [← gasPressure_mul g _ _ (by norm_num) (by norm_num)]; norm_num
  have p6 := gasPressure_pos g (1 * 600) (by norm_num)
  have e2 : gasPressure initial (1 * 300) / gasPressure initial (1 * 600) = (1 / 2) ^ initial.gamma := by
    rw [e, mul_div_assoc, div_self p6.ne', mul_one]
  rw [div_self p3.ne', e2]
  unfold frictionRate
  rw [layer_one, layer_zero _ (half_pow _ g.gamma_gt)]
  norm_num

/-- The hypotheses of the properties of C99 are met by the initial constants and a column of air at rest. -/
example : Gas initial ∧ single.Inside 0 0 ∧ (0 : Nat) < heldCount 1 .node ∧
    0 < (still 20 (100000 / 287) (6 / 5) (100000 / 287) (6 / 5)).density .node 0 ∧
    0 < (still 20 (100000 / 287) (6 / 5) (100000 / 287) (6 / 5)).held .node 0 ∧
    airTemperature initial .rhoTheta (6 / 5) (100000 / 287) <
      equilibriumTemperature initial.p0 initial.kappa 0 (airPressure initial .rhoTheta (6 / 5) (100000 / 287)) := by
  refine ⟨gas_initial, single_inside, by unfold heldCount; norm_num, by norm_num [still, Col.density],
    by norm_num [still, Col.held], ?_⟩
  unfold airTemperature airPressure Formulation.product
  simp only
  rw [reference_pressure, initial_values.2.2, equilibrium_reference _ _ (by norm_num), initial_values.1]
  norm_num

/-- With a step of a day and relative pressures of at most 1 the condition on the step of `C99_heating_partial` is met. -/
example (lt sigma : ℝ) (h : sigma ≤ 1) : 86400 * relaxationRate lt sigma ≤ initial.gamma := by
  have h1 := rate_le lt sigma h
  have h2 := gas_initial.gamma_gt
  linarith

end Verif.Forcing
