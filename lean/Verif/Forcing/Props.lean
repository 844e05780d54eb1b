import Verif.Forcing.Lemmas
import Verif.Thermo.ConstantsProps
import Mathlib.Analysis.SpecialFunctions.Pow.Deriv

/-!
# C99: Held-Suarez forcing
-/

namespace Verif.Forcing

open Verif.Thermo

/-! ### Vocabulary of the statements -/

/-- Is the node inside the patch? -/
def Box.Inside (b : Box) (i j : Int) : Prop := b.aBegin ≤ i ∧ i < b.aEnd ∧ b.bBegin ≤ j ∧ j < b.bEnd

/-- A column before the forcing with the values that are only interpolated brought up to date: with theta on
interfaces, theta on levels and density on interfaces. -/
def current (toNode toEdge : (Nat → ℝ) → Nat → ℝ) (loc : Location) (y : Col) : Col :=
  match loc with
  | .node => y
  | .redge => { y with t := toNode y.tEdge, rEdge := toEdge y.r }

/-- The third component where it is held. -/
def Col.held (y : Col) : Location → Nat → ℝ
  | .node => y.t
  | .redge => y.tEdge

/-- The density there. -/
def Col.density (y : Col) : Location → Nat → ℝ
  | .node => y.r
  | .redge => y.rEdge

/-- The number of values of the third component in a column of `n` levels. -/
def heldCount (n : Nat) : Location → Nat
  | .node => n
  | .redge => n + 1

variable {c : Constants} {toNode toEdge : (Nat → ℝ) → Nat → ℝ} {n : Nat} {loc : Location} {dt : ℝ} {b : Box}
  {lat : Int → Int → ℝ} {x : Columns}

theorem interpolate_eq (i j : Int) (h : b.Inside i j) :
    interpolate toNode toEdge b x i j = current toNode toEdge .redge (x i j) := by
  unfold interpolate
  simp only [overInterior_eq]
  have h' : b.aBegin ≤ i ∧ i < b.aEnd ∧ b.bBegin ≤ j ∧ j < b.bEnd := h
  simp only [if_pos h']
  rfl

theorem interpolate_out (i j : Int) (h : ¬ b.Inside i j) : interpolate toNode toEdge b x i j = x i j := by
  unfold interpolate
  simp only [overInterior_eq]
  have h' : ¬ (b.aBegin ≤ i ∧ i < b.aEnd ∧ b.bBegin ≤ j ∧ j < b.bEnd) := h
  simp only [if_neg h']

theorem perform_eq (i j : Int) (h : b.Inside i j) :
    perform c toNode toEdge n loc dt b lat x i j = column c n loc dt (lat i j) (current toNode toEdge loc (x i j)) := by
  unfold perform
  simp only [overInterior_eq]
  have h' : b.aBegin ≤ i ∧ i < b.aEnd ∧ b.bBegin ≤ j ∧ j < b.bEnd := h
  simp only [if_pos h']
  cases loc
  · rfl
  · simp only [if_true, interpolate_eq i j h]

theorem perform_out (i j : Int) (h : ¬ b.Inside i j) :
    perform c toNode toEdge n loc dt b lat x i j = x i j := by
  unfold perform
  simp only [overInterior_eq]
  have h' : ¬ (b.aBegin ≤ i ∧ i < b.aEnd ∧ b.bBegin ≤ j ∧ j < b.bEnd) := h
  simp only [if_neg h']
  cases loc
  · rfl
  · simp only [if_true, interpolate_out i j h]

/-- The pressure the program takes for that of the surface. -/
noncomputable def surfaceUsed (c : Constants) (y : Col) : ℝ := pressureFromRhoTheta c (y.rEdge 0 * y.tEdge 0)

theorem column_u (lt : ℝ) (y : Col) (k : Nat) (hk : k < n) :
    (column c n loc dt lt y).u k =
      y.u k / (1 + frictionRate (pressureFromRhoTheta c (y.r k * y.t k) / surfaceUsed c y) * dt) ∧
    (column c n loc dt lt y).v k =
      y.v k / (1 + frictionRate (pressureFromRhoTheta c (y.r k * y.t k) / surfaceUsed c y) * dt) := by
  unfold column surfaceUsed frictionRate
  cases loc <;> simp [heat_loop, heat_edge_loop, wind_loop, if_pos hk, boundaryScale_eq]

theorem column_held (lt : ℝ) (y : Col) (k : Nat) (hk : k < heldCount n loc) :
    (column c n loc dt lt y).held loc k = heat c dt (surfaceUsed c y) lt (y.density loc k) (y.held loc k) := by
  unfold column surfaceUsed
  cases loc
  · have hk' : k < n := hk
    simp [heat_loop, heat_edge_loop, wind_loop, Col.held, Col.density, hk']
  · have hk' : k < n + 1 := hk
    simp [heat_edge_loop, wind_loop, Col.held, Col.density]
    intro hlt
    omega

/-! ### Winds -/

/-- **C99 (winds).**  Whatever the third component is, both horizontal components of the wind at a level are divided by
one and the same number, at least 1: the wind keeps its direction and does not grow. -/
theorem C99_wind (hdt : 0 ≤ dt) (i j : Int) (h : b.Inside i j) (k : Nat) (hk : k < n) :
    ∃ d, 1 ≤ d ∧ (perform c toNode toEdge n loc dt b lat x i j).u k = (x i j).u k / d ∧
      (perform c toNode toEdge n loc dt b lat x i j).v k = (x i j).v k / d := by
  have e := column_u (c := c) (n := n) (loc := loc) (dt := dt) (lat i j) (current toNode toEdge loc (x i j)) k hk
  obtain ⟨y, hy⟩ : ∃ y, y = current toNode toEdge loc (x i j) := ⟨_, rfl⟩
  have hu : y.u = (x i j).u ∧ y.v = (x i j).v := by rw [hy]; cases loc <;> exact ⟨rfl, rfl⟩
  rw [← hy, hu.1, hu.2] at e
  rw [perform_eq i j h, ← hy]
  refine ⟨1 + frictionRate (pressureFromRhoTheta c (y.r k * y.t k) / surfaceUsed c y) * dt, ?_, e.1, e.2⟩
  unfold frictionRate
  have h0 := layer_nonneg (pressureFromRhoTheta c (y.r k * y.t k) / surfaceUsed c y)
  have : 0 ≤ 1 / 86400 * layer (pressureFromRhoTheta c (y.r k * y.t k) / surfaceUsed c y) * dt := by positivity
  linarith

/-- **C99 (friction).**  If the third component is potential temperature, the step is the backward Euler step of friction
at the rate of Held and Suarez for the pressure of the level relative to that of the surface.  Missing: in the
formulation the program is compiled with the third component is density times potential temperature; see
`C99_friction_rhoTheta` and `C99_friction_false`. -/
theorem C99_friction_partial (g : Gas c) (i j : Int) (h : b.Inside i j) (k : Nat) (hk : k < n)
    (y : Col) (hy : y = current toNode toEdge loc (x i j))
    (hr : 0 < y.r k) (ht : 0 < y.t k) (hrs : 0 < y.rEdge 0) (hts : 0 < y.tEdge 0) :
    (perform c toNode toEdge n loc dt b lat x i j).u k = y.u k /
      (1 + frictionRate (airPressure c .theta (y.r k) (y.t k) / airPressure c .theta (y.rEdge 0) (y.tEdge 0)) * dt) ∧
    (perform c toNode toEdge n loc dt b lat x i j).v k = y.v k /
      (1 + frictionRate (airPressure c .theta (y.r k) (y.t k) / airPressure c .theta (y.rEdge 0) (y.tEdge 0)) * dt) := by
  have e := column_u (c := c) (n := n) (loc := loc) (dt := dt) (lat i j) y k hk
  rw [perform_eq i j h, ← hy, e.1, e.2]
  unfold surfaceUsed airPressure Formulation.product
  rw [pressure_eq g _ (mul_pos hr ht), pressure_eq g _ (mul_pos hrs hts)]
  exact ⟨rfl, rfl⟩

theorem gasPressure_mul (g : Gas c) (a q : ℝ) (ha : 0 < a) (hq : 0 < q) :
    gasPressure c (a * q) = a ^ c.gamma * gasPressure c q := by
  rw [← pressure_eq g _ (mul_pos ha hq), ← pressure_eq g _ hq, pressure_rpow _ (mul_pos ha hq), pressure_rpow _ hq,
    Real.mul_rpow ha.le hq.le]
  ring

theorem gasPressure_pos (g : Gas c) (q : ℝ) (hq : 0 < q) : 0 < gasPressure c q := by
  rw [← pressure_eq g _ hq]; exact pressure_pos g q hq

/-- **C99 (friction as compiled).**  If the third component is density times potential temperature, the relative
pressure in the rate is wrong by the power gamma of the ratio of the density of the level to that of the surface. -/
theorem C99_friction_rhoTheta (g : Gas c) (i j : Int) (h : b.Inside i j) (k : Nat) (hk : k < n)
    (y : Col) (hy : y = current toNode toEdge loc (x i j))
    (hr : 0 < y.r k) (ht : 0 < y.t k) (hrs : 0 < y.rEdge 0) (hts : 0 < y.tEdge 0) :
    (perform c toNode toEdge n loc dt b lat x i j).u k = y.u k /
      (1 + frictionRate (airPressure c .rhoTheta (y.r k) (y.t k) / airPressure c .rhoTheta (y.rEdge 0) (y.tEdge 0) *
        (y.r k / y.rEdge 0) ^ c.gamma) * dt) := by
  have e := column_u (c := c) (n := n) (loc := loc) (dt := dt) (lat i j) y k hk
  rw [perform_eq i j h, ← hy, e.1]
  unfold surfaceUsed airPressure Formulation.product
  rw [pressure_eq g _ (mul_pos hr ht), pressure_eq g _ (mul_pos hrs hts), gasPressure_mul g _ _ hr ht,
    gasPressure_mul g _ _ hrs hts, Real.div_rpow hr.le hrs.le]
  have p1 := gasPressure_pos g _ hts
  have p2 : (0 : ℝ) < y.rEdge 0 ^ c.gamma := Real.rpow_pos_of_pos hrs _
  congr 4
  field_simp

/-! ### Temperature -/

/-- The ratio of temperatures in the update, for the third component as compiled. -/
theorem heat_eq (g : Gas c) (hdt : 0 ≤ dt) (s lt rho q : ℝ) (hrho : 0 < rho) (hq : 0 < q)
    (T Teq k a : ℝ) (hT : T = airTemperature c .rhoTheta rho q)
    (hTeq : Teq = equilibriumTemperature c.p0 c.kappa lt (airPressure c .rhoTheta rho q))
    (hk : k = relaxationRate lt (airPressure c .rhoTheta rho q / s)) (ha : a = dt * k / c.gamma) :
    0 < T ∧ 0 < Teq ∧ 0 < k ∧
    heat c dt s lt rho q = q * ((1 + a * c.gamma * (Teq / T)) / (1 + a + a * (c.gamma - 1) * (Teq / T))) := by
  have hp := gasPressure_pos g q hq
  have hT0 : 0 < T := by
    rw [hT]; exact div_pos hp (mul_pos hrho g.r)
  have hTeq0 : 0 < Teq := by rw [hTeq]; exact equilibrium_pos _ _ _ _
  have hk0 : 0 < k := by rw [hk]; exact lt_of_lt_of_le (by norm_num) (rate_pos _ _)
  refine ⟨hT0, hTeq0, hk0, ?_⟩
  unfold heat
  simp only [boundaryScale_eq, rate_eq, equilibrium_eq, pressure_eq g q hq]
  have e1 : gasPressure c q / (rho * c.r) = T := hT.symm
  have e2 : equilibriumTemperature c.p0 c.kappa lt (gasPressure c q) = Teq := hTeq.symm
  have e3 : relaxationRate lt (gasPressure c q / s) = k := hk.symm
  rw [e1, e2, e3, factor_eq g dt k Teq T hdt hk0.le hT0 hTeq0, ha]
  have hg := g.gamma_gt
  have e4 : dt * k / c.gamma * c.gamma = dt * k := by field_simp
  rw [e4]

/-- Temperature after the third component is multiplied. -/
theorem airTemperature_mul (g : Gas c) (rho q f : ℝ) (hq : 0 < q) (hf : 0 < f) :
    airTemperature c .rhoTheta rho (q * f) = airTemperature c .rhoTheta rho q * f ^ c.gamma := by
  unfold airTemperature airPressure Formulation.product
  simp only
  rw [mul_comm q f, gasPressure_mul g f q hf hq]
  ring

/-- **C99 (temperature).**  As compiled, with the third component density times potential temperature: wherever it is held,
it stays positive; the temperature moves towards the equilibrium of Held and Suarez for the pressure and the latitude,
stays where it is if it is there, and from below never passes it; from above it does not pass it as long as the step is
at most gamma relaxation times.  Missing: the rate is not that of Held and Suarez; see `C99_rate` and `C99_rate_false`. -/
theorem C99_heating_partial (g : Gas c) (hdt : 0 < dt) (i j : Int) (h : b.Inside i j) (k : Nat) (hk : k < heldCount n loc)
    (y : Col) (hy : y = current toNode toEdge loc (x i j)) (rho q q' : ℝ) (hrho : rho = y.density loc k)
    (hq : q = y.held loc k) (hq' : q' = (perform c toNode toEdge n loc dt b lat x i j).held loc k)
    (pos : 0 < rho) (qpos : 0 < q) (T Teq T' : ℝ) (hT : T = airTemperature c .rhoTheta rho q)
    (hTeq : Teq = equilibriumTemperature c.p0 c.kappa (lat i j) (airPressure c .rhoTheta rho q))
    (hT' : T' = airTemperature c .rhoTheta rho q') :
    ∃ rate, 1 / (40 * 86400) ≤ rate ∧ 0 < q' ∧ (T < Teq → T < T' ∧ T' ≤ Teq) ∧ (Teq < T → T' < T) ∧ (T = Teq → q' = q) ∧
      (dt * rate ≤ c.gamma → Towards T Teq T') := by
  obtain ⟨hT0, hTeq0, hk0, e⟩ := heat_eq g hdt.le (surfaceUsed c y) (lat i j) rho q pos qpos T Teq _ _ hT hTeq rfl rfl
  refine ⟨relaxationRate (lat i j) (airPressure c .rhoTheta rho q / surfaceUsed c y), rate_pos _ _, ?_⟩
  rw [perform_eq i j h, ← hy, column_held (lat i j) y k hk, ← hrho, ← hq, e] at hq'
  generalize relaxationRate (lat i j) (airPressure c .rhoTheta rho q / surfaceUsed c y) = rate at *
  have hg := g.gamma_gt
  have hg2 := g.gamma_le
  have hg0 : 0 < c.gamma := by linarith
  have ha : 0 < dt * rate / c.gamma := div_pos (mul_pos hdt hk0) hg0
  have hr : 0 < Teq / T := div_pos hTeq0 hT0
  obtain ⟨f, hf⟩ : ∃ f, f = (1 + dt * rate / c.gamma * c.gamma * (Teq / T)) /
    (1 + dt * rate / c.gamma + dt * rate / c.gamma * (c.gamma - 1) * (Teq / T)) := ⟨_, rfl⟩
  obtain ⟨f0, f1, f2, f3⟩ := factor_bounds c.gamma _ _ hg hg2 ha hr f hf
  rw [← hf] at hq'
  have hTf : T' = T * f ^ c.gamma := by rw [hT', hq', airTemperature_mul g rho q f qpos f0, ← hT]
  have lim : ((Teq / T) ^ (1 / c.gamma)) ^ c.gamma = Teq / T := by
    rw [← Real.rpow_mul hr.le, one_div, inv_mul_cancel₀ hg0.ne', Real.rpow_one]
  have up : T < Teq → T < T' ∧ T' ≤ Teq := by
    intro hlt
    obtain ⟨a1, a2⟩ := f1 ((one_lt_div hT0).2 hlt)
    have b1 : 1 < f ^ c.gamma := Real.one_lt_rpow a1 hg0
    have b2 : f ^ c.gamma ≤ Teq / T := by
      rw [← lim]; exact Real.rpow_le_rpow f0.le a2 hg0.le
    rw [hTf]
    constructor
    · nlinarith
    · calc T * f ^ c.gamma ≤ T * (Teq / T) := mul_le_mul_of_nonneg_left b2 hT0.le
        _ = Teq := by field_simp
  have down : Teq < T → T' < T := by
    intro hlt
    obtain ⟨a1, -⟩ := f2 ((div_lt_one hT0).2 hlt)
    have b1 : f ^ c.gamma < 1 := Real.rpow_lt_one f0.le a1 hg0
    rw [hTf]; nlinarith
  have same : T = Teq → f = 1 := fun he => f3 (by rw [he, div_self hTeq0.ne'])
  refine ⟨hk0 |> fun _ => by rw [hq']; exact mul_pos qpos f0, up, down, fun he => by rw [hq', same he, mul_one], ?_⟩
  intro hd
  refine ⟨up, fun hlt => ⟨?_, down hlt⟩, fun he => by rw [hTf, same he, Real.one_rpow, mul_one]⟩
  obtain ⟨-, a2⟩ := f2 ((div_lt_one hT0).2 hlt)
  have a3 := a2 ((div_le_one hg0).2 hd)
  have b2 : Teq / T ≤ f ^ c.gamma := by
    rw [← lim]; exact Real.rpow_le_rpow (by positivity) a3 hg0.le
  rw [hTf]
  calc Teq = T * (Teq / T) := by field_simp
    _ ≤ _ := mul_le_mul_of_nonneg_left b2 hT0.le

/-- **C99 (rate).**  For small steps the temperature changes at `rate * (Teq - T)`, where the rate is that of Held and
Suarez for a relative pressure that is wrong by the power gamma of the surface density. -/
theorem C99_rate (g : Gas c) (i j : Int) (h : b.Inside i j) (k : Nat) (hk : k < heldCount n loc)
    (y : Col) (hy : y = current toNode toEdge loc (x i j)) (rho q : ℝ) (hrho : rho = y.density loc k)
    (hq : q = y.held loc k) (pos : 0 < rho) (qpos : 0 < q) (hrs : 0 < y.rEdge 0) (hts : 0 < y.tEdge 0)
    (T Teq : ℝ) (hT : T = airTemperature c .rhoTheta rho q)
    (hTeq : Teq = equilibriumTemperature c.p0 c.kappa (lat i j) (airPressure c .rhoTheta rho q)) :
    HasDerivWithinAt
      (fun dt => airTemperature c .rhoTheta rho ((perform c toNode toEdge n loc dt b lat x i j).held loc k))
      (relaxationRate (lat i j) (airPressure c .rhoTheta rho q / airPressure c .rhoTheta (y.rEdge 0) (y.tEdge 0) /
        y.rEdge 0 ^ c.gamma) * (Teq - T)) (Set.Ici 0) 0 := by
  have hs : airPressure c .rhoTheta rho q / airPressure c .rhoTheta (y.rEdge 0) (y.tEdge 0) / y.rEdge 0 ^ c.gamma =
      airPressure c .rhoTheta rho q / surfaceUsed c y := by
    unfold surfaceUsed
    rw [pressure_eq g _ (mul_pos hrs hts), gasPressure_mul g _ _ hrs hts]
    unfold airPressure Formulation.product
    simp only
    rw [div_div, mul_comm (gasPressure c (y.tEdge 0))]
  rw [hs]
  have hg := g.gamma_gt
  have hg0 : 0 < c.gamma := by linarith
  have key : ∀ dt ∈ Set.Ici (0 : ℝ), airTemperature c .rhoTheta rho ((perform c toNode toEdge n loc dt b lat x i j).held loc k) =
      T * ((1 + dt * relaxationRate (lat i j) (airPressure c .rhoTheta rho q / surfaceUsed c y) / c.gamma * c.gamma * (Teq / T)) /
        (1 + dt * relaxationRate (lat i j) (airPressure c .rhoTheta rho q / surfaceUsed c y) / c.gamma +
          dt * relaxationRate (lat i j) (airPressure c .rhoTheta rho q / surfaceUsed c y) / c.gamma * (c.gamma - 1) * (Teq / T)))
        ^ c.gamma := by
    intro dt hdt
    obtain ⟨hT0, hTeq0, hk0, e⟩ := heat_eq g hdt (surfaceUsed c y) (lat i j) rho q pos qpos T Teq _ _ hT hTeq rfl rfl
    rw [perform_eq i j h, ← hy, column_held (lat i j) y k hk, ← hrho, ← hq, e, airTemperature_mul g rho q _ qpos, ← hT]
    have : 0 ≤ dt := hdt
    have : 0 < c.gamma - 1 := by linarith
    positivity
  obtain ⟨hT0, hTeq0, hk0, -⟩ := heat_eq g le_rfl (surfaceUsed c y) (lat i j) rho q pos qpos T Teq _ _ hT hTeq rfl rfl
  refine HasDerivWithinAt.congr ?_ key (key 0 Set.self_mem_Ici)
  generalize relaxationRate (lat i j) (airPressure c .rhoTheta rho q / surfaceUsed c y) = rate at *
  apply HasDerivAt.hasDerivWithinAt
  have hr : 0 < Teq / T := div_pos hTeq0 hT0
  have n0 : HasDerivAt (fun dt : ℝ => 1 + dt * rate / c.gamma * c.gamma * (Teq / T)) (rate * (Teq / T)) 0 := by
    have := (((hasDerivAt_id (0 : ℝ)).mul_const (rate / c.gamma * c.gamma * (Teq / T))).const_add 1)
    refine HasDerivAt.congr_deriv (HasDerivAt.congr_of_eventuallyEq this ?_) ?_
    · filter_upwards with d
      simp only [id]; ring
    · field_simp
  have d0 : HasDerivAt (fun dt : ℝ => 1 + dt * rate / c.gamma + dt * rate / c.gamma * (c.gamma - 1) * (Teq / T))
      (rate / c.gamma + rate / c.gamma * (c.gamma - 1) * (Teq / T)) 0 := by
    have := (((hasDerivAt_id (0 : ℝ)).mul_const (rate / c.gamma + rate / c.gamma * (c.gamma - 1) * (Teq / T))).const_add 1)
    refine HasDerivAt.congr_deriv (HasDerivAt.congr_of_eventuallyEq this ?_) ?_
    · filter_upwards with d
      simp only [id]; ring
    · ring
  have q0 := n0.div d0 (by norm_num)
  have p0 := (q0.rpow_const (p := c.gamma) (Or.inl (by norm_num))).const_mul T
  refine HasDerivAt.congr_deriv p0 ?_
  norm_num
  field_simp
  ring

/-! ### What is not touched -/

/-- **C99 (nothing else).**  Columns outside the interior are left as they were.  Inside, density and vertical velocity
on levels and vertical velocity on interfaces are left, as is everything above the top; and the third component, where it is
not held, and density on interfaces are at most brought up to date. -/
theorem C99_untouched (i j : Int) :
    (¬ b.Inside i j → perform c toNode toEdge n loc dt b lat x i j = x i j) ∧
    (perform c toNode toEdge n loc dt b lat x i j).r = (x i j).r ∧
    (perform c toNode toEdge n loc dt b lat x i j).w = (x i j).w ∧
    (perform c toNode toEdge n loc dt b lat x i j).wEdge = (x i j).wEdge ∧
    (b.Inside i j → (perform c toNode toEdge n loc dt b lat x i j).rEdge = (current toNode toEdge loc (x i j)).rEdge ∧
      ∀ other, other ≠ loc → (perform c toNode toEdge n loc dt b lat x i j).held other =
        (current toNode toEdge loc (x i j)).held other) ∧
    (∀ k, n ≤ k → (perform c toNode toEdge n loc dt b lat x i j).u k = (x i j).u k ∧
      (perform c toNode toEdge n loc dt b lat x i j).v k = (x i j).v k) ∧
    (∀ k, heldCount n loc ≤ k → (perform c toNode toEdge n loc dt b lat x i j).held loc k = (x i j).held loc k) := by
  refine ⟨perform_out i j, ?_⟩
  by_cases h : b.Inside i j
  · rw [perform_eq i j h]
    unfold column
    cases loc
    · simp only [heat_loop, wind_loop, current, if_true]
      refine ⟨rfl, rfl, rfl, fun _ => ⟨rfl, ?_⟩, ?_, ?_⟩
      · rintro (_ | _) ho
        · exact absurd rfl ho
        · rfl
      · intro k hk
        simp [if_neg (not_lt.2 hk)]
      · intro k hk
        have hk' : n ≤ k := hk
        simp [Col.held, if_neg (not_lt.2 hk')]
    · simp only [heat_edge_loop, wind_loop, current, if_true]
      refine ⟨rfl, rfl, rfl, fun _ => ⟨rfl, ?_⟩, ?_, ?_⟩
      · rintro (_ | _) ho
        · rfl
        · exact absurd rfl ho
      · intro k hk
        simp [if_neg (not_lt.2 hk)]
      · intro k hk
        have hk' : n + 1 ≤ k := hk
        simp [Col.held]
        intro hlt
        omega
  · rw [perform_out i j h]
    exact ⟨rfl, rfl, rfl, fun h' => absurd h' h, fun _ _ => ⟨rfl, rfl⟩, fun _ _ => rfl⟩

/-- **C99 (one column).**  What happens to a column depends on nothing but that column and its latitude. -/
theorem C99_local (b' : Box) (lat' : Int → Int → ℝ) (x' : Columns) (i j i' j' : Int) (h : b.Inside i j)
    (h' : b'.Inside i' j') (hx : x' i' j' = x i j) (hl : lat' i' j' = lat i j) :
    perform c toNode toEdge n loc dt b' lat' x' i' j' = perform c toNode toEdge n loc dt b lat x i j := by
  rw [perform_eq i j h, perform_eq i' j' h', hx, hl]

end Verif.Forcing
