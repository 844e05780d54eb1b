import Verif.Forcing.Model
import Verif.Forcing.Spec
import Mathlib.Analysis.Convex.SpecificFunctions.Basic
import Mathlib.Tactic.Ring
import Mathlib.Tactic.Linarith
import Mathlib.Tactic.FieldSimp
import Mathlib.Tactic.Positivity

namespace Verif.Forcing

open Verif.Thermo

/-! ### Loops -/

theorem loop_succ {α : Type} (n : Nat) (f : Nat → α → α) (x : α) : loop (n + 1) f x = f n (loop n f x) := by
  unfold loop
  rw [List.range_succ, List.foldl_append]
  rfl

theorem loop_inv {α : Type} (P : Nat → α → Prop) (n : Nat) (f : Nat → α → α) (x : α) (h0 : P 0 x)
    (hs : ∀ k y, k < n → P k y → P (k + 1) (f k y)) : P n (loop n f x) := by
  induction n with
  | zero => exact h0
  | succ n ih =>
    rw [loop_succ]
    exact hs n _ (Nat.lt_succ_self n) (ih fun k y hk => hs k y (Nat.lt_succ_of_lt hk))

theorem put_self (f : Nat → ℝ) (k : Nat) (x : ℝ) : put f k x k = x := if_pos rfl

theorem put_other (f : Nat → ℝ) (k : Nat) (x : ℝ) (a : Nat) (h : a ≠ k) : put f k x a = f a := if_neg h

theorem wind_loop (c : Constants) (dt s : ℝ) (n : Nat) (x : Col) :
    loop n (windLevel c dt s) x =
      { x with
        u := fun k => if k < n then x.u k / (1 + 1 / 86400 * boundaryScale (pressureFromRhoTheta c (x.r k * x.t k)) s * dt)
          else x.u k
        v := fun k => if k < n then x.v k / (1 + 1 / 86400 * boundaryScale (pressureFromRhoTheta c (x.r k * x.t k)) s * dt)
          else x.v k } := by
  induction n with
  | zero => simp [loop]
  | succ n ih =>
    rw [loop_succ, ih]
    unfold windLevel
    simp only [Col.mk.injEq, lt_irrefl, if_false, and_true]
    constructor
    · funext k
      by_cases h : k = n
      · subst h; rw [put_self, if_pos (Nat.lt_succ_self k)]; norm_num
      · rw [put_other _ _ _ _ h]
        by_cases hk : k < n
        · rw [if_pos hk, if_pos (Nat.lt_succ_of_lt hk)]
        · rw [if_neg hk, if_neg (by omega)]
    · funext k
      by_cases h : k = n
      · subst h; rw [put_self, if_pos (Nat.lt_succ_self k)]; norm_num
      · rw [put_other _ _ _ _ h]
        by_cases hk : k < n
        · rw [if_pos hk, if_pos (Nat.lt_succ_of_lt hk)]
        · rw [if_neg hk, if_neg (by omega)]

theorem heat_loop (c : Constants) (dt s lat : ℝ) (n : Nat) (x : Col) :
    loop n (heatNode c dt s lat) x =
      { x with t := fun k => if k < n then heat c dt s lat (x.r k) (x.t k) else x.t k } := by
  induction n with
  | zero => simp [loop]
  | succ n ih =>
    rw [loop_succ, ih]
    unfold heatNode
    simp only [Col.mk.injEq, lt_irrefl, if_false, and_true, true_and]
    funext k
    by_cases h : k = n
    · subst h; rw [put_self, if_pos (Nat.lt_succ_self k)]
    · rw [put_other _ _ _ _ h]
      by_cases hk : k < n
      · rw [if_pos hk, if_pos (Nat.lt_succ_of_lt hk)]
      · rw [if_neg hk, if_neg (by omega)]

theorem heat_edge_loop (c : Constants) (dt s lat : ℝ) (n : Nat) (x : Col) :
    loop n (heatEdge c dt s lat) x =
      { x with tEdge := fun k => if k < n then heat c dt s lat (x.rEdge k) (x.tEdge k) else x.tEdge k } := by
  induction n with
  | zero => simp [loop]
  | succ n ih =>
    rw [loop_succ, ih]
    unfold heatEdge
    simp only [Col.mk.injEq, lt_irrefl, if_false, and_true, true_and]
    funext k
    by_cases h : k = n
    · subst h; rw [put_self, if_pos (Nat.lt_succ_self k)]
    · rw [put_other _ _ _ _ h]
      by_cases hk : k < n
      · rw [if_pos hk, if_pos (Nat.lt_succ_of_lt hk)]
      · rw [if_neg hk, if_neg (by omega)]

/-- The loops over the interior apply the body once to each interior column. -/
theorem overInterior_eq (b : Box) (f : Int → Int → Col → Col) (x : Columns) (i j : Int) :
    overInterior b f x i j =
      if b.aBegin ≤ i ∧ i < b.aEnd ∧ b.bBegin ≤ j ∧ j < b.bEnd then f i j (x i j) else x i j := by
  have inner : ∀ (m : Nat) (di : Nat) (y : Columns) (i j : Int),
      loop m (fun dj (z : Columns) => fun i j =>
        if i = b.aBegin + di ∧ j = b.bBegin + dj then f i j (z i j) else z i j) y i j =
      if i = b.aBegin + di ∧ b.bBegin ≤ j ∧ j < b.bBegin + m then f i j (y i j) else y i j := by
    intro m di y
    induction m with
    | zero =>
      intro i j
      have : ¬ (i = b.aBegin + di ∧ b.bBegin ≤ j ∧ j < b.bBegin + (0 : Nat)) := by push_cast; omega
      rw [if_neg this]; rfl
    | succ m ih =>
      intro i j
      rw [loop_succ]
      simp only [ih]
      by_cases h : i = b.aBegin + di ∧ j = b.bBegin + m
      · rw [if_pos h, if_neg (by omega), if_pos (by push_cast; omega)]
      · rw [if_neg h]
        by_cases h2 : i = b.aBegin + di ∧ b.bBegin ≤ j ∧ j < b.bBegin + m
        · rw [if_pos h2, if_pos (by push_cast; omega)]
        · rw [if_neg h2, if_neg (by push_cast; omega)]
  have outer : ∀ (m : Nat) (i j : Int),
      loop m (fun di y =>
        loop (b.bEnd - b.bBegin).toNat (fun dj (z : Columns) =>
          fun i j => if i = b.aBegin + di ∧ j = b.bBegin + dj then f i j (z i j) else z i j) y) x i j =
      if b.aBegin ≤ i ∧ i < b.aBegin + m ∧ b.bBegin ≤ j ∧ j < b.bEnd then f i j (x i j) else x i j := by
    intro m
    induction m with
    | zero =>
      intro i j
      rw [if_neg (by push_cast; omega)]; rfl
    | succ m ih =>
      intro i j
      rw [loop_succ, inner]
      simp only [ih]
      by_cases h : i = b.aBegin + m ∧ b.bBegin ≤ j ∧ j < b.bBegin + (b.bEnd - b.bBegin).toNat
      · rw [if_pos h, if_neg (by omega), if_pos (by push_cast; omega)]
      · rw [if_neg h]
        by_cases h2 : b.aBegin ≤ i ∧ i < b.aBegin + m ∧ b.bBegin ≤ j ∧ j < b.bEnd
        · rw [if_pos h2, if_pos (by push_cast; omega)]
        · rw [if_neg h2, if_neg (by push_cast; omega)]
  unfold overInterior
  rw [outer]
  by_cases h : b.aBegin ≤ i ∧ i < b.aEnd ∧ b.bBegin ≤ j ∧ j < b.bEnd
  · rw [if_pos h, if_pos (by omega)]
  · rw [if_neg h, if_neg (by omega)]

/-! ### The pieces are those of Held and Suarez -/

theorem boundaryScale_eq (p s : ℝ) : boundaryScale p s = layer (p / s) := by
  unfold boundaryScale layer
  norm_num
  by_cases h : (p / s - 7 / 10) / (3 / 10) < 0
  · rw [if_pos h, max_eq_left h.le]
  · rw [if_neg h, max_eq_right (not_lt.1 h)]

theorem layer_nonneg (s : ℝ) : 0 ≤ layer s := le_max_left _ _

theorem layer_le_one (s : ℝ) (h : s ≤ 1) : layer s ≤ 1 := by
  unfold layer
  rw [max_le_iff]
  constructor
  · norm_num
  · rw [div_le_one (by norm_num)]; linarith

theorem rate_eq (lat sigma : ℝ) : rate (layer sigma) lat = relaxationRate lat sigma := by
  unfold rate relaxationRate
  have e : Real.cos lat ^ 4 = Real.cos lat * Real.cos lat * Real.cos lat * Real.cos lat := by ring
  rw [e]
  generalize Real.cos lat * Real.cos lat * Real.cos lat * Real.cos lat = z
  norm_num

theorem rate_pos (lat sigma : ℝ) : 1 / (40 * 86400) ≤ relaxationRate lat sigma := by
  unfold relaxationRate
  have h := layer_nonneg sigma
  have : 0 ≤ Real.cos lat ^ 4 := by positivity
  have h2 := mul_nonneg h this
  nlinarith

theorem rate_le (lat sigma : ℝ) (h : sigma ≤ 1) : relaxationRate lat sigma ≤ 1 / (4 * 86400) := by
  unfold relaxationRate
  have h0 := layer_nonneg sigma
  have h1 := layer_le_one sigma h
  have c0 : 0 ≤ Real.cos lat ^ 4 := by positivity
  have c1 : Real.cos lat ^ 4 ≤ 1 := by
    have := Real.cos_sq_le_one lat
    have h2 : 0 ≤ Real.cos lat ^ 2 := by positivity
    have e : Real.cos lat ^ 4 = Real.cos lat ^ 2 * Real.cos lat ^ 2 := by ring
    rw [e]; nlinarith
  have h2 : layer sigma * Real.cos lat ^ 4 ≤ 1 := by nlinarith
  nlinarith

theorem equilibrium_eq (c : Constants) (lat p : ℝ) :
    equilibrium c lat p = equilibriumTemperature c.p0 c.kappa lat p := by
  unfold equilibrium equilibriumTemperature
  have e : (315.0 - 60.0 * Real.sin lat * Real.sin lat - 10.0 * Real.log (p / c.p0) * Real.cos lat * Real.cos lat : ℝ) =
    315 - 60 * Real.sin lat ^ 2 - 10 * Real.log (p / c.p0) * Real.cos lat ^ 2 := by
    norm_num; ring
  simp only [e]
  generalize (315 - 60 * Real.sin lat ^ 2 - 10 * Real.log (p / c.p0) * Real.cos lat ^ 2) * (p / c.p0) ^ c.kappa = b
  norm_num
  by_cases h : b < 200
  · rw [if_pos h, max_eq_left h.le]
  · rw [if_neg h, max_eq_right (not_lt.1 h)]

theorem equilibrium_pos (p0 kappa lat p : ℝ) : 0 < equilibriumTemperature p0 kappa lat p :=
  lt_of_lt_of_le (by norm_num) (le_max_left _ _)

variable {c : Constants}

theorem Gas.cp_pos (g : Gas c) : 0 < c.cp := by have := g.r; have := g.cp; linarith
theorem Gas.cv_pos (g : Gas c) : 0 < c.cp - c.r := by have := g.r; have := g.cp; linarith
theorem Gas.gamma_gt (g : Gas c) : 1 < c.gamma := by
  rw [g.gamma, one_lt_div g.cv_pos]; have := g.r; linarith
theorem Gas.gamma_le (g : Gas c) : c.gamma ≤ 2 := by
  rw [g.gamma, div_le_iff₀ g.cv_pos]; have := g.cp; linarith
theorem Gas.scaling_pos (g : Gas c) : 0 < c.scaling := by
  rw [g.scaling]
  have := g.r; have := g.p0
  positivity

theorem pressure_rpow (x : ℝ) (hx : 0 < x) : pressureFromRhoTheta c x = c.scaling * x ^ c.gamma := by
  unfold pressureFromRhoTheta
  rw [Real.rpow_def_of_pos hx]

theorem pressure_eq (g : Gas c) (x : ℝ) (hx : 0 < x) : pressureFromRhoTheta c x = gasPressure c x := by
  unfold gasPressure
  rw [pressure_rpow x hx, g.scaling, ← g.gamma, mul_assoc,
    ← Real.mul_rpow (div_nonneg g.r.le g.p0.le) hx.le]
  congr 2
  ring

theorem pressure_pos (g : Gas c) (x : ℝ) (hx : 0 < x) : 0 < pressureFromRhoTheta c x := by
  rw [pressure_rpow x hx]
  have := g.scaling_pos
  positivity

/-! ### The update of the third component -/

/-- The factor, written with the number `a` of relaxation times over gamma and the ratio of temperatures. -/
theorem factor_eq (g : Gas c) (dt k teq t : ℝ) (hdt : 0 ≤ dt) (hk : 0 ≤ k) (ht : 0 < t) (hq : 0 < teq) :
    factor c dt k teq t = (1 + dt * k * (teq / t)) /
      (1 + dt * k / c.gamma + dt * k / c.gamma * (c.gamma - 1) * (teq / t)) := by
  have hg := g.gamma_gt
  have hg0 : c.gamma ≠ 0 := by linarith
  unfold factor
  have e : c.gamma = c.gamma := rfl
  have hr : 0 < teq / t := div_pos hq ht
  have e1 : (c.gamma - 1.0) * teq / t = (c.gamma - 1) * (teq / t) := by norm_num; ring
  simp only [e1]
  generalize teq / t = r at *
  have h1 : 0 ≤ dt * k := mul_nonneg hdt hk
  have h2 : 0 ≤ dt * k / c.gamma := div_nonneg h1 (by linarith)
  have h3 : 0 ≤ dt * k / c.gamma * (c.gamma - 1) * r := by
    have : 0 ≤ c.gamma - 1 := by linarith
    positivity
  have hden : (1 : ℝ) - dt * (-k / c.gamma * (1 + (c.gamma - 1) * r)) =
      1 + dt * k / c.gamma + dt * k / c.gamma * (c.gamma - 1) * r := by ring
  have hne : (1 : ℝ) + dt * k / c.gamma + dt * k / c.gamma * (c.gamma - 1) * r ≠ 0 := by positivity
  norm_num
  rw [hden]
  generalize hD : (1 : ℝ) + dt * k / c.gamma + dt * k / c.gamma * (c.gamma - 1) * r = D at hne
  rw [eq_div_iff hne]
  have : (1 + dt / D * (-k / c.gamma * (1 - r))) * D = D + dt * (-k / c.gamma * (1 - r)) := by
    field_simp
  rw [this, ← hD]
  field_simp
  ring

theorem young (g r : ℝ) (hg : 1 < g) (hr : 0 < r) : g * r ≤ r ^ (1 / g) * (1 + (g - 1) * r) := by
  have h := rpow_one_add_le_one_add_mul_self (s := r - 1) (p := (g - 1) / g) (by linarith)
    (div_nonneg (by linarith) (by linarith)) ((div_le_one (by linarith)).2 (by linarith))
  rw [show 1 + (r - 1) = r by ring] at h
  have e : r ^ (1 / g) * r ^ ((g - 1) / g) = r := by
    rw [← Real.rpow_add hr, show 1 / g + (g - 1) / g = 1 by field_simp; ring, Real.rpow_one]
  have hp : 0 < r ^ (1 / g) := Real.rpow_pos_of_pos hr _
  have h2 : g * r ^ ((g - 1) / g) ≤ 1 + (g - 1) * r := by
    have : g * (1 + (g - 1) / g * (r - 1)) = 1 + (g - 1) * r := by field_simp; ring
    nlinarith
  calc g * r = r ^ (1 / g) * (g * r ^ ((g - 1) / g)) := by rw [mul_left_comm, e]
    _ ≤ _ := mul_le_mul_of_nonneg_left h2 hp.le

/-- No overshoot: the factor stays between 1 and the one that would give the equilibrium temperature. -/
theorem factor_bounds (g a r : ℝ) (hg : 1 < g) (hg2 : g ≤ 2) (ha : 0 < a) (hr : 0 < r) (f : ℝ)
    (hf : f = (1 + a * g * r) / (1 + a + a * (g - 1) * r)) :
    0 < f ∧ (1 < r → 1 < f ∧ f ≤ r ^ (1 / g)) ∧ (r < 1 → f < 1 ∧ (a ≤ 1 → r ^ (1 / g) ≤ f)) ∧ (r = 1 → f = 1) := by
  have hd : 0 < 1 + a + a * (g - 1) * r := by
    have : 0 < g - 1 := by linarith
    positivity
  have hy := young g r hg hr
  set s := r ^ (1 / g) with hs
  have hs0 : 0 < s := Real.rpow_pos_of_pos hr _
  refine ⟨by rw [hf]; positivity, ?_, ?_, ?_⟩
  · intro h1
    constructor
    · rw [hf, one_lt_div hd]; nlinarith
    · rw [hf, div_le_iff₀ hd]
      have : 1 ≤ s := Real.one_le_rpow h1.le (by positivity)
      nlinarith
  · intro h1
    constructor
    · rw [hf, div_lt_one hd]; nlinarith
    · intro ha1
      rw [hf, le_div_iff₀ hd]
      have s1 : s ≤ 1 := Real.rpow_le_one hr.le h1.le (by positivity)
      have hsr : s ^ g = r := by rw [hs, ← Real.rpow_mul hr.le, one_div, inv_mul_cancel₀ (by linarith), Real.rpow_one]
      have key : s * s + (g - 1) * (s * r) ≤ g * r := by
        have e1 : s ^ (2 - g) * r = s * s := by
          rw [← hsr, ← Real.rpow_add hs0, show 2 - g + g = (2 : ℕ) by norm_num, Real.rpow_natCast, pow_two]
        have e2 : s ^ (2 - g) ≤ 1 := Real.rpow_le_one hs0.le s1 (by linarith)
        rw [← e1]
        nlinarith [mul_le_mul_of_nonneg_right e2 hr.le, mul_le_mul_of_nonneg_right s1 hr.le]
      have b0 : 0 ≤ s * (1 + (g - 1) * r) - g * r := by linarith
      nlinarith [mul_le_mul_of_nonneg_right ha1 b0]
  · intro h1
    subst h1
    rw [hf, div_eq_one_iff_eq hd.ne']
    ring

end Verif.Forcing
