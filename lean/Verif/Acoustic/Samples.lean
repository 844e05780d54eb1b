import Verif.Acoustic.Faults
import Verif.Nonhydro.Samples

/-!
# C120, C121, C122, C124, C125: cases that meet the hypotheses
-/

namespace Verif.Acoustic

open Verif.Horiz Verif.Nonhydro

/-- Air whose pressure is the power `7 / 5` of density times potential temperature. -/
noncomputable def air : Thermo.Constants := { Thermo.initial with gamma := 7 / 5, scaling := 1 }

/-- Two elements of nine columns with two levels that share an edge. -/
noncomputable def pair : Grid where
  elements := 2
  order := 3
  levels := 2
  B := simpson
  deltaA := fun _ => 1
  deltaB := fun _ => 1
  jac := fun _ _ _ _ => 5
  jacEdge := fun _ _ _ _ => 5
  jac2d := fun _ _ _ => 5
  covA := fun _ _ _ m => if m = 0 then 1 else 0
  covB := fun _ _ _ m => if m = 1 then 1 else 0
  conA := fun _ _ _ m => if m = 0 then 1 else 0
  conB := fun _ _ _ m => if m = 1 then 1 else 0
  derivR := fun _ _ _ _ _ => 0
  derivREdge := fun _ _ _ _ _ => 0
  zn := fun _ _ _ k => k
  zi := fun _ _ _ k => k
  coriolis := fun _ _ _ => 1
  g := 1
  gamma := 7 / 5
  pressure := Thermo.pressureFromRhoTheta air
  point := fun e i j => (2 * e + i) * 3 + j
  vec := fun φ => φ

/-- The areas of its nodes. -/
noncomputable def pairArea : Fld := fun _ i j _ => 5 * (simpsonW i * simpsonW j)

theorem pair_fits : Fits pair pairArea where
  weights := ⟨simpsonW, fun _ _ => 1, simpson_paired, fun e i j k _ _ _ _ => by
    show 5 * (simpsonW i * simpsonW j) = 5 * (simpsonW i * simpsonW j) * 1
    ring⟩
  thickness := ⟨fun _ i j => 5 * (simpsonW i * simpsonW j), fun e i j k _ _ _ _ => by
    show 5 * (simpsonW i * simpsonW j) = 5 * (simpsonW i * simpsonW j) * (((k + 1 : ℕ) : ℝ) - (k : ℝ))
    push_cast
    ring⟩
  jac := fun _ _ _ _ _ _ _ _ => by show (5 : ℝ) ≠ 0; norm_num
  thick := fun e i j k _ _ _ _ => by
    show ((k + 1 : ℕ) : ℝ) - (k : ℝ) ≠ 0
    push_cast
    norm_num
  shared := fun e i j e' i' j' k he hi hj he' hi' hj' h => by
    have h : (2 * e + i) * 3 + j = (2 * e' + i') * 3 + j' := h
    have he : e < 2 := he
    have hi : i < 3 := hi
    have hj : j < 3 := hj
    have he' : e' < 2 := he'
    have hi' : i' < 3 := hi'
    have hj' : j' < 3 := hj'
    obtain rfl : j = j' := by omega
    have : i = i' ∨ i = 2 ∧ i' = 0 ∨ i = 0 ∧ i' = 2 := by omega
    rcases this with rfl | ⟨rfl, rfl⟩ | ⟨rfl, rfl⟩ <;> rfl

theorem pair_keeps : KeepsNothing pair := fun _ h e i j he hi hj => h e i j he hi hj

theorem pair_heights : Heights pair := ⟨fun _ _ _ _ _ _ _ _ => rfl, fun _ _ _ _ _ _ _ _ => rfl⟩

theorem pressure_pos (x : ℝ) : 0 < pair.pressure x := by
  show 0 < (1 : ℝ) * Real.exp (Real.log x * (7 / 5))
  positivity

/-- The equations of the columns can be solved wherever density and temperature are not negative. -/
theorem pair_diag (s : State) (hp : ∀ e i j k, 0 ≤ s.p e i j k) (hr : ∀ e i j k, 0 ≤ s.r e i j k) (τ : ℝ)
    (e i j : Nat) : diag pair τ (stiffness pair s) (thetaEdge pair s) e i j 1 ≠ 0 := by
  have q : ∀ k, 0 ≤ stiffness pair s e i j k := fun k =>
    mul_nonneg (pressure_pos _).le (div_nonneg (by show (0 : ℝ) ≤ 7 / 5; norm_num) (hp e i j k))
  have t : 0 ≤ thetaEdge pair s e i j 1 := by
    unfold thetaEdge
    rw [if_pos ⟨one_pos, by show 1 < 2; omega⟩]
    have h0 := hr e i j 0
    have h1 := hr e i j 1
    have p0 := hp e i j 0
    have p1 := hp e i j 1
    unfold rhoEdge
    positivity
  unfold diag
  rw [if_pos ⟨one_pos, by show 1 < 2; omega⟩]
  simp only [pair]
  have h : 0 ≤ τ * τ * (thetaEdge pair s e i j 1 * (stiffness pair s e i j 1 + stiffness pair s e i j 0)) :=
    mul_nonneg (mul_self_nonneg τ) (mul_nonneg t (add_nonneg (q 1) (q 0)))
  have : ∀ a b c : ℝ, 1 + τ * τ * (1 / ((1 : ℕ) - ((1 - 1 : ℕ) : ℝ)) * a * (b * (1 / (((1 + 1 : ℕ) : ℝ) - (1 : ℕ))) +
      c * (1 / ((1 : ℕ) - ((1 - 1 : ℕ) : ℝ)))) + 0.5 * 1 * (1 / (((1 + 1 : ℕ) : ℝ) - (1 : ℕ)) -
        1 / ((1 : ℕ) - ((1 - 1 : ℕ) : ℝ)))) = 1 + τ * τ * (a * (b + c)) := by
    intro a b c
    push_cast
    ring
  refine ne_of_gt (lt_of_lt_of_eq ?_ (this _ _ _).symm)
  exact add_pos_of_pos_of_nonneg one_pos h

theorem implicit_runs (coeff : List ℝ) (inst : List Nat) (iA iU : Nat) (hc : combinable coeff inst iU = true) (dt : ℝ)
    (st : Store) (hp : ∀ e i j k, 0 ≤ (st iA).p e i j k) (hr : ∀ e i j k, 0 ≤ (st iA).r e i j k) :
    ∃ st', implicitCombine pair (ideal 2) coeff inst iA iU dt st = some st' := by
  obtain ⟨X, hX, _⟩ := solve_two pair rfl dt (stiffness pair (st iA)) (thetaEdge pair (st iA))
    (implicitRhs pair (st iA) dt) (fun e i j _ _ _ => pair_diag _ hp hr _ _ _ _)
    (fun _ _ _ => by unfold implicitRhs inner; exact if_neg (by omega))
    (fun _ _ _ => by unfold implicitRhs inner; exact if_neg (fun h => absurd h.2 (by show ¬2 < 2; omega)))
  unfold implicitCombine implicitCore
  rw [if_neg (by simp [hc])]
  simp only [hX, Option.map_some]
  exact ⟨_, rfl⟩

/-- Air in motion. -/
def flowing : State where
  u := fun _ i _ _ => i + 1
  v := fun _ _ j _ => j
  p := fun _ _ _ k => k + 1
  r := fun _ _ _ k => k + 2
  w := fun _ _ _ k => if k = 1 then 1 else 0
  wNode := fun _ _ _ _ => 0
  pEdge := fun _ _ _ _ => 0
  t := fun _ _ _ _ _ => 2

theorem flowing_continuous : Continuous pair flowing :=
  ⟨fun _ _ _ _ _ _ _ _ => rfl, fun _ _ _ _ _ _ _ _ => rfl, fun _ _ _ _ _ _ _ _ => rfl, fun _ _ _ _ _ _ _ _ => rfl⟩

theorem flowing_pos (e i j k : Nat) : 0 < flowing.p e i j k ∧ 0 < flowing.r e i j k := by
  have : (0 : ℝ) ≤ k := Nat.cast_nonneg k
  constructor
  · show (0 : ℝ) < (k : ℝ) + 1
    linarith
  · show (0 : ℝ) < (k : ℝ) + 2
    linarith

/-- The hypotheses of `C120_split` and of the first part of `C125_kept` are met. -/
example : ∃ st', stepExplicit pair (ideal 2) true true 2 0 1 1 (fun _ => flowing) = some st' ∧
    total pair pairArea (st' 1).r = total pair pairArea flowing.r ∧ (st' 1).t = flowing.t := by
  obtain ⟨st', h⟩ := split_runs pair rfl 2 0 1 (by omega) (by omega) 1 (fun _ => flowing)
    (fun e i j _ _ _ => pair_diag _ (fun e i j k => (flowing_pos e i j k).1.le) (fun e i j k => (flowing_pos e i j k).2.le)
      _ _ _ _)
  exact ⟨st', h, (C120_split pair pairArea pair_fits (by decide) (ideal 2) (ideal_exact 2) true true 2 0 1 (by omega)
    (by omega) 1 _ st' h).1, (C125_kept pair (ideal 2) 1 _ st' 1).1 _ _ _ _ (by omega) (by omega) h⟩

/-- The hypotheses of `C120_explicit` are met. -/
example : ∃ st', explicitCombine pair [2, -1] [0, 3] 2 1 1 (fun _ => flowing) = some st' ∧
    slab pair pairArea (st' 1).r 1 1 = 2 * slab pair pairArea flowing.r 1 1 + (-1 * slab pair pairArea flowing.r 1 1 + 0) := by
  have h : explicitCombine pair [2, -1] [0, 3] 2 1 1 (fun _ => flowing) = some _ := if_neg (by simp [combinable])
  exact ⟨_, h, (C120_explicit pair pairArea pair_fits _ _ _ _ _ _ _ h 1 1 (by decide) (by decide)).1⟩

/-- The hypotheses of `C120_implicit` and `C121_backward` are met. -/
example : ∃ st', implicitCombine pair (ideal 2) [2, -1] [0, 3] 2 1 1 (fun _ => flowing) = some st' ∧
    total pair pairArea (st' 1).r = 2 * total pair pairArea flowing.r + (-1 * total pair pairArea flowing.r + 0) ∧
    ∃ W : Nat → ℝ, W 0 = 0 ∧ W 2 = 0 := by
  obtain ⟨st', h⟩ := implicit_runs [2, -1] [0, 3] 2 1 (by simp [combinable]) 1 (fun _ => flowing)
    (fun e i j k => (flowing_pos e i j k).1.le) (fun e i j k => (flowing_pos e i j k).2.le)
  obtain ⟨W, w0, w2, _⟩ := C121_backward pair (by decide) pair_heights air rfl rfl (ideal 2) (ideal_exact 2) [2, -1] [0, 3] 2 1 1
    (fun _ => flowing) st' flowing_continuous (fun _ _ => flowing_continuous) (fun e i j k => (flowing_pos e i j k).1) h
    1 2 0 (by decide) (by decide) (by decide)
  exact ⟨st', h, (C120_implicit pair pairArea pair_fits (by decide) (ideal 2) (ideal_exact 2) _ _ _ _ _ _ _ h).1, W, w0, w2⟩

/-- Air at rest whose pressure carries its weight. -/
noncomputable def still : State where
  u := fun _ _ _ _ => 0
  v := fun _ _ _ _ => 0
  p := fun _ _ _ k => if k = 0 then 2 else 1
  r := fun _ _ _ _ => pair.pressure 2 - pair.pressure 1
  w := fun _ _ _ _ => 0
  wNode := fun _ _ _ _ => 0
  pEdge := fun _ _ _ _ => 0
  t := fun _ _ _ _ _ => 2

theorem still_rest : Rest pair still where
  u := fun _ _ _ _ => rfl
  v := fun _ _ _ _ => rfl
  w := fun _ _ _ _ => rfl
  flat := fun _ _ _ _ _ => rfl
  level := fun _ _ _ _ _ _ => rfl
  weight := fun e i j k h0 h2 => by
    have h2 : k < 2 := h2
    obtain rfl : k = 1 := by omega
    show pair.pressure 1 - pair.pressure 2 = -(1 * ((pair.pressure 2 - pair.pressure 1 +
      (pair.pressure 2 - pair.pressure 1)) / 2) * (((1 : ℕ) : ℝ) - ((0 : ℕ) : ℝ)))
    push_cast
    ring
  apart := fun e i j k h0 h2 => by
    have h2 : k < 2 := h2
    obtain rfl : k = 1 := by omega
    show ((1 : ℕ) : ℝ) - ((0 : ℕ) : ℝ) ≠ 0
    norm_num

theorem still_nonneg (e i j k : Nat) : 0 ≤ still.p e i j k ∧ 0 ≤ still.r e i j k := by
  constructor
  · show (0 : ℝ) ≤ if k = 0 then 2 else 1
    split <;> norm_num
  · show 0 ≤ (1 : ℝ) * Real.exp (Real.log 2 * (7 / 5)) - 1 * Real.exp (Real.log 1 * (7 / 5))
    have : Real.exp (Real.log 1 * (7 / 5)) ≤ Real.exp (Real.log 2 * (7 / 5)) := by
      refine Real.exp_le_exp.2 ?_
      have := Real.log_le_log one_pos (show (1 : ℝ) ≤ 2 by norm_num)
      linarith
    linarith

theorem still_continuous : Continuous pair still :=
  ⟨fun _ _ _ _ _ _ _ _ => rfl, fun _ _ _ _ _ _ _ _ => rfl, fun _ _ _ _ _ _ _ _ => rfl, fun _ _ _ _ _ _ _ _ => rfl⟩

/-- The hypotheses of `C122_split` are met. -/
example : ∃ st', stepExplicit pair (ideal 2) true true 2 0 1 1 (fun _ => still) = some st' ∧ (st' 1).w 1 2 0 1 = 0 := by
  obtain ⟨st', h⟩ := split_runs pair rfl 2 0 1 (by omega) (by omega) 1 (fun _ => still)
    (fun e i j _ _ _ => pair_diag _ (fun e i j k => (still_nonneg e i j k).1) (fun e i j k => (still_nonneg e i j k).2)
      _ _ _ _)
  exact ⟨st', h, (C122_split pair (by decide) simpsonW simpson_paired pair_keeps (ideal 2) (ideal_exact 2) true true 2 0 1
    (by omega) (by omega) 1 _ st' still_rest h 1 2 0 1 (by decide) (by decide) (by decide) (by decide)).2.2.2.2 one_pos⟩

/-- The hypotheses of `C122_explicit` are met. -/
example : ∃ st', explicitCombine pair [1] [0] 2 1 1 (fun _ => still) = some st' ∧
    (st' 1).u 1 2 0 1 = mixed [1] [0] (fun _ => still) State.u 1 2 0 1 := by
  have h : explicitCombine pair [1] [0] 2 1 1 (fun _ => still) = some _ := if_neg (by simp [combinable])
  exact ⟨_, h, (C122_explicit pair simpsonW simpson_paired _ _ _ _ _ _ _ still_rest h 1 2 0 1 (by decide) (by decide)
    (by decide)).1⟩

/-- The hypotheses of `C122_implicit` are met. -/
example : ∃ st', implicitCombine pair (ideal 2) [1] [0] 2 1 1 (fun _ => still) = some st' ∧
    (st' 1).p 1 2 0 1 = mixed [1] [0] (fun _ => still) State.p 1 2 0 1 := by
  obtain ⟨st', h⟩ := implicit_runs [1] [0] 2 1 (by simp [combinable]) 1 (fun _ => still)
    (fun e i j k => (still_nonneg e i j k).1) (fun e i j k => (still_nonneg e i j k).2)
  exact ⟨st', h, (C122_implicit pair pair_heights (ideal 2) (ideal_exact 2) _ _ _ _ _ _ st' still_continuous
    (fun _ _ => still_continuous) still_rest h 1 2 0 1 (by decide) (by decide) (by decide) (by decide)).1⟩

/-- The hypotheses of `C124_reverse_partial` are met. -/
example : ∃ st1 st2, explicitCombine pair [1] [0] 2 1 1 (fun _ => flowing) = some st1 ∧
    explicitCombine (turned pair) [1] [0] 2 1 1 (putSlot (fun _ => flowing) 2 (reversed flowing)) = some st2 ∧
    gain [1] [0] (fun _ => flowing) st2 1 State.u 1 2 0 1 = gain [1] [0] (fun _ => flowing) st1 1 State.u 1 2 0 1 := by
  have h1 : explicitCombine pair [1] [0] 2 1 1 (fun _ => flowing) = some _ := if_neg (by simp [combinable])
  have h2 : explicitCombine (turned pair) [1] [0] 2 1 1 (putSlot (fun _ => flowing) 2 (reversed flowing)) = some _ :=
    if_neg (by simp [combinable])
  exact ⟨_, _, h1, h2, (C124_reverse_partial pair [1] [0] 2 1 (by simp) 1 _ _ _ h1 h2 1 2 0 1).1⟩

end Verif.Acoustic
