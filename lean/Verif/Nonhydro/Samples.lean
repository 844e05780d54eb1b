import Verif.Nonhydro.PropsMore

/-!
# C83: cases that meet the hypotheses
-/

namespace Verif.Nonhydro

open Verif.Horiz

/-- Derivatives of the quadratics with nodes `0, 1/2, 1`. -/
noncomputable def simpsonDx : Nat → Nat → ℝ
  | 0, 0 => -3
  | 1, 0 => 4
  | 2, 0 => -1
  | 0, 1 => -1
  | 1, 1 => 0
  | 2, 1 => 1
  | 0, 2 => 1
  | 1, 2 => -4
  | 2, 2 => 3
  | _, _ => 0

/-- The weights of Simpson's rule. -/
noncomputable def simpsonW : Nat → ℝ
  | 1 => 2 / 3
  | _ => 1 / 6

noncomputable def simpson : Basis := ⟨simpsonDx, fun m i => simpsonDx m i * simpsonW i / simpsonW m⟩

theorem simpson_paired : Paired 3 simpson simpsonW := by
  constructor
  · intro i hi
    interval_cases i <;> simp [Finset.sum_range_succ, simpson, simpsonDx] <;> norm_num
  · intro m i hm hi
    interval_cases m <;> interval_cases i <;> norm_num [simpson, simpsonDx, simpsonW]

/-- Two elements of third order side by side over a slope, with two levels and vertical velocity on interfaces; one
tracer, which is diffused. -/
noncomputable def slope : Air where
  G := ⟨⟨3, 2, 1, 2, 1, 1⟩, 2, 1, fun _ _ => 1, fun _ _ _ => 0, fun _ _ _ => 0, fun _ _ => 1 / 10, fun _ _ => 0, 10⟩
  B := simpson
  jac := fun _ _ _ => 5
  conA := fun _ _ _ m => if m = 0 then 1 else if m = 1 then 0 else -1 / 5
  conB := fun _ _ _ m => if m = 1 then 1 else 0
  conXi := fun _ _ _ m => if m = 0 then -1 / 5 else if m = 1 then 0 else 2 / 25
  conXiEdge := fun _ _ _ m => if m = 0 then -1 / 5 else if m = 1 then 0 else 2 / 25
  derivR := fun _ _ _ m => if m = 0 then 1 else if m = 1 then 0 else 5
  toEdge := fun k l => if k = 1 then 1 / 2 else if k = l + l then 1 else 0
  toNode := fun k l => if l = k ∨ l = k + 1 then 1 / 2 else 0
  diff := fun _ l => if l = 0 then -2 else 2
  wOnEdge := true
  pOnEdge := false
  xz := false
  uniform := true
  nu := 1 / 2
  p0 := 1000
  rd := 2
  cp := 7

/-- A state with motion: everything varies from node to node. -/
noncomputable def moving : Data := fun x =>
  match x.v with
  | .state 0 => x.iA + x.k
  | .state 1 => x.iB * x.iA
  | .state 2 => 300 + x.iB + x.iA * x.k
  | .state 4 => 1 + x.iA
  | .tracer _ => 2 * (1 + x.iA)
  | _ => x.k

theorem slope_regular (a b k : Nat) : Regular slope a b k := fun _ _ _ _ => by
  unfold place slope
  norm_num

theorem slope_defined (dt : ℝ) (u v : Data) : ∃ i' u', stepNonhydro slope u dt v = some (i', u') := by
  have := C83_defined slope rfl u dt v
  obtain ⟨⟨i', u'⟩, h⟩ := Option.isSome_iff_exists.1 this
  exact ⟨i', u', h⟩

/-- The step on the slope is defined, conserves mass and keeps air out of the ground. -/
example : ∃ i' u', stepNonhydro slope moving (1 / 100) moving = some (i', u') ∧
    overElement slope simpsonW (fun _ => 1) 1 0 1 (value slope.G.S u' (.state 4) 1 0 1) =
      overElement slope simpsonW (fun _ => 1) 1 0 1 (value slope.G.S moving (.state 4) 1 0 1) ∧
    overElement slope simpsonW (fun _ => 1) 1 0 1 (value slope.G.S u' (.tracer 0) 1 0 1) =
      overElement slope simpsonW (fun _ => 1) 1 0 1 (value slope.G.S moving (.tracer 0) 1 0 1) ∧
    place slope (fun x y => slope.conXiEdge x y 0 0) 1 0 2 1 * atInterface slope u' (.state 0) 1 0 0 2 1 +
      place slope (fun x y => slope.conXiEdge x y 0 1) 1 0 2 1 * atInterface slope u' (.state 1) 1 0 0 2 1 +
      place slope (fun x y => slope.conXiEdge x y 0 2) 1 0 2 1 * value slope.G.S u' (edge 3) 1 0 0 2 1 = 0 := by
  obtain ⟨i', u', h⟩ := slope_defined (1 / 100) moving moving
  refine ⟨i', u', h, ?_, ?_, ?_⟩
  · exact C83_mass slope _ _ _ _ _ h simpsonW simpson_paired _ 1 0 1 (by decide) (by decide) (by decide)
      (slope_regular _ _ _)
  · exact C83_tracer slope _ _ _ _ _ h simpsonW simpson_paired _ 1 0 1 (by decide) (by decide) (by decide)
      (slope_regular _ _ _) 0 (by decide)
  · exact C83_ground slope _ _ _ _ _ h rfl 1 0 2 1 (by decide) (by decide) (by decide) (by decide) (by
      unfold place slope
      norm_num)

/-- The tracer of that state is twice the density. -/
example : ∃ i' u', stepNonhydro slope moving (1 / 100) moving = some (i', u') ∧
    value slope.G.S u' (.tracer 0) 1 0 1 0 2 - value slope.G.S moving (.tracer 0) 1 0 1 0 2 =
      2 * (value slope.G.S u' (.state 4) 1 0 1 0 2 - value slope.G.S moving (.state 4) 1 0 1 0 2) := by
  obtain ⟨i', u', h⟩ := slope_defined (1 / 100) moving moving
  refine ⟨i', u', h, ?_⟩
  refine C83_consistent slope _ _ _ _ _ h simpsonW simpson_paired 1 0 1 (by decide) (by decide) (by decide) 0
    (by decide) 2 (fun i j _ _ => ?_) 0 2 (by decide) (by decide)
  have : (0 : ℝ) ≤ ((1 + 1 * 3 + i : ℕ) : ℝ) := Nat.cast_nonneg _
  simp only [value, moving, slope]
  refine ⟨by positivity, ?_⟩
  trivial

/-- The hypotheses of the energy theorem hold on the slope: the height at node `i` is `i`. -/
example : (∀ i j, i < slope.G.S.order → j < slope.G.S.order →
      place slope (fun x y => slope.derivR x y 1 0) 1 0 i j = slopeA slope (fun i _ => i) i j ∧
      place slope (fun x y => slope.derivR x y 1 1) 1 0 i j = slopeB slope (fun i _ => i) i j) ∧
    ∀ i' u' : Data, stepNonhydro slope moving (1 / 100) moving = some (i', u') →
      ∀ i j, i < slope.G.S.order → j < slope.G.S.order → value slope.G.S i' (.state 4) 1 0 1 i j ≠ 0 := by
  constructor
  · intro i j hi hj
    have hi' : i < 3 := hi
    have hj' : j < 3 := hj
    interval_cases i <;> interval_cases j <;>
      norm_num [place, slopeA, slopeB, slope, simpson, simpsonDx, Finset.sum_range_succ]
  · intro i' u' h i j _ _
    unfold value
    rw [C83_input slope _ _ _ _ _ h _ (by simp [edge]) (by simp [edge]) (by simp) (by simp)]
    simp only [moving]
    positivity

/-- The same patch over level ground. -/
noncomputable def plain : Air :=
  { slope with derivR := fun _ _ _ m => if m = 2 then 5 else 0, uniform := false }

/-- Air at rest; density varies from node to node. -/
noncomputable def still : Data := fun x =>
  match x.v with
  | .state 2 => 300 + x.k
  | .state 4 => 1 + x.iA
  | .tracer _ => x.iB
  | _ => 0

example : ∃ i' u', stepNonhydro plain still 1 still = some (i', u') ∧
    value plain.G.S u' (.state 0) 1 0 1 2 1 = value plain.G.S still (.state 0) 1 0 1 2 1 := by
  obtain ⟨⟨i', u'⟩, h⟩ := Option.isSome_iff_exists.1 (C83_defined plain rfl still 1 still)
  refine ⟨i', u', h, ?_⟩
  exact (C83_rest plain _ _ _ _ _ h simpsonW simpson_paired 1 0 (by decide) (by decide) (fun k => 300 + k)
    (fun _ _ _ _ _ _ => ⟨rfl, rfl⟩) (fun _ _ _ _ _ _ => rfl) (fun _ _ _ _ _ _ => rfl)
    (fun k i j m _ _ _ hm => by
      unfold place plain
      simp only
      rw [if_neg (by omega)]) 2 1 (by decide) (by decide)).1 (.state 0) 1 (by simp [edge]) (by decide) (by simp)

/-- The step is not the identity: the density of the first example changes. -/
example : ∃ i' u', stepNonhydro slope moving 1 moving = some (i', u') ∧
    value slope.G.S u' (.state 4) 0 0 0 0 1 ≠ value slope.G.S moving (.state 4) 0 0 0 0 1 := by
  obtain ⟨i', u', h⟩ := slope_defined 1 moving moving
  refine ⟨i', u', h, ?_⟩
  rw [step_value slope _ _ _ _ _ h _ (by simp [edge]) 0 0 0 0 1 (by decide) (by decide) (by decide) (by decide)
    (by decide)]
  have hi : ∀ x : Cell, x.v = .state 0 ∨ x.v = .state 1 ∨ x.v = .state 4 → i' x = moving x := fun x hx =>
    C83_input slope _ _ _ _ _ h x (by rcases hx with e | e | e <;> simp [e, edge])
      (by rcases hx with e | e | e <;> simp [e, edge]) (by rcases hx with e | e | e <;> simp [e])
      (by rcases hx with e | e | e <;> simp [e])
  have hw : ∀ i j, i < 3 → j < 3 → i' ⟨.state 3, slope.G.S.at 0 i, slope.G.S.at 0 j, 0⟩ = 1 / 2 := fun i j hi hj => by
    have e := (C83_interpolated slope _ _ _ _ _ h 0 0 0 i j (by decide) (by decide) (by decide) hi hj).1 rfl
    rw [value_at] at e
    rw [e]
    unfold atLevel
    rw [show slope.G.S.levels + 1 = 3 from rfl]
    have m3 : ∀ iA iB k, moving ⟨edge 3, iA, iB, k⟩ = k := fun _ _ _ => rfl
    norm_num [slope, value, m3, Finset.sum_range_succ]
  have key : tend slope i' 0 0 0 0 1 (.state 4) = -123 / 10 := by
    have e : tend slope i' 0 0 0 0 1 (.state 4) = -(1 / 5 * (weakA slope.G slope.B (fluxA slope i' 0 0 0 (.state 4)) 0 1 +
        weakB slope.G slope.B (fluxB slope i' 0 0 0 (.state 4)) 0 1)) := rfl
    rw [e, weakA_sum, weakB_sum, show slope.G.S.order = 3 from rfl]
    simp only [Finset.sum_range_succ, Finset.sum_range_zero, fluxA, fluxB, conUa, conUb, Horiz.read]
    simp only [hw, hi, Nat.reduceLT, true_or, or_true]
    norm_num [slope, contra, moving, simpson, simpsonDx, simpsonW, Shape.at]
  rw [key]
  norm_num

end Verif.Nonhydro
