import Verif.Acoustic.Combos
import Verif.Acoustic.Samples

/-!
# C125, C126, C127, C128: cases that meet the hypotheses
-/

namespace Verif.Acoustic

open Verif.Horiz Verif.Nonhydro

/-- The two elements with one level. -/
noncomputable def single : Grid := { pair with levels := 1 }

theorem single_fits : Fits single pairArea where
  weights := pair_fits.weights.imp fun ω h => h.imp fun layer h => ⟨h.1, fun e i j k he hi hj hk =>
    h.2 e i j k he hi hj (Nat.lt_trans hk (by show 1 < 2; omega))⟩
  thickness := pair_fits.thickness.imp fun b h e i j k he hi hj hk =>
    h e i j k he hi hj (Nat.lt_trans hk (by show 1 < 2; omega))
  jac := fun _ _ _ _ _ _ _ _ => by show (5 : ℝ) ≠ 0; norm_num
  thick := fun e i j k he hi hj hk => pair_fits.thick e i j k he hi hj (Nat.lt_trans hk (by show 1 < 2; omega))
  shared := fun e i j e' i' j' k he hi hj he' hi' hj' h => pair_fits.shared e i j e' i' j' k he hi hj he' hi' hj' h

theorem ideal_one (A B C D : Nat → ℝ) (hB0 : B 0 = 1) (hC0 : C 0 = 0) (hA0 : A 0 = 0) (hB1 : B 1 = 1) :
    ∃ x, ideal 1 A B C D = some x := by
  have rows : Rows 1 A B C D D := by
    refine ⟨?_, ?_, ?_⟩
    · simp [hC0, hB0]
    · intro k h0 h1
      omega
    · simp [hA0, hB1]
  have uniq : ∀ y, Rows 1 A B C D y → ∀ k, k ≤ 1 → y k = D k := by
    rintro y ⟨h0, _, h1⟩ k hk
    have : k = 0 ∨ k = 1 := by omega
    rcases this with rfl | rfl
    · simpa [hC0, hB0] using h0
    · simpa [hA0, hB1] using h1
  unfold ideal
  rw [dif_pos ⟨D, rows, uniq⟩]
  exact ⟨_, rfl⟩

theorem single_solves (τ : ℝ) (q θ rhs : Fld) : ∃ X, solveAll single (ideal 1) τ q θ rhs = some X := by
  unfold solveAll
  rw [if_pos]
  · exact ⟨_, rfl⟩
  · intro e i j _ _ _
    obtain ⟨x, hx⟩ := ideal_one (lower single τ q θ e i j) (diag single τ q θ e i j) (upper single τ q θ e i j) (rhs e i j)
      (if_neg (by omega)) (if_neg (by omega)) (if_neg (by show ¬0 + 1 < 1; omega)) (if_neg (by show ¬(0 < 1 ∧ 1 < 1); omega))
    rw [hx]
    rfl

theorem single_explicit (coeff : List ℝ) (inst : List Nat) (iA iU : Nat) (hc : combinable coeff inst iU = true) (dt : ℝ)
    (st : Store) : ∃ st', explicitCombine single coeff inst iA iU dt st = some st' := by
  unfold explicitCombine
  rw [if_neg (by simp [hc])]
  exact ⟨_, rfl⟩

theorem single_implicit (coeff : List ℝ) (inst : List Nat) (iA iU : Nat) (hc : combinable coeff inst iU = true) (dt : ℝ)
    (st : Store) : ∃ st', implicitCombine single (ideal 1) coeff inst iA iU dt st = some st' := by
  obtain ⟨X, hX⟩ := single_solves dt (stiffness single (st iA)) (thetaEdge single (st iA)) (implicitRhs single (st iA) dt)
  unfold implicitCombine implicitCore
  rw [if_neg (by simp [hc])]
  simp only [hX, Option.map_some]
  exact ⟨_, rfl⟩

/-- Fourth order viscosity with a tracer and no friction. -/
noncomputable def viscous : Settings where
  order := 4
  nuScalar := 1
  nuDiv := 2
  nuVort := 3
  refLength := 1
  area := pairArea
  tracers := 1
  friction := false
  xz := false
  strength := fun _ _ _ _ => 0
  strengthEdge := fun _ _ _ _ => 0
  reference := flowing

theorem viscous_after (iU iW : Nat) (h : iU ≠ iW) (dt : ℝ) (st : Store) :
    ∃ st', afterCombine single viscous iU iW dt st = some st' := by
  unfold afterCombine
  rw [if_neg h, if_neg (by rintro ⟨h, _⟩; exact absurd h (by show (1 : ℝ) ≠ 0; norm_num)),
    if_pos (show viscous.order = 4 from rfl)]
  exact ⟨_, rfl⟩

theorem inviscid_after (iU iW : Nat) (h : iU ≠ iW) (dt : ℝ) (st : Store) :
    ∃ st', afterCombine single { viscous with nuScalar := 0, nuDiv := 0, nuVort := 0 } iU iW dt st = some st' := by
  unfold afterCombine
  rw [if_neg h, if_pos ⟨rfl, rfl, rfl⟩]
  exact ⟨_, rfl⟩

/-- A whole step runs. -/
theorem single_runs (S : Settings) (hS : ∀ st dt, ∃ st', afterCombine single S 0 1 dt st = some st') (T : Steps.Tab343 ℝ)
    (dt : ℝ) (st : Store) :
    ∃ st', runCalls (callHighSpeed single S (ideal 1) fun _ _ => none) (Steps.ars343b T dt) st = some st' := by
  simp only [Steps.ars343b, Steps.post2, List.cons_append, List.nil_append]
  have post : ∀ u f (rest : List (Steps.Cmd ℝ)), (∀ st, ∃ st', runCalls (callHighSpeed single S (ideal 1) fun _ _ => none) rest st
      = some st') → ∀ st, ∃ st', runCalls (callHighSpeed single S (ideal 1) fun _ _ => none) (.post u f :: rest) st
      = some st' := fun u f rest h st => h _
  have ex : ∀ (inst : List Nat) (coeff : List ℝ) a u dt (rest : List (Steps.Cmd ℝ)), combinable coeff inst u = true →
      (∀ st, ∃ st', runCalls (callHighSpeed single S (ideal 1) fun _ _ => none) rest st = some st') → ∀ st, ∃ st',
        runCalls (callHighSpeed single S (ideal 1) fun _ _ => none) (.expCombine inst coeff a u dt :: rest) st = some st' := by
    intro inst coeff a u dt rest hc h st
    obtain ⟨m, hm⟩ := single_explicit coeff inst a u hc dt st
    obtain ⟨x, hx⟩ := h m
    exact ⟨x, by rw [runCalls, callHighSpeed, hm]; exact hx⟩
  have im : ∀ (inst : List Nat) (coeff : List ℝ) a u dt (rest : List (Steps.Cmd ℝ)), combinable coeff inst u = true →
      (∀ st, ∃ st', runCalls (callHighSpeed single S (ideal 1) fun _ _ => none) rest st = some st') → ∀ st, ∃ st',
        runCalls (callHighSpeed single S (ideal 1) fun _ _ => none) (.impCombine inst coeff a u dt :: rest) st = some st' := by
    intro inst coeff a u dt rest hc h st
    obtain ⟨m, hm⟩ := single_implicit coeff inst a u hc dt st
    obtain ⟨x, hx⟩ := h m
    exact ⟨x, by rw [runCalls, callHighSpeed, hm]; exact hx⟩
  refine ex _ _ _ _ _ _ (by simp [combinable]) (post _ _ _ (post _ _ _ (im _ _ _ _ _ _ (by simp [combinable])
    (ex _ _ _ _ _ _ (by simp [combinable, Steps.u2c]) (post _ _ _ (post _ _ _ (im _ _ _ _ _ _ (by simp [combinable])
    (ex _ _ _ _ _ _ (by simp [combinable, Steps.u3c]) (post _ _ _ (post _ _ _ (im _ _ _ _ _ _ (by simp [combinable])
    (ex _ _ _ _ _ _ (by simp [combinable, Steps.u4c]) (post _ _ _ (post _ _ _ ?_)))))))))))))) st
  intro st
  obtain ⟨m, h⟩ := hS st dt
  exact ⟨m, by rw [runCalls, callHighSpeed, h]; rfl⟩

/-- The hypotheses of `C126_step` are met, with viscosity and air in motion. -/
example : ∃ st', runCalls (callHighSpeed single viscous (ideal 1) fun _ _ => none) (Steps.ars343b Steps.tab343 1)
      (fun _ => flowing) = some st' ∧
    total single pairArea (st' 0).r = total single pairArea flowing.r ∧
    total single pairArea (st' 0).p = total single pairArea flowing.p := by
  obtain ⟨st', h⟩ := single_runs viscous (fun st dt => viscous_after 0 1 (by omega) dt st) Steps.tab343 1 (fun _ => flowing)
  obtain ⟨a, b⟩ := C126_step single viscous (ideal 1) (fun _ _ => none) pairArea single_fits (by decide) (ideal_exact 1)
    Steps.tab343 1 _ st' h
  exact ⟨st', h, a, b rfl⟩

/-- The hypotheses of `C125_step` are met. -/
example : ∃ st', runCalls (callHighSpeed single { viscous with nuScalar := 0, nuDiv := 0, nuVort := 0 } (ideal 1)
      fun _ _ => none) (Steps.ars343b Steps.tab343 1) (fun _ => flowing) = some st' ∧ (st' 0).t 0 1 2 0 0 = 2 := by
  obtain ⟨st', h⟩ := single_runs { viscous with nuScalar := 0, nuDiv := 0, nuVort := 0 }
    (fun st dt => inviscid_after 0 1 (by omega) dt st) Steps.tab343 1 (fun _ => flowing)
  refine ⟨st', h, ?_⟩
  rw [C125_step single _ (ideal 1) (fun _ _ => none) ⟨rfl, rfl, rfl⟩ Steps.tab343 1 _ st' h 0]
  exact mean_same single _ 1 2 0 0 (by decide) (by decide) (by decide) (fun _ _ _ _ _ _ _ => rfl)

/-- The hypotheses of `C126_viscosity` and `C128_nonnegative` are met, with a tracer that is negative somewhere. -/
example : ∃ st', afterCombine single viscous 0 1 1
      (fun _ => { flowing with t := fun _ _ i j _ => if i = 0 ∧ j = 0 then -1 else 2 }) = some st' ∧
    total single pairArea (st' 0).r = total single pairArea flowing.r ∧ 0 ≤ (st' 0).t 0 0 0 0 0 := by
  obtain ⟨st', h⟩ := viscous_after 0 1 (by omega) 1
    (fun _ => { flowing with t := fun _ _ i j _ => if i = 0 ∧ j = 0 then -1 else 2 })
  have w : ∀ i, i < 3 → 0 < simpsonW i := by
    intro i hi
    have : i = 0 ∨ i = 1 ∨ i = 2 := by omega
    rcases this with rfl | rfl | rfl <;> norm_num [simpsonW]
  refine ⟨st', h, (C126_viscosity single viscous pairArea single_fits 0 1 1 _ st' h).1,
    (C128_nonnegative single viscous single_fits (fun e i j k _ hi hj _ => ?_)
      (by rintro ⟨h, _⟩; exact absurd h (by show (1 : ℝ) ≠ 0; norm_num)) 0 1 1 _ st' 0 (by decide) (fun e k _ _ => ?_) h).1
      0 0 0 0 (by decide)⟩
  · have := w i hi
    have := w j hj
    show 0 < 5 * (simpsonW i * simpsonW j)
    positivity
  · show 0 ≤ ∑ i ∈ Finset.range 3, ∑ j ∈ Finset.range 3, 5 * (simpsonW i * simpsonW j) * (if i = 0 ∧ j = 0 then (-1 : ℝ) else 2)
    simp only [Finset.sum_range_succ, Finset.sum_range_zero, simpsonW]
    norm_num

/-- The hypotheses of `C127_refused` and `C127_advances_false` are met, the latter with air in motion. -/
example : (∃ sch : Steps.Scheme ℝ, ∀ T, sch ≠ .ars343b T) ∧ Continuous pair flowing :=
  ⟨⟨.ark4, by simp⟩, flowing_continuous⟩

/-- The hypotheses of `C126_split` and `C128_split` are met. -/
example : ∃ st', stepAfter single viscous 0 1 2 1 (fun _ => flowing) = some st' ∧
    total single pairArea (st' 1).r = total single pairArea flowing.r := by
  have h : ∃ st', stepAfter single viscous 0 1 2 1 (fun _ => flowing) = some st' := by
    unfold stepAfter
    rw [if_neg (by omega), if_neg (by rintro ⟨h, _⟩; exact absurd h (by show (1 : ℝ) ≠ 0; norm_num)),
      if_neg (show viscous.order ≠ 0 by decide), if_neg (show viscous.order ≠ 2 by decide),
      if_pos (show viscous.order = 4 from rfl)]
    exact ⟨_, rfl⟩
  obtain ⟨st', h⟩ := h
  exact ⟨st', h, (C126_split single viscous pairArea single_fits 0 1 2 1 _ st' h).1⟩

end Verif.Acoustic
