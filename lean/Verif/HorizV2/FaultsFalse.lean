import Verif.HorizV2.Faults

/-!
# C130: the claims that fail for the second version
-/

namespace Verif.HorizV2

open Verif.Horiz Verif.Nonhydro

/-- Level ground. -/
noncomputable def flat (uniform : Bool) : Air :=
  { steep uniform with
    jac := fun _ _ _ => 1
    conA := fun _ _ _ m => if m = 0 then 1 else 0
    conXi := fun _ _ _ m => if m = 2 then 1 else 0
    conXiEdge := fun _ _ _ m => if m = 2 then 1 else 0
    derivR := fun _ _ _ m => if m = 2 then 1 else 0 }

theorem flat_lorenz (uniform : Bool) : Lorenz (flat uniform) :=
  ⟨rfl, fun _ _ _ => by simp [flat, steep, slope], rfl, rfl, rfl⟩

noncomputable def flatDynamics (eqn : Nonhydro.Equations) (uniform : Bool) : Dynamics where
  A := flat uniform
  eqn := eqn
  nuVector := 1
  jacEdge := fun _ _ _ => 1
  area := fun _ _ _ => 1
  ref := fun _ => 0
  refLength := 0

/-- Air of density one with a tracer of twice the density, at rest but for a wind `f`, which depends on the index in
alpha. -/
noncomputable def gust (f : Nat → ℝ) : Data := fun x =>
  match x.v with
  | .state 0 => f x.iA
  | .state 2 => 1
  | .state 4 => 1
  | .tracer _ => 2
  | _ => 0

noncomputable def alone (n : Nat) : ℝ := if n = 1 then 1 else 0

theorem flat_step (eqn : Nonhydro.Equations) (hq : eqn ≠ .other) (uniform : Bool) (D : Nat → Data) (I : Nat) (hI : I ≠ 3) :
    ∃ D', stepExplicit (flatDynamics eqn uniform) I 3 1 D = .done D' :=
  (C129_refused _ _ _ _ _).2.2 ⟨rfl, hI, hq⟩

/-- **C130 (transport fails).**  A tracer that is twice the density everywhere before the step is not so after it. -/
theorem C130_transport_false : ∃ (E : Dynamics) (D D' : Nat → Data), Lorenz E.A ∧ E.A.uniform = false ∧
    stepExplicit E 0 3 1 D = .done D' ∧
    (∀ n a b k i j, value E.A.G.S (D n) (.tracer 0) a b k i j = 2 * value E.A.G.S (D n) (.state 4) a b k i j) ∧
    0 < E.A.G.S.tracers ∧ value E.A.G.S (D' 3) (.tracer 0) 0 0 0 0 0 ≠ 2 * value E.A.G.S (D' 3) (.state 4) 0 0 0 0 0 := by
  obtain ⟨D2, D1, h2, h1, hs⟩ := C129_explicit (flatDynamics .primitive false) 0 3 1 (fun _ => gust alone) rfl rfl
    (fun _ => flat_lorenz false) rfl (by decide) (by simp [flatDynamics])
  refine ⟨flatDynamics .primitive false, fun _ => gust alone, D2, flat_lorenz false, rfl, h2, ?_, by decide, ?_⟩
  · intro n a b k i j
    simp [value, gust]
  have ht := C130_still _ _ _ _ _ _ h2 0 0 0 0 (by decide) (by decide) (by decide) (by decide)
    (fun _ _ _ _ => one_pos) (fun _ _ _ _ => by simp [value, gust]) 0 0 (by decide) (by decide)
  rw [ht]
  obtain ⟨-, i', u, w, hi, hw, rfl⟩ := Nonhydro.done_parts _ _ _ _ _ _ h1
  rcases hi with ⟨-, hstep⟩ | ⟨he, -⟩
  swap
  · cases he
  have e2 : D2 3 ⟨.state 4, 1, 1, 0⟩ = u ⟨.state 4, 1, 1, 0⟩ := by
    rw [hs 3 _ 4 rfl (fun e => absurd e (by decide)), store_same, filter_state _ _ _ _ 4 rfl]
    exact Nonhydro.uniform_same _ _ _ _ _ hw _ (by simp) (by simp) (fun _ => ⟨(theta_not _).2.2.2.1.symm,
      (vertical_not _).2.2.2.1.symm⟩)
  have e3 := step_value _ _ _ _ _ _ hstep (.state 4) (by simp [edge]) 0 0 0 0 0 (by decide) (by decide) (by decide)
    (by decide) (by decide)
  have in0 : ∀ c, c = 0 ∨ c = 1 ∨ c = 4 → ∀ iA iB k, i' ⟨.state c, iA, iB, k⟩ = gust alone ⟨.state c, iA, iB, k⟩ := by
    intro c hc iA iB k
    refine C83_input _ _ _ _ _ _ hstep _ ?_ ?_ ?_ ?_ <;> rcases hc with rfl | rfl | rfl <;> simp [edge]
  have e4 : value (flatDynamics .primitive false).A.G.S (D2 3) (.state 4) 0 0 0 0 0 = 1 - 11 / 4 := by
    show D2 3 ⟨.state 4, 1, 1, 0⟩ = _
    rw [e2]
    change u ⟨.state 4, 1, 1, 0⟩ = _ at e3
    rw [e3]
    have c1 : ∀ i j, Nonhydro.conUa (flatDynamics .primitive false).A i' 0 0 0 i j = alone (i + 1) := by
      intro i j
      unfold Nonhydro.conUa Nonhydro.contra Horiz.read
      rw [in0 0 (by simp), in0 1 (by simp)]
      simp [flatDynamics, flat, steep, slope, gust, Shape.at]
    have c2 : ∀ i j, Nonhydro.conUb (flatDynamics .primitive false).A i' 0 0 0 i j = 0 := by
      intro i j
      unfold Nonhydro.conUb Nonhydro.contra Horiz.read
      rw [in0 0 (by simp), in0 1 (by simp)]
      simp [flatDynamics, flat, steep, slope, gust, Shape.at]
    simp only [tend, weakA, weakB, fluxA, fluxB, c1, c2, in0 4 (by simp)]
    simp [flatDynamics, flat, steep, slope, gust, loop_succ, loop_zero, alone, cubic, cubicDx, cubicW, value]
    norm_num
  rw [e4]
  simp only [value, gust]
  norm_num

/-- **C130 (slices fail).**  In a slice in x and z the first version never changes the velocity across the slice, the
second does. -/
theorem C130_slice_false : ∃ (A : Air) (init : Data), A.xz = true ∧ A.wOnEdge = true ∧ A.G.S.order = 4 ∧
    (∀ i' u', Nonhydro.stepNonhydro A init 1 init = some (i', u') → ∀ a b k i j, a < A.G.S.elemA → b < A.G.S.elemB →
      k < A.G.S.levels → i < A.G.S.order → j < A.G.S.order →
      value A.G.S u' (.state 1) a b k i j = value A.G.S init (.state 1) a b k i j) ∧
    value A.G.S (stepNonhydro A init 1 init).2 (.state 1) 0 0 0 0 0 ≠ value A.G.S init (.state 1) 0 0 0 0 0 := by
  refine ⟨{ flat false with xz := true }, gust (fun _ => 1), rfl, rfl, rfl, ?_, ?_⟩
  · intro i' u' h a b k i j ha hb hk hi hj
    rw [(C83_momentum _ _ _ _ _ _ h a b k i j ha hb hk hi hj).2, if_pos rfl, add_zero]
  show value (flat false).G.S (stepNonhydro (flat false) (gust (fun _ => 1)) 1 (gust (fun _ => 1))).2 (.state 1) 0 0 0 0 0 ≠
    value (flat false).G.S (gust (fun _ => 1)) (.state 1) 0 0 0 0 0
  obtain ⟨i', u', h, hs, -⟩ := C129_nonhydro (flat false) (flat_lorenz false) (gust (fun _ => 1)) 1 (gust (fun _ => 1))
  have e : value (flat false).G.S (stepNonhydro (flat false) (gust (fun _ => 1)) 1 (gust (fun _ => 1))).2 (.state 1)
      0 0 0 0 0 = value (flat false).G.S u' (.state 1) 0 0 0 0 0 := hs _ 1 rfl
  rw [e, (C83_momentum _ _ _ _ _ _ h 0 0 0 0 0 (by decide) (by decide) (by decide) (by decide) (by decide)).2]
  have v0 : ∀ i j, value (flat false).G.S i' (.state 0) 0 0 0 i j = 1 := fun i j =>
    C83_input _ _ _ _ _ _ h _ (by simp [edge]) (by simp [edge]) (by simp) (by simp)
  have v1 : ∀ i j, value (flat false).G.S i' (.state 1) 0 0 0 i j = 0 := fun i j =>
    C83_input _ _ _ _ _ _ h _ (by simp [edge]) (by simp [edge]) (by simp) (by simp)
  have v2 : ∀ i j, value (flat false).G.S i' (.state 2) 0 0 0 i j = 1 := fun i j =>
    C83_input _ _ _ _ _ _ h _ (by simp [edge]) (by simp [edge]) (by simp) (fun _ => rfl)
  have v3 : ∀ i j, i < 4 → j < 4 → value (flat false).G.S i' (.state 3) 0 0 0 i j = 0 := by
    intro i j hi hj
    rw [(C83_interpolated _ _ _ _ _ _ h 0 0 0 i j (by decide) (by decide) (by decide) hi hj).1 rfl]
    refine Finset.sum_eq_zero (fun l _ => ?_)
    show _ * (0 : ℝ) = 0
    ring
  have x0 : crossWind (flat false) i' 0 0 0 0 0 = 0 := by
    unfold crossWind
    rw [v0, v1, v3 0 0 (by decide) (by decide)]
    simp [place, flat, steep, slope]
  have a0 : ∀ i j, i < 4 → j < 4 → alphaWind (flat false) i' 0 0 0 i j = 1 := by
    intro i j hi hj
    unfold alphaWind
    rw [v0, v1, v3 i j hi hj]
    simp [place, flat]
  have k0 : ∀ j, j < 4 → kineticEnergy (flat false) i' 0 0 0 0 j = 1 / 2 := by
    intro j hj
    unfold kineticEnergy
    rw [a0 0 j (by decide) hj, v0, v1, v3 0 j (by decide) hj]
    norm_num
  have col : ∑ s ∈ Finset.range 4, (flat false).B.dx s 0 = 0 := cubic_paired.constant 0 (by decide)
  have con : ∀ (f : Nat → Nat → ℝ) (c : ℝ), (∀ s, s < 4 → f 0 s = c) → Nonhydro.slopeB (flat false) f 0 0 = 0 := by
    intro f c hf
    unfold Nonhydro.slopeB
    have : ∑ s ∈ Finset.range (flat false).G.S.order, f 0 s * (flat false).B.dx s 0 =
        ∑ s ∈ Finset.range 4, c * (flat false).B.dx s 0 :=
      Finset.sum_congr rfl (fun s hs => by rw [hf s (Finset.mem_range.1 hs)])
    rw [this, ← Finset.mul_sum, col, mul_zero, zero_div]
  rw [x0, a0 0 0 (by decide) (by decide), con _ (1 / 2) k0, con _ _ (fun s _ => v0 0 s), v2,
    con (fun i j => exnerFunction (flat false) (value (flat false).G.S i' (.state 2) 0 0 0 i j))
      (exnerFunction (flat false) 1) (fun s _ => by rw [v2])]
  have al : Nonhydro.slopeA (flat false) (value (flat false).G.S i' (.state 1) 0 0 0) 0 0 = 0 := by
    unfold Nonhydro.slopeA
    rw [Finset.sum_eq_zero (fun s _ => by rw [v1]; ring), zero_div]
  rw [al]
  simp [place, flat, steep, slope]

/-- **C130 (reference state fails).**  Uniform diffusion is to leave a state that is the reference state alone; with
another wind in instance zero, which the call neither reads from nor updates, it does not. -/
theorem C130_reference_false : ∃ (E : Dynamics) (D D' D0 : Nat → Data), E.A.G.S.order = 4 ∧ E.A.xz = false ∧
    (∀ x : Cell, x.v = .state 0 ∨ x.v = .state 1 → D 1 x = E.ref x) ∧ stepExplicit E 1 3 1 D = .done D' ∧
    stepExplicit (withoutDiffusion E) 1 3 1 D = .done D0 ∧
    value E.A.G.S (D' 3) (.state 0) 0 0 0 0 0 ≠ value E.A.G.S (D0 3) (.state 0) 0 0 0 0 0 := by
  obtain ⟨D', h⟩ := flat_step .shallow (by simp) true (fun n => if n = 0 then gust alone else fun _ => 0) 1 (by decide)
  obtain ⟨D0, h0⟩ := flat_step .shallow (by simp) false (fun n => if n = 0 then gust alone else fun _ => 0) 1 (by decide)
  refine ⟨flatDynamics .shallow true, _, D', D0, rfl, rfl, fun x _ => rfl, h, h0, ?_⟩
  obtain ⟨h4, hIU, q, u, D1, hq, hu, rfl⟩ := done_parts _ _ _ _ _ _ h
  obtain ⟨-, -, q0, u0, D10, hq0, hu0, rfl⟩ := done_parts _ _ _ _ _ _ h0
  rcases hq with ⟨h1, -⟩ | ⟨-, rfl, hu'⟩
  · cases h1
  rcases hq0 with ⟨h1, -⟩ | ⟨-, rfl, hu0'⟩
  · cases h1
  have euu : u0 = u := by rw [hu', hu0']; rfl
  have e10 : D10 3 = u := by
    unfold uniformDiffusion at hu0
    rw [if_neg (by simp [flatDynamics, flat, steep])] at hu0
    cases hu0
    rw [store_same, euu]
  unfold uniformDiffusion at hu
  rw [if_pos (show (flatDynamics .shallow true).A.uniform = true from rfl)] at hu
  dsimp only at hu
  rw [if_neg (by simp [flatDynamics])] at hu
  have s0 : vectorSource (some 1) = 1 := rfl
  have s1 : vectorSource none = 0 := rfl
  rw [applyVector_eq _ h4] at hu
  simp only [Option.some.injEq, s0, s1, store_self, store_twice, store_same, store_other _ _ _ _ (show (0:Nat) ≠ 3 by decide),
    store_other _ _ _ _ (show (1:Nat) ≠ 3 by decide)] at hu
  have hf : ∀ (area : Nat → Nat → Nat → ℝ) (w : Data), value (flatDynamics .shallow true).A.G.S
      (filterTracers (flatDynamics .shallow true).A.G.S area w) (.state 0) 0 0 0 0 0 =
      value (flatDynamics .shallow true).A.G.S w (.state 0) 0 0 0 0 0 := fun area w => filter_state _ _ _ _ 0 rfl
  rw [store_same, store_same, hf, show (flatDynamics .shallow false).A.G.S = (flatDynamics .shallow true).A.G.S from rfl,
    hf, e10, ← hu, store_same]
  have c1 := (vector_change (flatDynamics .shallow true).medium false (fun _ => 0) 1 (-1) (-1) false u 0 0 0 0 0
    (by decide) (by decide) (by decide) (by decide) (by decide)).1
  have c2 := (vector_change (flatDynamics .shallow true).medium false (gust alone) 1 1 1 false
    (Horiz.applyVector (flatDynamics .shallow true).medium false (fun _ => 0) 1 (-1) (-1) false u) 0 0 0 0 0
    (by decide) (by decide) (by decide) (by decide) (by decide)).1
  simp only [flowChange, change] at c1 c2
  have z1 : vectorUa (flatDynamics .shallow true).medium (fun _ => 0) 0 0 0
      ((flatDynamics .shallow true).medium.localNu (-1) false) ((flatDynamics .shallow true).medium.localNu (-1) false) 0 0
      = 0 := by
    simp [vectorUa, weakA, weakB, divergence, vorticity, derivA, derivB, Horiz.conUa, Horiz.conUb, Horiz.read,
      Dynamics.medium, flatDynamics, flat, steep, slope, loop_succ, loop_zero, cubic, cubicDx, cubicW]
  have z2 : vectorUa (flatDynamics .shallow true).medium (gust alone) 0 0 0
      ((flatDynamics .shallow true).medium.localNu 1 false) ((flatDynamics .shallow true).medium.localNu 1 false) 0 0
      ≠ 0 := by
    simp [vectorUa, weakA, weakB, divergence, vorticity, derivA, derivB, Horiz.conUa, Horiz.conUb, Horiz.read,
      Dynamics.medium, flatDynamics, flat, steep, slope, loop_succ, loop_zero, gust, alone, Shape.at, cubic, cubicDx, cubicW,
      Medium.localNu]
    norm_num
  rw [z1] at c1
  intro e
  apply z2
  change value (flatDynamics .shallow true).A.G.S _ _ 0 0 0 0 0 - value (flatDynamics .shallow true).A.G.S _ _ 0 0 0 0 0
    = _ at c1
  change value (flatDynamics .shallow true).A.G.S _ _ 0 0 0 0 0 - value (flatDynamics .shallow true).A.G.S _ _ 0 0 0 0 0
    = _ at c2
  change value (flatDynamics .shallow true).A.G.S (Horiz.applyVector (flatDynamics .shallow true).medium false
    (gust alone) 1 1 1 false (Horiz.applyVector (flatDynamics .shallow true).medium false (fun _ => 0) 1 (-1) (-1) false u))
    _ 0 0 0 0 0 = _ at e
  linarith

/-- The theorems on calls that finish apply: on a moving state over the slope, with uniform diffusion. -/
example : ∃ D' D0, stepExplicit (steepDynamics .primitive true) 0 3 (1 / 100) sampleData = .done D' ∧
    stepExplicit (withoutDiffusion (steepDynamics .primitive true)) 0 3 (1 / 100) sampleData = .done D0 ∧
    value (steep true).G.S (D' 3) (.state 1) 1 0 1 2 3 = value (steep true).G.S (D0 3) (.state 1) 1 0 1 2 3 ∧
    value (steep true).G.S (D' 3) (.tracer 0) 1 0 1 2 3 = value (steep true).G.S moving (.tracer 0) 1 0 1 2 3 ∧
    D' 0 ⟨.state 4, 6, 2, 1⟩ = moving ⟨.state 4, 6, 2, 1⟩ ∧ D0 3 ⟨.state 3, 6, 2, 1⟩ = moving ⟨.state 3, 6, 2, 1⟩ := by
  obtain ⟨D', h⟩ := (C129_refused (steepDynamics .primitive true) 0 3 (1 / 100) sampleData).2.2 ⟨rfl, by decide, by
    simp [steepDynamics]⟩
  obtain ⟨D0, h0⟩ := (C129_refused (withoutDiffusion (steepDynamics .primitive true)) 0 3 (1 / 100) sampleData).2.2
    ⟨rfl, by decide, by simp [steepDynamics, withoutDiffusion]⟩
  refine ⟨D', D0, h, h0, ?_, ?_, ?_, ?_⟩
  · exact C130_wind _ _ _ _ _ _ h rfl D0 h0 _ (Or.inr rfl) 1 0 1 2 3 (by decide) (by decide) (by decide) (by decide)
      (by decide)
  · refine C130_still _ _ _ _ _ _ h 0 1 0 1 (by decide) (by decide) (by decide) (by decide) (fun _ _ _ _ => one_pos)
      (fun i j _ _ => ?_) 2 3 (by decide) (by decide)
    simp only [value, sampleData, moving]
    positivity
  · exact (C130_instances _ _ _ _ _ _ h).2.2 _ (by simp)
  · exact C130_levels _ _ _ _ _ _ h0 rfl _ rfl

end Verif.HorizV2
