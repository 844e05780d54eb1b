import Verif.Horiz.PartsLemmas

/-!
# C74: the shallow water step
-/

namespace Verif.Horiz

open Verif.Interp

theorem area_at' (S : Shape) (area : Nat → Nat → Nat → ℝ) (a b k i j : Nat) :
    area (S.halo + a * S.order + i) (S.halo + b * S.order + j) k = area (S.at a i) (S.at b j) k := by
  unfold Shape.at
  congr 1 <;> omega

theorem at_mod (S : Shape) (a i : Nat) (hi : i < S.order) : (S.at a i - S.halo) % S.order = i := by
  unfold Shape.at
  rw [Nat.add_sub_cancel, Nat.add_comm, Nat.add_mul_mod_self_right, Nat.mod_eq_of_lt hi]

theorem nodeArea_at (G : Geometry) (w level : Nat → ℝ) (a b k i j : Nat) (hi : i < G.S.order) (hj : j < G.S.order) :
    nodeArea G w level (G.S.at a i) (G.S.at b j) k =
      G.jac (G.S.at a i) (G.S.at b j) * w i * G.deltaA * w j * G.deltaB * level k := by
  unfold nodeArea
  rw [at_mod G.S a i hi, at_mod G.S b j hj]

theorem mass_quad (G : Geometry) (w level : Nat → ℝ) (u : Data) (v : Var) (a b k : Nat) :
    elementMass G.S (nodeArea G w level) u v a b k =
      G.deltaA * G.deltaB * level k * quad G.S.order w (fun i j =>
        G.jac (G.S.at a i) (G.S.at b j) * value G.S u v a b k i j) := by
  unfold elementMass quad
  rw [Finset.mul_sum]
  refine Finset.sum_congr rfl (fun i hi => ?_)
  rw [Finset.mul_sum]
  refine Finset.sum_congr rfl (fun j hj => ?_)
  rw [area_at' G.S (nodeArea G w level), nodeArea_at G w level a b k i j (Finset.mem_range.1 hi) (Finset.mem_range.1 hj)]
  ring

/-- The Jacobian vanishes at no node of the element. -/
def Regular (G : Geometry) (a b : Nat) : Prop :=
  ∀ i j, i < G.S.order → j < G.S.order →
    G.jac (G.S.halo + a * G.S.order + i) (G.S.halo + b * G.S.order + j) ≠ 0

theorem Regular.at {G : Geometry} {a b : Nat} (h : Regular G a b) (i j : Nat) (hi : i < G.S.order)
    (hj : j < G.S.order) : G.jac (G.S.at a i) (G.S.at b j) ≠ 0 := by
  have := h i j hi hj
  rw [area_at' G.S (fun x y _ => G.jac x y) a b 0 i j] at this
  exact this

section

variable (G : Geometry) (B : Basis) (ω : Nat → ℝ) (h : Paired G.S.order B ω) (level : Nat → ℝ) (init : Data) (dt : ℝ)
  (u : Data) (a b k : Nat) (ha : a < G.S.elemA) (hb : b < G.S.elemB) (hk : k < G.S.levels)

include h ha hb hk

theorem conserved (hr : Regular G a b) (v : Var) (f g : Nat → Nat → ℝ)
    (ht : ∀ i j, tendency G B init a b k i j v =
      -(1 / G.jac (G.S.at a i) (G.S.at b j) * (weakA G B f i j + weakB G B g i j))) :
    elementMass G.S (nodeArea G ω level) (stepShallowWater G B init dt u) v a b k =
      elementMass G.S (nodeArea G ω level) u v a b k := by
  rw [mass_quad, mass_quad]
  congr 1
  have e : quad G.S.order ω (fun i j => G.jac (G.S.at a i) (G.S.at b j) *
      value G.S (stepShallowWater G B init dt u) v a b k i j) =
      quad G.S.order ω (fun i j => G.jac (G.S.at a i) (G.S.at b j) * value G.S u v a b k i j) +
        -dt * quad G.S.order ω (fun i j => weakA G B f i j + weakB G B g i j) := by
    rw [← quad_mul, ← quad_add]
    refine quad_congr _ _ _ _ (fun i j hi hj => ?_)
    rw [step_value G B init dt u v a b k i j ha hb hk hi hj, ht]
    have := hr.at i j hi hj
    field_simp
  rw [e, weak_integral G B ω h, mul_zero, add_zero]

/-- **C74 (mass).**  A shallow water step of any length from any state leaves the mass of fluid in every element at
every level as it was in the array it updates, whatever the velocities and the topography. -/
theorem C74_mass (hr : Regular G a b) :
    elementMass G.S (nodeArea G ω level) (stepShallowWater G B init dt u) (.state 2) a b k =
      elementMass G.S (nodeArea G ω level) u (.state 2) a b k :=
  conserved G B ω h level init dt u a b k ha hb hk hr _ _ _ (fun _ _ => rfl)

/-- **C74 (tracer mass).**  The same holds for every tracer. -/
theorem C74_tracer (hr : Regular G a b) (c : Nat) (hc : c < G.S.tracers) :
    elementMass G.S (nodeArea G ω level) (stepShallowWater G B init dt u) (.tracer c) a b k =
      elementMass G.S (nodeArea G ω level) u (.tracer c) a b k :=
  conserved G B ω h level init dt u a b k ha hb hk hr _ _ _ (fun i j => by rw [tendency, if_pos hc])

/-- **C74 (lake at rest).**  Fluid at rest with a level surface stays at rest with that surface, exactly, over any
topography; tracers stay where they are. -/
theorem C74_lake (H : ℝ)
    (h0 : ∀ i j, i < G.S.order → j < G.S.order → value G.S init (.state 0) a b k i j = 0 ∧
      value G.S init (.state 1) a b k i j = 0 ∧ value G.S init (.state 2) a b k i j = H)
    (v : Var) (i j : Nat) (hi : i < G.S.order) (hj : j < G.S.order) :
    value G.S (stepShallowWater G B init dt u) v a b k i j = value G.S u v a b k i j := by
  rw [step_value G B init dt u v a b k i j ha hb hk hi hj]
  have r0 : ∀ i j, i < G.S.order → j < G.S.order → read G init a b k 0 i j = 0 := fun i j hi hj =>
    (value_at _ _ _ _ _ _ _ _).symm.trans (h0 i j hi hj).1
  have r1 : ∀ i j, i < G.S.order → j < G.S.order → read G init a b k 1 i j = 0 := fun i j hi hj =>
    (value_at _ _ _ _ _ _ _ _).symm.trans (h0 i j hi hj).2.1
  have r2 : ∀ i j, i < G.S.order → j < G.S.order → read G init a b k 2 i j = H := fun i j hi hj =>
    (value_at _ _ _ _ _ _ _ _).symm.trans (h0 i j hi hj).2.2
  have ca : ∀ i j, i < G.S.order → j < G.S.order → conUa G init a b k i j = 0 := fun i j hi hj => by
    rw [conUa, r0 i j hi hj, r1 i j hi hj]; ring
  have cb : ∀ i j, i < G.S.order → j < G.S.order → conUb G init a b k i j = 0 := fun i j hi hj => by
    rw [conUb, r0 i j hi hj, r1 i j hi hj]; ring
  have ce : ∀ i j, i < G.S.order → j < G.S.order → energyHead G init a b k i j = G.g * H := fun i j hi hj => by
    rw [energyHead, r0 i j hi hj, r1 i j hi hj, r2 i j hi hj]; ring
  have wA : ∀ f : Nat → Nat → ℝ, (∀ s, s < G.S.order → f s j = 0) → weakA G B f i j = 0 := fun f hf => by
    rw [weakA_sum, Finset.sum_eq_zero (fun s hs => by rw [hf s (Finset.mem_range.1 hs), zero_mul])]; ring
  have wB : ∀ f : Nat → Nat → ℝ, (∀ s, s < G.S.order → f i s = 0) → weakB G B f i j = 0 := fun f hf => by
    rw [weakB_sum, Finset.sum_eq_zero (fun s hs => by rw [hf s (Finset.mem_range.1 hs), zero_mul])]; ring
  have key : tendency G B init a b k i j v = 0 := by
    match v with
    | .state 0 =>
      rw [tendency, updateUa, cb i j hi hj, derivA_const G B ω h _ (G.g * H) i j hi (fun s hs => ce s j hs hj)]
      ring
    | .state 1 =>
      rw [tendency, updateUb, ca i j hi hj, derivB_const G B ω h _ (G.g * H) i j hj (fun s hs => ce i s hi hs)]
      ring
    | .state 2 =>
      rw [tendency, wA _ (fun s hs => by rw [massFluxA, ca s j hs hj]; ring),
        wB _ (fun s hs => by rw [massFluxB, cb i s hi hs]; ring)]
      ring
    | .state (_ + 3) => rfl
    | .tracer c =>
      rw [tendency, wA _ (fun s hs => by rw [tracerFluxA, ca s j hs hj]; ring),
        wB _ (fun s hs => by rw [tracerFluxB, cb i s hi hs]; ring)]
      split <;> ring
  rw [key, mul_zero, add_zero]

end

section

variable (G : Geometry) (B : Basis) (init : Data) (dt : ℝ) (u : Data) (a b k : Nat) (ha : a < G.S.elemA)
  (hb : b < G.S.elemB) (hk : k < G.S.levels)

include ha hb hk

/-- **C74 (tracers follow the fluid).**  If a tracer is a fixed multiple of the depth of the fluid in an element, what
the step adds to the tracer is that multiple of what it adds to the height. -/
theorem C74_consistent (c : Nat) (hc : c < G.S.tracers) (r : ℝ)
    (h0 : ∀ i j, i < G.S.order → j < G.S.order → value G.S init (.tracer c) a b k i j =
      r * (value G.S init (.state 2) a b k i j -
        G.topo (G.S.halo + a * G.S.order + i) (G.S.halo + b * G.S.order + j)))
    (i j : Nat) (hi : i < G.S.order) (hj : j < G.S.order) :
    value G.S (stepShallowWater G B init dt u) (.tracer c) a b k i j - value G.S u (.tracer c) a b k i j =
      r * (value G.S (stepShallowWater G B init dt u) (.state 2) a b k i j - value G.S u (.state 2) a b k i j) := by
  rw [step_value G B init dt u _ a b k i j ha hb hk hi hj, step_value G B init dt u _ a b k i j ha hb hk hi hj]
  have h1 : ∀ i j, i < G.S.order → j < G.S.order → init ⟨.tracer c, G.S.at a i, G.S.at b j, k⟩ =
      r * (read G init a b k 2 i j - G.topo (G.S.at a i) (G.S.at b j)) := fun i j hi hj => by
    have := h0 i j hi hj
    rw [value_at, value_at, area_at' G.S (fun x y _ => G.topo x y) a b 0 i j] at this
    exact this
  have fA : weakA G B (tracerFluxA G init a b k c) i j = r * weakA G B (massFluxA G init a b k) i j := by
    rw [weakA_sum, weakA_sum, Finset.sum_congr rfl (fun s hs => by
      rw [show tracerFluxA G init a b k c s j * B.stiff i s = r * (massFluxA G init a b k s j * B.stiff i s) by
        rw [tracerFluxA, massFluxA, h1 s j (Finset.mem_range.1 hs) hj]; ring]), ← Finset.mul_sum]
    ring
  have fB : weakB G B (tracerFluxB G init a b k c) i j = r * weakB G B (massFluxB G init a b k) i j := by
    rw [weakB_sum, weakB_sum, Finset.sum_congr rfl (fun s hs => by
      rw [show tracerFluxB G init a b k c i s * B.stiff j s = r * (massFluxB G init a b k i s * B.stiff j s) by
        rw [tracerFluxB, massFluxB, h1 i s hi (Finset.mem_range.1 hs)]; ring]), ← Finset.mul_sum]
    ring
  rw [tendency, tendency, if_pos hc, fA, fB]
  ring

end

/-- The energy of the fluid in an element: area times half the depth times the squared speed, plus half of gravity times
the squared height (the part below the topography is a constant left out). -/
noncomputable def energy (G : Geometry) (ω level : Nat → ℝ) (u : Data) (a b k : Nat) : ℝ :=
  ∑ i ∈ Finset.range G.S.order, ∑ j ∈ Finset.range G.S.order,
    nodeArea G ω level (G.S.halo + a * G.S.order + i) (G.S.halo + b * G.S.order + j) k *
      (1 / 2 * (value G.S u (.state 2) a b k i j - G.topo (G.S.halo + a * G.S.order + i) (G.S.halo + b * G.S.order + j)) *
        (G.metA (G.S.halo + a * G.S.order + i) (G.S.halo + b * G.S.order + j) 0 * value G.S u (.state 0) a b k i j ^ 2 +
          2 * G.metA (G.S.halo + a * G.S.order + i) (G.S.halo + b * G.S.order + j) 1 *
            value G.S u (.state 0) a b k i j * value G.S u (.state 1) a b k i j +
          G.metB (G.S.halo + a * G.S.order + i) (G.S.halo + b * G.S.order + j) 1 * value G.S u (.state 1) a b k i j ^ 2) +
        1 / 2 * G.g * value G.S u (.state 2) a b k i j ^ 2)

theorem energy_quad (G : Geometry) (ω level : Nat → ℝ) (u : Data) (a b k : Nat) :
    energy G ω level u a b k = G.deltaA * G.deltaB * level k * quad G.S.order ω (fun i j =>
      G.jac (G.S.at a i) (G.S.at b j) *
      (1 / 2 * (value G.S u (.state 2) a b k i j - G.topo (G.S.at a i) (G.S.at b j)) *
        (G.metA (G.S.at a i) (G.S.at b j) 0 * value G.S u (.state 0) a b k i j ^ 2 +
          2 * G.metA (G.S.at a i) (G.S.at b j) 1 * value G.S u (.state 0) a b k i j * value G.S u (.state 1) a b k i j +
          G.metB (G.S.at a i) (G.S.at b j) 1 * value G.S u (.state 1) a b k i j ^ 2) +
        1 / 2 * G.g * value G.S u (.state 2) a b k i j ^ 2)) := by
  unfold energy quad
  rw [Finset.mul_sum]
  refine Finset.sum_congr rfl (fun i hi => ?_)
  rw [Finset.mul_sum]
  refine Finset.sum_congr rfl (fun j hj => ?_)
  rw [area_at' G.S (nodeArea G ω level), nodeArea_at G ω level a b k i j (Finset.mem_range.1 hi) (Finset.mem_range.1 hj),
    area_at' G.S (fun x y _ => G.topo x y) a b 0 i j, area_at' G.S (fun x y _ => G.metA x y 0) a b 0 i j,
    area_at' G.S (fun x y _ => G.metA x y 1) a b 0 i j, area_at' G.S (fun x y _ => G.metB x y 1) a b 0 i j]
  ring

/-- The metric is symmetric on the element. -/
def Symmetric (G : Geometry) (a b : Nat) : Prop :=
  ∀ i j, i < G.S.order → j < G.S.order →
    G.metA (G.S.halo + a * G.S.order + i) (G.S.halo + b * G.S.order + j) 1 =
      G.metB (G.S.halo + a * G.S.order + i) (G.S.halo + b * G.S.order + j) 0

/-- **C74 (energy).**  A step added to a state changes the energy of an element only at second order in the length of the
step: the discretisation in space neither makes nor destroys energy, with any topography, metric and rotation. -/
theorem C74_energy (G : Geometry) (B : Basis) (ω : Nat → ℝ) (h : Paired G.S.order B ω) (level : Nat → ℝ) (u : Data)
    (a b k : Nat) (ha : a < G.S.elemA) (hb : b < G.S.elemB) (hk : k < G.S.levels) (hr : Regular G a b)
    (hs : Symmetric G a b) : ∃ e₂ e₃ : ℝ, ∀ dt : ℝ,
      energy G ω level (stepShallowWater G B u dt u) a b k = energy G ω level u a b k + dt ^ 2 * e₂ + dt ^ 3 * e₃ := by
  let J := fun i j => G.jac (G.S.at a i) (G.S.at b j)
  let z := fun i j => G.topo (G.S.at a i) (G.S.at b j)
  let m0 := fun i j => G.metA (G.S.at a i) (G.S.at b j) 0
  let m1 := fun i j => G.metA (G.S.at a i) (G.S.at b j) 1
  let m2 := fun i j => G.metB (G.S.at a i) (G.S.at b j) 1
  let U := fun i j => value G.S u (.state 0) a b k i j
  let V := fun i j => value G.S u (.state 1) a b k i j
  let H := fun i j => value G.S u (.state 2) a b k i j
  let p := fun i j => tendency G B u a b k i j (.state 0)
  let q := fun i j => tendency G B u a b k i j (.state 1)
  let e := fun i j => tendency G B u a b k i j (.state 2)
  have hm : ∀ i j, i < G.S.order → j < G.S.order → G.metB (G.S.at a i) (G.S.at b j) 0 = m1 i j := by
    intro i j hi hj
    have := hs i j hi hj
    rw [area_at' G.S (fun x y _ => G.metA x y 1) a b 0 i j, area_at' G.S (fun x y _ => G.metB x y 0) a b 0 i j] at this
    exact this.symm
  -- the part of first order
  have first : quad G.S.order ω (fun i j => J i j * ((H i j - z i j) *
      (conUa G u a b k i j * p i j + conUb G u a b k i j * q i j) + energyHead G u a b k i j * e i j)) = 0 := by
    have e1 : quad G.S.order ω (fun i j => J i j * ((H i j - z i j) *
        (conUa G u a b k i j * p i j + conUb G u a b k i j * q i j) + energyHead G u a b k i j * e i j)) =
        -(quad G.S.order ω (fun i j => massFluxA G u a b k i j * derivA G B (energyHead G u a b k) i j) +
          quad G.S.order ω (fun i j => massFluxB G u a b k i j * derivB G B (energyHead G u a b k) i j) +
          (quad G.S.order ω (fun i j => energyHead G u a b k i j * weakA G B (massFluxA G u a b k) i j) +
          quad G.S.order ω (fun i j => energyHead G u a b k i j * weakB G B (massFluxB G u a b k) i j))) := by
      rw [← quad_add, ← quad_add, ← quad_add, ← quad_neg]
      refine quad_congr _ _ _ _ (fun i j hi hj => ?_)
      have hJ := hr.at i j hi hj
      have hH : H i j = read G u a b k 2 i j := value_at _ _ _ _ _ _ _ _
      simp only [J, z, p, q, e, tendency, updateUa, updateUb]
      rw [hH, massFluxA, massFluxB]
      field_simp
      ring
    rw [e1, parts_A G B ω h, parts_B G B ω h]
    ring
  refine ⟨G.deltaA * G.deltaB * level k * quad G.S.order ω (fun i j => J i j *
      (1 / 2 * (H i j - z i j) * (m0 i j * p i j ^ 2 + 2 * m1 i j * p i j * q i j + m2 i j * q i j ^ 2) +
        1 / 2 * e i j * (2 * m0 i j * U i j * p i j + 2 * m1 i j * (U i j * q i j + V i j * p i j) +
          2 * m2 i j * V i j * q i j) + 1 / 2 * G.g * e i j ^ 2)),
    G.deltaA * G.deltaB * level k * quad G.S.order ω (fun i j => J i j *
      (1 / 2 * e i j * (m0 i j * p i j ^ 2 + 2 * m1 i j * p i j * q i j + m2 i j * q i j ^ 2))), fun dt => ?_⟩
  rw [energy_quad, energy_quad]
  have e2 : quad G.S.order ω (fun i j => J i j *
      (1 / 2 * (value G.S (stepShallowWater G B u dt u) (.state 2) a b k i j - z i j) *
        (m0 i j * value G.S (stepShallowWater G B u dt u) (.state 0) a b k i j ^ 2 +
          2 * m1 i j * value G.S (stepShallowWater G B u dt u) (.state 0) a b k i j *
            value G.S (stepShallowWater G B u dt u) (.state 1) a b k i j +
          m2 i j * value G.S (stepShallowWater G B u dt u) (.state 1) a b k i j ^ 2) +
        1 / 2 * G.g * value G.S (stepShallowWater G B u dt u) (.state 2) a b k i j ^ 2)) =
      quad G.S.order ω (fun i j => J i j * (1 / 2 * (H i j - z i j) *
        (m0 i j * U i j ^ 2 + 2 * m1 i j * U i j * V i j + m2 i j * V i j ^ 2) + 1 / 2 * G.g * H i j ^ 2)) +
      dt * quad G.S.order ω (fun i j => J i j * ((H i j - z i j) *
        (conUa G u a b k i j * p i j + conUb G u a b k i j * q i j) + energyHead G u a b k i j * e i j)) +
      dt ^ 2 * quad G.S.order ω (fun i j => J i j *
      (1 / 2 * (H i j - z i j) * (m0 i j * p i j ^ 2 + 2 * m1 i j * p i j * q i j + m2 i j * q i j ^ 2) +
        1 / 2 * e i j * (2 * m0 i j * U i j * p i j + 2 * m1 i j * (U i j * q i j + V i j * p i j) +
          2 * m2 i j * V i j * q i j) + 1 / 2 * G.g * e i j ^ 2)) +
      dt ^ 3 * quad G.S.order ω (fun i j => J i j *
      (1 / 2 * e i j * (m0 i j * p i j ^ 2 + 2 * m1 i j * p i j * q i j + m2 i j * q i j ^ 2))) := by
    rw [← quad_mul, ← quad_mul, ← quad_mul, ← quad_add, ← quad_add, ← quad_add]
    refine quad_congr _ _ _ _ (fun i j hi hj => ?_)
    rw [step_value G B u dt u _ a b k i j ha hb hk hi hj, step_value G B u dt u _ a b k i j ha hb hk hi hj,
      step_value G B u dt u _ a b k i j ha hb hk hi hj]
    have c1 : conUa G u a b k i j = m0 i j * U i j + m1 i j * V i j := by
      simp only [conUa, m0, m1, U, V, read, value_at]
    have c2 : conUb G u a b k i j = m1 i j * U i j + m2 i j * V i j := by
      rw [conUb, hm i j hi hj]
      simp only [m2, U, V, read, value_at]
    have c3 : energyHead G u a b k i j = 1 / 2 * (conUa G u a b k i j * U i j + conUb G u a b k i j * V i j) +
        G.g * H i j := by
      simp only [energyHead, U, V, H, read, value_at]
      norm_num
    rw [c3, c1, c2]
    simp only [p, q, e, U, V, H]
    ring
  have e3 := congrArg (fun t => G.deltaA * G.deltaB * level k * t) e2
  simp only [J, z, m0, m1, m2, U, V, H] at e3 first ⊢
  rw [e3, first]
  ring

end Verif.Horiz
