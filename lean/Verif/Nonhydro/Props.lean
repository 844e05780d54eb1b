import Verif.Horiz.PartsLemmas
import Verif.Nonhydro.Prepare

/-!
# C83: the horizontal step of the nonhydrostatic equations
-/

namespace Verif.Nonhydro

open Verif.Horiz

section

variable (A : Air) (init : Data) (dt : ℝ) (u i' u' : Data) (h : stepNonhydro A init dt u = some (i', u'))

theorem place_at (f : Nat → Nat → ℝ) (a b i j : Nat) : place A f a b i j = f (A.G.S.at a i) (A.G.S.at b j) := by
  unfold place Shape.at
  congr 1 <;> omega

theorem volume_at (w level : Nat → ℝ) (a b k i j : Nat) (hi : i < A.G.S.order) (hj : j < A.G.S.order) :
    volume A w level (A.G.S.at a i) (A.G.S.at b j) k =
      A.jac (A.G.S.at a i) (A.G.S.at b j) k * w i * A.G.deltaA * w j * A.G.deltaB * level k := by
  unfold volume
  rw [at_mod A.G.S a i hi, at_mod A.G.S b j hj]

theorem over_quad (w level : Nat → ℝ) (a b k : Nat) (f : Nat → Nat → ℝ) :
    overElement A w level a b k f = A.G.deltaA * A.G.deltaB * level k *
      quad A.G.S.order w (fun i j => A.jac (A.G.S.at a i) (A.G.S.at b j) k * f i j) := by
  unfold overElement quad
  rw [Finset.mul_sum]
  refine Finset.sum_congr rfl (fun i hi => ?_)
  rw [Finset.mul_sum]
  refine Finset.sum_congr rfl (fun j hj => ?_)
  rw [area_at' A.G.S (volume A w level), volume_at A w level a b k i j (Finset.mem_range.1 hi) (Finset.mem_range.1 hj)]
  ring

theorem Regular.at {A : Air} {a b k : Nat} (h : Regular A a b k) (i j : Nat) (hi : i < A.G.S.order)
    (hj : j < A.G.S.order) : A.jac (A.G.S.at a i) (A.G.S.at b j) k ≠ 0 := by
  have := h i j hi hj
  rw [place_at] at this
  exact this

include h

theorem prepared : i' = prepare A init := by
  unfold stepNonhydro at h
  split at h
  · exact absurd h (by simp)
  · simp only [Option.some.injEq, Prod.mk.injEq] at h
    exact h.1.symm

/-- **C83 (input).**  The step leaves every variable of the state it starts from as it was where the variable lives: it
changes nothing but velocities on interfaces, vertical velocity on levels if that lives on interfaces, and density times
potential temperature on levels if that lives on interfaces. -/
theorem C83_input (x : Cell) (h0 : x.v ≠ edge 0) (h1 : x.v ≠ edge 1) (h3 : x.v = .state 3 → A.wOnEdge = false)
    (h2 : x.v = .state 2 → A.pOnEdge = false) : i' x = init x := by
  rw [prepared A init dt u i' u' h, prepare_same A init x h0 h1 h3 h2]

section

variable (a b k i j : Nat) (ha : a < A.G.S.elemA) (hb : b < A.G.S.elemB) (hk : k < A.G.S.levels) (hi : i < A.G.S.order)
  (hj : j < A.G.S.order)

include ha hb hk hi hj

/-- **C83 (interpolated input).**  Those are the values interpolated from interfaces. -/
theorem C83_interpolated :
    (A.wOnEdge = true → value A.G.S i' (.state 3) a b k i j = atLevel A init (edge 3) a b k i j) ∧
      (A.pOnEdge = true → value A.G.S i' (.state 2) a b k i j = atLevel A init (edge 2) a b k i j) := by
  unfold atLevel
  simp only [value_at]
  rw [prepared A init dt u i' u' h]
  exact ⟨fun hw => prepare_w A init a b i j k ha hb hi hj hw hk, fun hp => prepare_p A init a b i j k ha hb hi hj hp hk⟩

end

theorem conserved (ω : Nat → ℝ) (hp : Paired A.G.S.order A.B ω) (level : Nat → ℝ) (a b k : Nat) (ha : a < A.G.S.elemA)
    (hb : b < A.G.S.elemB) (hk : k < A.G.S.levels) (hr : Regular A a b k) (v : Var) (hv : v ≠ edge 3)
    (f g : Nat → Nat → ℝ) (ht : ∀ i j, tend A i' a b k i j v =
      -(1 / A.jac (A.G.S.at a i) (A.G.S.at b j) k * (weakA A.G A.B f i j + weakB A.G A.B g i j))) :
    overElement A ω level a b k (value A.G.S u' v a b k) = overElement A ω level a b k (value A.G.S u v a b k) := by
  rw [over_quad, over_quad]
  congr 1
  have e : quad A.G.S.order ω (fun i j => A.jac (A.G.S.at a i) (A.G.S.at b j) k * value A.G.S u' v a b k i j) =
      quad A.G.S.order ω (fun i j => A.jac (A.G.S.at a i) (A.G.S.at b j) k * value A.G.S u v a b k i j) +
        -dt * quad A.G.S.order ω (fun i j => weakA A.G A.B f i j + weakB A.G A.B g i j) := by
    rw [← quad_mul, ← quad_add]
    refine quad_congr _ _ _ _ (fun i j hi hj => ?_)
    rw [step_value A init dt u i' u' h v hv a b k i j ha hb hk hi hj, ht]
    have := hr.at i j hi hj
    field_simp
  rw [e, weak_integral A.G A.B ω hp, mul_zero, add_zero]

section

variable (ω : Nat → ℝ) (hp : Paired A.G.S.order A.B ω) (level : Nat → ℝ) (a b k : Nat) (ha : a < A.G.S.elemA)
  (hb : b < A.G.S.elemB) (hk : k < A.G.S.levels)

include hp ha hb hk

/-- **C83 (mass).**  A step of any length from any state leaves the mass of air in every element at every level as it was
in the state it is added to. -/
theorem C83_mass (hr : Regular A a b k) : overElement A ω level a b k (value A.G.S u' (.state 4) a b k) =
    overElement A ω level a b k (value A.G.S u (.state 4) a b k) :=
  conserved A init dt u i' u' h ω hp level a b k ha hb hk hr _ (by simp [edge]) _ _ (fun _ _ => rfl)

/-- **C83 (potential temperature).**  The same holds for density times potential temperature on levels. -/
theorem C83_theta (hr : Regular A a b k) : overElement A ω level a b k (value A.G.S u' (.state 2) a b k) =
    overElement A ω level a b k (value A.G.S u (.state 2) a b k) :=
  conserved A init dt u i' u' h ω hp level a b k ha hb hk hr _ (by simp [edge]) _ _ (fun _ _ => rfl)

/-- **C83 (tracer mass).**  The same holds for every tracer, with and without uniform diffusion. -/
theorem C83_tracer (hr : Regular A a b k) (c : Nat) (hc : c < A.G.S.tracers) :
    overElement A ω level a b k (value A.G.S u' (.tracer c) a b k) =
      overElement A ω level a b k (value A.G.S u (.tracer c) a b k) :=
  conserved A init dt u i' u' h ω hp level a b k ha hb hk hr _ (by simp [edge]) _ _ (fun i j => by
    rw [tend, if_pos hc])

/-- **C83 (tracers follow the air).**  If a tracer is a fixed multiple of the density in an element, what the step adds to
the tracer is that multiple of what it adds to the density, with and without uniform diffusion. -/
theorem C83_consistent (c : Nat) (hc : c < A.G.S.tracers) (r : ℝ)
    (h0 : ∀ i j, i < A.G.S.order → j < A.G.S.order → value A.G.S init (.state 4) a b k i j ≠ 0 ∧
      value A.G.S init (.tracer c) a b k i j = r * value A.G.S init (.state 4) a b k i j)
    (i j : Nat) (hi : i < A.G.S.order) (hj : j < A.G.S.order) :
    value A.G.S u' (.tracer c) a b k i j - value A.G.S u (.tracer c) a b k i j =
      r * (value A.G.S u' (.state 4) a b k i j - value A.G.S u (.state 4) a b k i j) := by
  rw [step_value A init dt u i' u' h _ (by simp [edge]) a b k i j ha hb hk hi hj,
    step_value A init dt u i' u' h _ (by simp [edge]) a b k i j ha hb hk hi hj]
  have s4 : ∀ x : Cell, x.v = .state 4 → i' x = init x := fun x hx =>
    C83_input A init dt u i' u' h x (by simp [hx, edge]) (by simp [hx, edge]) (by simp [hx]) (by simp [hx])
  have st : ∀ x : Cell, x.v = .tracer c → i' x = init x := fun x hx =>
    C83_input A init dt u i' u' h x (by simp [hx, edge]) (by simp [hx, edge]) (by simp [hx]) (by simp [hx])
  have h1 : ∀ i j, i < A.G.S.order → j < A.G.S.order → i' ⟨.tracer c, A.G.S.at a i, A.G.S.at b j, k⟩ =
      r * i' ⟨.state 4, A.G.S.at a i, A.G.S.at b j, k⟩ := fun i j hi hj => by
    have hh := h0 i j hi hj
    rw [value_at, value_at] at hh
    rw [st _ rfl, s4 _ rfl]
    exact hh.2
  have hn : ∀ i j, i < A.G.S.order → j < A.G.S.order → i' ⟨.state 4, A.G.S.at a i, A.G.S.at b j, k⟩ ≠ 0 :=
    fun i j hi hj => by
      have hh := h0 i j hi hj
      rw [value_at, value_at] at hh
      rw [s4 _ rfl]
      exact hh.1
  have hq : ∀ i j, i < A.G.S.order → j < A.G.S.order → ratio A i' a b k c i j = r := fun i j hi hj => by
    unfold ratio Horiz.read
    rw [h1 i j hi hj, mul_div_assoc, div_self (hn i j hi hj), mul_one]
  have tA : ∀ s j, s < A.G.S.order → j < A.G.S.order →
      tracerFluxA A i' a b k c s j = r * fluxA A i' a b k (.state 4) s j := fun s j hs hj => by
    unfold tracerFluxA
    rw [derivA_const A.G A.B ω hp _ r s j hs (fun t ht => hq t j ht hj),
      derivB_const A.G A.B ω hp _ r s j hj (fun t ht => hq s t hs ht)]
    unfold fluxA
    rw [h1 s j hs hj]
    split <;> ring
  have tB : ∀ i s, i < A.G.S.order → s < A.G.S.order →
      tracerFluxB A i' a b k c i s = r * fluxB A i' a b k (.state 4) i s := fun i s hi hs => by
    unfold tracerFluxB
    rw [derivA_const A.G A.B ω hp _ r i s hi (fun t ht => hq t s ht hs),
      derivB_const A.G A.B ω hp _ r i s hs (fun t ht => hq i t hi ht)]
    unfold fluxB
    rw [h1 i s hi hs]
    split <;> ring
  have fA : weakA A.G A.B (tracerFluxA A i' a b k c) i j = r * weakA A.G A.B (fluxA A i' a b k (.state 4)) i j := by
    rw [weakA_sum, weakA_sum, Finset.sum_congr rfl (fun s hs => by
      rw [tA s j (Finset.mem_range.1 hs) hj, mul_assoc]), ← Finset.mul_sum]
    ring
  have fB : weakB A.G A.B (tracerFluxB A i' a b k c) i j = r * weakB A.G A.B (fluxB A i' a b k (.state 4)) i j := by
    rw [weakB_sum, weakB_sum, Finset.sum_congr rfl (fun s hs => by
      rw [tB i s hi (Finset.mem_range.1 hs), mul_assoc]), ← Finset.mul_sum]
    ring
  rw [tend, tend, if_pos hc, fA, fB]
  ring

/-- **C83 (energy).**  What the horizontal forces do to the wind is paid for exactly by what transport does to kinetic,
potential and internal energy: weighted by momentum, Bernoulli head and Exner function, the changes of wind, density and
density times potential temperature add up over an element to nothing but the exchange through the surfaces of the
vertical coordinate, whatever the state, metric, rotation and terrain.  `z` is the height whose slopes the geometry
holds. -/
theorem C83_energy (hxz : A.xz = false) (hr : Regular A a b k) (z : Nat → Nat → ℝ)
    (hz : ∀ i j, i < A.G.S.order → j < A.G.S.order →
      place A (fun x y => A.derivR x y k 0) a b i j = slopeA A z i j ∧
      place A (fun x y => A.derivR x y k 1) a b i j = slopeB A z i j)
    (hρ : ∀ i j, i < A.G.S.order → j < A.G.S.order → value A.G.S i' (.state 4) a b k i j ≠ 0) :
    overElement A ω level a b k (fun i j =>
      value A.G.S i' (.state 4) a b k i j *
        (alphaWind A i' a b k i j * (value A.G.S u' (.state 0) a b k i j - value A.G.S u (.state 0) a b k i j) +
          betaWind A i' a b k i j * (value A.G.S u' (.state 1) a b k i j - value A.G.S u (.state 1) a b k i j)) +
      (kineticEnergy A i' a b k i j + A.G.g * z i j) *
        (value A.G.S u' (.state 4) a b k i j - value A.G.S u (.state 4) a b k i j) +
      exnerFunction A (value A.G.S i' (.state 2) a b k i j) *
        (value A.G.S u' (.state 2) a b k i j - value A.G.S u (.state 2) a b k i j)) =
    -dt * overElement A ω level a b k (fun i j =>
      value A.G.S i' (.state 4) a b k i j * crossWind A i' a b k i j *
        (alphaWind A i' a b k i j *
            (slopeX A i' (.state 0) a b k i j - slopeA A (value A.G.S i' (.state 3) a b k) i j) +
          betaWind A i' a b k i j *
            (slopeX A i' (.state 1) a b k i j - slopeB A (value A.G.S i' (.state 3) a b k) i j))) := by
  rw [over_quad, over_quad]
  have eA : ∀ i j, alphaWind A i' a b k i j = conUa A i' a b k i j := fun i j => by
    simp only [alphaWind, conUa, place_at, value_at, contra, Horiz.read]
  have eB : ∀ i j, betaWind A i' a b k i j = conUb A i' a b k i j := fun i j => by
    simp only [betaWind, conUb, place_at, value_at, contra, Horiz.read]
  have eX : ∀ i j, crossWind A i' a b k i j = conUx A i' a b k i j := fun i j => by
    simp only [crossWind, conUx, place_at, value_at, contra, Horiz.read]
  have eK : ∀ i j, kineticEnergy A i' a b k i j = kinetic A i' a b k i j := fun i j => by
    unfold kineticEnergy kinetic
    rw [eA, eB, eX]
    simp only [value_at, Horiz.read]
    norm_num
  have eE : ∀ i j, exnerFunction A (value A.G.S i' (.state 2) a b k i j) = exner A i' a b k i j := fun i j => by
    unfold exnerFunction exner exnerOf Horiz.read
    rw [value_at]
  have sA : ∀ (f : Nat → Nat → ℝ) i j, slopeA A f i j = derivA A.G A.B f i j := fun f i j => by
    rw [derivA_sum, slopeA, div_eq_mul_one_div]
  have sB : ∀ (f : Nat → Nat → ℝ) i j, slopeB A f i j = derivB A.G A.B f i j := fun f i j => by
    rw [derivB_sum, slopeB, div_eq_mul_one_div]
  have sX : ∀ c i j, slopeX A i' (.state c) a b k i j = vertDeriv A i' a b k c i j := fun c i j => by
    unfold slopeX vertDeriv
    rw [row_sum]
    simp only [value_at]
  have rv : ∀ c, value A.G.S i' (.state c) a b k = read A.G i' a b k c := fun c => by
    funext i j
    rw [value_at]
    rfl
  have dK : ∀ i j, derivA A.G A.B (fun i j => kinetic A i' a b k i j + A.G.g * z i j) i j =
      derivA A.G A.B (kinetic A i' a b k) i j + A.G.g * derivA A.G A.B z i j := fun i j => by
    simp only [derivA_sum, add_mul, Finset.sum_add_distrib, mul_assoc, ← Finset.mul_sum]
  have dK' : ∀ i j, derivB A.G A.B (fun i j => kinetic A i' a b k i j + A.G.g * z i j) i j =
      derivB A.G A.B (kinetic A i' a b k) i j + A.G.g * derivB A.G A.B z i j := fun i j => by
    simp only [derivB_sum, add_mul, Finset.sum_add_distrib, mul_assoc, ← Finset.mul_sum]
  have e1 : quad A.G.S.order ω (fun i j => A.jac (A.G.S.at a i) (A.G.S.at b j) k *
      (value A.G.S i' (.state 4) a b k i j *
        (alphaWind A i' a b k i j * (value A.G.S u' (.state 0) a b k i j - value A.G.S u (.state 0) a b k i j) +
          betaWind A i' a b k i j * (value A.G.S u' (.state 1) a b k i j - value A.G.S u (.state 1) a b k i j)) +
      (kineticEnergy A i' a b k i j + A.G.g * z i j) *
        (value A.G.S u' (.state 4) a b k i j - value A.G.S u (.state 4) a b k i j) +
      exnerFunction A (value A.G.S i' (.state 2) a b k i j) *
        (value A.G.S u' (.state 2) a b k i j - value A.G.S u (.state 2) a b k i j))) =
      -dt * quad A.G.S.order ω (fun i j => A.jac (A.G.S.at a i) (A.G.S.at b j) k * (
        value A.G.S i' (.state 4) a b k i j * crossWind A i' a b k i j *
        (alphaWind A i' a b k i j *
            (slopeX A i' (.state 0) a b k i j - slopeA A (value A.G.S i' (.state 3) a b k) i j) +
          betaWind A i' a b k i j *
            (slopeX A i' (.state 1) a b k i j - slopeB A (value A.G.S i' (.state 3) a b k) i j)))) +
      -dt * (quad A.G.S.order ω (fun i j => (kinetic A i' a b k i j + A.G.g * z i j) *
            weakA A.G A.B (fluxA A i' a b k (.state 4)) i j) +
        quad A.G.S.order ω (fun i j => fluxA A i' a b k (.state 4) i j *
            derivA A.G A.B (fun i j => kinetic A i' a b k i j + A.G.g * z i j) i j) +
        (quad A.G.S.order ω (fun i j => (kinetic A i' a b k i j + A.G.g * z i j) *
            weakB A.G A.B (fluxB A i' a b k (.state 4)) i j) +
        quad A.G.S.order ω (fun i j => fluxB A i' a b k (.state 4) i j *
            derivB A.G A.B (fun i j => kinetic A i' a b k i j + A.G.g * z i j) i j)) +
        (quad A.G.S.order ω (fun i j => exner A i' a b k i j * weakA A.G A.B (fluxA A i' a b k (.state 2)) i j) +
        quad A.G.S.order ω (fun i j => fluxA A i' a b k (.state 2) i j * derivA A.G A.B (exner A i' a b k) i j)) +
        (quad A.G.S.order ω (fun i j => exner A i' a b k i j * weakB A.G A.B (fluxB A i' a b k (.state 2)) i j) +
        quad A.G.S.order ω (fun i j => fluxB A i' a b k (.state 2) i j * derivB A.G A.B (exner A i' a b k) i j))) := by
    rw [← quad_add, ← quad_add, ← quad_add, ← quad_add, ← quad_add, ← quad_add, ← quad_add, ← quad_mul, ← quad_mul,
      ← quad_add]
    refine quad_congr _ _ _ _ (fun i j hi hj => ?_)
    rw [step_value A init dt u i' u' h (.state 0) (by simp [edge]) a b k i j ha hb hk hi hj,
      step_value A init dt u i' u' h (.state 1) (by simp [edge]) a b k i j ha hb hk hi hj,
      step_value A init dt u i' u' h (.state 2) (by simp [edge]) a b k i j ha hb hk hi hj,
      step_value A init dt u i' u' h (.state 4) (by simp [edge]) a b k i j ha hb hk hi hj]
    have hJ := hr.at i j hi hj
    have hR := hρ i j hi hj
    have z1 := (hz i j hi hj).1
    have z2 := (hz i j hi hj).2
    rw [place_at, sA] at z1
    rw [place_at, sB] at z2
    rw [dK, dK', eA, eB, eX, eK, eE, sX, sX, sA, sB, rv 3]
    rw [value_at] at hR
    simp only [tend, hxz, Bool.false_eq_true, if_false, updateUa, updateUb, crossA, crossB, zetaA, zetaB, fluxA, fluxB,
      z1, z2, value_at, Horiz.read]
    generalize conUa A i' a b k i j = α
    generalize conUb A i' a b k i j = β
    generalize conUx A i' a b k i j = ξ
    field_simp
    ring
  rw [e1, parts_A A.G A.B ω hp, parts_A A.G A.B ω hp, parts_B A.G A.B ω hp, parts_B A.G A.B ω hp]
  ring

end

end

end Verif.Nonhydro
