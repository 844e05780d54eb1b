import Verif.Nonhydro.Props

/-!
# C83: rest, ground, halo, and where the step fails
-/

namespace Verif.Nonhydro

open Verif.Horiz

section

variable (A : Air) (init : Data) (dt : ℝ) (u i' u' : Data) (h : stepNonhydro A init dt u = some (i', u'))

include h

/-- The vertical velocity on interfaces after the step. -/
theorem edge_value (hw : A.wOnEdge = true) (a b i j : Nat) (ha : a < A.G.S.elemA) (hb : b < A.G.S.elemB)
    (hi : i < A.G.S.order) (hj : j < A.G.S.order) (k : Nat) :
    (0 < k → k < A.G.S.levels → value A.G.S u' (edge 3) a b k i j = value A.G.S u (edge 3) a b k i j +
      dt * ∑ l ∈ Finset.range A.G.S.levels, A.toEdge k l * crossX A i' a b l i j) ∧
    (0 < k → A.G.S.levels ≤ k → value A.G.S u' (edge 3) a b k i j = value A.G.S u (edge 3) a b k i j) ∧
    (value A.G.S u' (edge 3) a b 0 i j =
      -(A.conXiEdge (A.G.S.at a i) (A.G.S.at b j) 0 0 * atInterface A u' (.state 0) a b 0 i j +
        A.conXiEdge (A.G.S.at a i) (A.G.S.at b j) 0 1 * atInterface A u' (.state 1) a b 0 i j) /
        A.conXiEdge (A.G.S.at a i) (A.G.S.at b j) 0 2) := by
  have e : ∀ v k, value A.G.S u' v a b k i j = col3 A i' dt a b i j (bottomPoint A a b i j
      (col1 A i' dt a b i j u)) ⟨v, A.G.S.at a i, A.G.S.at b j, k⟩ := fun v k => by
    rw [value_at, step_column A init dt u i' u' h a b i j ha hb hi hj _ ⟨rfl, rfl⟩]
    unfold column
    rw [if_pos hw]
  have e1 : ∀ k, 0 < k → bottomPoint A a b i j (col1 A i' dt a b i j u) ⟨edge 3, A.G.S.at a i, A.G.S.at b j, k⟩ =
      u ⟨edge 3, A.G.S.at a i, A.G.S.at b j, k⟩ := fun k hk => by
    unfold bottomPoint
    rw [← col1_edge A i' dt a b i j 3 u _ rfl]
    simp [put, Nat.pos_iff_ne_zero.1 hk]
  refine ⟨fun h0 hk => ?_, fun h0 hk => ?_, ?_⟩
  · rw [e, col3_at A i' dt a b i j _ k h0 hk, e1 k h0, value_at]
  · rw [e, col3_out A i' dt a b i j _ _ (Or.inr (Or.inr hk)), e1 k h0, value_at]
  · have c : ∀ c, c < 2 → atInterface A u' (.state c) a b 0 i j =
        row A.G.S.levels A.toEdge 0 (fun l => col1 A i' dt a b i j u ⟨.state c, A.G.S.at a i, A.G.S.at b j, l⟩) := by
      intro c hc
      rw [row_sum]
      unfold atInterface
      refine Finset.sum_congr rfl (fun l _ => ?_)
      have hv : (⟨.state c, A.G.S.at a i, A.G.S.at b j, l⟩ : Cell).v ≠ edge 3 := by
        simp only [edge, ne_eq, Var.state.injEq]
        omega
      rw [e, col3_out A i' dt a b i j _ _ (Or.inl hv)]
      unfold bottomPoint
      simp only [ne_eq] at hv
      simp [put, hv]
    rw [c 0 (by decide), c 1 (by decide), e, col3_out A i' dt a b i j _ _ (Or.inr (Or.inl rfl))]
    unfold bottomPoint
    simp [put]

/-- **C83 (ground).**  With vertical velocity on interfaces, no air goes through the ground after the step: the
contravariant vertical velocity at the lowest interface is zero, whatever the terrain and whatever the vertical velocity
was there. -/
theorem C83_ground (hw : A.wOnEdge = true) (a b i j : Nat) (ha : a < A.G.S.elemA) (hb : b < A.G.S.elemB)
    (hi : i < A.G.S.order) (hj : j < A.G.S.order) (hc : place A (fun x y => A.conXiEdge x y 0 2) a b i j ≠ 0) :
    place A (fun x y => A.conXiEdge x y 0 0) a b i j * atInterface A u' (.state 0) a b 0 i j +
      place A (fun x y => A.conXiEdge x y 0 1) a b i j * atInterface A u' (.state 1) a b 0 i j +
      place A (fun x y => A.conXiEdge x y 0 2) a b i j * value A.G.S u' (edge 3) a b 0 i j = 0 := by
  rw [(edge_value A init dt u i' u' h hw a b i j ha hb hi hj 0).2.2]
  simp only [place_at] at hc ⊢
  field_simp
  ring

/-- **C83 (lid).**  The vertical velocity at the highest interface is not changed. -/
theorem C83_lid (hw : A.wOnEdge = true) (hl : 0 < A.G.S.levels) (a b i j : Nat) (ha : a < A.G.S.elemA)
    (hb : b < A.G.S.elemB) (hi : i < A.G.S.order) (hj : j < A.G.S.order) :
    value A.G.S u' (edge 3) a b A.G.S.levels i j = value A.G.S u (edge 3) a b A.G.S.levels i j :=
  (edge_value A init dt u i' u' h hw a b i j ha hb hi hj _).2.1 hl le_rfl

/-- **C83 (momentum).**  The velocity of a node changes by the product of velocity and vorticity (in direction `a` the
sum over `c` of `u^c (∂_a u_c - ∂_c u_a)`), Coriolis force, potential temperature times the gradient of the Exner
function, gradient of kinetic energy and gravity along the surface of the vertical coordinate.  On an XZ slice beta
velocity does not change. -/
theorem C83_momentum (a b k i j : Nat) (ha : a < A.G.S.elemA) (hb : b < A.G.S.elemB) (hk : k < A.G.S.levels)
    (hi : i < A.G.S.order) (hj : j < A.G.S.order) :
    value A.G.S u' (.state 0) a b k i j = value A.G.S u (.state 0) a b k i j + dt *
      (betaWind A i' a b k i j *
          (slopeA A (value A.G.S i' (.state 1) a b k) i j - slopeB A (value A.G.S i' (.state 0) a b k) i j) +
        crossWind A i' a b k i j *
          (slopeA A (value A.G.S i' (.state 3) a b k) i j - slopeX A i' (.state 0) a b k i j) +
        place A A.G.coriolis a b i j * place A A.G.jac a b i j * betaWind A i' a b k i j -
        value A.G.S i' (.state 2) a b k i j / value A.G.S i' (.state 4) a b k i j *
          slopeA A (fun i j => exnerFunction A (value A.G.S i' (.state 2) a b k i j)) i j -
        slopeA A (kineticEnergy A i' a b k) i j - A.G.g * place A (fun x y => A.derivR x y k 0) a b i j) ∧
    value A.G.S u' (.state 1) a b k i j = value A.G.S u (.state 1) a b k i j + if A.xz then 0 else dt *
      (alphaWind A i' a b k i j *
          (slopeB A (value A.G.S i' (.state 0) a b k) i j - slopeA A (value A.G.S i' (.state 1) a b k) i j) +
        crossWind A i' a b k i j *
          (slopeB A (value A.G.S i' (.state 3) a b k) i j - slopeX A i' (.state 1) a b k i j) -
        place A A.G.coriolis a b i j * place A A.G.jac a b i j * alphaWind A i' a b k i j -
        value A.G.S i' (.state 2) a b k i j / value A.G.S i' (.state 4) a b k i j *
          slopeB A (fun i j => exnerFunction A (value A.G.S i' (.state 2) a b k i j)) i j -
        slopeB A (kineticEnergy A i' a b k) i j - A.G.g * place A (fun x y => A.derivR x y k 1) a b i j) := by
  have eA : ∀ i j, alphaWind A i' a b k i j = conUa A i' a b k i j := fun i j => by
    simp only [alphaWind, conUa, place_at, value_at, contra, Horiz.read]
  have eB : ∀ i j, betaWind A i' a b k i j = conUb A i' a b k i j := fun i j => by
    simp only [betaWind, conUb, place_at, value_at, contra, Horiz.read]
  have eX : ∀ i j, crossWind A i' a b k i j = conUx A i' a b k i j := fun i j => by
    simp only [crossWind, conUx, place_at, value_at, contra, Horiz.read]
  have eK : kineticEnergy A i' a b k = kinetic A i' a b k := by
    funext i j
    unfold kineticEnergy kinetic
    rw [eA, eB, eX]
    simp only [value_at, Horiz.read]
    norm_num
  have eE : (fun i j => exnerFunction A (value A.G.S i' (.state 2) a b k i j)) = exner A i' a b k := by
    funext i j
    unfold exnerFunction exner exnerOf Horiz.read
    rw [value_at]
  have sA : ∀ (f : Nat → Nat → ℝ) i j, slopeA A f i j = derivA A.G A.B f i j := fun f i j => by
    rw [derivA_sum, slopeA, div_eq_mul_one_div]
  have sB : ∀ (f : Nat → Nat → ℝ) i j, slopeB A f i j = derivB A.G A.B f i j := fun f i j => by
    rw [derivB_sum, slopeB, div_eq_mul_one_div]
  have sX : ∀ c i j, slopeX A i' (.state c) a b k i j = vertDeriv A i' a b k c i j := fun c i j => by
    unfold slopeX vertDeriv
    rw [row_sum]
    simp only [value_at]
  have rv : ∀ c, value A.G.S i' (.state c) a b k = Horiz.read A.G i' a b k c := fun c => by
    funext i j
    rw [value_at]
    rfl
  have p2 : ∀ f : Nat → Nat → ℝ, place A f a b i j = f (A.G.S.at a i) (A.G.S.at b j) := fun f => place_at ..
  constructor
  · rw [step_value A init dt u i' u' h (.state 0) (by simp [edge]) a b k i j ha hb hk hi hj, eB, eX, eK, eE]
    simp only [sA, sB, sX, rv, tend, updateUa, crossA, zetaX, zetaB, p2]
    ring
  · rw [step_value A init dt u i' u' h (.state 1) (by simp [edge]) a b k i j ha hb hk hi hj, eA, eX, eK, eE]
    simp only [sA, sB, sX, rv, tend, updateUb, crossB, zetaX, zetaA, p2]
    split
    · ring
    · ring

/-- **C83 (interfaces).**  At the interfaces between, the step takes away the horizontal advection of vertical velocity,
interpolated from levels. -/
theorem C83_interfaces (hw : A.wOnEdge = true) (a b i j k : Nat) (ha : a < A.G.S.elemA) (hb : b < A.G.S.elemB)
    (hi : i < A.G.S.order) (hj : j < A.G.S.order) (h0 : 0 < k) (hk : k < A.G.S.levels) :
    value A.G.S u' (edge 3) a b k i j = value A.G.S u (edge 3) a b k i j -
      dt * ∑ l ∈ Finset.range A.G.S.levels, A.toEdge k l *
        (alphaWind A i' a b l i j * slopeA A (value A.G.S i' (.state 3) a b l) i j +
          betaWind A i' a b l i j * slopeB A (value A.G.S i' (.state 3) a b l) i j) := by
  rw [(edge_value A init dt u i' u' h hw a b i j ha hb hi hj k).1 h0 hk, sub_eq_add_neg, ← mul_neg,
    ← Finset.sum_neg_distrib]
  congr 2
  refine Finset.sum_congr rfl (fun l _ => ?_)
  have rv : value A.G.S i' (.state 3) a b l = Horiz.read A.G i' a b l 3 := by
    funext i j
    rw [value_at]
    rfl
  have eA : alphaWind A i' a b l i j = conUa A i' a b l i j := by
    simp only [alphaWind, conUa, place_at, value_at, contra, Horiz.read]
  have eB : betaWind A i' a b l i j = conUb A i' a b l i j := by
    simp only [betaWind, conUb, place_at, value_at, contra, Horiz.read]
  rw [crossX, rv, eA, eB, derivA_sum, derivB_sum, slopeA, slopeB]
  ring

/-- **C83 (rest).**  Air at rest whose density times potential temperature does not vary along the surfaces of the
vertical coordinate, where these are level, is not moved: nothing changes on levels, and vertical velocity changes at no
interface above the ground.  Density may vary in any way. -/
theorem C83_rest (ω : Nat → ℝ) (hp : Paired A.G.S.order A.B ω) (a b : Nat) (ha : a < A.G.S.elemA) (hb : b < A.G.S.elemB)
    (P : Nat → ℝ)
    (hU : ∀ k i j, k < A.G.S.levels → i < A.G.S.order → j < A.G.S.order →
      value A.G.S init (.state 0) a b k i j = 0 ∧ value A.G.S init (.state 1) a b k i j = 0)
    (hW : ∀ k i j, (k < A.G.S.levels ∨ (A.wOnEdge = true ∧ k = A.G.S.levels)) → i < A.G.S.order → j < A.G.S.order →
      value A.G.S init (if A.wOnEdge then edge 3 else .state 3) a b k i j = 0)
    (hP : ∀ k i j, (k < A.G.S.levels ∨ (A.pOnEdge = true ∧ k = A.G.S.levels)) → i < A.G.S.order → j < A.G.S.order →
      value A.G.S init (if A.pOnEdge then edge 2 else .state 2) a b k i j = P k)
    (hz : ∀ k i j m, k < A.G.S.levels → i < A.G.S.order → j < A.G.S.order → m < 2 →
      place A (fun x y => A.derivR x y k m) a b i j = 0)
    (i j : Nat) (hi : i < A.G.S.order) (hj : j < A.G.S.order) :
    (∀ v k, v ≠ edge 3 → k < A.G.S.levels → ((∃ c, v = .tracer c) → A.uniform = false) →
      value A.G.S u' v a b k i j = value A.G.S u v a b k i j) ∧
    (A.wOnEdge = true → ∀ k, 0 < k → value A.G.S u' (edge 3) a b k i j = value A.G.S u (edge 3) a b k i j) := by
  have r0 : ∀ k i j, k < A.G.S.levels → i < A.G.S.order → j < A.G.S.order → Horiz.read A.G i' a b k 0 i j = 0 :=
    fun k i j hk hi hj => by
      have := (hU k i j hk hi hj).1
      rw [value_at] at this
      exact (C83_input A init dt u i' u' h _ (by simp [edge]) (by simp [edge]) (by simp) (by simp)).trans this
  have r1 : ∀ k i j, k < A.G.S.levels → i < A.G.S.order → j < A.G.S.order → Horiz.read A.G i' a b k 1 i j = 0 :=
    fun k i j hk hi hj => by
      have := (hU k i j hk hi hj).2
      rw [value_at] at this
      exact (C83_input A init dt u i' u' h _ (by simp [edge]) (by simp [edge]) (by simp) (by simp)).trans this
  have r3 : ∀ k i j, k < A.G.S.levels → i < A.G.S.order → j < A.G.S.order → Horiz.read A.G i' a b k 3 i j = 0 :=
    fun k i j hk hi hj => by
      cases hw : A.wOnEdge
      · have := hW k i j (.inl hk) hi hj
        rw [hw, if_neg (by simp), value_at] at this
        exact (C83_input A init dt u i' u' h _ (by simp [edge]) (by simp [edge]) (by simp [hw]) (by simp)).trans this
      · have e := (C83_interpolated A init dt u i' u' h a b k i j ha hb hk hi hj).1 hw
        rw [value_at] at e
        refine e.trans ?_
        unfold atLevel
        refine Finset.sum_eq_zero (fun l hl => ?_)
        rw [Finset.mem_range] at hl
        have := hW l i j (by by_cases h : l < A.G.S.levels; exact .inl h; exact .inr ⟨hw, by omega⟩) hi hj
        rw [hw, if_pos rfl] at this
        rw [this, mul_zero]
  have r2 : ∀ k, k < A.G.S.levels → ∃ p, ∀ i j, i < A.G.S.order → j < A.G.S.order →
      Horiz.read A.G i' a b k 2 i j = p := fun k hk => by
      cases hw : A.pOnEdge
      · refine ⟨P k, fun i j hi hj => ?_⟩
        have := hP k i j (.inl hk) hi hj
        rw [hw, if_neg (by simp), value_at] at this
        exact (C83_input A init dt u i' u' h _ (by simp [edge]) (by simp [edge]) (by simp) (by simp [hw])).trans this
      · refine ⟨∑ l ∈ Finset.range (A.G.S.levels + 1), A.toNode k l * P l, fun i j hi hj => ?_⟩
        have e := (C83_interpolated A init dt u i' u' h a b k i j ha hb hk hi hj).2 hw
        rw [value_at] at e
        refine e.trans ?_
        unfold atLevel
        refine Finset.sum_congr rfl (fun l hl => ?_)
        rw [Finset.mem_range] at hl
        have := hP l i j (by by_cases h : l < A.G.S.levels; exact .inl h; exact .inr ⟨hw, by omega⟩) hi hj
        rw [hw, if_pos rfl] at this
        rw [this]
  have ca : ∀ k i j, k < A.G.S.levels → i < A.G.S.order → j < A.G.S.order → conUa A i' a b k i j = 0 :=
    fun k i j hk hi hj => by rw [conUa, r0 k i j hk hi hj, r1 k i j hk hi hj, r3 k i j hk hi hj]; ring
  have cb : ∀ k i j, k < A.G.S.levels → i < A.G.S.order → j < A.G.S.order → conUb A i' a b k i j = 0 :=
    fun k i j hk hi hj => by rw [conUb, r0 k i j hk hi hj, r1 k i j hk hi hj, r3 k i j hk hi hj]; ring
  have cx : ∀ k i j, k < A.G.S.levels → i < A.G.S.order → j < A.G.S.order → conUx A i' a b k i j = 0 :=
    fun k i j hk hi hj => by rw [conUx, r0 k i j hk hi hj, r1 k i j hk hi hj, r3 k i j hk hi hj]; ring
  have ck : ∀ k i j, k < A.G.S.levels → i < A.G.S.order → j < A.G.S.order → kinetic A i' a b k i j = 0 :=
    fun k i j hk hi hj => by rw [kinetic, ca k i j hk hi hj, cb k i j hk hi hj, cx k i j hk hi hj]; ring
  have xX : ∀ k, k < A.G.S.levels → crossX A i' a b k i j = 0 := fun k hk => by
    rw [crossX, ca k i j hk hi hj, cb k i j hk hi hj]; ring
  have uA : ∀ k, k < A.G.S.levels → updateUa A i' a b k i j = 0 := fun k hk => by
    obtain ⟨p, hp2⟩ := r2 k hk
    have z0 := hz k i j 0 hk hi hj (by decide)
    rw [place_at] at z0
    have eE := derivA_const A.G A.B ω hp (exner A i' a b k) (exnerOf A p) i j hi (fun s hs => by unfold exner; rw [hp2 s j hs hj])
    simp only [updateUa, crossA, ca k i j hk hi hj, cb k i j hk hi hj, cx k i j hk hi hj, z0,
      eE,
      derivA_const A.G A.B ω hp _ 0 i j hi (fun s hs => ck k s j hk hs hj)]
    ring
  have uB : ∀ k, k < A.G.S.levels → updateUb A i' a b k i j = 0 := fun k hk => by
    obtain ⟨p, hp2⟩ := r2 k hk
    have z0 := hz k i j 1 hk hi hj (by decide)
    rw [place_at] at z0
    have eE := derivB_const A.G A.B ω hp (exner A i' a b k) (exnerOf A p) i j hj (fun s hs => by unfold exner; rw [hp2 i s hi hs])
    simp only [updateUb, crossB, ca k i j hk hi hj, cb k i j hk hi hj, cx k i j hk hi hj, z0,
      eE,
      derivB_const A.G A.B ω hp _ 0 i j hj (fun s hs => ck k i s hk hi hs)]
    ring
  have wA : ∀ f : Nat → Nat → ℝ, (∀ s, s < A.G.S.order → f s j = 0) → weakA A.G A.B f i j = 0 := fun f hf => by
    rw [weakA_sum, Finset.sum_eq_zero (fun s hs => by rw [hf s (Finset.mem_range.1 hs), zero_mul])]; ring
  have wB : ∀ f : Nat → Nat → ℝ, (∀ s, s < A.G.S.order → f i s = 0) → weakB A.G A.B f i j = 0 := fun f hf => by
    rw [weakB_sum, Finset.sum_eq_zero (fun s hs => by rw [hf s (Finset.mem_range.1 hs), zero_mul])]; ring
  refine ⟨fun v k hv hk hc => ?_, fun hw k h0 => ?_⟩
  · rw [step_value A init dt u i' u' h v hv a b k i j ha hb hk hi hj]
    have fl : ∀ v, weakA A.G A.B (fluxA A i' a b k v) i j + weakB A.G A.B (fluxB A i' a b k v) i j = 0 := fun v => by
      rw [wA _ (fun s hs => by rw [fluxA, ca k s j hk hs hj]; ring),
        wB _ (fun s hs => by rw [fluxB, cb k i s hk hi hs]; ring), add_zero]
    have key : tend A i' a b k i j v = 0 := by
      match v, hc with
      | .state 0, _ => rw [tend, uA k hk]
      | .state 1, _ => rw [tend, uB k hk, ite_self]
      | .state 2, _ => rw [tend, fl, mul_zero, neg_zero]
      | .state 3, _ =>
        rw [tend, updateUr, uA k hk, uB k hk, xX k hk]
        simp
      | .state 4, _ => rw [tend, fl, mul_zero, neg_zero]
      | .state (_ + 5), _ => rfl
      | .tracer c, hc =>
        have hu := hc ⟨c, rfl⟩
        have e1 : tracerFluxA A i' a b k c = fluxA A i' a b k (.tracer c) := by
          funext i j
          rw [tracerFluxA, hu, if_neg (by simp)]
        have e2 : tracerFluxB A i' a b k c = fluxB A i' a b k (.tracer c) := by
          funext i j
          rw [tracerFluxB, hu, if_neg (by simp)]
        rw [tend, e1, e2, fl, mul_zero, neg_zero, ite_self]
    rw [key, mul_zero, add_zero]
  · by_cases hk : k < A.G.S.levels
    · rw [(edge_value A init dt u i' u' h hw a b i j ha hb hi hj k).1 h0 hk,
        Finset.sum_eq_zero (fun l hl => by rw [xX l (Finset.mem_range.1 hl), mul_zero]), mul_zero, add_zero]
    · exact (edge_value A init dt u i' u' h hw a b i j ha hb hi hj k).2.1 h0 (by omega)

/-- **C83 (halo).**  The step changes no column outside the interior of the patch. -/
theorem C83_halo (x : Cell) (hx : ¬ Interior A.G.S x.iA x.iB) : u' x = u x := by
  unfold stepNonhydro at h
  split at h
  · exact absurd h (by simp)
  · simp only [Option.some.injEq, Prod.mk.injEq] at h
    obtain ⟨rfl, rfl⟩ := h
    refine patch_out A.G.S _ (fun x => Interior A.G.S x.iA x.iB) (fun a b ha hb =>
      grow (element_touches A _ dt a b) ?_) u x hx
    rintro x ⟨i, hi, j, hj, h1, h2⟩
    obtain ⟨p, hp, e1⟩ := inside A.G.S A.G.S.elemA a i ha hi
    obtain ⟨q, hq, e2⟩ := inside A.G.S A.G.S.elemB b j hb hj
    unfold Interior
    omega

/-- **C83 fails for density times potential temperature on interfaces.**  One would have the horizontal step move every
variable.  Where the grid keeps density times potential temperature on interfaces (Charney-Phillips staggering), the step
never changes it there, whatever the wind: what it computes goes to the copy on levels, which is overwritten from the
interfaces before it is read again. -/
theorem C83_false_transport (x : Cell) (hx : x.v = edge 2) : u' x = u x := by
  unfold stepNonhydro at h
  split at h
  · exact absurd h (by simp)
  · simp only [Option.some.injEq, Prod.mk.injEq] at h
    obtain ⟨rfl, rfl⟩ := h
    have p1 : ∀ (a b i j : Nat) (u : Data), col1 A (prepare A init) dt a b i j u x = u x := fun a b i j u =>
      col1_edge A _ dt a b i j 2 u x hx
    have p2 : ∀ (a b i j : Nat) (u : Data), bottomPoint A a b i j u x = u x := fun a b i j u => by
      unfold bottomPoint
      have : x ≠ ⟨edge 3, A.G.S.at a i, A.G.S.at b j, 0⟩ := fun e => by rw [e] at hx; simp [edge] at hx
      simp [put, this]
    have p3 : ∀ (a b i j : Nat) (u : Data), col3 A (prepare A init) dt a b i j u x = u x := fun a b i j u =>
      col3_out A _ dt a b i j u x (Or.inl (by rw [hx]; simp [edge]))
    have nest : ∀ (n m : Nat) (body : Nat → Nat → Data → Data), (∀ i j (u : Data), body i j u x = u x) →
        ∀ u : Data, loop n (fun i u => loop m (fun j u => body i j u) u) u x = u x := by
      intro n m body hb u
      have h1 : ∀ (i p : Nat) (u : Data), loop p (fun j u => body i j u) u x = u x := by
        intro i p u
        induction p with
        | zero => rfl
        | succ p ih => rw [loop_succ, hb, ih]
      induction n with
      | zero => rfl
      | succ p ih => rw [loop_succ, h1, ih]
    refine nest _ _ _ (fun a b u => ?_) u
    unfold element
    simp only
    split
    · exact ((nest _ _ _ (fun i j u => p3 a b i j u) _).trans (nest _ _ _ (fun i j u => p2 a b i j u) _)).trans
        (nest _ _ _ (fun i j u => p1 a b i j u) _)
    · exact nest _ _ _ (fun i j u => p1 a b i j u) _

end

/-- **C83 (defined).**  With vertical velocity on interfaces the step never reads outside its arrays. -/
theorem C83_defined (A : Air) (hw : A.wOnEdge = true) (init : Data) (dt : ℝ) (u : Data) :
    (stepNonhydro A init dt u).isSome = true := by
  unfold stepNonhydro
  rw [if_neg (fun h => by rw [h.1] at hw; exact absurd hw (by decide))]
  rfl

/-- **C83 fails for vertical velocity on levels.**  One would have the step defined for every staggering the grid offers.
With vertical velocity on levels, on any patch with an element and a halo, it reads the metric buffer of the element past
its end: the indices are those of the patch. -/
theorem C83_false_levels (A : Air) (hw : A.wOnEdge = false) (hl : 0 < A.G.S.levels) (ha : 0 < A.G.S.elemA)
    (hb : 0 < A.G.S.elemB) (ho : 0 < A.G.S.order) (hh : 0 < A.G.S.halo) (init : Data) (dt : ℝ) (u : Data) :
    stepNonhydro A init dt u = none := by
  unfold stepNonhydro
  refine if_pos ⟨hw, hl, 0, ha, 0, hb, A.G.S.order - 1, by omega, 0, ho, ?_⟩
  have h1 : A.G.S.order ≤ A.G.S.at 0 (A.G.S.order - 1) := by unfold Shape.at; omega
  have := Nat.mul_le_mul_right A.G.S.order h1
  omega

end Verif.Nonhydro
