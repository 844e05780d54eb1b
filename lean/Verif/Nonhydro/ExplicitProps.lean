import Verif.Nonhydro.ExplicitLemmas

/-!
# C84: the explicit horizontal step
-/

namespace Verif.Nonhydro

open Verif.Horiz

/-- **C84 (what is refused).**  The step throws exactly if initial and updated instance are the same or the equation set
is neither of the two; otherwise it goes through, but for the read outside an array that the nonhydrostatic equations
with vertical velocity on levels make (C83). -/
theorem C84_refused (E : Dynamics) (I U : Nat) (dt : ℝ) (D : Nat → Data) :
    (stepExplicit E I U dt D = .exception ↔ I = U ∨ E.eqn = .other) ∧
    ((∃ D', stepExplicit E I U dt D = .done D') ↔
      I ≠ U ∧ (E.eqn = .shallow ∨ (E.eqn = .primitive ∧ (stepNonhydro E.A (D I) dt (D U)).isSome))) := by
  have fd : ∀ D, ∃ D', finish E I U dt D = .done D' := fun D => by
    obtain ⟨u, -, h⟩ := finish_done E I U dt D
    exact ⟨_, h⟩
  unfold stepExplicit
  by_cases hIU : I = U
  · simp [hIU]
  · simp only [hIU, if_false, false_or, ne_eq, not_false_eq_true, true_and]
    cases he : E.eqn with
    | primitive =>
      cases hs : stepNonhydro E.A (D I) dt (D U) with
      | none => simp
      | some p =>
        obtain ⟨i, u⟩ := p
        obtain ⟨D', h⟩ := fd (store (store D I i) U u)
        simp [h]
    | shallow =>
      obtain ⟨D', h⟩ := fd (store D U (stepShallowWater E.A.G E.A.B (D I) dt (D U)))
      simp [h]
    | other => simp

section

variable (E : Dynamics) (I U : Nat) (dt : ℝ) (D D' : Nat → Data) (h : stepExplicit E I U dt D = .done D')

include h

/-- **C84 (instances).**  No other instance changes; of the initial one nothing changes for shallow water, and nothing
but velocities on interfaces and interpolations of what lives on interfaces for the nonhydrostatic equations. -/
theorem C84_instances : (∀ m, m ≠ I → m ≠ U → D' m = D m) ∧ (E.eqn = .shallow → D' I = D I) ∧
    (∀ x : Cell, x.v ≠ edge 0 → x.v ≠ edge 1 → (x.v = .state 3 → E.A.wOnEdge = false) →
      (x.v = .state 2 → E.A.pOnEdge = false) → D' I x = D I x) := by
  obtain ⟨hIU, i, u, w, hi, -, rfl⟩ := done_parts E I U dt D D' h
  refine ⟨fun m h1 h2 => ?_, fun he => ?_, fun x h0 h1 h3 h2 => ?_⟩
  · rw [store_other _ _ _ _ h2, store_other _ _ _ _ h1]
  · rw [store_other _ _ _ _ hIU, store_same]
    rcases hi with ⟨h1, -⟩ | ⟨-, rfl, -⟩
    · rw [he] at h1
      cases h1
    · rfl
  · rw [store_other _ _ _ _ hIU, store_same]
    rcases hi with ⟨-, hs⟩ | ⟨-, rfl, -⟩
    · exact C83_input E.A _ _ _ _ _ hs x h0 h1 h3 h2
    · rfl

section

variable (ω : Nat → ℝ) (hp : Paired E.A.G.S.order E.A.B ω) (level : Nat → ℝ) (a b k : Nat) (ha : a < E.A.G.S.elemA)
  (hb : b < E.A.G.S.elemB) (hk : k < E.A.G.S.levels)

include hp ha hb hk

/-- **C84 (mass).**  Of the nonhydrostatic equations: the mass of air in every element at every level is that of the
updated instance before the step, with and without uniform diffusion. -/
theorem C84_mass (he : E.eqn = .primitive) (hr : Regular E.A a b k) :
    overElement E.A ω level a b k (value E.A.G.S (D' U) (.state 4) a b k) =
      overElement E.A ω level a b k (value E.A.G.S (D U) (.state 4) a b k) := by
  obtain ⟨-, i, u, w, hi, hw, rfl⟩ := done_parts E I U dt D D' h
  rcases hi with ⟨-, hs⟩ | ⟨he', -⟩
  swap
  · rw [he] at he'
    cases he'
  rw [← C83_mass E.A _ _ _ _ _ hs ω hp level a b k ha hb hk hr, store_same]
  congr 1
  funext i j
  unfold value
  rw [filter_state _ _ _ _ 4 rfl, uniform_same E _ _ _ _ hw _ (by simp) (by simp) (fun _ => ⟨(theta_not E).2.2.2.1.symm,
    (vertical_not E).2.2.2.1.symm⟩)]

/-- **C84 (potential temperature).**  The same holds for density times potential temperature where that lives on levels,
with and without uniform diffusion. -/
theorem C84_theta (he : E.eqn = .primitive) (hl : E.A.pOnEdge = false) (hr : Regular E.A a b k) :
    overElement E.A ω level a b k (value E.A.G.S (D' U) (.state 2) a b k) =
      overElement E.A ω level a b k (value E.A.G.S (D U) (.state 2) a b k) := by
  obtain ⟨-, i, u, w, hi, hw, rfl⟩ := done_parts E I U dt D D' h
  rcases hi with ⟨-, hs⟩ | ⟨he', -⟩
  swap
  · rw [he] at he'
    cases he'
  have ht : theta E = .state 2 := by simp [theta, hl]
  rw [← C83_theta E.A _ _ _ _ _ hs ω hp level a b k ha hb hk hr, store_same]
  have e1 : value E.A.G.S (filterTracers E.A.G.S E.area w) (.state 2) a b k = value E.A.G.S w (.state 2) a b k := by
    funext i j
    exact filter_state _ _ _ _ 2 rfl
  rw [e1]
  rcases uniform_parts E i dt u w hw with ⟨-, rfl⟩ | ⟨-, -, p, e2, e3⟩ | ⟨-, hn, -⟩
  · rfl
  · have e4 : value E.A.G.S w (.state 2) a b k = value E.A.G.S p (.state 2) a b k := by
      funext i j
      exact C75_untouched _ _ _ _ _ _ _ _ _ e3 _ (Or.inr ⟨home_not E 3 (by omega), by
        rw [home_vertical]; exact (vertical_not E).2.2.1.symm⟩)
    have e5 : value E.A.G.S (viscous E i dt u) (.state 2) a b k = value E.A.G.S u (.state 2) a b k := by
      funext i j
      exact viscous_out E _ dt u _ (by simp)
    have e6 := C75_mass E.medium ω hp i dt E.A.nu false (E.home 2) true _ _ e2 (.state 2) a b k ha hb
      (Or.inl ⟨rfl, hk⟩) (fun i j hi hj => hr i j hi hj)
    change inner E.medium ω (.state 2) a b k (fun _ _ => 1) (value E.A.G.S p (.state 2) a b k) =
      inner E.medium ω (.state 2) a b k (fun _ _ => 1) (value E.A.G.S (viscous E i dt u) (.state 2) a b k) at e6
    rw [e5] at e6
    have e7 : ∀ f : Nat → Nat → ℝ, overElement E.A ω level a b k f = E.A.G.deltaA * E.A.G.deltaB * level k *
        inner E.medium ω (.state 2) a b k (fun _ _ => 1) f := by
      intro f
      rw [over_quad]
      congr 1
      unfold quad inner
      refine Finset.sum_congr rfl (fun i _ => Finset.sum_congr rfl (fun j _ => ?_))
      have : nodeWeight E.medium ω (.state 2) a b k i j =
          ω i * ω j * E.A.jac (E.A.G.S.halo + a * E.A.G.S.order + i) (E.A.G.S.halo + b * E.A.G.S.order + j) k := rfl
      rw [this, area_at' E.A.G.S E.A.jac]
      ring
    rw [e4, e7, e7, e6]
  · exact absurd he hn

/-- **C84 (tracers).**  If the areas of the grid are those of its nodes and the tracer has no negative mass in an element
at a level, then after the step no value of the tracer there is negative and its mass is the same, whatever the state, the
length of the step and the diffusion. -/
theorem C84_tracers (he : E.eqn = .primitive) (hr : Regular E.A a b k) (hA : E.area = volume E.A ω level)
    (hv : PositiveAreas E.A.G.S E.area a b k) (c : Nat) (hc : c < E.A.G.S.tracers)
    (hm : 0 ≤ overElement E.A ω level a b k (value E.A.G.S (D U) (.tracer c) a b k)) :
    overElement E.A ω level a b k (value E.A.G.S (D' U) (.tracer c) a b k) =
      overElement E.A ω level a b k (value E.A.G.S (D U) (.tracer c) a b k) ∧
    ∀ i j, i < E.A.G.S.order → j < E.A.G.S.order → 0 ≤ value E.A.G.S (D' U) (.tracer c) a b k i j := by
  obtain ⟨-, i, u, w, hi, hw, rfl⟩ := done_parts E I U dt D D' h
  rcases hi with ⟨-, hs⟩ | ⟨he', -⟩
  swap
  · rw [he] at he'
    cases he'
  have e1 := C83_tracer E.A _ _ _ _ _ hs ω hp level a b k ha hb hk hr c hc
  have e2 : value E.A.G.S w (.tracer c) a b k = value E.A.G.S u (.tracer c) a b k := by
    funext i j
    exact uniform_same E _ _ _ _ hw _ (by simp) (by simp) (fun _ => ⟨((theta_not E).2.2.2.2 c).symm,
      ((vertical_not E).2.2.2.2 c).symm⟩)
  have e3 : ∀ u : Data, overElement E.A ω level a b k (value E.A.G.S u (.tracer c) a b k) =
      elementMass E.A.G.S E.area u (.tracer c) a b k := fun u => by
    rw [hA]
    rfl
  rw [← e1, ← e2, e3] at hm
  rw [store_same, ← e1, ← e2, e3, e3]
  exact ⟨C73_mass_partial E.A.G.S E.area w c a b k ha hb hc hk hv hm,
    fun i j hi hj => C73_nonneg_partial E.A.G.S E.area w c a b k ha hb hc hk hv hm i j hi hj⟩

/-- **C84 (shallow water).**  The same for shallow water: volume of fluid and mass of every tracer of an element at a
level are kept, and no tracer value is negative afterwards. -/
theorem C84_shallow (he : E.eqn = .shallow) (hr : Horiz.Regular E.A.G a b) (hA : E.area = nodeArea E.A.G ω level)
    (hv : PositiveAreas E.A.G.S E.area a b k) :
    elementMass E.A.G.S E.area (D' U) (.state 2) a b k = elementMass E.A.G.S E.area (D U) (.state 2) a b k ∧
    ∀ c, c < E.A.G.S.tracers → 0 ≤ elementMass E.A.G.S E.area (D U) (.tracer c) a b k →
      elementMass E.A.G.S E.area (D' U) (.tracer c) a b k = elementMass E.A.G.S E.area (D U) (.tracer c) a b k ∧
      ∀ i j, i < E.A.G.S.order → j < E.A.G.S.order → 0 ≤ value E.A.G.S (D' U) (.tracer c) a b k i j := by
  obtain ⟨-, i, u, w, hi, hw, rfl⟩ := done_parts E I U dt D D' h
  rcases hi with ⟨he', -⟩ | ⟨-, -, hu⟩
  · rw [he] at he'
    cases he'
  have hn : ¬ E.eqn = .primitive := by simp [he]
  have es : ∀ v, v ≠ .state 0 → v ≠ .state 1 → elementMass E.A.G.S E.area w v a b k =
      elementMass E.A.G.S E.area (stepShallowWater E.A.G E.A.B (D I) dt (D U)) v a b k := by
    intro v h0 h1
    unfold elementMass
    refine Finset.sum_congr rfl (fun x _ => Finset.sum_congr rfl (fun y _ => ?_))
    unfold value
    rw [uniform_same E _ _ _ _ hw _ h0 h1 (fun h => absurd h hn), hu]
  rw [store_same]
  constructor
  · rw [hA] at es ⊢
    rw [← C74_mass E.A.G E.A.B ω hp level (D I) dt (D U) a b k ha hb hk hr, ← es _ (by simp) (by simp)]
    unfold elementMass
    refine Finset.sum_congr rfl (fun x _ => Finset.sum_congr rfl (fun y _ => ?_))
    unfold value
    rw [filter_state _ _ _ _ 2 rfl]
  · intro c hc hm
    have e1 := C74_tracer E.A.G E.A.B ω hp level (D I) dt (D U) a b k ha hb hk hr c hc
    rw [← hA] at e1
    rw [← e1, ← es _ (by simp) (by simp)] at hm ⊢
    exact ⟨C73_mass_partial E.A.G.S E.area w c a b k ha hb hc hk hv hm,
      fun i j hi hj => C73_nonneg_partial E.A.G.S E.area w c a b k ha hb hc hk hv hm i j hi hj⟩

end

end

end Verif.Nonhydro
