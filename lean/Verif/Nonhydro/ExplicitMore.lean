import Verif.Nonhydro.ExplicitProps

/-!
# C84: what uniform diffusion adds to the explicit horizontal step
-/

namespace Verif.Nonhydro

open Verif.Horiz

/-- What is common to a step with and without uniform diffusion. -/
theorem inviscid_parts (E : Dynamics) (I U : Nat) (dt : ℝ) (D D' D0 : Nat → Data)
    (h : stepExplicit E I U dt D = .done D') (h0 : stepExplicit E.inviscid I U dt D = .done D0) :
    ∃ i u w, uniformDiffusion E i dt u = some w ∧ (∀ x c, x.v = Var.state c → D' U x = w x ∧ D0 U x = u x) ∧
      ∀ x : Cell, x.v = .state 0 ∨ x.v = .state 1 ∨ x.v = theta E ∨ x.v = vertical E → i x = D I x := by
  obtain ⟨hIU, i, u, w, hi, hw, rfl⟩ := done_parts E I U dt D D' h
  obtain ⟨-, i0, u0, w0, hi0, hw0, rfl⟩ := done_parts E.inviscid I U dt D D0 h0
  have e0 : w0 = u0 := by
    rcases uniform_parts E.inviscid i0 dt u0 w0 hw0 with ⟨-, e⟩ | ⟨hf, -⟩ | ⟨hf, -⟩
    · exact e
    · exact absurd hf (by simp [Dynamics.inviscid])
    · exact absurd hf (by simp [Dynamics.inviscid])
  subst e0
  refine ⟨i, u, w, hw, ?_, ?_⟩
  · intro x c hx
    rw [store_same, store_same, filter_state _ _ _ _ c hx, filter_state _ _ _ _ c hx]
    refine ⟨rfl, ?_⟩
    rcases hi with ⟨he, hs⟩ | ⟨he, -, hu⟩
    · rcases hi0 with ⟨-, hs0⟩ | ⟨he0, -⟩
      · obtain ⟨v0, hv0, hsame⟩ := nonhydro_inviscid E.A _ _ _ _ _ hs
        change stepNonhydro { E.A with uniform := false } (D I) dt (D U) = some (i0, w0) at hs0
        rw [hv0] at hs0
        have : v0 = w0 := by injection hs0 with e; injection e
        rw [← this]
        exact (hsame x ⟨c, hx⟩).symm
      · change E.eqn = .shallow at he0
        rw [he] at he0
        cases he0
    · rcases hi0 with ⟨he0, -⟩ | ⟨-, -, hu0⟩
      · change E.eqn = .primitive at he0
        rw [he] at he0
        cases he0
      · rw [hu, hu0]
        rfl
  · intro x hx
    rcases hi with ⟨-, hs⟩ | ⟨-, rfl, -⟩
    · have n : ∀ v, x.v = v → v ≠ edge 0 → v ≠ edge 1 → (v = .state 3 → E.A.wOnEdge = false) →
          (v = .state 2 → E.A.pOnEdge = false) → i x = D I x := fun v hv a b c d =>
        C83_input E.A _ _ _ _ _ hs x (hv ▸ a) (hv ▸ b) (hv ▸ c) (hv ▸ d)
      rcases hx with hx | hx | hx | hx
      · exact n _ hx (by simp [edge]) (by simp [edge]) (by simp) (by simp)
      · exact n _ hx (by simp [edge]) (by simp [edge]) (by simp) (by simp)
      · unfold theta at hx
        cases hp : E.A.pOnEdge
        · rw [hp] at hx
          exact n _ hx (by simp [edge]) (by simp [edge]) (by simp) (by simp [hp])
        · rw [hp] at hx
          exact n _ hx (by simp [edge]) (by simp [edge]) (by simp [edge]) (by simp [edge])
      · unfold vertical at hx
        cases hp : E.A.wOnEdge
        · rw [hp] at hx
          exact n _ hx (by simp [edge]) (by simp [edge]) (by simp [hp]) (by simp)
        · rw [hp] at hx
          exact n _ hx (by simp [edge]) (by simp [edge]) (by simp [edge]) (by simp [edge])
    · rfl

theorem viscous_w (E : Dynamics) (i : Data) (dt : ℝ) (u w : Data) (h : uniformDiffusion E i dt u = some w)
    (hu : E.A.uniform = true) (x : Cell) (hx : x.v = .state 0 ∨ x.v = .state 1) : w x = viscous E i dt u x := by
  rcases uniform_parts E i dt u w h with ⟨hf, -⟩ | ⟨-, he, p, e1, e2⟩ | ⟨-, -, rfl⟩
  · rw [hu] at hf
    cases hf
  · have n : x.v ≠ theta E ∧ x.v ≠ vertical E := by
      rcases hx with hx | hx <;> rw [hx]
      · exact ⟨(theta_not E).1.symm, (vertical_not E).1.symm⟩
      · exact ⟨(theta_not E).2.1.symm, (vertical_not E).2.1.symm⟩
    rw [C75_untouched _ _ _ _ _ _ _ _ _ e2 x (Or.inr ⟨home_not E 3 (by omega), by rw [home_vertical]; exact n.2⟩),
      C75_untouched _ _ _ _ _ _ _ _ _ e1 x (Or.inr ⟨home_not E 2 (by omega), by rw [home_theta]; exact n.1⟩)]
  · rfl

theorem flow_sub (M : Medium) (a b : Nat) (f g : Flow) (i j : Nat) :
    (Flow.mk (fun i j => f.alpha i j - g.alpha i j) (fun i j => f.beta i j - g.beta i j)).div M a b i j =
      f.div M a b i j - g.div M a b i j ∧
    (Flow.mk (fun i j => f.alpha i j - g.alpha i j) (fun i j => f.beta i j - g.beta i j)).curl M a b i j =
      f.curl M a b i j - g.curl M a b i j := by
  have sA : ∀ p q : Nat → Nat → ℝ, Horiz.slopeA M (fun i j => p i j - q i j) i j =
      Horiz.slopeA M p i j - Horiz.slopeA M q i j := by
    intro p q
    unfold Horiz.slopeA
    rw [← sub_div, ← Finset.sum_sub_distrib]
    congr 1
    exact Finset.sum_congr rfl (fun s _ => by ring)
  have sB : ∀ p q : Nat → Nat → ℝ, Horiz.slopeB M (fun i j => p i j - q i j) i j =
      Horiz.slopeB M p i j - Horiz.slopeB M q i j := by
    intro p q
    unfold Horiz.slopeB
    rw [← sub_div, ← Finset.sum_sub_distrib]
    congr 1
    exact Finset.sum_congr rfl (fun s _ => by ring)
  constructor
  · unfold Flow.div
    have eA : (fun i j => jacAt M a b i j * (Flow.mk (fun i j => f.alpha i j - g.alpha i j)
        (fun i j => f.beta i j - g.beta i j)).upA M a b i j) =
        fun i j => jacAt M a b i j * f.upA M a b i j - jacAt M a b i j * g.upA M a b i j := by
      funext i j
      unfold Flow.upA
      ring
    have eB : (fun i j => jacAt M a b i j * (Flow.mk (fun i j => f.alpha i j - g.alpha i j)
        (fun i j => f.beta i j - g.beta i j)).upB M a b i j) =
        fun i j => jacAt M a b i j * f.upB M a b i j - jacAt M a b i j * g.upB M a b i j := by
      funext i j
      unfold Flow.upB
      ring
    rw [eA, eB, sA, sB]
    ring
  · unfold Flow.curl
    rw [sA, sB]
    ring

theorem areaSum_sub (M : Medium) (ω : Nat → ℝ) (a b : Nat) (f g : Nat → Nat → ℝ) :
    areaSum M ω a b (fun i j => f i j - g i j) = areaSum M ω a b f - areaSum M ω a b g := by
  unfold areaSum
  rw [← Finset.sum_sub_distrib]
  refine Finset.sum_congr rfl (fun i _ => ?_)
  rw [← Finset.sum_sub_distrib]
  exact Finset.sum_congr rfl (fun j _ => by ring)

theorem areaSum_add (M : Medium) (ω : Nat → ℝ) (a b : Nat) (f g : Nat → Nat → ℝ) :
    areaSum M ω a b (fun i j => f i j + g i j) = areaSum M ω a b f + areaSum M ω a b g := by
  unfold areaSum
  rw [← Finset.sum_add_distrib]
  refine Finset.sum_congr rfl (fun i _ => ?_)
  rw [← Finset.sum_add_distrib]
  exact Finset.sum_congr rfl (fun j _ => by ring)

section

variable (E : Dynamics) (I U : Nat) (dt : ℝ) (D D' D0 : Nat → Data) (h : stepExplicit E I U dt D = .done D')
  (h0 : stepExplicit E.inviscid I U dt D = .done D0) (hu : E.A.uniform = true)

include h h0 hu

/-- **C84 (what is diffused).**  Beside tracers, uniform diffusion makes no difference to any variable but the wind and,
for the nonhydrostatic equations, density times potential temperature and vertical velocity. -/
theorem C84_undiffused (x : Cell) (c : Nat) (hx : x.v = .state c) (n0 : x.v ≠ .state 0) (n1 : x.v ≠ .state 1)
    (n2 : E.eqn = .primitive → x.v ≠ theta E ∧ x.v ≠ vertical E) : D' U x = D0 U x := by
  obtain ⟨i, u, w, hw, hs, -⟩ := inviscid_parts E I U dt D D' D0 h h0
  rw [(hs x c hx).1, (hs x c hx).2]
  exact uniform_same E _ _ _ _ hw x n0 n1 n2

/-- **C84 (wind).**  What uniform diffusion adds to the wind dissipates its deviation from the reference wind: their
product over an element is less than zero by time step times diffusivity times the sum of squared divergence and squared
vorticity of the deviation. -/
theorem C84_wind (ω : Nat → ℝ) (hp : Paired E.A.G.S.order E.A.B ω) (a b k : Nat) (ha : a < E.A.G.S.elemA)
    (hb : b < E.A.G.S.elemB) (hk : k < E.A.G.S.levels) (hxz : E.A.xz = false) (hm : Metric E.medium a b) :
    flowDot E.medium ω a b (windDeviation E (D I) a b k) (flowChange E.A.G.S (D' U) (D0 U) a b k) =
      -(dt * E.nuVector) *
        (areaSum E.medium ω a b (fun i j => (windDeviation E (D I) a b k).div E.medium a b i j ^ 2) +
          areaSum E.medium ω a b (fun i j => (windDeviation E (D I) a b k).curl E.medium a b i j ^ 2)) := by
  obtain ⟨i, u, w, hw, hs, hi⟩ := inviscid_parts E I U dt D D' D0 h h0
  let t := windDeviation E (D I) a b k
  let v := applyVector E.medium false i dt (-E.nuVector) (-E.nuVector) false u
  have e1 := C76_weak E.medium ω hp i dt (-E.nuVector) (-E.nuVector) false u a b k ha hb hk hm t
  have e2 := C76_weak E.medium ω hp E.ref dt E.nuVector E.nuVector false v a b k ha hb hk hm t
  have ln : ∀ nu, E.medium.localNu nu false = nu := fun nu => rfl
  rw [ln] at e1 e2
  have split : flowDot E.medium ω a b t (flowChange E.A.G.S (D' U) (D0 U) a b k) =
      flowDot E.medium ω a b t (flowChange E.A.G.S v u a b k) +
      flowDot E.medium ω a b t (flowChange E.A.G.S
        (applyVector E.medium false E.ref dt E.nuVector E.nuVector false v) v a b k) := by
    unfold flowDot
    rw [← areaSum_add]
    congr 1
    funext x y
    have c : ∀ vv c, vv = Var.state c → (vv = .state 0 ∨ vv = .state 1) → change E.A.G.S (D' U) (D0 U) vv a b k x y =
        change E.A.G.S v u vv a b k x y + change E.A.G.S
          (applyVector E.medium false E.ref dt E.nuVector E.nuVector false v) v vv a b k x y := by
      intro vv c hc hvv
      unfold change value
      rw [(hs _ c hc).1, (hs _ c hc).2, viscous_w E i dt u w hw hu _ hvv]
      unfold viscous
      rw [hxz]
      ring
    simp only [flowChange]
    rw [c _ 0 rfl (Or.inl rfl), c _ 1 rfl (Or.inr rfl)]
    ring
  have hdev : t = Flow.mk (fun x y => (flowOf E.A.G.S i a b k).alpha x y - (flowOf E.A.G.S E.ref a b k).alpha x y)
      (fun x y => (flowOf E.A.G.S i a b k).beta x y - (flowOf E.A.G.S E.ref a b k).beta x y) := by
    show windDeviation E (D I) a b k = _
    unfold windDeviation deviation flowOf value
    congr 1
    · funext x y
      dsimp only
      rw [hi ⟨.state 0, E.A.G.S.halo + a * E.A.G.S.order + x, E.A.G.S.halo + b * E.A.G.S.order + y, k⟩ (Or.inl rfl)]
    · funext x y
      dsimp only
      rw [hi ⟨.state 1, E.A.G.S.halo + a * E.A.G.S.order + x, E.A.G.S.halo + b * E.A.G.S.order + y, k⟩
        (Or.inr (Or.inl rfl))]
  show flowDot E.medium ω a b t (flowChange E.A.G.S (D' U) (D0 U) a b k) = _
  rw [split]
  change flowDot E.medium ω a b t (flowChange E.A.G.S v u a b k) = _ at e1
  change flowDot E.medium ω a b t (flowChange E.A.G.S
        (applyVector E.medium false E.ref dt E.nuVector E.nuVector false v) v a b k) = _ at e2
  rw [e1, e2]
  have d : ∀ x y, t.div E.medium a b x y = (flowOf E.A.G.S i a b k).div E.medium a b x y -
      (flowOf E.A.G.S E.ref a b k).div E.medium a b x y := fun x y => by
    rw [hdev]
    exact (flow_sub E.medium a b _ _ x y).1
  have r : ∀ x y, t.curl E.medium a b x y = (flowOf E.A.G.S i a b k).curl E.medium a b x y -
      (flowOf E.A.G.S E.ref a b k).curl E.medium a b x y := fun x y => by
    rw [hdev]
    exact (flow_sub E.medium a b _ _ x y).2
  have q1 : areaSum E.medium ω a b (fun x y => t.div E.medium a b x y ^ 2) =
      areaSum E.medium ω a b (fun x y => (flowOf E.A.G.S i a b k).div E.medium a b x y * t.div E.medium a b x y) -
      areaSum E.medium ω a b (fun x y => (flowOf E.A.G.S E.ref a b k).div E.medium a b x y * t.div E.medium a b x y) := by
    rw [← areaSum_sub]
    congr 1
    funext x y
    rw [sq]
    nth_rewrite 1 [d]
    ring
  have q2 : areaSum E.medium ω a b (fun x y => t.curl E.medium a b x y ^ 2) =
      areaSum E.medium ω a b (fun x y => (flowOf E.A.G.S i a b k).curl E.medium a b x y * t.curl E.medium a b x y) -
      areaSum E.medium ω a b (fun x y => (flowOf E.A.G.S E.ref a b k).curl E.medium a b x y * t.curl E.medium a b x y) := by
    rw [← areaSum_sub]
    congr 1
    funext x y
    rw [sq]
    nth_rewrite 1 [r]
    ring
  show _ = -(dt * E.nuVector) * (areaSum E.medium ω a b (fun x y => t.div E.medium a b x y ^ 2) +
    areaSum E.medium ω a b (fun x y => t.curl E.medium a b x y ^ 2))
  rw [q1, q2]
  show dt * -E.nuVector * areaSum E.medium ω a b
      (fun x y => (flowOf E.A.G.S i a b k).div E.medium a b x y * t.div E.medium a b x y) +
      dt * -E.nuVector * areaSum E.medium ω a b
        (fun x y => (flowOf E.A.G.S i a b k).curl E.medium a b x y * t.curl E.medium a b x y) +
      (dt * E.nuVector * areaSum E.medium ω a b
        (fun x y => (flowOf E.A.G.S E.ref a b k).div E.medium a b x y * t.div E.medium a b x y) +
      dt * E.nuVector * areaSum E.medium ω a b
        (fun x y => (flowOf E.A.G.S E.ref a b k).curl E.medium a b x y * t.curl E.medium a b x y)) = _
  ring

/-- **C84 (heat and updraft).**  What uniform diffusion adds to density times potential temperature, with the scalar
coefficient, and to vertical velocity, with the vector coefficient, dissipates their deviation from the reference state
in the same way, on levels or interfaces, wherever they live. -/
theorem C84_scalars (ω : Nat → ℝ) (hp : Paired E.A.G.S.order E.A.B ω) (he : E.eqn = .primitive) (a b k : Nat)
    (ha : a < E.A.G.S.elemA) (hb : b < E.A.G.S.elemB) :
    (Carried E.medium (theta E) k → RegularFor E.medium (theta E) a b k →
      inner E.medium ω (theta E) a b k (deviation E (D I) (theta E) a b k)
        (change E.A.G.S (D' U) (D0 U) (theta E) a b k) =
      -(dt * E.A.nu) * inner E.medium ω (theta E) a b k (fun _ _ => 1)
        (gradDot E.medium a b (deviation E (D I) (theta E) a b k) (deviation E (D I) (theta E) a b k))) ∧
    (Carried E.medium (vertical E) k → RegularFor E.medium (vertical E) a b k →
      inner E.medium ω (vertical E) a b k (deviation E (D I) (vertical E) a b k)
        (change E.A.G.S (D' U) (D0 U) (vertical E) a b k) =
      -(dt * E.nuVector) * inner E.medium ω (vertical E) a b k (fun _ _ => 1)
        (gradDot E.medium a b (deviation E (D I) (vertical E) a b k) (deviation E (D I) (vertical E) a b k))) := by
  obtain ⟨i, u, w, hw, hs, hi⟩ := inviscid_parts E I U dt D D' D0 h h0
  rcases uniform_parts E i dt u w hw with ⟨hf, -⟩ | ⟨-, -, p, e1, e2⟩ | ⟨-, hn, -⟩
  · rw [hu] at hf
    cases hf
  swap
  · exact absurd he hn
  have df : ∀ v, (v = theta E ∨ v = vertical E) → diffused E.medium i true v a b k = deviation E (D I) v a b k := by
    intro v hv
    funext x y
    unfold diffused deviation value
    rw [if_pos rfl]
    show i ⟨v, _, _, k⟩ - E.ref ⟨v, _, _, k⟩ = _
    rw [hi _ (Or.inr (Or.inr hv))]
    rfl
  constructor
  · intro hk hr
    have hc := (home_chosen E 2 (by omega)).1
    rw [home_theta] at hc
    have e3 := C75_rate E.medium ω hp i dt E.A.nu false (E.home 2) true _ _ e1 (theta E) a b k ha hb hk _ hc
      (by simp) hr
    rw [df _ (Or.inl rfl)] at e3
    rw [← show E.medium.localNu E.A.nu false = E.A.nu from rfl, ← e3]
    congr 1
    funext x y
    unfold change value
    obtain ⟨c, hth⟩ : ∃ c, theta E = .state c := ⟨_, (home_theta E).symm⟩
    rw [(hs _ c hth).1, (hs _ c hth).2, C75_untouched _ _ _ _ _ _ _ _ _ e2 _ (Or.inr ⟨home_not E 3 (by omega), by
      rw [home_vertical]; exact (theta_not E).2.2.1⟩), viscous_out E i dt u _ ⟨(theta_not E).1, (theta_not E).2.1⟩]
    rfl
  · intro hk hr
    have hc := (home_chosen E 3 (by omega)).1
    rw [home_vertical] at hc
    have e3 := C75_rate E.medium ω hp i dt E.nuVector false (E.home 3) true _ _ e2 (vertical E) a b k ha hb hk _ hc
      (by simp) hr
    rw [df _ (Or.inr rfl)] at e3
    rw [← show E.medium.localNu E.nuVector false = E.nuVector from rfl, ← e3]
    congr 1
    funext x y
    unfold change value
    obtain ⟨c, hth⟩ : ∃ c, vertical E = .state c := ⟨_, (home_vertical E).symm⟩
    have e4 := C75_untouched _ _ _ _ _ _ _ _ _ e1 ⟨vertical E, E.A.G.S.halo + a * E.A.G.S.order + x,
      E.A.G.S.halo + b * E.A.G.S.order + y, k⟩ (Or.inr ⟨home_not E 2 (by omega), by
      rw [home_theta]; exact (theta_not E).2.2.1.symm⟩)
    rw [viscous_out E i dt u _ ⟨(vertical_not E).1, (vertical_not E).2.1⟩] at e4
    rw [(hs _ c hth).1, (hs _ c hth).2]
    show w _ - u _ = w _ - p _
    rw [← e4]
    rfl

/-- **C84 (reference state).**  The reference state itself is not diffused: if the initial state has its wind, density
times potential temperature and vertical velocity, the step gives every state variable the value that it gives without
uniform diffusion. -/
theorem C84_reference (hD : ∀ x : Cell, x.v = .state 0 ∨ x.v = .state 1 ∨ x.v = theta E ∨ x.v = vertical E →
      D I x = E.ref x) (v : Var) (c : Nat) (hv : v = .state c) (a b k i j : Nat) (ha : a < E.A.G.S.elemA)
    (hb : b < E.A.G.S.elemB) (hk : Carried E.medium v k) (hi : i < E.A.G.S.order) (hj : j < E.A.G.S.order) (ω : Nat → ℝ)
    (hp : Paired E.A.G.S.order E.A.B ω) :
    value E.A.G.S (D' U) v a b k i j = value E.A.G.S (D0 U) v a b k i j := by
  obtain ⟨q, u, w, hw, hs, hq⟩ := inviscid_parts E I U dt D D' D0 h h0
  have hq' : ∀ x : Cell, x.v = .state 0 ∨ x.v = .state 1 ∨ x.v = theta E ∨ x.v = vertical E → q x = E.ref x :=
    fun x hx => (hq x hx).trans (hD x hx)
  by_cases n01 : v = .state 0 ∨ v = .state 1
  · have hkk : k < E.A.G.S.levels := by
      rcases n01 with n | n <;> rw [n] at hk <;> rcases hk with ⟨-, hk⟩ | ⟨hf, -⟩
      · exact hk
      · exact absurd hf (by simp [Dynamics.medium])
      · exact hk
      · exact absurd hf (by simp [Dynamics.medium])
    have r0 : Horiz.read E.medium.G q a b k 0 = Horiz.read E.medium.G E.ref a b k 0 := by
      funext x y
      exact hq' _ (Or.inl rfl)
    have r1 : Horiz.read E.medium.G q a b k 1 = Horiz.read E.medium.G E.ref a b k 1 := by
      funext x y
      exact hq' _ (Or.inr (Or.inl rfl))
    have rd : divergence E.medium q a b k = divergence E.medium E.ref a b k := by
      unfold divergence Horiz.conUa Horiz.conUb
      rw [r0, r1]
    have rv : vorticity E.medium q a b k = vorticity E.medium E.ref a b k := by
      unfold vorticity
      rw [r0, r1]
    have va : vectorUa E.medium q a b k (-E.nuVector) (-E.nuVector) i j =
        -vectorUa E.medium E.ref a b k E.nuVector E.nuVector i j := by
      unfold vectorUa
      rw [rd, rv]
      ring
    have vb : vectorUb E.medium q a b k (-E.nuVector) (-E.nuVector) i j =
        -vectorUb E.medium E.ref a b k E.nuVector E.nuVector i j := by
      unfold vectorUb
      rw [rd, rv]
      ring
    have e1 := vector_change E.medium E.A.xz q dt (-E.nuVector) (-E.nuVector) false u a b k i j ha hb hkk hi hj
    have e2 := vector_change E.medium E.A.xz E.ref dt E.nuVector E.nuVector false
      (applyVector E.medium E.A.xz q dt (-E.nuVector) (-E.nuVector) false u) a b k i j ha hb hkk hi hj
    have ln : ∀ nu, E.medium.localNu nu false = nu := fun nu => rfl
    simp only [ln, flowChange, change, va, vb] at e1 e2
    have ew : value E.A.G.S (D' U) v a b k i j = value E.medium.G.S (applyVector E.medium E.A.xz E.ref dt E.nuVector
        E.nuVector false (applyVector E.medium E.A.xz q dt (-E.nuVector) (-E.nuVector) false u)) v a b k i j := by
      unfold value
      rw [(hs _ c hv).1, viscous_w E q dt u w hw hu _ n01]
      rfl
    have eu : value E.A.G.S (D0 U) v a b k i j = value E.medium.G.S u v a b k i j := (hs _ c hv).2
    rw [ew, eu]
    rcases n01 with rfl | rfl
    · linarith [e1.1, e2.1]
    · cases hx : E.A.xz
      · rw [hx] at e1 e2
        simp only [Bool.false_eq_true, if_false] at e1 e2
        linarith [e1.2, e2.2]
      · rw [hx] at e1 e2
        simp only [if_true] at e1 e2
        linarith [e1.2, e2.2]
  · have hn : v ≠ .state 0 ∧ v ≠ .state 1 := ⟨fun e => n01 (Or.inl e), fun e => n01 (Or.inr e)⟩
    have ew : value E.A.G.S (D' U) v a b k i j = value E.A.G.S w v a b k i j := (hs _ c hv).1
    have eu : value E.A.G.S (D0 U) v a b k i j = value E.A.G.S u v a b k i j := (hs _ c hv).2
    rw [ew, eu]
    rcases uniform_parts E q dt u w hw with ⟨-, rfl⟩ | ⟨-, -, p, e1, e2⟩ | ⟨-, -, rfl⟩
    · rfl
    · have z : ∀ vv, (vv = theta E ∨ vv = vertical E) → ∀ i j, i < E.A.G.S.order → j < E.A.G.S.order →
          diffused E.medium q true vv a b k i j = 0 := fun vv hvv i j _ _ => by
        unfold diffused value
        rw [if_pos rfl, hq' _ (Or.inr (Or.inr hvv))]
        exact sub_self _
      have s2 : value E.A.G.S w v a b k i j = value E.A.G.S p v a b k i j := by
        by_cases e : v = vertical E
        · exact C75_uniform E.medium ω hp q dt _ false _ true _ _ e2 v a b k ha hb hk 0 (z v (Or.inr e)) i j hi hj
        · exact C75_untouched _ _ _ _ _ _ _ _ _ e2 _ (Or.inr ⟨home_not E 3 (by omega), by
            rw [home_vertical]; exact e⟩)
      have s1 : value E.A.G.S p v a b k i j = value E.A.G.S (viscous E q dt u) v a b k i j := by
        by_cases e : v = theta E
        · exact C75_uniform E.medium ω hp q dt _ false _ true _ _ e1 v a b k ha hb hk 0 (z v (Or.inl e)) i j hi hj
        · exact C75_untouched _ _ _ _ _ _ _ _ _ e1 _ (Or.inr ⟨home_not E 2 (by omega), by
            rw [home_theta]; exact e⟩)
      rw [s2, s1]
      exact viscous_out E q dt u _ hn
    · exact viscous_out E q dt u _ hn

end

end Verif.Nonhydro
