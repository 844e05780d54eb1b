import Verif.Horiz.SubCycleProps
import Verif.Nonhydro.ExplicitSpec
import Verif.Nonhydro.PropsMore

/-!
# Lemmas on the explicit horizontal step
-/

namespace Verif.Nonhydro

open Verif.Horiz

theorem home_chosen (E : Dynamics) (c : Nat) (hc : c < 5) : E.medium.chosen (E.home c) = some [.state (E.home c).toNat] ∧
    0 ≤ E.home c ∧ E.home c < 10 := by
  have h : 0 ≤ E.home c ∧ E.home c < 10 := by
    unfold Dynamics.home
    split <;> omega
  refine ⟨?_, h⟩
  unfold Medium.chosen
  rw [if_neg (by omega), if_pos (by omega), if_neg (by
    show ¬ E.home c ≥ ((10 : Nat) : Int)
    omega)]

theorem scalar_some (E : Dynamics) (c : Nat) (hc : c < 5) (init : Data) (dt nu : ℝ) (u : Data) :
    ∃ r, applyScalar E.medium init dt nu false (E.home c) true u = some r := by
  rw [C75_succeeds]
  obtain ⟨-, h1, h2⟩ := home_chosen E c hc
  refine Or.inr ⟨h1, h2, ?_⟩
  show (if (E.home c).toNat < 5 then Located.node else Located.redge) ≠ .other
  split <;> simp

theorem uniform_some (E : Dynamics) (init : Data) (dt : ℝ) (u : Data) : ∃ r, uniformDiffusion E init dt u = some r := by
  unfold uniformDiffusion
  cases E.A.uniform
  · exact ⟨_, rfl⟩
  · simp only [if_true]
    split
    · obtain ⟨r, hr⟩ := scalar_some E 2 (by omega) init dt E.A.nu
        (applyVector E.medium E.A.xz E.ref dt E.nuVector E.nuVector false
          (applyVector E.medium E.A.xz init dt (-E.nuVector) (-E.nuVector) false u))
      rw [hr]
      exact scalar_some E 3 (by omega) init dt E.nuVector r
    · exact ⟨_, rfl⟩

theorem finish_done (E : Dynamics) (I U : Nat) (dt : ℝ) (D : Nat → Data) :
    ∃ u, uniformDiffusion E (D I) dt (D U) = some u ∧
      finish E I U dt D = .done (store D U (filterTracers E.A.G.S E.area u)) := by
  obtain ⟨u, hu⟩ := uniform_some E (D I) dt (D U)
  exact ⟨u, hu, by rw [finish, hu]⟩

/-- What a successful call is made of. -/
theorem done_parts (E : Dynamics) (I U : Nat) (dt : ℝ) (D D' : Nat → Data) (h : stepExplicit E I U dt D = .done D') :
    I ≠ U ∧ ∃ i u w, ((E.eqn = .primitive ∧ stepNonhydro E.A (D I) dt (D U) = some (i, u)) ∨
        (E.eqn = .shallow ∧ i = D I ∧ u = stepShallowWater E.A.G E.A.B (D I) dt (D U))) ∧
      uniformDiffusion E i dt u = some w ∧
      D' = store (store D I i) U (filterTracers E.A.G.S E.area w) := by
  unfold stepExplicit at h
  by_cases hIU : I = U
  · rw [if_pos hIU] at h
    cases h
  rw [if_neg hIU] at h
  refine ⟨hIU, ?_⟩
  have st : ∀ i u w : Data, store (store (store D I i) U u) U w = store (store D I i) U w := by
    intro i u w
    funext m
    unfold store
    by_cases hm : m = U <;> simp [hm]
  have g : ∀ i u : Data, finish E I U dt (store (store D I i) U u) = .done D' →
      ∃ w, uniformDiffusion E i dt u = some w ∧ D' = store (store D I i) U (filterTracers E.A.G.S E.area w) := by
    intro i u hf
    obtain ⟨w, hw, hd⟩ := finish_done E I U dt (store (store D I i) U u)
    rw [hd] at hf
    rw [store_same, store_other _ _ _ _ hIU, store_same] at hw
    refine ⟨w, hw, ?_⟩
    cases hf
    exact st _ _ _
  cases he : E.eqn with
  | primitive =>
    rw [he] at h
    simp only at h
    cases hs : stepNonhydro E.A (D I) dt (D U) with
    | none =>
      rw [hs] at h
      cases h
    | some p =>
      obtain ⟨i, u⟩ := p
      rw [hs] at h
      obtain ⟨w, h1, h2⟩ := g i u h
      exact ⟨i, u, w, Or.inl ⟨rfl, rfl⟩, h1, h2⟩
  | shallow =>
    rw [he] at h
    simp only at h
    have e : D = store D I (D I) := by
      funext m
      unfold store
      by_cases hm : m = I <;> simp [hm]
    have h' : finish E I U dt (store (store D I (D I)) U (stepShallowWater E.A.G E.A.B (D I) dt (D U))) = .done D' := by
      rw [← e]
      exact h
    obtain ⟨w, h1, h2⟩ := g _ _ h'
    exact ⟨D I, _, w, Or.inr ⟨rfl, rfl, rfl⟩, h1, h2⟩
  | other =>
    rw [he] at h
    cases h

theorem home_theta (E : Dynamics) : Var.state (E.home 2).toNat = theta E := by
  unfold Dynamics.home theta edge
  cases E.A.pOnEdge <;> simp

theorem home_vertical (E : Dynamics) : Var.state (E.home 3).toNat = vertical E := by
  unfold Dynamics.home vertical edge
  cases E.A.wOnEdge <;> simp

theorem theta_not (E : Dynamics) : theta E ≠ .state 0 ∧ theta E ≠ .state 1 ∧ theta E ≠ vertical E ∧ theta E ≠ .state 4 ∧
    ∀ c, theta E ≠ .tracer c := by
  unfold theta vertical edge
  cases E.A.pOnEdge <;> cases E.A.wOnEdge <;> simp

theorem vertical_not (E : Dynamics) : vertical E ≠ .state 0 ∧ vertical E ≠ .state 1 ∧ vertical E ≠ .state 2 ∧
    vertical E ≠ .state 4 ∧ ∀ c, vertical E ≠ .tracer c := by
  unfold vertical edge
  cases E.A.wOnEdge <;> simp

theorem home_not (E : Dynamics) (c : Nat) (hc : c < 5) : E.home c ≠ -1 := by
  have := (home_chosen E c hc).2
  omega

/-- The velocities after both calls of the vector diffusion. -/
noncomputable def viscous (E : Dynamics) (i : Data) (dt : ℝ) (u : Data) : Data :=
  applyVector E.medium E.A.xz E.ref dt E.nuVector E.nuVector false
    (applyVector E.medium E.A.xz i dt (-E.nuVector) (-E.nuVector) false u)

theorem viscous_out (E : Dynamics) (i : Data) (dt : ℝ) (u : Data) (x : Cell) (h : x.v ≠ .state 0 ∧ x.v ≠ .state 1) :
    viscous E i dt u x = u x := by
  unfold viscous
  rw [vector_out _ _ _ _ _ _ _ _ _ h, vector_out _ _ _ _ _ _ _ _ _ h]

/-- What the uniform diffusion is made of. -/
theorem uniform_parts (E : Dynamics) (i : Data) (dt : ℝ) (u w : Data) (h : uniformDiffusion E i dt u = some w) :
    (E.A.uniform = false ∧ w = u) ∨
    (E.A.uniform = true ∧ E.eqn = .primitive ∧ ∃ p,
      applyScalar E.medium i dt E.A.nu false (E.home 2) true (viscous E i dt u) = some p ∧
      applyScalar E.medium i dt E.nuVector false (E.home 3) true p = some w) ∨
    (E.A.uniform = true ∧ E.eqn ≠ .primitive ∧ w = viscous E i dt u) := by
  unfold uniformDiffusion at h
  cases hu : E.A.uniform
  · rw [hu] at h
    simp only [Bool.false_eq_true, if_false, Option.some.injEq] at h
    exact Or.inl ⟨rfl, h.symm⟩
  · rw [hu] at h
    simp only [if_true] at h
    by_cases he : E.eqn = .primitive
    · rw [if_pos he] at h
      refine Or.inr (Or.inl ⟨rfl, he, ?_⟩)
      change ((applyScalar E.medium i dt E.A.nu false (E.home 2) true (viscous E i dt u)).bind fun u =>
        applyScalar E.medium i dt E.nuVector false (E.home 3) true u) = some w at h
      rw [Option.bind_eq_some_iff] at h
      obtain ⟨p, h1, h2⟩ := h
      exact ⟨p, h1, h2⟩
    · rw [if_neg he] at h
      exact Or.inr (Or.inr ⟨rfl, he, (Option.some.inj h).symm⟩)

/-- The diffusion changes velocities and density times potential temperature only. -/
theorem uniform_same (E : Dynamics) (i : Data) (dt : ℝ) (u w : Data) (h : uniformDiffusion E i dt u = some w) (x : Cell)
    (h0 : x.v ≠ .state 0) (h1 : x.v ≠ .state 1)
    (h2 : E.eqn = .primitive → x.v ≠ theta E ∧ x.v ≠ vertical E) : w x = u x := by
  rcases uniform_parts E i dt u w h with ⟨-, rfl⟩ | ⟨-, he, p, e1, e2⟩ | ⟨-, -, rfl⟩
  · rfl
  · rw [C75_untouched _ _ _ _ _ _ _ _ _ e2 x (Or.inr ⟨home_not E 3 (by omega), by
        rw [home_vertical]; exact (h2 he).2⟩),
      C75_untouched _ _ _ _ _ _ _ _ _ e1 x (Or.inr ⟨home_not E 2 (by omega), by
        rw [home_theta]; exact (h2 he).1⟩), viscous_out E i dt u x ⟨h0, h1⟩]
  · exact viscous_out E i dt u x ⟨h0, h1⟩

/-- Two states agree in all state variables. -/
def Same (u v : Data) : Prop := ∀ x : Cell, (∃ c, x.v = .state c) → u x = v x

theorem loop_same (n : Nat) (f g : Nat → Data → Data) (h : ∀ t u v, Same u v → Same (f t u) (g t v)) (u v : Data)
    (huv : Same u v) : Same (loop n f u) (loop n g v) := by
  induction n with
  | zero => exact huv
  | succ n ih =>
    rw [loop_succ, loop_succ]
    exact h n _ _ ih

theorem put_same (u v : Data) (huv : Same u v) (x : Cell) (p q : ℝ) (hpq : p = q) : Same (put u x p) (put v x q) := by
  intro y hy
  unfold put
  split
  · exact hpq
  · exact huv y hy

/-- Uniform diffusion acts in the nonhydrostatic step on tracers only. -/
theorem nonhydro_inviscid (A : Air) (init : Data) (dt : ℝ) (u i' u' : Data)
    (h : stepNonhydro A init dt u = some (i', u')) :
    ∃ u0, stepNonhydro { A with uniform := false } init dt u = some (i', u0) ∧ Same u' u0 := by
  unfold stepNonhydro at h ⊢
  split at h
  · exact absurd h (by simp)
  · rename_i hr
    simp only [Option.some.injEq, Prod.mk.injEq] at h
    obtain ⟨rfl, rfl⟩ := h
    refine ⟨_, if_neg hr, ?_⟩
    refine loop_same _ _ _ (fun a u v huv => loop_same _ _ _ (fun b u v huv => ?_) u v huv) u u (fun _ _ => rfl)
    have n : ∀ u v, Same u v → ∀ i j k, Same (nodePoint A (prepare A init) dt a b k i j u)
        (nodePoint { A with uniform := false } (prepare A init) dt a b k i j v) := by
      intro u v huv i j k x hx
      rw [nodePoint_at, nodePoint_at]
      obtain ⟨c, hc⟩ := hx
      have ht : tend { A with uniform := false } (prepare A init) a b k i j x.v =
          tend A (prepare A init) a b k i j x.v := by
        rw [hc]
        match c with
        | 0 => rfl
        | 1 => rfl
        | 2 => rfl
        | 3 => rfl
        | 4 => rfl
        | (c + 5) => rfl
      rw [ht, huv x ⟨c, hc⟩]
    unfold element
    have t1 : Same (loop A.G.S.order (fun i u => loop A.G.S.order (fun j u =>
        loop A.G.S.levels (fun k u => nodePoint A (prepare A init) dt a b k i j u) u) u) u)
        (loop A.G.S.order (fun i u => loop A.G.S.order (fun j u =>
        loop A.G.S.levels (fun k u => nodePoint { A with uniform := false } (prepare A init) dt a b k i j u) u) u) v) :=
      loop_same _ _ _ (fun i u v huv => loop_same _ _ _ (fun j u v huv => loop_same _ _ _ (fun k u v huv =>
        n u v huv i j k) u v huv) u v huv) u v huv
    by_cases hw : A.wOnEdge = true
    swap
    · rw [if_neg hw, if_neg (show ¬ ({ A with uniform := false } : Air).wOnEdge = true from hw)]
      exact t1
    · rw [if_pos hw, if_pos (show ({ A with uniform := false } : Air).wOnEdge = true from hw)]
      have eP : ∀ i j t u v, Same u v → Same (edgePoint A (prepare A init) dt a b i j t u)
          (edgePoint { A with uniform := false } (prepare A init) dt a b i j t v) := by
        intro i j t u v huv
        unfold edgePoint
        refine put_same u v huv _ _ _ ?_
        rw [huv _ ⟨_, rfl⟩]
        rfl
      have bP : ∀ i j u v, Same u v → Same (bottomPoint A a b i j u)
          (bottomPoint { A with uniform := false } a b i j v) := by
        intro i j u v huv
        unfold bottomPoint
        refine put_same u v huv _ _ _ ?_
        have e : ∀ c, (fun l => u ⟨.state c, A.G.S.at a i, A.G.S.at b j, l⟩) =
            fun l => v ⟨.state c, A.G.S.at a i, A.G.S.at b j, l⟩ := fun c => funext (fun l => huv _ ⟨c, rfl⟩)
        rw [e 0, e 1]
      dsimp only
      exact loop_same _ _ _ (fun i u v huv => loop_same _ _ _ (fun j u v huv => loop_same _ _ _ (fun t u v huv =>
        eP i j t u v huv) u v huv) u v huv) _ _
        (loop_same _ _ _ (fun i u v huv => loop_same _ _ _ (fun j u v huv => bP i j u v huv) u v huv) _ _ t1)

end Verif.Nonhydro
