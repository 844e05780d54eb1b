import Verif.HorizV2.Uniform
import Verif.Nonhydro.ExplicitProps

/-!
# C129: the second version of the horizontal dynamics refines the first

`Verif.HorizV2` models HorizontalDynamicsFEMV2.cpp, `Verif.Nonhydro` and `Verif.Horiz` model HorizontalDynamicsFEM.cpp;
the two are written independently of each other.
-/

namespace Verif.HorizV2

open Verif.Horiz Verif.Nonhydro

theorem store_twice (D : Nat → Data) (U : Nat) (u w : Data) : store (store D U u) U w = store D U w := by
  funext m
  unfold store
  by_cases hm : m = U <;> simp [hm]

theorem store_self (D : Nat → Data) (I : Nat) : store D I (D I) = D := by
  funext m
  unfold store
  by_cases hm : m = I <;> simp [hm]

theorem uniform_some (E : Dynamics) (I U : Nat) (dt : ℝ) (D : Nat → Data) (h4 : E.A.G.S.order = 4) :
    ∃ D', uniformDiffusion E I U dt D = some D' := by
  unfold uniformDiffusion
  cases E.A.uniform
  · exact ⟨_, rfl⟩
  · simp only [if_true]
    split
    · rw [applyScalar_eq E.medium h4]
      obtain ⟨r, hr⟩ := scalar_some E 2 (by omega) (store (store D U
        (applyVector E.medium (D (vectorSource (some I))) dt (-E.nuVector) (-E.nuVector) false (D U))) U
        (applyVector E.medium (store D U (applyVector E.medium (D (vectorSource (some I))) dt (-E.nuVector) (-E.nuVector)
          false (D U)) (vectorSource none)) dt E.nuVector E.nuVector false (store D U (applyVector E.medium
          (D (vectorSource (some I))) dt (-E.nuVector) (-E.nuVector) false (D U)) U)) I) dt E.A.nu
        (store (store D U
        (applyVector E.medium (D (vectorSource (some I))) dt (-E.nuVector) (-E.nuVector) false (D U))) U
        (applyVector E.medium (store D U (applyVector E.medium (D (vectorSource (some I))) dt (-E.nuVector) (-E.nuVector)
          false (D U)) (vectorSource none)) dt E.nuVector E.nuVector false (store D U (applyVector E.medium
          (D (vectorSource (some I))) dt (-E.nuVector) (-E.nuVector) false (D U)) U)) U)
      rw [hr]
      simp only [Option.bind_eq_bind, Option.bind_some]
      obtain ⟨q, hq⟩ := scalar_some E 3 (by omega) (store (store (store D U
        (applyVector E.medium (D (vectorSource (some I))) dt (-E.nuVector) (-E.nuVector) false (D U))) U
        (applyVector E.medium (store D U (applyVector E.medium (D (vectorSource (some I))) dt (-E.nuVector) (-E.nuVector)
          false (D U)) (vectorSource none)) dt E.nuVector E.nuVector false (store D U (applyVector E.medium
          (D (vectorSource (some I))) dt (-E.nuVector) (-E.nuVector) false (D U)) U))) U r I) dt E.nuVector
        (store (store (store D U
        (applyVector E.medium (D (vectorSource (some I))) dt (-E.nuVector) (-E.nuVector) false (D U))) U
        (applyVector E.medium (store D U (applyVector E.medium (D (vectorSource (some I))) dt (-E.nuVector) (-E.nuVector)
          false (D U)) (vectorSource none)) dt E.nuVector E.nuVector false (store D U (applyVector E.medium
          (D (vectorSource (some I))) dt (-E.nuVector) (-E.nuVector) false (D U)) U))) U r U)
      rw [hq]
      exact ⟨_, rfl⟩
    · exact ⟨_, rfl⟩

/-- **C129 (refusals).**  The second version refuses every order but four, an update in place and an unknown equation set,
and nothing else; what it does is always defined. -/
theorem C129_refused (E : Dynamics) (I U : Nat) (dt : ℝ) (D : Nat → Data) :
    (stepExplicit E I U dt D = .exception ↔ E.A.G.S.order ≠ 4 ∨ I = U ∨ E.eqn = .other) ∧
    ((∃ D', stepExplicit E I U dt D = .done D') ↔ E.A.G.S.order = 4 ∧ I ≠ U ∧ E.eqn ≠ .other) := by
  have hc : constructible E.A.G.S = false ↔ E.A.G.S.order ≠ 4 := by
    unfold constructible
    simp
  by_cases h4 : E.A.G.S.order = 4
  swap
  · have e : stepExplicit E I U dt D = .exception := by
      unfold stepExplicit
      rw [if_pos (hc.2 h4)]
    rw [e]
    exact ⟨⟨fun _ => Or.inl h4, fun _ => rfl⟩, ⟨fun ⟨_, h⟩ => (by cases h), fun h => absurd h.1 h4⟩⟩
  have h4' : ¬ constructible E.A.G.S = false := fun h => hc.1 h h4
  by_cases hIU : I = U
  · have e : stepExplicit E I U dt D = .exception := by
      unfold stepExplicit
      rw [if_neg h4', if_pos hIU]
    rw [e]
    exact ⟨⟨fun _ => Or.inr (Or.inl hIU), fun _ => rfl⟩, ⟨fun ⟨_, h⟩ => (by cases h), fun h => absurd hIU h.2.1⟩⟩
  have fd : ∀ D, ∃ D', finish E I U dt D = .done D' := by
    intro D
    obtain ⟨r, hr⟩ := uniform_some E I U dt D h4
    exact ⟨_, by rw [finish, hr]⟩
  have dn : E.eqn ≠ .other → ∃ D', stepExplicit E I U dt D = .done D' := by
    intro he
    unfold stepExplicit
    rw [if_neg h4', if_neg hIU]
    cases hq : E.eqn with
    | primitive => exact fd _
    | shallow => exact fd _
    | other => exact absurd hq he
  have ex : E.eqn = .other → stepExplicit E I U dt D = .exception := by
    intro he
    unfold stepExplicit
    rw [if_neg h4', if_neg hIU, he]
  constructor
  · refine ⟨fun h => Or.inr (Or.inr ?_), ?_⟩
    · by_contra he
      obtain ⟨D', hD⟩ := dn he
      rw [hD] at h
      cases h
    · rintro (h | h | h)
      · exact absurd h4 h
      · exact absurd h hIU
      · exact ex h
  · refine ⟨fun ⟨D', h⟩ => ⟨h4, hIU, fun he => ?_⟩, fun h => dn h.2.2⟩
    rw [ex he] at h
    cases h

/-- **C129 (nonhydrostatic step).**  With the Lorenz staggering, a symmetric metric and fourth order the step of the first
version is defined, and that of the second leaves every state variable of the updated instance with the same value; of
the initial instance they differ at most in the horizontal velocities on interfaces. -/
theorem C129_nonhydro (A : Air) (hA : Lorenz A) (init : Data) (dt : ℝ) (u : Data) :
    ∃ i1 u1, Nonhydro.stepNonhydro A init dt u = some (i1, u1) ∧
      (∀ (x : Cell) (c : Nat), x.v = .state c → (stepNonhydro A init dt u).2 x = u1 x) ∧
      ∀ x : Cell, x.v ≠ edge 0 → x.v ≠ edge 1 → (stepNonhydro A init dt u).1 x = i1 x := by
  obtain ⟨i1, u1, h1, h2, h3⟩ := nonhydro_same hA init dt u
  exact ⟨i1, u1, h1, fun x c hx => h2 x ⟨c, hx⟩, h3⟩

/-- **C129 (shallow water step).**  At fourth order the two versions leave every state variable with the same value. -/
theorem C129_shallow (G : Geometry) (B : Basis) (h4 : G.S.order = 4) (init : Data) (dt : ℝ) (u : Data) (x : Cell) (c : Nat)
    (hx : x.v = .state c) : stepShallowWater G B init dt u x = Horiz.stepShallowWater G B init dt u x :=
  shallow_same B h4 init dt u u (fun _ _ => rfl) x ⟨c, hx⟩

/-- **C129 (viscosities).**  At fourth order and outside slices in x and z the steps after the subcycle are the same in
everything, tracers and refusals included. -/
theorem C129_after (A : Damping) (h4 : A.M.G.S.order = 4) (hxz : A.xz = false) (dss : Data → Data) (dt : ℝ)
    (I U W : Nat) (D : Nat → Data) :
    stepAfterSubCycle A dss dt I U W D = Horiz.stepAfterSubCycle A dss dt I U W D := by
  unfold stepAfterSubCycle Horiz.stepAfterSubCycle
  rw [if_neg (by unfold constructible; simp [h4]), applyScalar_eq A.M h4, applyVector_eq A.M h4, hxz]

/-- What the two versions make of a call that neither refuses. -/
theorem explicit_same (E : Dynamics) (I U : Nat) (dt : ℝ) (D : Nat → Data) (h4 : E.A.G.S.order = 4) (hxz : E.A.xz = false)
    (hp : E.eqn = .primitive → Lorenz E.A) (hU : E.A.uniform = true → U ≠ 0) (hIU : I ≠ U) (he : E.eqn ≠ .other) :
    ∃ D2 D1, stepExplicit E I U dt D = .done D2 ∧ Nonhydro.stepExplicit (windReference E (D 0)) I U dt D = .done D1 ∧
      ∀ n (x : Cell) c, x.v = .state c → (n = I → x.v ≠ edge 0 ∧ x.v ≠ edge 1) → D2 n x = D1 n x := by
  have fin : ∀ (i2 u2 i1 u1 : Data), (∀ x : Cell, x.v = .state 0 ∨ x.v = .state 1 → i2 x = D I x) →
      (∀ x, x.v ≠ edge 0 → x.v ≠ edge 1 → i2 x = i1 x) → Same u2 u1 →
      ∃ D2 D1, finish E I U dt (store (store D I i2) U u2) = .done D2 ∧
        Nonhydro.finish (windReference E (D 0)) I U dt (store (store D I i1) U u1) = .done D1 ∧
        ∀ n (x : Cell) c, x.v = .state c → (n = I → x.v ≠ edge 0 ∧ x.v ≠ edge 1) → D2 n x = D1 n x := by
    intro i2 u2 i1 u1 hw hi hu
    have hd : E.A.uniform = true → SameWind (store (store D I i2) U u2 0) (D 0) := by
      intro hun x hx
      rw [store_other _ _ _ _ (fun e => hU hun e.symm)]
      by_cases h0 : (0 : Nat) = I
      · rw [h0, store_same]
        exact hw x hx
      · rw [store_other _ _ _ _ h0]
    have key : ∃ w w1, uniformDiffusion E I U dt (store (store D I i2) U u2) =
          some (store (store (store D I i2) U u2) U w) ∧
        Nonhydro.uniformDiffusion (windReference E (D 0)) i1 dt u1 = some w1 ∧ Same w w1 := by
      cases hun : E.A.uniform
      · refine ⟨u2, u1, ?_, ?_, hu⟩
        · unfold uniformDiffusion
          rw [if_neg (by simp [hun]), store_twice]
        · unfold Nonhydro.uniformDiffusion
          rw [if_neg (by show ¬ E.A.uniform = true; simp [hun])]
      · refine uniform_same E h4 hxz (fun h => ⟨(hp h).w, (hp h).p⟩) I U hIU hU dt _ (D 0) i1 u1 (hd hun) ?_ ?_
        · intro x h0 h1
          rw [store_other _ _ _ _ hIU, store_same]
          exact hi x h0 h1
        · rw [store_same]
          exact hu
    obtain ⟨w, w1, e2, e1, hww⟩ := key
    refine ⟨_, _, by rw [finish, e2], by
      rw [Nonhydro.finish, store_same, store_other _ _ _ _ hIU, store_same, e1], ?_⟩
    intro n x c hx hn
    by_cases hU' : n = U
    · rw [hU', store_same, store_same, store_same, filter_state _ _ _ _ c hx, filter_state _ _ _ _ c hx]
      exact hww x ⟨c, hx⟩
    · rw [store_other _ _ _ _ hU', store_other _ _ _ _ hU', store_other _ _ _ _ hU', store_other _ _ _ _ hU',
        store_other _ _ _ _ hU']
      by_cases hI : n = I
      · rw [hI, store_same, store_same]
        exact hi x (hn hI).1 (hn hI).2
      · rw [store_other _ _ _ _ hI, store_other _ _ _ _ hI]
  unfold stepExplicit Nonhydro.stepExplicit
  rw [if_neg (by unfold constructible; simp [h4]), if_neg hIU, if_neg hIU,
    show (windReference E (D 0)).eqn = E.eqn from rfl, show (windReference E (D 0)).A = E.A from rfl]
  cases hq : E.eqn with
  | primitive =>
    simp only
    obtain ⟨i1, u1, h1, h2, h3⟩ := nonhydro_same (hp hq) (D I) dt (D U)
    rw [h1]
    refine fin _ _ i1 u1 ?_ h3 h2
    intro x hx
    refine mapColumns_other _ _ _ _ _ _ _ _ ?_
    rcases hx with hx | hx <;> rw [hx] <;> simp
  | shallow =>
    simp only
    have := fin (D I) (stepShallowWater E.A.G E.A.B (D I) dt (D U)) (D I)
      (Horiz.stepShallowWater E.A.G E.A.B (D I) dt (D U)) (fun _ _ => rfl) (fun _ _ _ => rfl)
      (shallow_same E.A.B h4 (D I) dt (D U) (D U) (fun _ _ => rfl))
    rwa [store_self] at this
  | other => exact absurd hq he

/-- **C129 (explicit step).**  Without uniform diffusion: wherever neither version refuses, both finish, and every state
variable of every instance has the same value after both, save the horizontal velocities on interfaces of the initial
one. -/
theorem C129_explicit (E : Dynamics) (I U : Nat) (dt : ℝ) (D : Nat → Data) (h4 : E.A.G.S.order = 4) (hxz : E.A.xz = false)
    (hp : E.eqn = .primitive → Lorenz E.A) (hu : E.A.uniform = false) (hIU : I ≠ U) (he : E.eqn ≠ .other) :
    ∃ D2 D1, stepExplicit E I U dt D = .done D2 ∧ Nonhydro.stepExplicit E I U dt D = .done D1 ∧
      ∀ n (x : Cell) c, x.v = .state c → (n = I → x.v ≠ edge 0 ∧ x.v ≠ edge 1) → D2 n x = D1 n x := by
  obtain ⟨D2, D1, h2, h1, h⟩ := explicit_same E I U dt D h4 hxz hp (fun h => by rw [hu] at h; cases h) hIU he
  refine ⟨D2, D1, h2, ?_, h⟩
  rw [← h1]
  have e : ∀ i u, Nonhydro.uniformDiffusion (windReference E (D 0)) i dt u = Nonhydro.uniformDiffusion E i dt u := by
    intro i u
    unfold Nonhydro.uniformDiffusion
    rw [show (windReference E (D 0)).A = E.A from rfl, if_neg (by simp [hu]), if_neg (by simp [hu])]
  unfold Nonhydro.stepExplicit Nonhydro.finish
  simp only [e]
  rfl

/-- **C129 (uniform diffusion).**  With or without uniform diffusion, if the instance updated is not number zero: the second
version does to the state variables what the first does with the horizontal velocities of instance zero in the place of
those of the reference state. -/
theorem C129_uniform_wind (E : Dynamics) (I U : Nat) (dt : ℝ) (D : Nat → Data) (h4 : E.A.G.S.order = 4)
    (hxz : E.A.xz = false) (hp : E.eqn = .primitive → Lorenz E.A) (hU : U ≠ 0) (hIU : I ≠ U) (he : E.eqn ≠ .other) :
    ∃ D2 D1, stepExplicit E I U dt D = .done D2 ∧ Nonhydro.stepExplicit (windReference E (D 0)) I U dt D = .done D1 ∧
      ∀ n (x : Cell) c, x.v = .state c → (n = I → x.v ≠ edge 0 ∧ x.v ≠ edge 1) → D2 n x = D1 n x :=
  explicit_same E I U dt D h4 hxz hp (fun _ => hU) hIU he

/-- **C129 (reference wind at rest in instance zero).**  If instance zero holds the velocities of the reference state, the
two versions agree with uniform diffusion too. -/
theorem C129_uniform (E : Dynamics) (I U : Nat) (dt : ℝ) (D : Nat → Data) (h4 : E.A.G.S.order = 4)
    (hxz : E.A.xz = false) (hp : E.eqn = .primitive → Lorenz E.A) (hU : U ≠ 0) (hIU : I ≠ U) (he : E.eqn ≠ .other)
    (hr : ∀ x : Cell, x.v = .state 0 ∨ x.v = .state 1 → D 0 x = E.ref x) :
    ∃ D2 D1, stepExplicit E I U dt D = .done D2 ∧ Nonhydro.stepExplicit E I U dt D = .done D1 ∧
      ∀ n (x : Cell) c, x.v = .state c → (n = I → x.v ≠ edge 0 ∧ x.v ≠ edge 1) → D2 n x = D1 n x := by
  have e : windReference E (D 0) = E := by
    have : (fun x : Cell => if x.v = .state 0 ∨ x.v = .state 1 then D 0 x else E.ref x) = E.ref := by
      funext x
      split
      · next h => exact hr x h
      · rfl
    unfold windReference
    rw [this]
  have := explicit_same E I U dt D h4 hxz hp (fun _ => hU) hIU he
  rwa [e] at this

section

variable (E : Dynamics) (hp : Lorenz E.A) (he : E.eqn = .primitive) (I U : Nat) (dt : ℝ) (D D' : Nat → Data)
  (hU : U ≠ 0) (h : stepExplicit E I U dt D = .done D') (ω : Nat → ℝ) (hω : Paired E.A.G.S.order E.A.B ω)
  (level : Nat → ℝ) (a b k : Nat) (ha : a < E.A.G.S.elemA) (hb : b < E.A.G.S.elemB) (hk : k < E.A.G.S.levels)
  (hr : Regular E.A a b k)

include hp he hU h hω ha hb hk hr

/-- **C129 (mass).**  So the second version conserves the mass of air in every element at every level. -/
theorem C129_mass : overElement E.A ω level a b k (value E.A.G.S (D' U) (.state 4) a b k) =
    overElement E.A ω level a b k (value E.A.G.S (D U) (.state 4) a b k) := by
  have hIU := ((C129_refused E I U dt D).2.1 ⟨D', h⟩).2.1
  obtain ⟨D2, D1, h2, h1, hs⟩ := explicit_same E I U dt D hp.order hp.xz (fun _ => hp) (fun _ => hU) hIU (by
    rw [he]; simp)
  rw [h] at h2
  cases h2
  refine Eq.trans ?_ (C84_mass (windReference E (D 0)) I U dt D D1 h1 ω hω level a b k ha hb hk he hr)
  show overElement E.A ω level a b k _ = overElement E.A ω level a b k _
  congr 1
  funext i j
  exact hs U _ 4 rfl (fun e => absurd e.symm hIU)

/-- **C129 (potential temperature).**  The same for density times potential temperature. -/
theorem C129_theta : overElement E.A ω level a b k (value E.A.G.S (D' U) (.state 2) a b k) =
    overElement E.A ω level a b k (value E.A.G.S (D U) (.state 2) a b k) := by
  have hIU := ((C129_refused E I U dt D).2.1 ⟨D', h⟩).2.1
  obtain ⟨D2, D1, h2, h1, hs⟩ := explicit_same E I U dt D hp.order hp.xz (fun _ => hp) (fun _ => hU) hIU (by
    rw [he]; simp)
  rw [h] at h2
  cases h2
  refine Eq.trans ?_ (C84_theta (windReference E (D 0)) I U dt D D1 h1 ω hω level a b k ha hb hk he hp.p hr)
  show overElement E.A ω level a b k _ = overElement E.A ω level a b k _
  congr 1
  funext i j
  exact hs U _ 2 rfl (fun e => absurd e.symm hIU)

end

end Verif.HorizV2
