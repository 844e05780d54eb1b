import Verif.HorizV2.SameViscous

/-!
# Lemmas on the uniform diffusion of the two versions
-/

namespace Verif.HorizV2

open Verif.Horiz Verif.Nonhydro

/-- Two states agree in the horizontal velocities on levels. -/
def SameWind (u v : Data) : Prop := ∀ x : Cell, x.v = .state 0 ∨ x.v = .state 1 → u x = v x

/-- Two states agree in one variable. -/
def SameVar (w : Var) (u v : Data) : Prop := ∀ x : Cell, x.v = w → u x = v x

section

variable (M : Medium) {i1 i2 : Data} (hw : SameWind i1 i2)

include hw

theorem conUa_wind (a b k : Nat) : Horiz.conUa M.G i1 a b k = Horiz.conUa M.G i2 a b k := by
  funext i j
  unfold Horiz.conUa Horiz.read
  rw [hw _ (Or.inl rfl), hw _ (Or.inr rfl)]

theorem conUb_wind (a b k : Nat) : Horiz.conUb M.G i1 a b k = Horiz.conUb M.G i2 a b k := by
  funext i j
  unfold Horiz.conUb Horiz.read
  rw [hw _ (Or.inl rfl), hw _ (Or.inr rfl)]

theorem divergence_wind (a b k : Nat) : divergence M i1 a b k = divergence M i2 a b k := by
  funext i j
  unfold divergence
  rw [conUa_wind M hw, conUb_wind M hw]

theorem vorticity_wind (a b k : Nat) : vorticity M i1 a b k = vorticity M i2 a b k := by
  funext i j
  unfold vorticity
  have e0 : Horiz.read M.G i1 a b k 0 = Horiz.read M.G i2 a b k 0 := by
    funext i j
    exact hw _ (Or.inl rfl)
  have e1 : Horiz.read M.G i1 a b k 1 = Horiz.read M.G i2 a b k 1 := by
    funext i j
    exact hw _ (Or.inr rfl)
  rw [e0, e1]

theorem vector_same (dt nd nv : ℝ) (scale : Bool) (u v : Data) (huv : Same u v) :
    Same (Horiz.applyVector M false i1 dt nd nv scale u) (Horiz.applyVector M false i2 dt nd nv scale v) := by
  unfold Horiz.applyVector
  refine loop_same _ _ _ (fun a u v huv => loop_same _ _ _ (fun b u v huv => loop_same _ _ _ (fun k u v huv =>
    loop_same _ _ _ (fun i u v huv => loop_same _ _ _ (fun j u v huv => ?_) u v huv) u v huv) u v huv) u v huv) u v huv
  unfold vectorPoint vectorUa vectorUb
  simp only [if_true]
  rw [divergence_wind M hw, vorticity_wind M hw]
  have h1 := put_same u v huv ⟨.state 0, M.G.S.at a i, M.G.S.at b j, k⟩ _ _ (congrArg (· - dt * vectorUa M i2 a b k
    (M.localNu nd scale) (M.localNu nv scale) i j) (huv ⟨.state 0, M.G.S.at a i, M.G.S.at b j, k⟩ ⟨0, rfl⟩))
  unfold vectorUa at h1
  refine put_same _ _ h1 _ _ _ ?_
  rw [h1 _ ⟨1, rfl⟩]

end

theorem home_levels (E : Dynamics) (c : Nat) : ∃ n, E.medium.levelsOf (.state (E.home c).toNat) = some n := by
  unfold Medium.levelsOf
  show ∃ n, (match (if (E.home c).toNat < 5 then Located.node else Located.redge) with
    | .node => some E.medium.G.S.levels
    | .redge => some (E.medium.G.S.levels + 1)
    | .other => none) = some n
  by_cases h : (E.home c).toNat < 5
  · rw [if_pos h]
    exact ⟨_, rfl⟩
  · rw [if_neg h]
    exact ⟨_, rfl⟩

/-- Scalar diffusion reads of the initial state and the reference state the variable it changes. -/
theorem scalar_same (E : Dynamics) (r : Data) (c : Nat) (hc : c < 5) {i1 i2 : Data}
    (hi : SameVar (.state (E.home c).toNat) i2 i1) (hr : SameVar (.state (E.home c).toNat) E.ref r) (dt nu : ℝ)
    (u v : Data) (huv : Same u v) :
    ∃ p q, Horiz.applyScalar E.medium i2 dt nu false (E.home c) true u = some p ∧
      Horiz.applyScalar ({ E with ref := r } : Dynamics).medium i1 dt nu false (E.home c) true v = some q ∧ Same p q := by
  obtain ⟨n, hn⟩ := home_levels E c
  have hc1 := (home_chosen E c hc).1
  have e1 : Horiz.applyScalar E.medium i2 dt nu false (E.home c) true u =
      some (Horiz.diffuseVar E.medium i2 true dt (E.medium.localNu nu false) n (.state (E.home c).toNat) u) := by
    unfold Horiz.applyScalar
    rw [hc1]
    simp only [List.foldlM_cons, List.foldlM_nil, hn]
    rfl
  have e2 : Horiz.applyScalar ({ E with ref := r } : Dynamics).medium i1 dt nu false (E.home c) true v =
      some (Horiz.diffuseVar ({ E with ref := r } : Dynamics).medium i1 true dt (E.medium.localNu nu false) n
        (.state (E.home c).toNat) v) := by
    unfold Horiz.applyScalar
    rw [show ({ E with ref := r } : Dynamics).medium.chosen (E.home c) = E.medium.chosen (E.home c) from rfl, hc1]
    simp only [List.foldlM_cons, List.foldlM_nil]
    rw [show ({ E with ref := r } : Dynamics).medium.levelsOf (.state (E.home c).toNat) =
      E.medium.levelsOf (.state (E.home c).toNat) from rfl, hn]
    rfl
  refine ⟨_, _, e1, e2, ?_⟩
  unfold Horiz.diffuseVar
  refine loop_same _ _ _ (fun a u v huv => loop_same _ _ _ (fun b u v huv => loop_same _ _ _ (fun k u v huv =>
    loop_same _ _ _ (fun i u v huv => loop_same _ _ _ (fun j u v huv => ?_) u v huv) u v huv) u v huv) u v huv) u v huv
  have eb : buffer E.medium i2 true (.state (E.home c).toNat) a b k =
      buffer ({ E with ref := r } : Dynamics).medium i1 true (.state (E.home c).toNat) a b k := by
    funext i j
    unfold buffer
    rw [if_pos rfl, if_pos rfl]
    exact congrArg₂ (· - ·) (hi _ rfl) (hr _ rfl)
  unfold Horiz.diffusePoint
  rw [eb]
  refine put_same u v huv _ _ _ ?_
  rw [huv _ ⟨_, rfl⟩]
  rfl

/-- What the second version's uniform diffusion makes of the instance updated. -/
theorem uniform_same (E : Dynamics) (h4 : E.A.G.S.order = 4) (hxz : E.A.xz = false)
    (hp : E.eqn = .primitive → E.A.wOnEdge = true ∧ E.A.pOnEdge = false) (I U : Nat) (hIU : I ≠ U)
    (hU : E.A.uniform = true → U ≠ 0) (dt : ℝ) (D : Nat → Data) (d i1 u1 : Data) (hd : SameWind (D 0) d)
    (hi : ∀ x, x.v ≠ edge 0 → x.v ≠ edge 1 → D I x = i1 x) (hu : Same (D U) u1) :
    ∃ w w1, uniformDiffusion E I U dt D = some (store D U w) ∧
      Nonhydro.uniformDiffusion (windReference E d) i1 dt u1 = some w1 ∧ Same w w1 := by
  unfold uniformDiffusion Nonhydro.uniformDiffusion
  rw [show (windReference E d).A = E.A from rfl, show (windReference E d).eqn = E.eqn from rfl,
    show (windReference E d).nuVector = E.nuVector from rfl, hxz]
  cases hun : E.A.uniform
  · simp only [Bool.false_eq_true, if_false]
    refine ⟨D U, u1, ?_, rfl, hu⟩
    congr 1
    funext m
    unfold store
    by_cases hm : m = U <;> simp [hm]
  · simp only [if_true]
    have hU0 := hU hun
    rw [applyVector_eq E.medium h4, applyScalar_eq E.medium h4]
    have st : ∀ (D : Nat → Data) (u w : Data), store (store D U u) U w = store D U w := by
      intro D u w
      funext m
      unfold store
      by_cases hm : m = U <;> simp [hm]
    have em : ∀ d i, Horiz.applyVector (windReference E d).medium false i = Horiz.applyVector E.medium false i :=
      fun _ _ => rfl
    have ws : vectorSource (some I) = I := rfl
    have w0 : vectorSource none = 0 := rfl
    simp only [ws, w0, st, em, store_same]
    rw [store_other _ _ _ _ (fun e => hU0 e.symm), store_other _ _ _ _ hIU]
    have hw1 : SameWind (D I) i1 := by
      rintro x (hx | hx) <;> refine hi x ?_ ?_ <;> rw [hx] <;> simp [edge]
    have hw2 : SameWind (D 0) (windReference E d).ref := by
      intro x hx
      show D 0 x = if x.v = .state 0 ∨ x.v = .state 1 then d x else E.ref x
      rw [if_pos hx]
      exact hd x hx
    have hv := vector_same E.medium hw2 dt E.nuVector E.nuVector false _ _
      (vector_same E.medium hw1 dt (-E.nuVector) (-E.nuVector) false _ _ hu)
    by_cases he : E.eqn = .primitive
    · obtain ⟨hwE, hpE⟩ := hp he
      rw [if_pos he, if_pos he]
      have h2 : Var.state (E.home 2).toNat = .state 2 := by
        rw [home_theta]; simp [theta, hpE]
      have h3 : Var.state (E.home 3).toNat = edge 3 := by
        rw [home_vertical]; simp [vertical, hwE]
      have r2 : SameVar (.state (E.home 2).toNat) E.ref (windReference E d).ref := by
        intro x hx
        rw [h2] at hx
        show _ = if x.v = .state 0 ∨ x.v = .state 1 then d x else E.ref x
        rw [if_neg (by rw [hx]; simp)]
      have r3 : SameVar (.state (E.home 3).toNat) E.ref (windReference E d).ref := by
        intro x hx
        rw [h3] at hx
        show _ = if x.v = .state 0 ∨ x.v = .state 1 then d x else E.ref x
        rw [if_neg (by rw [hx]; simp [edge])]
      have i2 : SameVar (.state (E.home 2).toNat) (D I) i1 := by
        intro x hx
        rw [h2] at hx
        refine hi x ?_ ?_ <;> rw [hx] <;> simp [edge]
      have i3 : SameVar (.state (E.home 3).toNat) (D I) i1 := by
        intro x hx
        rw [h3] at hx
        refine hi x ?_ ?_ <;> rw [hx] <;> simp [edge]
      obtain ⟨p, q, hp1, hq1, hpq⟩ := scalar_same E _ 2 (by omega) i2 r2 dt E.A.nu _ _ hv
      obtain ⟨p', q', hp2, hq2, hpq'⟩ := scalar_same E _ 3 (by omega) i3 r3 dt E.nuVector _ _ hpq
      have hq1' := hq1
      have hq2' := hq2
      change Horiz.applyScalar (windReference E d).medium i1 dt E.A.nu false ((windReference E d).home 2) true _ =
        some q at hq1'
      change Horiz.applyScalar (windReference E d).medium i1 dt E.nuVector false ((windReference E d).home 3) true _ =
        some q' at hq2'
      refine ⟨p', q', ?_, ?_, hpq'⟩
      · rw [hp1]
        simp only [Option.bind_eq_bind, Option.bind_some, st, store_same]
        rw [store_other _ _ _ _ hIU, hp2]
        rfl
      · rw [hq1']
        exact hq2'
    · rw [if_neg he, if_neg he]
      exact ⟨_, _, rfl, rfl, hv⟩

end Verif.HorizV2
