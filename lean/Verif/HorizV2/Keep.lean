import Verif.HorizV2.Props

/-!
# What the second version leaves alone
-/

namespace Verif.HorizV2

open Verif.Horiz Verif.Nonhydro

theorem loop_keep (n : Nat) (f : Nat → Data → Data) (x : Cell) (h : ∀ t u, f t u x = u x) (u : Data) :
    loop n f u x = u x := by
  induction n with
  | zero => rfl
  | succ n ih => rw [loop_succ, h, ih]

theorem put_keep (u : Data) (x y : Cell) (p : ℝ) (h : x.v ≠ y.v) : put u y p x = u x := by
  unfold put
  rw [if_neg (fun e => h (by rw [e]))]

/-- The variables the steps change. -/
def Changed (v : Var) : Prop := v = .state 0 ∨ v = .state 1 ∨ v = .state 2 ∨ v = .state 4 ∨ v = edge 3

theorem nonhydro_keep (A : Air) (init : Data) (dt : ℝ) (u : Data) (x : Cell) (hx : ¬ Changed x.v) :
    (stepNonhydro A init dt u).2 x = u x := by
  have h0 : x.v ≠ .state 0 := fun e => hx (Or.inl e)
  have h1 : x.v ≠ .state 1 := fun e => hx (Or.inr (Or.inl e))
  have h2 : x.v ≠ .state 2 := fun e => hx (Or.inr (Or.inr (Or.inl e)))
  have h4 : x.v ≠ .state 4 := fun e => hx (Or.inr (Or.inr (Or.inr (Or.inl e))))
  have h3 : x.v ≠ edge 3 := fun e => hx (Or.inr (Or.inr (Or.inr (Or.inr e))))
  unfold stepNonhydro
  refine loop_keep _ _ x (fun a u => loop_keep _ _ x (fun b u => ?_) u) u
  unfold element
  rw [loop_keep _ _ x (fun i u => loop_keep _ _ x (fun j u => loop_keep _ _ x (fun t u => by
      unfold interface; exact put_keep _ _ _ _ h3) u) u),
    loop_keep _ _ x (fun i u => loop_keep _ _ x (fun j u => by
      unfold bottom; exact put_keep _ _ _ _ h3) u),
    loop_keep _ _ x (fun i u => loop_keep _ _ x (fun j u => loop_keep _ _ x (fun t u => by
      unfold point
      rw [put_keep _ _ _ _ h2, put_keep _ _ _ _ h4, put_keep _ _ _ _ h1, put_keep _ _ _ _ h0]) u) u)]

theorem shallow_keep (G : Geometry) (B : Basis) (init : Data) (dt : ℝ) (u : Data) (x : Cell) (hx : ¬ Changed x.v) :
    stepShallowWater G B init dt u x = u x := by
  have h0 : x.v ≠ .state 0 := fun e => hx (Or.inl e)
  have h1 : x.v ≠ .state 1 := fun e => hx (Or.inr (Or.inl e))
  have h2 : x.v ≠ .state 2 := fun e => hx (Or.inr (Or.inr (Or.inl e)))
  unfold stepShallowWater
  refine loop_keep _ _ x (fun a u => loop_keep _ _ x (fun b u => loop_keep _ _ x (fun k u => loop_keep _ _ x (fun i u =>
    loop_keep _ _ x (fun j u => ?_) u) u) u) u) u
  unfold swPoint
  rw [put_keep _ _ _ _ h2, put_keep _ _ _ _ h1, put_keep _ _ _ _ h0]

theorem applyVector_keep (M : Medium) (init : Data) (dt nd nv : ℝ) (s : Bool) (u : Data) (x : Cell)
    (h0 : x.v ≠ .state 0) (h1 : x.v ≠ .state 1) : applyVector M init dt nd nv s u x = u x := by
  unfold applyVector
  refine loop_keep _ _ x (fun a u => loop_keep _ _ x (fun b u => loop_keep _ _ x (fun k u => loop_keep _ _ x (fun i u =>
    loop_keep _ _ x (fun j u => ?_) u) u) u) u) u
  unfold dampPoint
  rw [put_keep _ _ _ _ h1, put_keep _ _ _ _ h0]

theorem applyScalar_keep (E : Dynamics) (c : Nat) (hc : c < 5) (init : Data) (dt nu : ℝ) (s r : Bool) (u w : Data)
    (h : applyScalar E.medium init dt nu s (E.home c) r u = some w) (x : Cell)
    (hx : x.v ≠ .state (E.home c).toNat) : w x = u x := by
  obtain ⟨n, hn⟩ := home_levels E c
  unfold applyScalar at h
  rw [(home_chosen E c hc).1] at h
  simp only [List.foldlM_cons, List.foldlM_nil, hn, Option.bind_eq_bind, Option.bind_some, Option.pure_def,
    Option.some.injEq] at h
  rw [← h]
  unfold diffuseVar
  refine loop_keep _ _ x (fun a u => loop_keep _ _ x (fun b u => loop_keep _ _ x (fun k u => loop_keep _ _ x (fun i u =>
    loop_keep _ _ x (fun j u => ?_) u) u) u) u) u
  unfold diffusePoint
  exact put_keep _ _ _ _ hx

/-- What a successful call is made of. -/
theorem done_parts (E : Dynamics) (I U : Nat) (dt : ℝ) (D D' : Nat → Data) (h : stepExplicit E I U dt D = .done D') :
    E.A.G.S.order = 4 ∧ I ≠ U ∧ ∃ i u D1,
      ((E.eqn = .primitive ∧ i = prepare E.A (D I) ∧ u = (stepNonhydro E.A (D I) dt (D U)).2) ∨
        (E.eqn = .shallow ∧ i = D I ∧ u = stepShallowWater E.A.G E.A.B (D I) dt (D U))) ∧
      uniformDiffusion E I U dt (store (store D I i) U u) = some D1 ∧
      D' = store D1 U (filterTracers E.A.G.S E.area (D1 U)) := by
  obtain ⟨h4, hIU, he⟩ := (C129_refused E I U dt D).2.1 ⟨D', h⟩
  refine ⟨h4, hIU, ?_⟩
  unfold stepExplicit at h
  rw [if_neg (by unfold constructible; simp [h4]), if_neg hIU] at h
  have fin : ∀ D0 : Nat → Data, finish E I U dt D0 = .done D' → ∃ D1, uniformDiffusion E I U dt D0 = some D1 ∧
      D' = store D1 U (filterTracers E.A.G.S E.area (D1 U)) := by
    intro D0 h
    obtain ⟨D1, h1⟩ := uniform_some E I U dt D0 h4
    rw [finish, h1] at h
    cases h
    exact ⟨D1, h1, rfl⟩
  cases hq : E.eqn with
  | primitive =>
    rw [hq] at h
    obtain ⟨D1, h1, h2⟩ := fin _ h
    exact ⟨_, _, D1, Or.inl ⟨rfl, rfl, rfl⟩, h1, h2⟩
  | shallow =>
    rw [hq] at h
    obtain ⟨D1, h1, h2⟩ := fin _ h
    refine ⟨D I, _, D1, Or.inr ⟨rfl, rfl, rfl⟩, ?_, h2⟩
    rw [store_self]
    exact h1
  | other => exact absurd hq he

/-- What the uniform diffusion does: other instances stay as they are, and of the instance updated it changes wind, and
what is diffused for the nonhydrostatic equations. -/
theorem uniform_keep (E : Dynamics) (I U : Nat) (dt : ℝ) (D D1 : Nat → Data) (h : uniformDiffusion E I U dt D = some D1) :
    (∀ n, n ≠ U → D1 n = D n) ∧
    ∀ x : Cell, (E.A.uniform = true → x.v ≠ .state 0 ∧ x.v ≠ .state 1) →
      (E.A.uniform = true → E.eqn = .primitive → x.v ≠ .state (E.home 2).toNat ∧ x.v ≠ .state (E.home 3).toNat) →
        D1 U x = D U x := by
  unfold uniformDiffusion at h
  cases hun : E.A.uniform
  · rw [if_neg (by simp [hun])] at h
    cases h
    exact ⟨fun _ _ => rfl, fun _ _ _ => rfl⟩
  rw [if_pos hun] at h
  simp only [store_twice, store_same] at h
  by_cases he : E.eqn = .primitive
  · rw [if_pos he] at h
    simp only [Option.bind_eq_bind] at h
    rw [Option.bind_eq_some_iff] at h
    obtain ⟨p, hp, h⟩ := h
    rw [Option.bind_eq_some_iff] at h
    obtain ⟨q, hq, h⟩ := h
    simp only [Option.some.injEq] at h
    rw [← h]
    refine ⟨fun n hn => by rw [store_other _ _ _ _ hn], fun x h01 h23 => ?_⟩
    rw [store_same, applyScalar_keep E 3 (by omega) _ _ _ _ _ _ _ hq x (h23 rfl he).2,
      applyScalar_keep E 2 (by omega) _ _ _ _ _ _ _ hp x (h23 rfl he).1,
      applyVector_keep _ _ _ _ _ _ _ _ (h01 rfl).1 (h01 rfl).2, applyVector_keep _ _ _ _ _ _ _ _ (h01 rfl).1 (h01 rfl).2]
  · rw [if_neg he] at h
    simp only [Option.some.injEq] at h
    rw [← h]
    refine ⟨fun n hn => by rw [store_other _ _ _ _ hn], fun x h01 _ => ?_⟩
    rw [store_same, applyVector_keep _ _ _ _ _ _ _ _ (h01 rfl).1 (h01 rfl).2,
      applyVector_keep _ _ _ _ _ _ _ _ (h01 rfl).1 (h01 rfl).2]

end Verif.HorizV2
