import Verif.HorizV2.Samples

/-!
# C130: what a user of the second version loses against the first
-/

namespace Verif.HorizV2

open Verif.Horiz Verif.Nonhydro

section

variable (E : Dynamics) (I U : Nat) (dt : ℝ) (D D' : Nat → Data) (h : stepExplicit E I U dt D = .done D')

include h

/-- **C130 (instances).**  No other instance changes, and of the initial one nothing but vertical velocity on levels. -/
theorem C130_instances : (∀ n, n ≠ I → n ≠ U → D' n = D n) ∧ (E.eqn = .shallow → D' I = D I) ∧
    ∀ x : Cell, x.v ≠ .state 3 → D' I x = D I x := by
  obtain ⟨h4, hIU, i, u, D1, hi, hu, rfl⟩ := done_parts E I U dt D D' h
  have hk := (uniform_keep E I U dt _ D1 hu).1
  have hI : store D1 U (filterTracers E.A.G.S E.area (D1 U)) I = i := by
    rw [store_other _ _ _ _ hIU, hk I hIU, store_other _ _ _ _ hIU, store_same]
  refine ⟨fun n h1 h2 => ?_, fun he => ?_, fun x hx => ?_⟩
  · rw [store_other _ _ _ _ h2, hk n h2, store_other _ _ _ _ h2, store_other _ _ _ _ h1]
  · rw [hI]
    rcases hi with ⟨h1, -⟩ | ⟨-, rfl, -⟩
    · rw [he] at h1
      cases h1
    · rfl
  · rw [hI]
    rcases hi with ⟨-, rfl, -⟩ | ⟨-, rfl, -⟩
    · exact mapColumns_other _ _ _ _ _ _ _ _ hx
    · rfl

/-- **C130 (interpolation).**  Vertical velocity on levels of the initial instance is overwritten by interpolation from
interfaces, whether it lives on levels or on interfaces. -/
theorem C130_interpolated (he : E.eqn = .primitive) (a b k i j : Nat) (ha : a < E.A.G.S.elemA) (hb : b < E.A.G.S.elemB)
    (hk : k < E.A.G.S.levels) (hi : i < E.A.G.S.order) (hj : j < E.A.G.S.order) :
    value E.A.G.S (D' I) (.state 3) a b k i j =
      ∑ l ∈ Finset.range (E.A.G.S.levels + 1), E.A.toNode k l * value E.A.G.S (D I) (edge 3) a b l i j := by
  obtain ⟨h4, hIU, q, u, D1, hq, hu, rfl⟩ := done_parts E I U dt D D' h
  have hk' := (uniform_keep E I U dt _ D1 hu).1
  have hI : store D1 U (filterTracers E.A.G.S E.area (D1 U)) I = q := by
    rw [store_other _ _ _ _ hIU, hk' I hIU, store_other _ _ _ _ hIU, store_same]
  rw [hI]
  rcases hq with ⟨-, rfl, -⟩ | ⟨h1, -⟩
  · simp only [value_at]
    exact mapColumns_at _ _ _ _ _ _ _ _ _ _ _ _ ha hb hi hj hk
  · rw [he] at h1
    cases h1

theorem tracer_before : ∃ w : Data, (∀ (x : Cell) (c : Nat), x.v = .tracer c → w x = D U x) ∧
    D' U = filterTracers E.A.G.S E.area w := by
  obtain ⟨h4, hIU, q, u, D1, hq, hu, rfl⟩ := done_parts E I U dt D D' h
  refine ⟨D1 U, fun x c hx => ?_, store_same _ _ _⟩
  rw [(uniform_keep E I U dt _ D1 hu).2 x (fun _ => by rw [hx]; simp) (fun _ _ => by rw [hx]; simp), store_same]
  have hn : ¬ Changed x.v := by rw [hx]; simp [Changed, edge]
  rcases hq with ⟨-, -, rfl⟩ | ⟨-, -, rfl⟩
  · exact nonhydro_keep _ _ _ _ _ hn
  · exact shallow_keep _ _ _ _ _ _ hn

/-- **C130 (tracers).**  Whatever the wind, of tracers the step does nothing but the filter: the value at every node is
that which the filter makes of the updated instance as it was before the step. -/
theorem C130_tracers (c a b k i j : Nat) (ha : a < E.A.G.S.elemA) (hb : b < E.A.G.S.elemB) (hc : c < E.A.G.S.tracers)
    (hk : k < E.A.G.S.levels) (hi : i < E.A.G.S.order) (hj : j < E.A.G.S.order) :
    value E.A.G.S (D' U) (.tracer c) a b k i j =
      value E.A.G.S (filterTracers E.A.G.S E.area (D U)) (.tracer c) a b k i j := by
  obtain ⟨w, hw, e⟩ := tracer_before E I U dt D D' h
  rw [e, filter_value _ _ _ c a b k i j ha hb hc hk hi hj, filter_value _ _ _ c a b k i j ha hb hc hk hi hj]
  have hv : value E.A.G.S w (.tracer c) a b k = value E.A.G.S (D U) (.tracer c) a b k := by
    funext i j
    exact hw _ c rfl
  unfold elementMass positiveMass
  rw [hv]

/-- **C130 (tracers stand still).**  Where a tracer is nowhere negative the step does not move it. -/
theorem C130_still (c a b k : Nat) (ha : a < E.A.G.S.elemA) (hb : b < E.A.G.S.elemB) (hc : c < E.A.G.S.tracers)
    (hk : k < E.A.G.S.levels) (hp : PositiveAreas E.A.G.S E.area a b k)
    (hn : ∀ i j, i < E.A.G.S.order → j < E.A.G.S.order → 0 ≤ value E.A.G.S (D U) (.tracer c) a b k i j) (i j : Nat)
    (hi : i < E.A.G.S.order) (hj : j < E.A.G.S.order) :
    value E.A.G.S (D' U) (.tracer c) a b k i j = value E.A.G.S (D U) (.tracer c) a b k i j := by
  rw [C130_tracers E I U dt D D' h c a b k i j ha hb hc hk hi hj]
  exact C73_untouched E.A.G.S E.area (D U) c a b k ha hb hc hk hp hn i j hi hj

/-- **C130 (vertical velocity on levels).**  The step leaves vertical velocity on levels of the updated instance as it was
without uniform diffusion, also where vertical velocity lives on levels. -/
theorem C130_levels (hu : E.A.uniform = false) (x : Cell) (hx : x.v = .state 3) : D' U x = D U x := by
  obtain ⟨h4, hIU, q, u, D1, hq, hu', rfl⟩ := done_parts E I U dt D D' h
  rw [store_same, filter_state _ _ _ _ 3 hx, (uniform_keep E I U dt _ D1 hu').2 x (fun e => by rw [hu] at e; cases e)
    (fun e => by rw [hu] at e; cases e), store_same]
  have hn : ¬ Changed x.v := by rw [hx]; simp [Changed, edge]
  rcases hq with ⟨-, -, rfl⟩ | ⟨-, -, rfl⟩
  · exact nonhydro_keep _ _ _ _ _ hn
  · exact shallow_keep _ _ _ _ _ _ hn

/-- **C130 (no viscosity of the wind).**  From instance zero to another one the uniform diffusion of the wind cancels:
the wind after the step is that after the step without it. -/
theorem C130_wind (hI : I = 0) (D0 : Nat → Data) (h0 : stepExplicit (withoutDiffusion E) I U dt D = .done D0) (v : Var)
    (hv : v = .state 0 ∨ v = .state 1) (a b k i j : Nat) (ha : a < E.A.G.S.elemA) (hb : b < E.A.G.S.elemB)
    (hk : k < E.A.G.S.levels) (hi : i < E.A.G.S.order) (hj : j < E.A.G.S.order) :
    value E.A.G.S (D' U) v a b k i j = value E.A.G.S (D0 U) v a b k i j := by
  obtain ⟨h4, hIU, q, u, D1, hq, hu, rfl⟩ := done_parts E I U dt D D' h
  obtain ⟨-, -, q0, u0, D10, hq0, hu0, rfl⟩ := done_parts (withoutDiffusion E) I U dt D D0 h0
  have e10 : D10 = store (store D I q0) U u0 := by
    unfold uniformDiffusion at hu0
    rw [if_neg (by simp [withoutDiffusion])] at hu0
    cases hu0
    rfl
  have euu : u0 = u := by
    rcases hq with ⟨h1, -, rfl⟩ | ⟨h1, -, rfl⟩ <;> rcases hq0 with ⟨h2, -, rfl⟩ | ⟨h2, -, rfl⟩
    · rfl
    · change E.eqn = _ at h2
      rw [h1] at h2
      cases h2
    · change E.eqn = _ at h2
      rw [h1] at h2
      cases h2
    · rfl
  have hf : ∀ (area : Nat → Nat → Nat → ℝ) (w : Data), value E.A.G.S (filterTracers E.A.G.S area w) v a b k i j =
      value E.A.G.S w v a b k i j := by
    intro area w
    rcases hv with rfl | rfl
    · exact filter_state _ _ _ _ 0 rfl
    · exact filter_state _ _ _ _ 1 rfl
  rw [store_same, store_same, hf, show (withoutDiffusion E).A.G.S = E.A.G.S from rfl, hf, e10, store_same, euu]
  subst hI
  unfold uniformDiffusion at hu
  cases hun : E.A.uniform
  · rw [if_neg (by simp [hun])] at hu
    cases hu
    rw [store_same]
  rw [if_pos hun] at hu
  have s0 : vectorSource (some 0) = 0 := rfl
  have s1 : vectorSource none = 0 := rfl
  simp only [store_twice, store_same, s0, s1, store_other _ _ _ _ hIU] at hu
  rw [applyVector_eq E.medium h4] at hu
  have cancel : ∀ (m u : Data), value E.A.G.S (Horiz.applyVector E.medium false m dt E.nuVector E.nuVector false
      (Horiz.applyVector E.medium false m dt (-E.nuVector) (-E.nuVector) false u)) v a b k i j =
      value E.A.G.S u v a b k i j := by
    intro m u
    have c1 := vector_change E.medium false m dt (-E.nuVector) (-E.nuVector) false u a b k i j ha hb hk hi hj
    have c2 := vector_change E.medium false m dt E.nuVector E.nuVector false
      (Horiz.applyVector E.medium false m dt (-E.nuVector) (-E.nuVector) false u) a b k i j ha hb hk hi hj
    simp only [flowChange, change, Medium.localNu, Bool.false_eq_true, if_false, vectorUa, vectorUb] at c1 c2
    change (value E.A.G.S _ _ a b k i j - value E.A.G.S _ _ a b k i j = _) ∧
      (value E.A.G.S _ _ a b k i j - value E.A.G.S _ _ a b k i j = _) at c1
    change (value E.A.G.S _ _ a b k i j - value E.A.G.S _ _ a b k i j = _) ∧
      (value E.A.G.S _ _ a b k i j - value E.A.G.S _ _ a b k i j = _) at c2
    rcases hv with rfl | rfl
    · linarith [c1.1, c2.1]
    · linarith [c1.2, c2.2]
  by_cases he : E.eqn = .primitive
  · rw [if_pos he] at hu
    simp only [Option.bind_eq_bind] at hu
    rw [Option.bind_eq_some_iff] at hu
    obtain ⟨p, hp, hu⟩ := hu
    rw [Option.bind_eq_some_iff] at hu
    obtain ⟨r, hr, hu⟩ := hu
    simp only [Option.some.injEq] at hu
    rw [← hu, store_same]
    have nv : ∀ c, c = 2 ∨ c = 3 → v ≠ .state (E.home c).toNat := by
      rintro c (rfl | rfl) <;> rcases hv with rfl | rfl <;> simp only [home_theta, home_vertical, theta, vertical, edge] <;>
        split <;> simp
    rw [← cancel _ u]
    unfold value
    rw [applyScalar_keep E 3 (by omega) _ _ _ _ _ _ _ hr _ (nv 3 (Or.inr rfl)),
      applyScalar_keep E 2 (by omega) _ _ _ _ _ _ _ hp _ (nv 2 (Or.inl rfl))]
  · rw [if_neg he] at hu
    simp only [Option.some.injEq] at hu
    rw [← hu, store_same]
    exact cancel _ u

end

end Verif.HorizV2
