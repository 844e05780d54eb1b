import Verif.Horiz.Nest
import Verif.Horiz.Shallow
import Verif.Horiz.Spec

/-!
# What the shallow water step adds at each node
-/

namespace Verif.Horiz

theorem value_at (S : Shape) (u : Data) (v : Var) (a b k i j : Nat) :
    value S u v a b k i j = u ⟨v, S.at a i, S.at b j, k⟩ := by
  unfold value Shape.at
  congr 2 <;> omega

/-- What one step adds to a variable at a node, per unit of time. -/
noncomputable def tendency (G : Geometry) (B : Basis) (init : Data) (a b k i j : Nat) : Var → ℝ
  | .state 0 => updateUa G B init a b k i j
  | .state 1 => updateUb G B init a b k i j
  | .state 2 => -(1 / G.jac (G.S.at a i) (G.S.at b j) *
      (weakA G B (massFluxA G init a b k) i j + weakB G B (massFluxB G init a b k) i j))
  | .state _ => 0
  | .tracer c => if c < G.S.tracers then -(1 / G.jac (G.S.at a i) (G.S.at b j) *
      (weakA G B (tracerFluxA G init a b k c) i j + weakB G B (tracerFluxB G init a b k c) i j)) else 0

theorem tracers_at (n iA iB k : Nat) (f : Nat → ℝ) (u : Data) (x : Cell) :
    loop n (fun c (u : Data) => put u ⟨.tracer c, iA, iB, k⟩ (u ⟨.tracer c, iA, iB, k⟩ - f c)) u x =
      match x.v with
      | .tracer c => if c < n ∧ x.iA = iA ∧ x.iB = iB ∧ x.k = k then u x - f c else u x
      | .state _ => u x := by
  have h := loop_pass n (fun c (u : Data) => put u ⟨.tracer c, iA, iB, k⟩ (u ⟨.tracer c, iA, iB, k⟩ - f c))
    (fun c x => x = ⟨.tracer c, iA, iB, k⟩) (fun c _ => touches_put _ _ (fun s s' he => by rw [he])) (by
      rintro c c' - - x rfl h
      injection h with h1
      injection h1) u
  obtain ⟨v, xA, xB, xk⟩ := x
  cases v with
  | state c => exact h.1 _ (fun t _ he => by injection he with h1; injection h1)
  | tracer c =>
    simp only
    by_cases hc : c < n ∧ xA = iA ∧ xB = iB ∧ xk = k
    · rw [if_pos hc]
      obtain ⟨h1, rfl, rfl, rfl⟩ := hc
      rw [h.2 c h1 _ rfl]
      simp [put]
    · rw [if_neg hc]
      refine h.1 _ (fun t ht he => hc ?_)
      injection he with h1 h2 h3 h4
      injection h1 with h1
      subst h1
      exact ⟨ht, h2, h3, h4⟩

theorem swPoint_at (G : Geometry) (B : Basis) (init : Data) (dt : ℝ) (a b k i j : Nat) (u : Data) (x : Cell) :
    swPoint G B init dt a b k i j u x =
      if x.iA = G.S.at a i ∧ x.iB = G.S.at b j ∧ x.k = k then u x + dt * tendency G B init a b k i j x.v else u x := by
  unfold swPoint
  rw [tracers_at]
  obtain ⟨v, xA, xB, xk⟩ := x
  cases v with
  | tracer c =>
    simp only [put, tendency, Cell.mk.injEq, reduceCtorEq, false_and, if_false]
    by_cases h : xA = G.S.at a i ∧ xB = G.S.at b j ∧ xk = k
    · by_cases hc : c < G.S.tracers
      · rw [if_pos ⟨hc, h⟩, if_pos h, if_pos hc]
        ring
      · rw [if_neg (fun h' => hc h'.1), if_pos h, if_neg hc]
        ring
    · rw [if_neg (fun h' => h h'.2), if_neg h]
  | state c =>
    simp only [put, Cell.mk.injEq, Var.state.injEq]
    by_cases h : xA = G.S.at a i ∧ xB = G.S.at b j ∧ xk = k
    · obtain ⟨rfl, rfl, rfl⟩ := h
      match c with
      | 0 => simp [tendency]
      | 1 => simp [tendency]
      | 2 => simp [tendency]; ring
      | c + 3 => simp [tendency]
    · rw [if_neg (fun h' => h h'.2), if_neg (fun h' => h h'.2), if_neg (fun h' => h h'.2), if_neg h]

theorem swPoint_touches (G : Geometry) (B : Basis) (init : Data) (dt : ℝ) (a b k i j : Nat) :
    Touches (swPoint G B init dt a b k i j) (Node (fun _ => True) (G.S.at a i) (G.S.at b j) k) := by
  constructor
  · intro u x hx
    rw [swPoint_at, if_neg (fun h => hx ⟨trivial, h⟩)]
  · intro u u' he x hx
    rw [swPoint_at, swPoint_at, he x hx]

/-- **The step, node by node.** -/
theorem step_value (G : Geometry) (B : Basis) (init : Data) (dt : ℝ) (u : Data) (v : Var) (a b k i j : Nat)
    (ha : a < G.S.elemA) (hb : b < G.S.elemB) (hk : k < G.S.levels) (hi : i < G.S.order) (hj : j < G.S.order) :
    value G.S (stepShallowWater G B init dt u) v a b k i j =
      value G.S u v a b k i j + dt * tendency G B init a b k i j v := by
  rw [value_at, value_at]
  have h1 := (elems_touch (fun _ => True) G.S G.S.levels (fun a b k u =>
    loop G.S.order (fun i u => loop G.S.order (fun j u => swPoint G B init dt a b k i j u) u) u)
    (fun a b k _ _ _ => nodes_touch _ G.S a b k _ (fun i j _ _ => swPoint_touches G B init dt a b k i j))).2 u a b k
    ha hb hk ⟨v, G.S.at a i, G.S.at b j, k⟩ ⟨i, hi, j, hj, trivial, rfl, rfl, rfl⟩
  have h2 := nodes_at (fun _ => True) G.S a b k _ (fun i j _ _ => swPoint_touches G B init dt a b k i j) u i j hi hj
    ⟨v, G.S.at a i, G.S.at b j, k⟩ ⟨trivial, rfl, rfl, rfl⟩
  unfold stepShallowWater
  rw [h1, h2, swPoint_at, if_pos ⟨rfl, rfl, rfl⟩]

/-- Outside the interior the step changes nothing. -/
theorem step_out (G : Geometry) (B : Basis) (init : Data) (dt : ℝ) (u : Data) (x : Cell)
    (h : ¬ (Interior G.S x.iA x.iB ∧ x.k < G.S.levels)) : stepShallowWater G B init dt u x = u x := by
  have h1 := (elems_touch (fun _ => True) G.S G.S.levels (fun a b k u =>
    loop G.S.order (fun i u => loop G.S.order (fun j u => swPoint G B init dt a b k i j u) u) u)
    (fun a b k _ _ _ => nodes_touch _ G.S a b k _ (fun i j _ _ => swPoint_touches G B init dt a b k i j))).1.out u x
  refine h1 ?_
  rintro ⟨a, ha, b, hb, k, hk, i, hi, j, hj, -, h1, h2, h3⟩
  have b1 : a * G.S.order + G.S.order ≤ G.S.elemA * G.S.order := by
    have := Nat.mul_le_mul_right G.S.order ha
    rw [Nat.succ_mul] at this
    exact this
  have b2 : b * G.S.order + G.S.order ≤ G.S.elemB * G.S.order := by
    have := Nat.mul_le_mul_right G.S.order hb
    rw [Nat.succ_mul] at this
    exact this
  unfold Shape.at at h1 h2
  refine h ⟨?_, by omega⟩
  unfold Interior
  omega

end Verif.Horiz
