import Verif.Horiz.ShallowProps
import Verif.Nonhydro.Spec

/-!
# What the nonhydrostatic step adds in each column
-/

namespace Verif.Nonhydro

open Verif.Horiz

/-- The cells of one column. -/
def Col (iA iB : Nat) (x : Cell) : Prop := x.iA = iA ∧ x.iB = iB

/-- The cells of the columns of one element. -/
def ECol (S : Shape) (a b : Nat) (x : Cell) : Prop :=
  ∃ i, i < S.order ∧ ∃ j, j < S.order ∧ Col (S.at a i) (S.at b j) x

theorem ecol_unique {S : Shape} {a b a' b' : Nat} {x : Cell} (h : ECol S a b x) (h' : ECol S a' b' x) :
    a = a' ∧ b = b' := by
  obtain ⟨i, hi, j, hj, h1, h2⟩ := h
  obtain ⟨i', hi', j', hj', h1', h2'⟩ := h'
  exact ⟨(S.at_inj hi hi' (h1.symm.trans h1')).1, (S.at_inj hj hj' (h2.symm.trans h2')).1⟩

theorem grow {f : Data → Data} {T T' : Cell → Prop} (h : Touches f T) (hT : ∀ x, T x → T' x) : Touches f T' := by
  constructor
  · intro s x hx
    exact h.out s x (fun h' => hx (hT x h'))
  · intro s s' he x hx
    by_cases hx' : T x
    · exact h.inn s s' (fun y hy => he y (hT y hy)) x hx'
    · rw [h.out s x hx', h.out s' x hx', he x hx]

theorem iterate {T : Cell → Prop} (n : Nat) (body : Nat → Data → Data) (h : ∀ t, t < n → Touches (body t) T) :
    Touches (loop n body) T := by
  induction n with
  | zero => exact touches_id T
  | succ n ih =>
    have := (ih (fun t ht => h t (by omega))).comp (h n (by omega))
    constructor
    · intro s x hx
      rw [loop_succ]
      exact this.out s x hx
    · intro s s' he x hx
      rw [loop_succ, loop_succ]
      exact this.inn s s' he x hx

section

variable (S : Shape)

theorem cols_touch (a b : Nat) (body : Nat → Nat → Data → Data)
    (h : ∀ i j, i < S.order → j < S.order → Touches (body i j) (Col (S.at a i) (S.at b j))) :
    Touches (loop S.order fun i u => loop S.order (fun j u => body i j u) u) (ECol S a b) :=
  iterate _ _ (fun i hi => iterate _ _ (fun j hj => grow (h i j hi hj) (fun _ hx => ⟨i, hi, j, hj, hx⟩)))

theorem cols_at (a b : Nat) (body : Nat → Nat → Data → Data)
    (h : ∀ i j, i < S.order → j < S.order → Touches (body i j) (Col (S.at a i) (S.at b j)))
    (u : Data) (i j : Nat) (hi : i < S.order) (hj : j < S.order) (x : Cell) (hx : Col (S.at a i) (S.at b j) x) :
    loop S.order (fun i u => loop S.order (fun j u => body i j u) u) u x = body i j u x := by
  have h1 : ∀ i, i < S.order → Touches (loop S.order (fun j u => body i j u)) (fun x => x.iA = S.at a i) :=
    fun i hi => iterate _ _ (fun j hj => grow (h i j hi hj) (fun _ hx => hx.1))
  rw [(loop_pass S.order (fun i u => loop S.order (fun j u => body i j u) u) (fun i x => x.iA = S.at a i) h1
    (fun i i' hi hi' x e e' => (S.at_inj hi hi' (e.symm.trans e')).2) u).2 i hi x hx.1]
  exact (loop_pass S.order (fun j u => body i j u) (fun j x => Col (S.at a i) (S.at b j) x)
    (fun j hj => h i j hi hj) (fun j j' hj hj' x e e' => (S.at_inj hj hj' (e.2.symm.trans e'.2)).2) u).2 j hj x hx

theorem patch_at (body : Nat → Nat → Data → Data)
    (h : ∀ a b, a < S.elemA → b < S.elemB → Touches (body a b) (ECol S a b))
    (u : Data) (a b : Nat) (ha : a < S.elemA) (hb : b < S.elemB) (x : Cell) (hx : ECol S a b x) :
    loop S.elemA (fun a u => loop S.elemB (fun b u => body a b u) u) u x = body a b u x := by
  have h1 : ∀ a, a < S.elemA → Touches (loop S.elemB (fun b u => body a b u)) (fun x => ∃ b, ECol S a b x) :=
    fun a ha => iterate _ _ (fun b hb => grow (h a b ha hb) (fun _ hx => ⟨b, hx⟩))
  rw [(loop_pass S.elemA (fun a u => loop S.elemB (fun b u => body a b u) u) (fun a x => ∃ b, ECol S a b x) h1
    (fun a a' _ _ x ⟨_, e⟩ ⟨_, e'⟩ => (ecol_unique e e').1) u).2 a ha x ⟨b, hx⟩]
  exact (loop_pass S.elemB (fun b u => body a b u) (fun b x => ECol S a b x) (fun b hb => h a b ha hb)
    (fun b b' _ _ x e e' => (ecol_unique e e').2) u).2 b hb x hx

theorem patch_out (body : Nat → Nat → Data → Data) (V : Cell → Prop)
    (h : ∀ a b, a < S.elemA → b < S.elemB → Touches (body a b) V) (u : Data) (x : Cell) (hx : ¬ V x) :
    loop S.elemA (fun a u => loop S.elemB (fun b u => body a b u) u) u x = u x :=
  (iterate _ _ (fun a ha => iterate _ _ (fun b hb => h a b ha hb))).out u x hx

end

theorem row_sum (n : Nat) (M : Nat → Nat → ℝ) (k : Nat) (col : Nat → ℝ) :
    row n M k col = ∑ m ∈ Finset.range n, M k m * col m := by
  unfold row
  rw [loop_add, zero_add]

/-- What one step adds to a variable at a node, per unit of time. -/
noncomputable def tend (A : Air) (init : Data) (a b k i j : Nat) : Var → ℝ
  | .state 0 => updateUa A init a b k i j
  | .state 1 => if A.xz then 0 else updateUb A init a b k i j
  | .state 2 => -(1 / A.jac (A.G.S.at a i) (A.G.S.at b j) k *
      (weakA A.G A.B (fluxA A init a b k (.state 2)) i j + weakB A.G A.B (fluxB A init a b k (.state 2)) i j))
  | .state 3 => if A.wOnEdge then 0 else updateUr A init a b k i j
  | .state 4 => -(1 / A.jac (A.G.S.at a i) (A.G.S.at b j) k *
      (weakA A.G A.B (fluxA A init a b k (.state 4)) i j + weakB A.G A.B (fluxB A init a b k (.state 4)) i j))
  | .state _ => 0
  | .tracer c => if c < A.G.S.tracers then -(1 / A.jac (A.G.S.at a i) (A.G.S.at b j) k *
      (weakA A.G A.B (tracerFluxA A init a b k c) i j + weakB A.G A.B (tracerFluxB A init a b k c) i j)) else 0

theorem nodePoint_at (A : Air) (init : Data) (dt : ℝ) (a b k i j : Nat) (u : Data) (x : Cell) :
    nodePoint A init dt a b k i j u x =
      if x.iA = A.G.S.at a i ∧ x.iB = A.G.S.at b j ∧ x.k = k then u x + dt * tend A init a b k i j x.v else u x := by
  unfold nodePoint
  rw [tracers_at]
  obtain ⟨v, xA, xB, xk⟩ := x
  cases v with
  | tracer c =>
    by_cases h : xA = A.G.S.at a i ∧ xB = A.G.S.at b j ∧ xk = k
    · by_cases hc : c < A.G.S.tracers
      · simp only
        rw [if_pos ⟨hc, h⟩, if_pos h]
        cases A.xz <;> cases A.wOnEdge <;> simp [put, tend, hc] <;> ring
      · simp only
        rw [if_neg (fun h' => hc h'.1), if_pos h]
        cases A.xz <;> cases A.wOnEdge <;> simp [put, tend, hc]
    · simp only
      rw [if_neg (fun h' => h h'.2), if_neg h]
      cases A.xz <;> cases A.wOnEdge <;> simp [put]
  | state c =>
    by_cases h : xA = A.G.S.at a i ∧ xB = A.G.S.at b j ∧ xk = k
    · simp only
      rw [if_pos h]
      obtain ⟨rfl, rfl, rfl⟩ := h
      match c with
      | 0 => cases A.xz <;> cases A.wOnEdge <;> simp [put, tend]
      | 1 => cases hx : A.xz <;> cases hw : A.wOnEdge <;> simp [put, tend, hx]
      | 2 => cases A.xz <;> cases A.wOnEdge <;> simp [put, tend] <;> ring
      | 3 => cases hx : A.xz <;> cases hw : A.wOnEdge <;> simp [put, tend, hw]
      | 4 => cases A.xz <;> cases A.wOnEdge <;> simp [put, tend] <;> ring
      | c + 5 => cases A.xz <;> cases A.wOnEdge <;> simp [put, tend]
    · simp only
      rw [if_neg h]
      have h' : ∀ d, ¬ (c = d ∧ xA = A.G.S.at a i ∧ xB = A.G.S.at b j ∧ xk = k) := fun d e => h e.2
      cases A.xz <;> cases A.wOnEdge <;> simp only [put, Cell.mk.injEq, Var.state.injEq, h', if_false, if_true,
        Bool.false_eq_true]

theorem nodePoint_touches (A : Air) (init : Data) (dt : ℝ) (a b k i j : Nat) :
    Touches (nodePoint A init dt a b k i j) (Node (fun _ => True) (A.G.S.at a i) (A.G.S.at b j) k) := by
  constructor
  · intro u x hx
    rw [nodePoint_at, if_neg (fun h => hx ⟨trivial, h⟩)]
  · intro u u' he x hx
    rw [nodePoint_at, nodePoint_at, he x hx]

section

variable (A : Air) (init : Data) (dt : ℝ) (a b i j : Nat)

/-- The three parts of what an element does to a column. -/
noncomputable def col1 (u : Data) : Data := loop A.G.S.levels (fun k u => nodePoint A init dt a b k i j u) u
noncomputable def col3 (u : Data) : Data := loop (A.G.S.levels - 1) (fun t u => edgePoint A init dt a b i j t u) u

theorem col1_touches : Touches (col1 A init dt a b i j) (Col (A.G.S.at a i) (A.G.S.at b j)) :=
  iterate _ _ (fun k _ => grow (nodePoint_touches A init dt a b k i j) (fun _ hx => ⟨hx.2.1, hx.2.2.1⟩))

theorem col1_at (u : Data) (v : Var) (k : Nat) (hk : k < A.G.S.levels) :
    col1 A init dt a b i j u ⟨v, A.G.S.at a i, A.G.S.at b j, k⟩ =
      u ⟨v, A.G.S.at a i, A.G.S.at b j, k⟩ + dt * tend A init a b k i j v := by
  unfold col1
  rw [(loop_pass _ (fun k u => nodePoint A init dt a b k i j u)
    (fun k => Node (fun _ => True) (A.G.S.at a i) (A.G.S.at b j) k)
    (fun k _ => nodePoint_touches A init dt a b k i j)
    (fun k k' _ _ x e e' => e.2.2.2.symm.trans e'.2.2.2) u).2 k hk _ ⟨trivial, rfl, rfl, rfl⟩, nodePoint_at,
    if_pos ⟨rfl, rfl, rfl⟩]

theorem nodePoint_far (k c : Nat) (u : Data) (x : Cell) (hx : x.v = edge c) :
    nodePoint A init dt a b k i j u x = u x := by
  rw [nodePoint_at, hx]
  unfold edge
  rw [show (5 : Nat) + c = c + 5 by omega]
  simp [tend]

theorem col1_edge (c : Nat) (u : Data) (x : Cell) (hx : x.v = edge c) : col1 A init dt a b i j u x = u x := by
  have : ∀ n, loop n (fun k u => nodePoint A init dt a b k i j u) u x = u x := by
    intro n
    induction n with
    | zero => rfl
    | succ n ih => rw [loop_succ, nodePoint_far A init dt a b i j n c _ x hx, ih]
  exact this _

theorem bottom_touches : Touches (bottomPoint A a b i j) (Col (A.G.S.at a i) (A.G.S.at b j)) := by
  constructor
  · intro u x hx
    unfold bottomPoint
    have : x ≠ ⟨edge 3, A.G.S.at a i, A.G.S.at b j, 0⟩ := fun e => hx (by rw [e]; exact ⟨rfl, rfl⟩)
    simp [put, this]
  · intro u u' he x hx
    unfold bottomPoint
    simp only [put]
    split
    · rw [show (fun l => u ⟨.state 0, A.G.S.at a i, A.G.S.at b j, l⟩) = fun l => u' ⟨.state 0, A.G.S.at a i, A.G.S.at b j, l⟩
          from funext (fun l => he _ ⟨rfl, rfl⟩),
        show (fun l => u ⟨.state 1, A.G.S.at a i, A.G.S.at b j, l⟩) = fun l => u' ⟨.state 1, A.G.S.at a i, A.G.S.at b j, l⟩
          from funext (fun l => he _ ⟨rfl, rfl⟩)]
    · exact he x hx

theorem edgePoint_touches (t : Nat) :
    Touches (edgePoint A init dt a b i j t) (fun x => x = ⟨edge 3, A.G.S.at a i, A.G.S.at b j, t + 1⟩) :=
  touches_put _ _ (fun s s' he => by rw [he])

theorem col3_touches : Touches (col3 A init dt a b i j) (Col (A.G.S.at a i) (A.G.S.at b j)) :=
  iterate _ _ (fun t _ => grow (edgePoint_touches A init dt a b i j t) (fun _ hx => by rw [hx]; exact ⟨rfl, rfl⟩))

theorem col3_out (u : Data) (x : Cell) (h : x.v ≠ edge 3 ∨ x.k = 0 ∨ A.G.S.levels ≤ x.k) :
    col3 A init dt a b i j u x = u x := by
  refine (loop_pass _ (fun t u => edgePoint A init dt a b i j t u)
    (fun t x => x = ⟨edge 3, A.G.S.at a i, A.G.S.at b j, t + 1⟩)
    (fun t _ => edgePoint_touches A init dt a b i j t) ?_ u).1 x ?_
  · rintro t t' - - x rfl e
    injection e with _ _ _ e
    omega
  · rintro t ht rfl
    simp only [ne_eq, not_true_eq_false, false_or] at h
    omega

theorem col3_at (u : Data) (k : Nat) (h0 : 0 < k) (hk : k < A.G.S.levels) :
    col3 A init dt a b i j u ⟨edge 3, A.G.S.at a i, A.G.S.at b j, k⟩ =
      u ⟨edge 3, A.G.S.at a i, A.G.S.at b j, k⟩ +
        dt * ∑ l ∈ Finset.range A.G.S.levels, A.toEdge k l * crossX A init a b l i j := by
  obtain ⟨t, rfl⟩ : ∃ t, k = t + 1 := ⟨k - 1, by omega⟩
  unfold col3
  rw [(loop_pass _ (fun t u => edgePoint A init dt a b i j t u)
    (fun t x => x = ⟨edge 3, A.G.S.at a i, A.G.S.at b j, t + 1⟩)
    (fun t _ => edgePoint_touches A init dt a b i j t) (by
      rintro t t' - - x rfl e
      injection e with _ _ _ e
      omega) u).2 t (by omega) _ rfl]
  unfold edgePoint
  rw [row_sum]
  simp [put]

/-- What an element does to a column. -/
noncomputable def column (u : Data) : Data :=
  if A.wOnEdge then col3 A init dt a b i j (bottomPoint A a b i j (col1 A init dt a b i j u))
  else col1 A init dt a b i j u

end

theorem element_touches (A : Air) (init : Data) (dt : ℝ) (a b : Nat) :
    Touches (element A init dt a b) (ECol A.G.S a b) := by
  have t1 := cols_touch A.G.S a b _ (fun i j _ _ => col1_touches A init dt a b i j)
  have t2 := cols_touch A.G.S a b _ (fun i j _ _ => bottom_touches A a b i j)
  have t3 := cols_touch A.G.S a b _ (fun i j _ _ => col3_touches A init dt a b i j)
  cases h : A.wOnEdge
  · refine ⟨fun u x hx => ?_, fun u u' he x hx => ?_⟩
    · unfold element; simp only [h, Bool.false_eq_true, if_false]; exact t1.out u x hx
    · unfold element; simp only [h, Bool.false_eq_true, if_false]; exact t1.inn u u' he x hx
  · have t := (t1.comp t2).comp t3
    refine ⟨fun u x hx => ?_, fun u u' he x hx => ?_⟩
    · unfold element; simp only [h, if_true]; exact t.out u x hx
    · unfold element; simp only [h, if_true]; exact t.inn u u' he x hx

theorem element_at (A : Air) (init : Data) (dt : ℝ) (a b i j : Nat) (hi : i < A.G.S.order) (hj : j < A.G.S.order)
    (u : Data) (x : Cell) (hx : Col (A.G.S.at a i) (A.G.S.at b j) x) :
    element A init dt a b u x = column A init dt a b i j u x := by
  have e1 := fun u x hx => cols_at A.G.S a b _ (fun i j _ _ => col1_touches A init dt a b i j) u i j hi hj x hx
  have e2 := fun u x hx => cols_at A.G.S a b _ (fun i j _ _ => bottom_touches A a b i j) u i j hi hj x hx
  have e3 := fun u x hx => cols_at A.G.S a b _ (fun i j _ _ => col3_touches A init dt a b i j) u i j hi hj x hx
  unfold element column
  cases h : A.wOnEdge
  · simp only [Bool.false_eq_true, if_false]
    exact e1 u x hx
  · simp only [if_true]
    refine (e3 _ x hx).trans ?_
    refine (col3_touches A init dt a b i j).inn _ _ (fun y hy => (e2 _ y hy).trans ?_) x hx
    exact (bottom_touches A a b i j).inn _ _ (fun z hz => e1 u z hz) y hy

theorem step_column (A : Air) (init : Data) (dt : ℝ) (u i' u' : Data) (h : stepNonhydro A init dt u = some (i', u'))
    (a b i j : Nat) (ha : a < A.G.S.elemA) (hb : b < A.G.S.elemB) (hi : i < A.G.S.order) (hj : j < A.G.S.order)
    (x : Cell) (hx : Col (A.G.S.at a i) (A.G.S.at b j) x) : u' x = column A i' dt a b i j u x := by
  unfold stepNonhydro at h
  split at h
  · exact absurd h (by simp)
  · simp only [Option.some.injEq, Prod.mk.injEq] at h
    obtain ⟨rfl, rfl⟩ := h
    rw [patch_at A.G.S _ (fun a b _ _ => element_touches A _ dt a b) u a b ha hb x ⟨i, hi, j, hj, hx⟩,
      element_at A _ dt a b i j hi hj u x hx]

/-- **The step on levels, node by node.** -/
theorem step_value (A : Air) (init : Data) (dt : ℝ) (u i' u' : Data) (h : stepNonhydro A init dt u = some (i', u'))
    (v : Var) (hv : v ≠ edge 3) (a b k i j : Nat) (ha : a < A.G.S.elemA) (hb : b < A.G.S.elemB) (hk : k < A.G.S.levels)
    (hi : i < A.G.S.order) (hj : j < A.G.S.order) :
    value A.G.S u' v a b k i j = value A.G.S u v a b k i j + dt * tend A i' a b k i j v := by
  rw [value_at, value_at, step_column A init dt u i' u' h a b i j ha hb hi hj _ ⟨rfl, rfl⟩]
  unfold column
  split
  · rw [col3_out A i' dt a b i j _ _ (Or.inl hv)]
    have : bottomPoint A a b i j (col1 A i' dt a b i j u) ⟨v, A.G.S.at a i, A.G.S.at b j, k⟩ =
        col1 A i' dt a b i j u ⟨v, A.G.S.at a i, A.G.S.at b j, k⟩ := by
      unfold bottomPoint
      simp [put, hv]
    rw [this, col1_at A i' dt a b i j u v k hk]
  · exact col1_at A i' dt a b i j u v k hk

end Verif.Nonhydro
