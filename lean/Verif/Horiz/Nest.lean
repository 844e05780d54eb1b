import Verif.Horiz.Model
import Mathlib.Tactic.Linarith

/-!
# The loop nests over elements and nodes

Every node of the interior belongs to exactly one element, so passes over different elements, levels or components do
not disturb one another.
-/

namespace Verif.Horiz

theorem Shape.at_inj (S : Shape) {a a' i i' : Nat} (hi : i < S.order) (hi' : i' < S.order)
    (h : S.at a i = S.at a' i') : a = a' ∧ i = i' := by
  unfold Shape.at at h
  have h0 : i + S.order * a = i' + S.order * a' := by
    have := Nat.mul_comm a S.order
    have := Nat.mul_comm a' S.order
    omega
  have hp : 0 < S.order := by omega
  have e1 : (i + S.order * a) / S.order = a := by
    rw [Nat.add_mul_div_left _ _ hp, Nat.div_eq_of_lt hi, Nat.zero_add]
  have e2 : (i' + S.order * a') / S.order = a' := by
    rw [Nat.add_mul_div_left _ _ hp, Nat.div_eq_of_lt hi', Nat.zero_add]
  have ha : a = a' := by rw [← e1, ← e2, h0]
  subst ha
  exact ⟨rfl, by omega⟩

/-- The cells of some variables at one node. -/
def Node (V : Var → Prop) (iA iB k : Nat) (x : Cell) : Prop := V x.v ∧ x.iA = iA ∧ x.iB = iB ∧ x.k = k

/-- The cells of some variables in one element at one level. -/
def Elem (V : Var → Prop) (S : Shape) (a b k : Nat) (x : Cell) : Prop :=
  ∃ i, i < S.order ∧ ∃ j, j < S.order ∧ Node V (S.at a i) (S.at b j) k x

theorem elem_unique {V V' : Var → Prop} {S : Shape} {a b k a' b' k' : Nat} {x : Cell} (h : Elem V S a b k x)
    (h' : Elem V' S a' b' k' x) : a = a' ∧ b = b' ∧ k = k' := by
  obtain ⟨i, hi, j, hj, -, h1, h2, h3⟩ := h
  obtain ⟨i', hi', j', hj', -, h1', h2', h3'⟩ := h'
  exact ⟨(S.at_inj hi hi' (h1.symm.trans h1')).1, (S.at_inj hj hj' (h2.symm.trans h2')).1, h3.symm.trans h3'⟩

/-- The two loops over the nodes of an element. -/
theorem nodes_touch (V : Var → Prop) (S : Shape) (a b k : Nat) (body : Nat → Nat → Data → Data)
    (h : ∀ i j, i < S.order → j < S.order → Touches (body i j) (Node V (S.at a i) (S.at b j) k)) :
    Touches (loop S.order fun i u => loop S.order (fun j u => body i j u) u) (Elem V S a b k) := by
  have h1 : ∀ i, i < S.order → Touches (loop S.order (fun j u => body i j u))
      (fun x => ∃ j, j < S.order ∧ Node V (S.at a i) (S.at b j) k x) := by
    intro i hi
    refine loop_touches _ _ _ (fun j hj => h i j hi hj) ?_
    intro j j' hj hj' x hx hx'
    exact (S.at_inj hj hj' (hx.2.2.1.symm.trans hx'.2.2.1)).2
  refine loop_touches S.order (fun i u => loop S.order (fun j u => body i j u) u)
    (fun i x => ∃ j, j < S.order ∧ Node V (S.at a i) (S.at b j) k x) h1 ?_
  rintro i i' hi hi' x ⟨j, hj, hx⟩ ⟨j', hj', hx'⟩
  exact (S.at_inj hi hi' (hx.2.1.symm.trans hx'.2.1)).2

theorem nodes_at (V : Var → Prop) (S : Shape) (a b k : Nat) (body : Nat → Nat → Data → Data)
    (h : ∀ i j, i < S.order → j < S.order → Touches (body i j) (Node V (S.at a i) (S.at b j) k))
    (u : Data) (i j : Nat) (hi : i < S.order) (hj : j < S.order) (x : Cell)
    (hx : Node V (S.at a i) (S.at b j) k x) :
    loop S.order (fun i u => loop S.order (fun j u => body i j u) u) u x = body i j u x := by
  have h1 : ∀ i, i < S.order → Touches (loop S.order (fun j u => body i j u))
      (fun x => ∃ j, j < S.order ∧ Node V (S.at a i) (S.at b j) k x) := by
    intro i hi
    refine loop_touches _ _ _ (fun j hj => h i j hi hj) ?_
    intro j j' hj hj' x hx hx'
    exact (S.at_inj hj hj' (hx.2.2.1.symm.trans hx'.2.2.1)).2
  rw [(loop_pass S.order (fun i u => loop S.order (fun j u => body i j u) u)
    (fun i x => ∃ j, j < S.order ∧ Node V (S.at a i) (S.at b j) k x) h1 (by
      rintro i i' hi hi' x ⟨j, hj, hx⟩ ⟨j', hj', hx'⟩
      exact (S.at_inj hi hi' (hx.2.1.symm.trans hx'.2.1)).2) u).2 i hi x ⟨j, hj, hx⟩]
  refine (loop_pass S.order (fun j u => body i j u) (fun j x => Node V (S.at a i) (S.at b j) k x)
    (fun j hj => h i j hi hj) ?_ u).2 j hj x hx
  intro j j' hj hj' x hx hx'
  exact (S.at_inj hj hj' (hx.2.2.1.symm.trans hx'.2.2.1)).2

/-- The loops over elements and levels (`a`, `b`, `k`), around a body that touches one element at one level. -/
theorem elems_touch (V : Var → Prop) (S : Shape) (n : Nat) (body : Nat → Nat → Nat → Data → Data)
    (h : ∀ a b k, a < S.elemA → b < S.elemB → k < n → Touches (body a b k) (Elem V S a b k)) :
    Touches (loop S.elemA fun a u => loop S.elemB (fun b u => loop n (fun k u => body a b k u) u) u)
      (fun x => ∃ a, a < S.elemA ∧ ∃ b, b < S.elemB ∧ ∃ k, k < n ∧ Elem V S a b k x) ∧
    ∀ u a b k, a < S.elemA → b < S.elemB → k < n → ∀ x, Elem V S a b k x →
      loop S.elemA (fun a u => loop S.elemB (fun b u => loop n (fun k u => body a b k u) u) u) u x =
        body a b k u x := by
  have t1 : ∀ a b, a < S.elemA → b < S.elemB → Touches (loop n (fun k u => body a b k u))
      (fun x => ∃ k, k < n ∧ Elem V S a b k x) := fun a b ha hb =>
    loop_touches _ _ _ (fun k hk => h a b k ha hb hk) (fun k k' _ _ x hx hx' => (elem_unique hx hx').2.2)
  have d2 : ∀ a b b' x, (∃ k, k < n ∧ Elem V S a b k x) → (∃ k, k < n ∧ Elem V S a b' k x) → b = b' := by
    rintro a b b' x ⟨k, -, hx⟩ ⟨k', -, hx'⟩
    exact (elem_unique hx hx').2.1
  have t2 : ∀ a, a < S.elemA → Touches (loop S.elemB (fun b u => loop n (fun k u => body a b k u) u))
      (fun x => ∃ b, b < S.elemB ∧ ∃ k, k < n ∧ Elem V S a b k x) := fun a ha =>
    loop_touches _ _ _ (fun b hb => t1 a b ha hb) (fun b b' _ _ x hx hx' => d2 a b b' x hx hx')
  have d3 : ∀ a a' x, (∃ b, b < S.elemB ∧ ∃ k, k < n ∧ Elem V S a b k x) →
      (∃ b, b < S.elemB ∧ ∃ k, k < n ∧ Elem V S a' b k x) → a = a' := by
    rintro a a' x ⟨b, -, k, -, hx⟩ ⟨b', -, k', -, hx'⟩
    exact (elem_unique hx hx').1
  refine ⟨loop_touches S.elemA _ _ t2 (fun a a' _ _ x hx hx' => d3 a a' x hx hx'), ?_⟩
  intro u a b k ha hb hk x hx
  rw [(loop_pass S.elemA _ _ t2 (fun a a' _ _ x hx hx' => d3 a a' x hx hx') u).2 a ha x ⟨b, hb, k, hk, hx⟩]
  rw [(loop_pass S.elemB _ _ (fun b hb => t1 a b ha hb) (fun b b' _ _ x hx hx' => d2 a b b' x hx hx') u).2 b hb x
    ⟨k, hk, hx⟩]
  exact (loop_pass n _ _ (fun k hk => h a b k ha hb hk) (fun k k' _ _ x hx hx' => (elem_unique hx hx').2.2) u).2
    k hk x hx

end Verif.Horiz
