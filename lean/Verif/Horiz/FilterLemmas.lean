import Verif.Horiz.Nest

/-!
# What the filter writes at each node
-/

namespace Verif.Horiz

open Classical in
theorem filterPoint_touches (r : ℝ) (x : Cell) : Touches (filterPoint r x) (fun y => y = x) := by
  have h : filterPoint r x = fun s => put s x (if s x > 0 then s x * r else 0) := by
    funext s
    unfold filterPoint
    split <;> rfl
  rw [h]
  exact touches_put x _ (fun s s' he => by rw [he])

open Classical in
theorem filterPoint_at (r : ℝ) (x : Cell) (u : Data) :
    filterPoint r x u x = if u x > 0 then u x * r else 0 := by
  unfold filterPoint
  split <;> simp [put]

theorem node_iff (c iA iB k : Nat) (x : Cell) :
    Node (· = .tracer c) iA iB k x ↔ x = ⟨.tracer c, iA, iB, k⟩ := by
  constructor
  · rintro ⟨h1, h2, h3, h4⟩
    cases x
    simp_all
  · rintro rfl
    exact ⟨rfl, rfl, rfl, rfl⟩

theorem mass_congr (S : Shape) (area : Nat → Nat → Nat → ℝ) (c a b k : Nat) (u u' : Data)
    (h : ∀ x, Elem (· = .tracer c) S a b k x → u x = u' x) :
    totalMass S area u c a b k = totalMass S area u' c a b k ∧
      nonNegativeMass S area u c a b k = nonNegativeMass S area u' c a b k := by
  have h' : ∀ i j, i < S.order → j < S.order →
      u ⟨.tracer c, S.at a i, S.at b j, k⟩ = u' ⟨.tracer c, S.at a i, S.at b j, k⟩ :=
    fun i j hi hj => h _ ⟨i, hi, j, hj, (node_iff _ _ _ _ _).2 rfl⟩
  constructor
  · unfold totalMass
    refine loop_congr _ _ _ _ (fun i hi s => loop_congr _ _ _ _ (fun j hj s => ?_))
    rw [h' i j hi hj]
  · unfold nonNegativeMass
    refine loop_congr _ _ _ _ (fun i hi s => loop_congr _ _ _ _ (fun j hj s => ?_))
    rw [h' i j hi hj]

theorem scale_touches (S : Shape) (c a b k : Nat) (r : ℝ) :
    ∀ i j, i < S.order → j < S.order → Touches
      ((fun i j u => filterPoint r ⟨.tracer c, S.at a i, S.at b j, k⟩ u) i j)
      (Node (· = .tracer c) (S.at a i) (S.at b j) k) :=
  fun i j _ _ => (filterPoint_touches r _).mono (fun x => node_iff _ _ _ _ x)

theorem filterElement_touches (S : Shape) (area : Nat → Nat → Nat → ℝ) (c a b k : Nat) :
    Touches (filterElement S area c a b k) (Elem (· = .tracer c) S a b k) := by
  constructor
  · intro u x hx
    unfold filterElement
    exact (nodes_touch _ S a b k _ (scale_touches S c a b k _)).out u x hx
  · intro u u' he x hx
    unfold filterElement
    obtain ⟨e1, e2⟩ := mass_congr S area c a b k u u' he
    rw [e1, e2]
    exact (nodes_touch _ S a b k _ (scale_touches S c a b k _)).inn u u' he x hx

open Classical in
theorem filterElement_at (S : Shape) (area : Nat → Nat → Nat → ℝ) (c a b k i j : Nat) (hi : i < S.order)
    (hj : j < S.order) (u : Data) :
    filterElement S area c a b k u ⟨.tracer c, S.at a i, S.at b j, k⟩ =
      if u ⟨.tracer c, S.at a i, S.at b j, k⟩ > 0 then u ⟨.tracer c, S.at a i, S.at b j, k⟩ *
        (totalMass S area u c a b k / nonNegativeMass S area u c a b k) else 0 := by
  unfold filterElement
  exact (nodes_at _ S a b k _ (scale_touches S c a b k _) u i j hi hj _ ((node_iff _ _ _ _ _).2 rfl)).trans
    (filterPoint_at _ _ _)

/-- The cells of one column of elements. -/
def Tower (S : Shape) (a b : Nat) (x : Cell) : Prop :=
  ∃ c, c < S.tracers ∧ ∃ k, k < S.levels ∧ Elem (· = .tracer c) S a b k x

theorem tracer_unique {S : Shape} {c c' a b k a' b' k' : Nat} {x : Cell} (h : Elem (· = .tracer c) S a b k x)
    (h' : Elem (· = .tracer c') S a' b' k' x) : c = c' := by
  obtain ⟨i, hi, j, hj, h1, -⟩ := h
  obtain ⟨i', hi', j', hj', h1', -⟩ := h'
  have h1 : x.v = .tracer c := h1
  have h1' : x.v = .tracer c' := h1'
  rw [h1] at h1'
  injection h1'

theorem filterTracers_pass (S : Shape) (area : Nat → Nat → Nat → ℝ) (u : Data) :
    (∀ x, (∀ a b, a < S.elemA → b < S.elemB → ¬ Tower S a b x) → filterTracers S area u x = u x) ∧
    ∀ a b c k, a < S.elemA → b < S.elemB → c < S.tracers → k < S.levels → ∀ x, Elem (· = .tracer c) S a b k x →
      filterTracers S area u x = filterElement S area c a b k u x := by
  have t0 : ∀ a b c, Touches (loop S.levels (fun k u => filterElement S area c a b k u))
      (fun x => ∃ k, k < S.levels ∧ Elem (· = .tracer c) S a b k x) := fun a b c =>
    loop_touches _ _ _ (fun k _ => filterElement_touches S area c a b k)
      (fun k k' _ _ x hx hx' => (elem_unique hx hx').2.2)
  have d1 : ∀ a b c c' x, (∃ k, k < S.levels ∧ Elem (· = .tracer c) S a b k x) →
      (∃ k, k < S.levels ∧ Elem (· = .tracer c') S a b k x) → c = c' := by
    rintro a b c c' x ⟨k, -, hx⟩ ⟨k', -, hx'⟩
    exact tracer_unique hx hx'
  have t1 : ∀ a b, Touches (loop S.tracers (fun c u => loop S.levels (fun k u => filterElement S area c a b k u) u))
      (Tower S a b) := fun a b =>
    loop_touches _ _ _ (fun c _ => t0 a b c) (fun c c' _ _ x hx hx' => d1 a b c c' x hx hx')
  have d2 : ∀ a b a' b' x, Tower S a b x → Tower S a' b' x → a = a' ∧ b = b' := by
    rintro a b a' b' x ⟨c, -, k, -, hx⟩ ⟨c', -, k', -, hx'⟩
    exact ⟨(elem_unique hx hx').1, (elem_unique hx hx').2.1⟩
  have t2 : ∀ a, Touches (loop S.elemB (fun b u => loop S.tracers (fun c u => loop S.levels (fun k u =>
      filterElement S area c a b k u) u) u)) (fun x => ∃ b, b < S.elemB ∧ Tower S a b x) := fun a =>
    loop_touches _ _ _ (fun b _ => t1 a b) (fun b b' _ _ x hx hx' => (d2 a b a b' x hx hx').2)
  have d3 : ∀ a a' x, (∃ b, b < S.elemB ∧ Tower S a b x) → (∃ b, b < S.elemB ∧ Tower S a' b x) → a = a' := by
    rintro a a' x ⟨b, -, hx⟩ ⟨b', -, hx'⟩
    exact (d2 a b a' b' x hx hx').1
  have t3 := loop_pass S.elemA (fun a u => loop S.elemB (fun b u => loop S.tracers (fun c u => loop S.levels
    (fun k u => filterElement S area c a b k u) u) u) u) _ (fun a _ => t2 a)
    (fun a a' _ _ x hx hx' => d3 a a' x hx hx') u
  constructor
  · intro x hx
    refine t3.1 x ?_
    rintro a ha ⟨b, hb, hx'⟩
    exact hx a b ha hb hx'
  · intro a b c k ha hb hc hk x hx
    have e3 := t3.2 a ha x ⟨b, hb, c, hc, k, hk, hx⟩
    have e2 := (loop_pass S.elemB (fun b u => loop S.tracers (fun c u => loop S.levels (fun k u =>
      filterElement S area c a b k u) u) u) _ (fun b _ => t1 a b)
      (fun b b' _ _ x hx hx' => (d2 a b a b' x hx hx').2) u).2 b hb x ⟨c, hc, k, hk, hx⟩
    have e1 := (loop_pass S.tracers (fun c u => loop S.levels (fun k u =>
      filterElement S area c a b k u) u) _ (fun c _ => t0 a b c)
      (fun c c' _ _ x hx hx' => d1 a b c c' x hx hx') u).2 c hc x ⟨k, hk, hx⟩
    have e0 := (loop_pass S.levels (fun k u => filterElement S area c a b k u) _
      (fun k _ => filterElement_touches S area c a b k) (fun k k' _ _ x hx hx' => (elem_unique hx hx').2.2) u).2
      k hk x hx
    exact e3.trans (e2.trans (e1.trans e0))

open Classical in
theorem mass_sums (S : Shape) (area : Nat → Nat → Nat → ℝ) (u : Data) (c a b k : Nat) :
    totalMass S area u c a b k = ∑ i ∈ Finset.range S.order, ∑ j ∈ Finset.range S.order,
        u ⟨.tracer c, S.at a i, S.at b j, k⟩ * area (S.at a i) (S.at b j) k ∧
      nonNegativeMass S area u c a b k = ∑ i ∈ Finset.range S.order, ∑ j ∈ Finset.range S.order,
        if u ⟨.tracer c, S.at a i, S.at b j, k⟩ > 0 then
          u ⟨.tracer c, S.at a i, S.at b j, k⟩ * area (S.at a i) (S.at b j) k else 0 := by
  constructor
  · unfold totalMass
    rw [loop_add₂, zero_add]
  · unfold nonNegativeMass
    rw [← zero_add (∑ i ∈ Finset.range S.order, _), ← loop_add₂]
    refine loop_congr _ _ _ _ (fun i hi s => loop_congr _ _ _ _ (fun j hj s => ?_))
    by_cases h : u ⟨.tracer c, S.at a i, S.at b j, k⟩ > 0
    · rw [if_pos h, if_pos (le_of_lt h)]
    · rw [if_neg h]
      by_cases h' : u ⟨.tracer c, S.at a i, S.at b j, k⟩ ≥ 0
      · rw [if_pos h', le_antisymm (not_lt.1 h) h', zero_mul]
      · rw [if_neg h', add_zero]

end Verif.Horiz
