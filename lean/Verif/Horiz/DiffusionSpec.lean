import Verif.Horiz.DiffusionLemmas

/-!
# Vocabulary for viscosity

The weights of the nodes of an element, the slopes of a field given at the nodes and the squared length of its gradient.
-/

namespace Verif.Horiz

/-- The levels at which a variable lives: as many as the grid has for tracers and for components on levels, one more for
components on interfaces. -/
def Carried (M : Medium) : Var → Nat → Prop
  | .tracer _, k => k < M.G.S.levels
  | .state c, k => (M.located c = .node ∧ k < M.G.S.levels) ∨ (M.located c = .redge ∧ k ≤ M.G.S.levels)

/-- The Jacobian of the grid where a variable lives. -/
def density (M : Medium) : Var → Nat → Nat → Nat → ℝ
  | .tracer _ => M.jacNode
  | .state c => if M.located c = .redge then M.jacREdge else M.jacNode

theorem density_eq (M : Medium) (v : Var) : density M v = M.jacOf v := by
  cases v with
  | tracer c => rfl
  | state c => cases h : M.located c <;> simp [density, Medium.jacOf, h]

theorem carried_iff (M : Medium) (v : Var) (k : Nat) : Carried M v k ↔ ∃ n, M.levelsOf v = some n ∧ k < n := by
  cases v with
  | tracer c => exact ⟨fun h => ⟨_, rfl, h⟩, fun ⟨n, h, hk⟩ => by cases h; exact hk⟩
  | state c =>
    cases h : M.located c <;> simp [Carried, Medium.levelsOf, h, Nat.lt_succ_iff]

/-- The weight of a node in a sum over an element: quadrature weights times the Jacobian of the place where the variable
lives.  The area (or volume) of the node is this times the extent of the element and of the level. -/
noncomputable def nodeWeight (M : Medium) (ω : Nat → ℝ) (v : Var) (a b k i j : Nat) : ℝ :=
  ω i * ω j * density M v (M.G.S.halo + a * M.G.S.order + i) (M.G.S.halo + b * M.G.S.order + j) k

/-- The weighted sum of the product of two fields over the nodes of an element. -/
noncomputable def inner (M : Medium) (ω : Nat → ℝ) (v : Var) (a b k : Nat) (f g : Nat → Nat → ℝ) : ℝ :=
  ∑ i ∈ Finset.range M.G.S.order, ∑ j ∈ Finset.range M.G.S.order, nodeWeight M ω v a b k i j * (f i j * g i j)

/-- The slope of a field along alpha at a node of an element. -/
noncomputable def slopeA (M : Medium) (f : Nat → Nat → ℝ) (i j : Nat) : ℝ :=
  (∑ s ∈ Finset.range M.G.S.order, f s j * M.B.dx s i) / M.G.deltaA

/-- The slope of a field along beta at a node of an element. -/
noncomputable def slopeB (M : Medium) (f : Nat → Nat → ℝ) (i j : Nat) : ℝ :=
  (∑ s ∈ Finset.range M.G.S.order, f i s * M.B.dx s j) / M.G.deltaB

/-- The product of the gradients of two fields in the metric of the grid. -/
noncomputable def gradDot (M : Medium) (a b : Nat) (f g : Nat → Nat → ℝ) (i j : Nat) : ℝ :=
  let x := M.G.S.halo + a * M.G.S.order + i
  let y := M.G.S.halo + b * M.G.S.order + j
  slopeA M g i j * (M.G.metA x y 0 * slopeA M f i j + M.G.metA x y 1 * slopeB M f i j) +
    slopeB M g i j * (M.G.metB x y 0 * slopeA M f i j + M.G.metB x y 1 * slopeB M f i j)

/-- The field that is diffused: the given one, less the reference state where that is asked for. -/
noncomputable def diffused (M : Medium) (init : Data) (removeRef : Bool) (v : Var) (a b k i j : Nat) : ℝ :=
  value M.G.S init v a b k i j - if removeRef then value M.G.S M.ref v a b k i j else 0

/-- The Jacobian of the place where the variable lives vanishes at no node of the element. -/
def RegularFor (M : Medium) (v : Var) (a b k : Nat) : Prop :=
  ∀ i j, i < M.G.S.order → j < M.G.S.order →
    density M v (M.G.S.halo + a * M.G.S.order + i) (M.G.S.halo + b * M.G.S.order + j) k ≠ 0

/-- The nodes of the element have weights that are not negative and a metric that gives no vector a negative square. -/
structure Sound (M : Medium) (ω : Nat → ℝ) (v : Var) (a b k : Nat) : Prop where
  weight : ∀ i j, i < M.G.S.order → j < M.G.S.order → 0 ≤ nodeWeight M ω v a b k i j
  metric : ∀ i j, i < M.G.S.order → j < M.G.S.order → ∀ p q : ℝ,
    0 ≤ p * (M.G.metA (M.G.S.halo + a * M.G.S.order + i) (M.G.S.halo + b * M.G.S.order + j) 0 * p +
        M.G.metA (M.G.S.halo + a * M.G.S.order + i) (M.G.S.halo + b * M.G.S.order + j) 1 * q) +
      q * (M.G.metB (M.G.S.halo + a * M.G.S.order + i) (M.G.S.halo + b * M.G.S.order + j) 0 * p +
        M.G.metB (M.G.S.halo + a * M.G.S.order + i) (M.G.S.halo + b * M.G.S.order + j) 1 * q)

/-- What a call does to a variable at a node. -/
noncomputable def change (S : Shape) (r u : Data) (v : Var) (a b k i j : Nat) : ℝ :=
  value S r v a b k i j - value S u v a b k i j

end Verif.Horiz
