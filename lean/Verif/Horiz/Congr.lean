import Verif.Horiz.ShallowLemmas
import Verif.Horiz.FilterLemmas
import Verif.Horiz.DiffusionLemmas
import Verif.Horiz.VectorProps

/-!
# The same element in two patches

What the dynamics do to an element depends only on the element: on its metric and on the data it holds, not on the patch it
belongs to nor on where in the patch it is, and what they do to a tracer does not depend on its number.
-/

namespace Verif.Horiz

/-- Element `(a, b)` of one patch is element `(a', b')` of another. -/
structure Twin (M M' : Medium) (a b a' b' : Nat) : Prop where
  order : M'.G.S.order = M.G.S.order
  levels : M'.G.S.levels = M.G.S.levels
  basis : M'.B = M.B
  deltaA : M'.G.deltaA = M.G.deltaA
  deltaB : M'.G.deltaB = M.G.deltaB
  gravity : M'.G.g = M.G.g
  refLength : M'.refLength = M.refLength
  jac : ∀ s t, s < M.G.S.order → t < M.G.S.order →
    M'.G.jac (M'.G.S.at a' s) (M'.G.S.at b' t) = M.G.jac (M.G.S.at a s) (M.G.S.at b t)
  metA : ∀ s t d, s < M.G.S.order → t < M.G.S.order → d < 2 →
    M'.G.metA (M'.G.S.at a' s) (M'.G.S.at b' t) d = M.G.metA (M.G.S.at a s) (M.G.S.at b t) d
  metB : ∀ s t d, s < M.G.S.order → t < M.G.S.order → d < 2 →
    M'.G.metB (M'.G.S.at a' s) (M'.G.S.at b' t) d = M.G.metB (M.G.S.at a s) (M.G.S.at b t) d
  coriolis : ∀ s t, s < M.G.S.order → t < M.G.S.order →
    M'.G.coriolis (M'.G.S.at a' s) (M'.G.S.at b' t) = M.G.coriolis (M.G.S.at a s) (M.G.S.at b t)
  topo : ∀ s t, s < M.G.S.order → t < M.G.S.order →
    M'.G.topo (M'.G.S.at a' s) (M'.G.S.at b' t) = M.G.topo (M.G.S.at a s) (M.G.S.at b t)

/-- The two hold the same at level `k`, as variable `v` of the one and `v'` of the other. -/
def Copy (M M' : Medium) (a b a' b' k : Nat) (v v' : Var) (u u' : Data) : Prop :=
  ∀ s t, s < M.G.S.order → t < M.G.S.order →
    u' ⟨v', M'.G.S.at a' s, M'.G.S.at b' t, k⟩ = u ⟨v, M.G.S.at a s, M.G.S.at b t, k⟩

variable {M M' : Medium} {a b a' b' k : Nat} {x x' u u' : Data}

theorem copy_value {v v' : Var} (h : ∀ s t, s < M.G.S.order → t < M.G.S.order →
    value M'.G.S u' v' a' b' k s t = value M.G.S u v a b k s t) : Copy M M' a b a' b' k v v' u u' := fun s t hs ht => by
  have := h s t hs ht
  rwa [value_at, value_at] at this

section
variable (h : Twin M M' a b a' b')
include h

theorem Twin.derivA {f f' : Nat → Nat → ℝ} {i j : Nat} (hf : ∀ s, s < M.G.S.order → f' s j = f s j) :
    Horiz.derivA M'.G M'.B f' i j = Horiz.derivA M.G M.B f i j := by
  rw [derivA_sum, derivA_sum, h.order, h.basis, h.deltaA]
  rw [Finset.sum_congr rfl fun s hs => by rw [hf s (Finset.mem_range.1 hs)]]

theorem Twin.derivB {f f' : Nat → Nat → ℝ} {i j : Nat} (hf : ∀ s, s < M.G.S.order → f' i s = f i s) :
    Horiz.derivB M'.G M'.B f' i j = Horiz.derivB M.G M.B f i j := by
  rw [derivB_sum, derivB_sum, h.order, h.basis, h.deltaB]
  rw [Finset.sum_congr rfl fun s hs => by rw [hf s (Finset.mem_range.1 hs)]]

theorem Twin.weakA {f f' : Nat → Nat → ℝ} {i j : Nat} (hf : ∀ s, s < M.G.S.order → f' s j = f s j) :
    Horiz.weakA M'.G M'.B f' i j = Horiz.weakA M.G M.B f i j := by
  rw [weakA_sum, weakA_sum, h.order, h.basis, h.deltaA]
  rw [Finset.sum_congr rfl fun s hs => by rw [hf s (Finset.mem_range.1 hs)]]

theorem Twin.weakB {f f' : Nat → Nat → ℝ} {i j : Nat} (hf : ∀ s, s < M.G.S.order → f' i s = f i s) :
    Horiz.weakB M'.G M'.B f' i j = Horiz.weakB M.G M.B f i j := by
  rw [weakB_sum, weakB_sum, h.order, h.basis, h.deltaB]
  rw [Finset.sum_congr rfl fun s hs => by rw [hf s (Finset.mem_range.1 hs)]]

theorem Twin.conUa (h0 : Copy M M' a b a' b' k (.state 0) (.state 0) x x')
    (h1 : Copy M M' a b a' b' k (.state 1) (.state 1) x x') {i j : Nat} (hi : i < M.G.S.order) (hj : j < M.G.S.order) :
    Horiz.conUa M'.G x' a' b' k i j = Horiz.conUa M.G x a b k i j := by
  unfold Horiz.conUa Horiz.read
  rw [h.metA i j 0 hi hj (by omega), h.metA i j 1 hi hj (by omega), h0 i j hi hj, h1 i j hi hj]

theorem Twin.conUb (h0 : Copy M M' a b a' b' k (.state 0) (.state 0) x x')
    (h1 : Copy M M' a b a' b' k (.state 1) (.state 1) x x') {i j : Nat} (hi : i < M.G.S.order) (hj : j < M.G.S.order) :
    Horiz.conUb M'.G x' a' b' k i j = Horiz.conUb M.G x a b k i j := by
  unfold Horiz.conUb Horiz.read
  rw [h.metB i j 0 hi hj (by omega), h.metB i j 1 hi hj (by omega), h0 i j hi hj, h1 i j hi hj]

/-- The shallow water step adds the same to velocities and height. -/
theorem Twin.tendency (h0 : Copy M M' a b a' b' k (.state 0) (.state 0) x x')
    (h1 : Copy M M' a b a' b' k (.state 1) (.state 1) x x') (h2 : Copy M M' a b a' b' k (.state 2) (.state 2) x x')
    {i j : Nat} (hi : i < M.G.S.order) (hj : j < M.G.S.order) (c : Nat) :
    Horiz.tendency M'.G M'.B x' a' b' k i j (.state c) = Horiz.tendency M.G M.B x a b k i j (.state c) := by
  have ua : ∀ s t, s < M.G.S.order → t < M.G.S.order → _ := fun s t hs ht => h.conUa h0 h1 (i := s) (j := t) hs ht
  have ub : ∀ s t, s < M.G.S.order → t < M.G.S.order → _ := fun s t hs ht => h.conUb h0 h1 (i := s) (j := t) hs ht
  have e : ∀ s t, s < M.G.S.order → t < M.G.S.order →
      energyHead M'.G x' a' b' k s t = energyHead M.G x a b k s t := fun s t hs ht => by
    unfold energyHead
    rw [ua s t hs ht, ub s t hs ht, h.gravity]
    unfold Horiz.read
    rw [h0 s t hs ht, h1 s t hs ht, h2 s t hs ht]
  have z : Horiz.zeta M'.G M'.B x' a' b' k i j = Horiz.zeta M.G M.B x a b k i j := by
    unfold Horiz.zeta
    rw [h.derivA (f := Horiz.read M.G x a b k 1) fun s hs => h1 s j hs hj,
      h.derivB (f := Horiz.read M.G x a b k 0) fun s hs => h0 i s hi hs]
  match c with
  | 0 =>
    simp only [Horiz.tendency, updateUa]
    rw [h.coriolis i j hi hj, h.jac i j hi hj, ub i j hi hj, z, h.derivA fun s hs => e s j hs hj]
  | 1 =>
    simp only [Horiz.tendency, updateUb]
    rw [h.coriolis i j hi hj, h.jac i j hi hj, ua i j hi hj, z, h.derivB fun s hs => e i s hi hs]
  | 2 =>
    simp only [Horiz.tendency]
    rw [h.jac i j hi hj, h.weakA (f := massFluxA M.G x a b k) fun s hs => ?_,
      h.weakB (f := massFluxB M.G x a b k) fun s hs => ?_]
    · unfold massFluxB Horiz.read
      rw [h.jac i s hi hs, ub i s hi hs, h2 i s hi hs, h.topo i s hi hs]
    · unfold massFluxA Horiz.read
      rw [h.jac s j hs hj, ua s j hs hj, h2 s j hs hj, h.topo s j hs hj]
  | c + 3 => rfl

/-- The shallow water step adds the same to a tracer. -/
theorem Twin.tendencyTracer (h0 : Copy M M' a b a' b' k (.state 0) (.state 0) x x')
    (h1 : Copy M M' a b a' b' k (.state 1) (.state 1) x x') {c c' : Nat} (hc : c < M.G.S.tracers)
    (hc' : c' < M'.G.S.tracers) (h2 : Copy M M' a b a' b' k (.tracer c) (.tracer c') x x')
    {i j : Nat} (hi : i < M.G.S.order) (hj : j < M.G.S.order) :
    Horiz.tendency M'.G M'.B x' a' b' k i j (.tracer c') = Horiz.tendency M.G M.B x a b k i j (.tracer c) := by
  simp only [Horiz.tendency]
  rw [if_pos hc, if_pos hc', h.jac i j hi hj, h.weakA (f := tracerFluxA M.G x a b k c) fun s hs => ?_,
    h.weakB (f := tracerFluxB M.G x a b k c) fun s hs => ?_]
  · unfold tracerFluxB
    rw [h.jac i s hi hs, h.conUb h0 h1 hi hs, h2 i s hi hs]
  · unfold tracerFluxA
    rw [h.jac s j hs hj, h.conUa h0 h1 hs hj, h2 s j hs hj]

variable (ha : a < M.G.S.elemA) (hb : b < M.G.S.elemB) (ha' : a' < M'.G.S.elemA) (hb' : b' < M'.G.S.elemB)
include ha hb ha' hb'

theorem Twin.step (hk : k < M.G.S.levels) (dt : ℝ) (h0 : Copy M M' a b a' b' k (.state 0) (.state 0) x x')
    (h1 : Copy M M' a b a' b' k (.state 1) (.state 1) x x') (h2 : Copy M M' a b a' b' k (.state 2) (.state 2) x x')
    (c : Nat) (hu : Copy M M' a b a' b' k (.state c) (.state c) u u') :
    Copy M M' a b a' b' k (.state c) (.state c) (stepShallowWater M.G M.B x dt u)
      (stepShallowWater M'.G M'.B x' dt u') := copy_value fun i j hi hj => by
  rw [step_value M.G M.B x dt u _ a b k i j ha hb hk hi hj,
    step_value M'.G M'.B x' dt u' _ a' b' k i j ha' hb' (by rw [h.levels]; exact hk) (by rw [h.order]; exact hi)
      (by rw [h.order]; exact hj), value_at, value_at, hu i j hi hj, h.tendency h0 h1 h2 hi hj]

theorem Twin.stepTracer (hk : k < M.G.S.levels) (dt : ℝ) (h0 : Copy M M' a b a' b' k (.state 0) (.state 0) x x')
    (h1 : Copy M M' a b a' b' k (.state 1) (.state 1) x x') {c c' : Nat} (hc : c < M.G.S.tracers)
    (hc' : c' < M'.G.S.tracers) (h2 : Copy M M' a b a' b' k (.tracer c) (.tracer c') x x')
    (hu : Copy M M' a b a' b' k (.tracer c) (.tracer c') u u') :
    Copy M M' a b a' b' k (.tracer c) (.tracer c') (stepShallowWater M.G M.B x dt u)
      (stepShallowWater M'.G M'.B x' dt u') := copy_value fun i j hi hj => by
  rw [step_value M.G M.B x dt u _ a b k i j ha hb hk hi hj,
    step_value M'.G M'.B x' dt u' _ a' b' k i j ha' hb' (by rw [h.levels]; exact hk) (by rw [h.order]; exact hi)
      (by rw [h.order]; exact hj), value_at, value_at, hu i j hi hj, h.tendencyTracer h0 h1 hc hc' h2 hi hj]

omit ha hb ha' hb' in
theorem Twin.divergence (h0 : Copy M M' a b a' b' k (.state 0) (.state 0) x x')
    (h1 : Copy M M' a b a' b' k (.state 1) (.state 1) x x') {i j : Nat} (hi : i < M.G.S.order) (hj : j < M.G.S.order) :
    Horiz.divergence M' x' a' b' k i j = Horiz.divergence M x a b k i j := by
  unfold Horiz.divergence
  rw [h.jac i j hi hj, h.derivA fun s hs => ?_, h.derivB fun s hs => ?_]
  · rw [h.jac i s hi hs, h.conUb h0 h1 hi hs]
  · rw [h.jac s j hs hj, h.conUa h0 h1 hs hj]

omit ha hb ha' hb' in
theorem Twin.vorticity (h0 : Copy M M' a b a' b' k (.state 0) (.state 0) x x')
    (h1 : Copy M M' a b a' b' k (.state 1) (.state 1) x x') {i j : Nat} (hi : i < M.G.S.order) (hj : j < M.G.S.order) :
    Horiz.vorticity M' x' a' b' k i j = Horiz.vorticity M x a b k i j := by
  unfold Horiz.vorticity
  rw [h.jac i j hi hj, h.derivA (f := Horiz.read M.G x a b k 1) fun s hs => h1 s j hs hj,
    h.derivB (f := Horiz.read M.G x a b k 0) fun s hs => h0 i s hi hs]

omit ha hb ha' hb' in
theorem Twin.localNu (nu : ℝ) (scale : Bool) : M'.localNu nu scale = M.localNu nu scale := by
  unfold Medium.localNu
  rw [h.refLength, h.deltaA]

theorem Twin.vector (hk : k < M.G.S.levels) (xz : Bool) (dt nuDiv nuVort : ℝ) (scale : Bool)
    (h0 : Copy M M' a b a' b' k (.state 0) (.state 0) x x') (h1 : Copy M M' a b a' b' k (.state 1) (.state 1) x x')
    (c : Nat) (hu : Copy M M' a b a' b' k (.state c) (.state c) u u') :
    Copy M M' a b a' b' k (.state c) (.state c) (applyVector M xz x dt nuDiv nuVort scale u)
      (applyVector M' xz x' dt nuDiv nuVort scale u') := fun i j hi hj => by
  by_cases hc : c = 0 ∨ c = 1
  · refine copy_value (fun i j hi hj => ?_) i j hi hj
    have hv : Var.state c = .state 0 ∨ Var.state c = .state 1 := by
      rcases hc with rfl | rfl <;> simp
    rw [vector_value M xz x dt nuDiv nuVort scale u _ hv a b k i j ha hb hk hi hj,
      vector_value M' xz x' dt nuDiv nuVort scale u' _ hv a' b' k i j ha' hb' (by rw [h.levels]; exact hk)
        (by rw [h.order]; exact hi) (by rw [h.order]; exact hj)]
    have va : vectorUa M' x' a' b' k (M'.localNu nuDiv scale) (M'.localNu nuVort scale) i j =
        vectorUa M x a b k (M.localNu nuDiv scale) (M.localNu nuVort scale) i j := by
      unfold vectorUa
      rw [h.localNu, h.localNu, h.jac i j hi hj, h.metB i j 0 hi hj (by omega), h.metB i j 1 hi hj (by omega),
        h.weakA (f := Horiz.divergence M x a b k) fun s hs => h.divergence h0 h1 hs hj,
        h.weakA (f := Horiz.vorticity M x a b k) fun s hs => h.vorticity h0 h1 hs hj,
        h.weakB (f := Horiz.vorticity M x a b k) fun s hs => h.vorticity h0 h1 hi hs]
    have vb : vectorUb M' x' a' b' k (M'.localNu nuDiv scale) (M'.localNu nuVort scale) i j =
        vectorUb M x a b k (M.localNu nuDiv scale) (M.localNu nuVort scale) i j := by
      unfold vectorUb
      rw [h.localNu, h.localNu, h.jac i j hi hj, h.metA i j 0 hi hj (by omega), h.metA i j 1 hi hj (by omega),
        h.weakB (f := Horiz.divergence M x a b k) fun s hs => h.divergence h0 h1 hi hs,
        h.weakA (f := Horiz.vorticity M x a b k) fun s hs => h.vorticity h0 h1 hs hj,
        h.weakB (f := Horiz.vorticity M x a b k) fun s hs => h.vorticity h0 h1 hi hs]
    have hu' := hu i j hi hj
    rcases hc with rfl | rfl
    · cases xz <;> simp [vectorPoint, put, va, hu']
    · cases xz <;> simp [vectorPoint, put, vb, hu']
  · have hv : ∀ (w : Data) (N : Medium) (p q : Nat), (⟨.state c, p, q, k⟩ : Cell).v ≠ .state 0 ∧
        (⟨.state c, p, q, k⟩ : Cell).v ≠ .state 1 := fun _ _ _ _ => by
      simpa using hc
    rw [vector_out _ _ _ _ _ _ _ _ _ (hv u M _ _), vector_out _ _ _ _ _ _ _ _ _ (hv u M _ _)]
    exact hu i j hi hj

omit h ha hb ha' hb' in
theorem Twin.vectorTracer (xz : Bool) (dt nuDiv nuVort : ℝ) (scale : Bool) (c c' : Nat)
    (hu : Copy M M' a b a' b' k (.tracer c) (.tracer c') u u') :
    Copy M M' a b a' b' k (.tracer c) (.tracer c') (applyVector M xz x dt nuDiv nuVort scale u)
      (applyVector M' xz x' dt nuDiv nuVort scale u') := fun i j hi hj => by
  rw [vector_out _ _ _ _ _ _ _ _ _ (by simp), vector_out _ _ _ _ _ _ _ _ _ (by simp)]
  exact hu i j hi hj

/-- The filter does the same to a tracer. -/
theorem Twin.filter (hk : k < M.G.S.levels) (area area' : Nat → Nat → Nat → ℝ)
    (hr : ∀ s t, s < M.G.S.order → t < M.G.S.order →
      area' (M'.G.S.at a' s) (M'.G.S.at b' t) k = area (M.G.S.at a s) (M.G.S.at b t) k) {c c' : Nat}
    (hc : c < M.G.S.tracers) (hc' : c' < M'.G.S.tracers)
    (hu : Copy M M' a b a' b' k (.tracer c) (.tracer c') u u') :
    Copy M M' a b a' b' k (.tracer c) (.tracer c') (filterTracers M.G.S area u)
      (filterTracers M'.G.S area' u') := fun i j hi hj => by
  rw [(filterTracers_pass M.G.S area u).2 a b c k ha hb hc hk _ ⟨i, hi, j, hj, rfl, rfl, rfl, rfl⟩,
    (filterTracers_pass M'.G.S area' u').2 a' b' c' k ha' hb' hc' (by rw [h.levels]; exact hk) _
      ⟨i, by rw [h.order]; exact hi, j, by rw [h.order]; exact hj, rfl, rfl, rfl, rfl⟩,
    filterElement_at M.G.S area c a b k i j hi hj, filterElement_at M'.G.S area' c' a' b' k i j
      (by rw [h.order]; exact hi) (by rw [h.order]; exact hj), hu i j hi hj]
  have t : totalMass M'.G.S area' u' c' a' b' k = totalMass M.G.S area u c a b k := by
    unfold totalMass
    rw [h.order]
    refine loop_congr _ _ _ _ fun s hs y => loop_congr _ _ _ _ fun t ht z => ?_
    rw [hu s t hs ht, hr s t hs ht]
  have n : nonNegativeMass M'.G.S area' u' c' a' b' k = nonNegativeMass M.G.S area u c a b k := by
    unfold nonNegativeMass
    rw [h.order]
    refine loop_congr _ _ _ _ fun s hs y => loop_congr _ _ _ _ fun t ht z => ?_
    rw [hu s t hs ht, hr s t hs ht]
  rw [t, n]

omit h ha hb ha' hb' in
theorem filter_cell (S : Shape) (area : Nat → Nat → Nat → ℝ) (u : Data) (c iA iB k : Nat) :
    filterTracers S area u ⟨.state c, iA, iB, k⟩ = u ⟨.state c, iA, iB, k⟩ := by
  refine (filterTracers_pass S area u).1 _ ?_
  rintro a b - - ⟨c', -, k', -, i, -, j, -, h, -⟩
  cases h

/-- Scalar diffusion does the same to a variable. -/
theorem Twin.diffuse {v v' : Var} (n : Nat) (hk : k < n)
    (hJ : ∀ s t, s < M.G.S.order → t < M.G.S.order →
      M'.jacOf v' (M'.G.S.at a' s) (M'.G.S.at b' t) k = M.jacOf v (M.G.S.at a s) (M.G.S.at b t) k) (dt nu : ℝ)
    (hx : Copy M M' a b a' b' k v v' x x') (hu : Copy M M' a b a' b' k v v' u u') :
    Copy M M' a b a' b' k v v' (diffuseVar M x false dt nu n v u) (diffuseVar M' x' false dt nu n v' u') :=
  copy_value fun i j hi hj => by
  rw [diffuseVar_value M x false dt nu n v u a b k i j ha hb hk hi hj,
    diffuseVar_value M' x' false dt nu n v' u' a' b' k i j ha' hb' hk (by rw [h.order]; exact hi)
      (by rw [h.order]; exact hj), value_at, value_at, hu i j hi hj, hJ i j hi hj]
  have bf : ∀ s t, s < M.G.S.order → t < M.G.S.order →
      buffer M' x' false v' a' b' k s t = buffer M x false v a b k s t := fun s t hs ht => by
    simp only [buffer, Bool.false_eq_true, if_false]
    exact hx s t hs ht
  rw [h.weakA (f := gradientA M v a b k (buffer M x false v a b k)) fun s hs => ?_,
    h.weakB (f := gradientB M v a b k (buffer M x false v a b k)) fun s hs => ?_]
  · unfold gradientB
    rw [hJ i s hi hs, h.metB i s 0 hi hs (by omega), h.metB i s 1 hi hs (by omega),
      h.derivA (f := buffer M x false v a b k) fun r hr => bf r s hr hs,
      h.derivB (f := buffer M x false v a b k) fun r hr => bf i r hi hr]
  · unfold gradientA
    rw [hJ s j hs hj, h.metA s j 0 hs hj (by omega), h.metA s j 1 hs hj (by omega),
      h.derivA (f := buffer M x false v a b k) fun r hr => bf r j hr hj,
      h.derivB (f := buffer M x false v a b k) fun r hr => bf s r hs hr]

end

end Verif.Horiz
