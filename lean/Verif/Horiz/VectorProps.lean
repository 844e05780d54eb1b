import Verif.Horiz.Vector
import Verif.Horiz.DiffusionProps
import Verif.Horiz.DiffusionSamples

/-!
# C76: vector viscosity
-/

namespace Verif.Horiz

/-! ### Vocabulary -/

/-- A horizontal velocity on an element, by its covariant components at the nodes. -/
structure Flow where
  alpha : Nat → Nat → ℝ
  beta : Nat → Nat → ℝ

/-- The velocity of a state on an element. -/
noncomputable def flowOf (S : Shape) (u : Data) (a b k : Nat) : Flow :=
  ⟨value S u (.state 0) a b k, value S u (.state 1) a b k⟩

section

variable (M : Medium) (ω : Nat → ℝ) (a b : Nat)

/-- First contravariant component. -/
noncomputable def Flow.upA (f : Flow) (i j : Nat) : ℝ :=
  M.G.metA (M.G.S.halo + a * M.G.S.order + i) (M.G.S.halo + b * M.G.S.order + j) 0 * f.alpha i j +
    M.G.metA (M.G.S.halo + a * M.G.S.order + i) (M.G.S.halo + b * M.G.S.order + j) 1 * f.beta i j

/-- Second contravariant component. -/
noncomputable def Flow.upB (f : Flow) (i j : Nat) : ℝ :=
  M.G.metB (M.G.S.halo + a * M.G.S.order + i) (M.G.S.halo + b * M.G.S.order + j) 0 * f.alpha i j +
    M.G.metB (M.G.S.halo + a * M.G.S.order + i) (M.G.S.halo + b * M.G.S.order + j) 1 * f.beta i j

/-- The Jacobian of the horizontal coordinates at a node. -/
noncomputable def jacAt (i j : Nat) : ℝ :=
  M.G.jac (M.G.S.halo + a * M.G.S.order + i) (M.G.S.halo + b * M.G.S.order + j)

/-- The divergence of a flow at a node. -/
noncomputable def Flow.div (f : Flow) (i j : Nat) : ℝ :=
  (slopeA M (fun i j => jacAt M a b i j * f.upA M a b i j) i j +
    slopeB M (fun i j => jacAt M a b i j * f.upB M a b i j) i j) / jacAt M a b i j

/-- The vorticity of a flow at a node. -/
noncomputable def Flow.curl (f : Flow) (i j : Nat) : ℝ :=
  (slopeA M f.beta i j - slopeB M f.alpha i j) / jacAt M a b i j

/-- The weighted sum of a field over the nodes of an element. -/
noncomputable def areaSum (f : Nat → Nat → ℝ) : ℝ :=
  ∑ i ∈ Finset.range M.G.S.order, ∑ j ∈ Finset.range M.G.S.order, ω i * ω j * jacAt M a b i j * f i j

/-- The product of two flows, summed over an element. -/
noncomputable def flowDot (f g : Flow) : ℝ :=
  areaSum M ω a b (fun i j => f.upA M a b i j * g.alpha i j + f.upB M a b i j * g.beta i j)

/-- The metric belongs to the Jacobian: its determinant is the inverse square of the Jacobian, which does not vanish. -/
def Metric : Prop := ∀ i j, i < M.G.S.order → j < M.G.S.order → jacAt M a b i j ≠ 0 ∧
  (M.G.metA (M.G.S.halo + a * M.G.S.order + i) (M.G.S.halo + b * M.G.S.order + j) 0 *
    M.G.metB (M.G.S.halo + a * M.G.S.order + i) (M.G.S.halo + b * M.G.S.order + j) 1 -
    M.G.metA (M.G.S.halo + a * M.G.S.order + i) (M.G.S.halo + b * M.G.S.order + j) 1 *
      M.G.metB (M.G.S.halo + a * M.G.S.order + i) (M.G.S.halo + b * M.G.S.order + j) 0) * jacAt M a b i j ^ 2 = 1

end

/-- What a call does to the velocity of an element. -/
noncomputable def flowChange (S : Shape) (r u : Data) (a b k : Nat) : Flow :=
  ⟨change S r u (.state 0) a b k, change S r u (.state 1) a b k⟩

/-! ### Lemmas -/

theorem vectorPoint_touches (M : Medium) (init : Data) (a b k : Nat) (xz : Bool) (dt nd nv : ℝ) (i j : Nat) :
    Touches (vectorPoint M init a b k xz dt nd nv i j)
      (Node (fun v => v = .state 0 ∨ v = .state 1) (M.G.S.at a i) (M.G.S.at b j) k) := by
  constructor
  · intro u x hx
    have h0 : x ≠ ⟨.state 0, M.G.S.at a i, M.G.S.at b j, k⟩ := by rintro rfl; exact hx ⟨Or.inl rfl, rfl, rfl, rfl⟩
    have h1 : x ≠ ⟨.state 1, M.G.S.at a i, M.G.S.at b j, k⟩ := by rintro rfl; exact hx ⟨Or.inr rfl, rfl, rfl, rfl⟩
    cases xz <;> simp [vectorPoint, put, h0, h1]
  · intro u u' he x hx
    have := he x hx
    by_cases h0 : x = ⟨.state 0, M.G.S.at a i, M.G.S.at b j, k⟩
    · subst h0
      cases xz <;> simp [vectorPoint, put, this]
    · by_cases h1 : x = ⟨.state 1, M.G.S.at a i, M.G.S.at b j, k⟩
      · subst h1
        cases xz <;> simp [vectorPoint, put, this]
      · cases xz <;> simp [vectorPoint, put, h0, h1, this]

section

variable (M : Medium) (xz : Bool) (init : Data) (dt nuDiv nuVort : ℝ) (scale : Bool) (u : Data)

theorem vector_out (x : Cell) (h : x.v ≠ .state 0 ∧ x.v ≠ .state 1) :
    applyVector M xz init dt nuDiv nuVort scale u x = u x := by
  refine (elems_touch (fun v => v = .state 0 ∨ v = .state 1) M.G.S M.G.S.levels (fun a b k u =>
    loop M.G.S.order (fun i u => loop M.G.S.order (fun j u => vectorPoint M init a b k xz dt (M.localNu nuDiv scale)
      (M.localNu nuVort scale) i j u) u) u)
    (fun a b k _ _ _ => nodes_touch _ M.G.S a b k _ (fun i j _ _ =>
      vectorPoint_touches M init a b k xz dt _ _ i j))).1.out u x ?_
  rintro ⟨a, -, b, -, k, -, i, -, j, -, h1, -⟩
  rcases h1 with h1 | h1
  · exact h.1 h1
  · exact h.2 h1

theorem vector_value (v : Var) (hv : v = .state 0 ∨ v = .state 1) (a b k i j : Nat) (ha : a < M.G.S.elemA)
    (hb : b < M.G.S.elemB) (hk : k < M.G.S.levels) (hi : i < M.G.S.order) (hj : j < M.G.S.order) :
    value M.G.S (applyVector M xz init dt nuDiv nuVort scale u) v a b k i j =
      vectorPoint M init a b k xz dt (M.localNu nuDiv scale) (M.localNu nuVort scale) i j u
        ⟨v, M.G.S.at a i, M.G.S.at b j, k⟩ := by
  rw [value_at]
  have h1 := (elems_touch (fun v => v = .state 0 ∨ v = .state 1) M.G.S M.G.S.levels (fun a b k u =>
    loop M.G.S.order (fun i u => loop M.G.S.order (fun j u => vectorPoint M init a b k xz dt (M.localNu nuDiv scale)
      (M.localNu nuVort scale) i j u) u) u)
    (fun a b k _ _ _ => nodes_touch _ M.G.S a b k _ (fun i j _ _ =>
      vectorPoint_touches M init a b k xz dt _ _ i j))).2 u a b k
    ha hb hk ⟨v, M.G.S.at a i, M.G.S.at b j, k⟩ ⟨i, hi, j, hj, hv, rfl, rfl, rfl⟩
  have h2 := nodes_at (fun v => v = .state 0 ∨ v = .state 1) M.G.S a b k _
    (fun i j _ _ => vectorPoint_touches M init a b k xz dt (M.localNu nuDiv scale) (M.localNu nuVort scale) i j)
    u i j hi hj ⟨v, M.G.S.at a i, M.G.S.at b j, k⟩ ⟨hv, rfl, rfl, rfl⟩
  unfold applyVector
  rw [h1, h2]

theorem vector_change (a b k i j : Nat) (ha : a < M.G.S.elemA) (hb : b < M.G.S.elemB) (hk : k < M.G.S.levels)
    (hi : i < M.G.S.order) (hj : j < M.G.S.order) :
    (flowChange M.G.S (applyVector M xz init dt nuDiv nuVort scale u) u a b k).alpha i j =
      -dt * vectorUa M init a b k (M.localNu nuDiv scale) (M.localNu nuVort scale) i j ∧
    (flowChange M.G.S (applyVector M xz init dt nuDiv nuVort scale u) u a b k).beta i j =
      if xz then 0 else -dt * vectorUb M init a b k (M.localNu nuDiv scale) (M.localNu nuVort scale) i j := by
  simp only [flowChange, change]
  rw [vector_value M xz init dt nuDiv nuVort scale u _ (Or.inl rfl) a b k i j ha hb hk hi hj,
    vector_value M xz init dt nuDiv nuVort scale u _ (Or.inr rfl) a b k i j ha hb hk hi hj, value_at, value_at]
  cases xz <;> simp [vectorPoint, put]

end

theorem jacAt_at (M : Medium) (a b i j : Nat) : jacAt M a b i j = M.G.jac (M.G.S.at a i) (M.G.S.at b j) :=
  area_at' M.G.S (fun x y _ => M.G.jac x y) a b 0 i j

theorem areaSum_quad (M : Medium) (ω : Nat → ℝ) (a b : Nat) (f : Nat → Nat → ℝ) :
    areaSum M ω a b f = quad M.G.S.order ω (fun i j => jacAt M a b i j * f i j) := by
  unfold areaSum quad
  refine Finset.sum_congr rfl (fun i _ => Finset.sum_congr rfl (fun j _ => by ring))

theorem upA_con (M : Medium) (u : Data) (a b k i j : Nat) :
    (flowOf M.G.S u a b k).upA M a b i j = conUa M.G u a b k i j := by
  unfold Flow.upA conUa flowOf read
  rw [area_at' M.G.S (fun x y _ => M.G.metA x y 0) a b 0 i j, area_at' M.G.S (fun x y _ => M.G.metA x y 1) a b 0 i j]
  simp only [value_at]

theorem upB_con (M : Medium) (u : Data) (a b k i j : Nat) :
    (flowOf M.G.S u a b k).upB M a b i j = conUb M.G u a b k i j := by
  unfold Flow.upB conUb flowOf read
  rw [area_at' M.G.S (fun x y _ => M.G.metB x y 0) a b 0 i j, area_at' M.G.S (fun x y _ => M.G.metB x y 1) a b 0 i j]
  simp only [value_at]

theorem div_eq (M : Medium) (u : Data) (a b k : Nat) :
    (flowOf M.G.S u a b k).div M a b = divergence M u a b k := by
  funext i j
  unfold Flow.div divergence
  rw [slopeA_deriv, slopeB_deriv, jacAt_at, div_eq_mul_one_div]
  congr 2 <;> (congr 1; funext i j; rw [jacAt_at]; first | rw [upA_con] | rw [upB_con])

theorem curl_eq (M : Medium) (u : Data) (a b k : Nat) :
    (flowOf M.G.S u a b k).curl M a b = vorticity M u a b k := by
  funext i j
  unfold Flow.curl vorticity
  rw [slopeA_deriv, slopeB_deriv, jacAt_at, div_eq_mul_one_div]
  congr 2 <;> (congr 1; funext i j; simp only [flowOf, read, value_at])

/-- The increments of the code, tested with any flow. -/
theorem vector_tested (M : Medium) (ω : Nat → ℝ) (h : Paired M.G.S.order M.B ω) (init : Data) (a b k : Nat)
    (hm : Metric M a b) (nd nv : ℝ) (t : Flow) :
    quad M.G.S.order ω (fun i j => jacAt M a b i j * (t.upA M a b i j * vectorUa M init a b k nd nv i j +
      t.upB M a b i j * vectorUb M init a b k nd nv i j)) =
      -(nd * areaSum M ω a b (fun i j => divergence M init a b k i j * t.div M a b i j) +
        nv * areaSum M ω a b (fun i j => vorticity M init a b k i j * t.curl M a b i j)) := by
  have e1 : quad M.G.S.order ω (fun i j => jacAt M a b i j * (t.upA M a b i j * vectorUa M init a b k nd nv i j +
      t.upB M a b i j * vectorUb M init a b k nd nv i j)) =
      nd * (quad M.G.S.order ω (fun i j => (jacAt M a b i j * t.upA M a b i j) *
          weakA M.G M.B (divergence M init a b k) i j) +
        quad M.G.S.order ω (fun i j => (jacAt M a b i j * t.upB M a b i j) *
          weakB M.G M.B (divergence M init a b k) i j)) +
      nv * (quad M.G.S.order ω (fun i j => t.beta i j * weakA M.G M.B (vorticity M init a b k) i j) +
        -quad M.G.S.order ω (fun i j => t.alpha i j * weakB M.G M.B (vorticity M init a b k) i j)) := by
    rw [← quad_neg, ← quad_add, ← quad_add, ← quad_mul, ← quad_mul, ← quad_add]
    refine quad_congr _ _ _ _ (fun i j hi hj => ?_)
    obtain ⟨h0, h1⟩ := hm i j hi hj
    unfold vectorUa vectorUb Flow.upA Flow.upB
    rw [area_at' M.G.S (fun x y _ => M.G.metA x y 0) a b 0 i j, area_at' M.G.S (fun x y _ => M.G.metA x y 1) a b 0 i j,
      area_at' M.G.S (fun x y _ => M.G.metB x y 0) a b 0 i j, area_at' M.G.S (fun x y _ => M.G.metB x y 1) a b 0 i j,
      ← jacAt_at]
    rw [area_at' M.G.S (fun x y _ => M.G.metA x y 0) a b 0 i j, area_at' M.G.S (fun x y _ => M.G.metA x y 1) a b 0 i j,
      area_at' M.G.S (fun x y _ => M.G.metB x y 0) a b 0 i j, area_at' M.G.S (fun x y _ => M.G.metB x y 1) a b 0 i j]
      at h1
    linear_combination (nv * (t.beta i j * weakA M.G M.B (vorticity M init a b k) i j -
      t.alpha i j * weakB M.G M.B (vorticity M init a b k) i j)) * h1
  rw [e1, parts_A M.G M.B ω h, parts_B M.G M.B ω h, parts_A M.G M.B ω h, parts_B M.G M.B ω h, areaSum_quad,
    areaSum_quad]
  have e2 : quad M.G.S.order ω (fun i j => jacAt M a b i j * (divergence M init a b k i j * t.div M a b i j)) =
      quad M.G.S.order ω (fun i j => divergence M init a b k i j *
        derivA M.G M.B (fun i j => jacAt M a b i j * t.upA M a b i j) i j) +
      quad M.G.S.order ω (fun i j => divergence M init a b k i j *
        derivB M.G M.B (fun i j => jacAt M a b i j * t.upB M a b i j) i j) := by
    rw [← quad_add]
    refine quad_congr _ _ _ _ (fun i j hi hj => ?_)
    have := (hm i j hi hj).1
    rw [Flow.div, slopeA_deriv, slopeB_deriv]
    field_simp
  have e3 : quad M.G.S.order ω (fun i j => jacAt M a b i j * (vorticity M init a b k i j * t.curl M a b i j)) =
      quad M.G.S.order ω (fun i j => vorticity M init a b k i j * derivA M.G M.B t.beta i j) +
      -quad M.G.S.order ω (fun i j => vorticity M init a b k i j * derivB M.G M.B t.alpha i j) := by
    rw [← quad_neg, ← quad_add]
    refine quad_congr _ _ _ _ (fun i j hi hj => ?_)
    have := (hm i j hi hj).1
    rw [Flow.curl, slopeA_deriv, slopeB_deriv]
    field_simp
    ring
  rw [e2, e3]
  ring

/-! ### Properties -/

section

variable (M : Medium) (ω : Nat → ℝ) (h : Paired M.G.S.order M.B ω) (init : Data) (dt nuDiv nuVort : ℝ) (scale : Bool)
  (u : Data) (a b k : Nat) (ha : a < M.G.S.elemA) (hb : b < M.G.S.elemB) (hk : k < M.G.S.levels) (hm : Metric M a b)

include h ha hb hk hm

/-- **C76 (weak form).**  What a call adds to the velocity, tested with any flow and summed over an element, is time step
times divergence viscosity times the product of the divergences plus time step times vorticity viscosity times the
product of the vorticities.  (The sign is that of the code: callers that want to damp pass a negative time step.) -/
theorem C76_weak (t : Flow) :
    flowDot M ω a b t (flowChange M.G.S (applyVector M false init dt nuDiv nuVort scale u) u a b k) =
      dt * M.localNu nuDiv scale *
        areaSum M ω a b (fun i j => (flowOf M.G.S init a b k).div M a b i j * t.div M a b i j) +
      dt * M.localNu nuVort scale *
        areaSum M ω a b (fun i j => (flowOf M.G.S init a b k).curl M a b i j * t.curl M a b i j) := by
  have key := vector_tested M ω h init a b k hm (M.localNu nuDiv scale) (M.localNu nuVort scale) t
  rw [div_eq, curl_eq, flowDot, areaSum_quad]
  have e : quad M.G.S.order ω (fun i j => jacAt M a b i j * (t.upA M a b i j *
      (flowChange M.G.S (applyVector M false init dt nuDiv nuVort scale u) u a b k).alpha i j + t.upB M a b i j *
      (flowChange M.G.S (applyVector M false init dt nuDiv nuVort scale u) u a b k).beta i j)) =
      -dt * quad M.G.S.order ω (fun i j => jacAt M a b i j * (t.upA M a b i j * vectorUa M init a b k
        (M.localNu nuDiv scale) (M.localNu nuVort scale) i j +
      t.upB M a b i j * vectorUb M init a b k (M.localNu nuDiv scale) (M.localNu nuVort scale) i j)) := by
    rw [← quad_mul]
    refine quad_congr _ _ _ _ (fun i j hi hj => ?_)
    obtain ⟨c1, c2⟩ := vector_change M false init dt nuDiv nuVort scale u a b k i j ha hb hk hi hj
    rw [c1, c2]
    simp
    ring
  rw [e, key]
  ring

/-- **C76 (energy).**  Tested with the flow itself: with the negative time step callers pass, kinetic energy is lost at
the rate of the squared divergence and vorticity, each times its viscosity. -/
theorem C76_dissipates (hω : ∀ i j, i < M.G.S.order → j < M.G.S.order → 0 ≤ ω i * ω j * jacAt M a b i j)
    (hdt : dt ≤ 0) (hd : 0 ≤ nuDiv) (hv : 0 ≤ nuVort) (hdA : 0 ≤ M.G.deltaA) (hL : 0 ≤ M.refLength) :
    flowDot M ω a b (flowOf M.G.S init a b k)
      (flowChange M.G.S (applyVector M false init dt nuDiv nuVort scale u) u a b k) ≤ 0 := by
  rw [C76_weak M ω h init dt nuDiv nuVort scale u a b k ha hb hk hm]
  have l : ∀ nu : ℝ, 0 ≤ nu → 0 ≤ M.localNu nu scale := by
    intro nu hnu
    unfold Medium.localNu
    split
    · split
      · exact mul_nonneg hnu (Real.rpow_nonneg (div_nonneg hdA hL) _)
      · exact hnu
    · exact hnu
  have p : ∀ f : Nat → Nat → ℝ, 0 ≤ areaSum M ω a b (fun i j => f i j * f i j) := by
    intro f
    refine Finset.sum_nonneg (fun i hi => Finset.sum_nonneg (fun j hj => ?_))
    exact mul_nonneg (hω i j (Finset.mem_range.1 hi) (Finset.mem_range.1 hj)) (mul_self_nonneg _)
  have h1 := mul_nonneg (mul_nonneg (neg_nonneg.2 hdt) (l nuDiv hd)) (p ((flowOf M.G.S init a b k).div M a b))
  have h2 := mul_nonneg (mul_nonneg (neg_nonneg.2 hdt) (l nuVort hv)) (p ((flowOf M.G.S init a b k).curl M a b))
  linarith

/-- **C76 (separate coefficients).**  Vorticity viscosity alone adds nothing that any gradient sees, and divergence
viscosity alone nothing that any flow without divergence sees. -/
theorem C76_separate (t : Flow) :
    (nuDiv = 0 → (∀ i j, i < M.G.S.order → j < M.G.S.order → t.curl M a b i j = 0) →
      flowDot M ω a b t (flowChange M.G.S (applyVector M false init dt nuDiv nuVort false u) u a b k) = 0) ∧
    (nuVort = 0 → (∀ i j, i < M.G.S.order → j < M.G.S.order → t.div M a b i j = 0) →
      flowDot M ω a b t (flowChange M.G.S (applyVector M false init dt nuDiv nuVort false u) u a b k) = 0) := by
  rw [C76_weak M ω h init dt nuDiv nuVort false u a b k ha hb hk hm]
  have z : ∀ f g : Nat → Nat → ℝ, (∀ i j, i < M.G.S.order → j < M.G.S.order → g i j = 0) →
      areaSum M ω a b (fun i j => f i j * g i j) = 0 := by
    intro f g hg
    refine Finset.sum_eq_zero (fun i hi => Finset.sum_eq_zero (fun j hj => ?_))
    simp only [hg i j (Finset.mem_range.1 hi) (Finset.mem_range.1 hj), mul_zero]
  constructor
  · intro hn ht
    rw [z _ _ ht, hn]
    simp [Medium.localNu]
  · intro hn ht
    rw [z _ _ ht, hn]
    simp [Medium.localNu]

end

/-- **C76 (gradients).**  The flow that is the gradient of a field has no vorticity, exactly, at every node. -/
theorem C76_gradient (M : Medium) (a b : Nat) (φ : Nat → Nat → ℝ) (i j : Nat) :
    (Flow.mk (slopeA M φ) (slopeB M φ)).curl M a b i j = 0 := by
  have e : slopeA M (slopeB M φ) i j = slopeB M (slopeA M φ) i j := by
    unfold slopeA slopeB
    simp only [div_eq_mul_inv, Finset.sum_mul]
    rw [Finset.sum_comm]
    refine Finset.sum_congr rfl (fun s _ => Finset.sum_congr rfl (fun s' _ => ?_))
    ring
  rw [Flow.curl, e, sub_self, zero_div]

/-- **C76 (uniform flow).**  On an element where Jacobian and metric do not vary, a uniform flow is left as it is. -/
theorem C76_uniform (M : Medium) (ω : Nat → ℝ) (h : Paired M.G.S.order M.B ω) (xz : Bool) (init : Data)
    (dt nuDiv nuVort : ℝ) (scale : Bool) (u : Data) (a b k : Nat) (ha : a < M.G.S.elemA) (hb : b < M.G.S.elemB)
    (hk : k < M.G.S.levels) (J p q : ℝ) (hJ : ∀ i j, i < M.G.S.order → j < M.G.S.order → jacAt M a b i j = J)
    (hp : ∀ i j, i < M.G.S.order → j < M.G.S.order → (flowOf M.G.S init a b k).upA M a b i j = p)
    (hq : ∀ i j, i < M.G.S.order → j < M.G.S.order → (flowOf M.G.S init a b k).upB M a b i j = q) (U V : ℝ)
    (hU : ∀ i j, i < M.G.S.order → j < M.G.S.order → value M.G.S init (.state 0) a b k i j = U)
    (hV : ∀ i j, i < M.G.S.order → j < M.G.S.order → value M.G.S init (.state 1) a b k i j = V) (i j : Nat)
    (hi : i < M.G.S.order) (hj : j < M.G.S.order) :
    value M.G.S (applyVector M xz init dt nuDiv nuVort scale u) (.state 0) a b k i j =
      value M.G.S u (.state 0) a b k i j ∧
    value M.G.S (applyVector M xz init dt nuDiv nuVort scale u) (.state 1) a b k i j =
      value M.G.S u (.state 1) a b k i j := by
  obtain ⟨c1, c2⟩ := vector_change M xz init dt nuDiv nuVort scale u a b k i j ha hb hk hi hj
  have d : ∀ i j, i < M.G.S.order → j < M.G.S.order → divergence M init a b k i j = 0 := by
    intro i j hi hj
    rw [← div_eq, Flow.div, slopeA_deriv, slopeB_deriv,
      derivA_const M.G M.B ω h _ (J * p) i j hi (fun s hs => by rw [hJ s j hs hj, hp s j hs hj]),
      derivB_const M.G M.B ω h _ (J * q) i j hj (fun s hs => by rw [hJ i s hi hs, hq i s hi hs])]
    simp
  have c : ∀ i j, i < M.G.S.order → j < M.G.S.order → vorticity M init a b k i j = 0 := by
    intro i j hi hj
    rw [← curl_eq, Flow.curl, slopeA_deriv, slopeB_deriv]
    simp only [flowOf]
    rw [derivA_const M.G M.B ω h _ V i j hi (fun s hs => hV s j hs hj),
      derivB_const M.G M.B ω h _ U i j hj (fun s hs => hU i s hi hs)]
    simp
  have wA : ∀ f : Nat → Nat → ℝ, (∀ i j, i < M.G.S.order → j < M.G.S.order → f i j = 0) → weakA M.G M.B f i j = 0 := by
    intro f hf
    rw [weakA_sum, Finset.sum_eq_zero (fun s hs => by rw [hf s j (Finset.mem_range.1 hs) hj, zero_mul])]; ring
  have wB : ∀ f : Nat → Nat → ℝ, (∀ i j, i < M.G.S.order → j < M.G.S.order → f i j = 0) → weakB M.G M.B f i j = 0 := by
    intro f hf
    rw [weakB_sum, Finset.sum_eq_zero (fun s hs => by rw [hf i s hi (Finset.mem_range.1 hs), zero_mul])]; ring
  rw [vectorUa, wA _ d, wA _ c, wB _ c] at c1
  rw [vectorUb, wB _ d, wA _ c, wB _ c] at c2
  simp only [flowChange, change] at c1 c2
  constructor
  · linarith
  · cases xz <;> simp at c2 <;> linarith

/-- **C76 (what is left alone).**  Only the two horizontal velocities change; in a vertical slice only the first. -/
theorem C76_untouched (M : Medium) (xz : Bool) (init : Data) (dt nuDiv nuVort : ℝ) (scale : Bool) (u : Data) (x : Cell)
    (hx : x.v ≠ .state 0 ∧ x.v ≠ .state 1) : applyVector M xz init dt nuDiv nuVort scale u x = u x :=
  vector_out M xz init dt nuDiv nuVort scale u x hx

theorem C76_slice (M : Medium) (init : Data) (dt nuDiv nuVort : ℝ) (scale : Bool) (u : Data) (a b k i j : Nat)
    (ha : a < M.G.S.elemA) (hb : b < M.G.S.elemB) (hk : k < M.G.S.levels) (hi : i < M.G.S.order)
    (hj : j < M.G.S.order) : value M.G.S (applyVector M true init dt nuDiv nuVort scale u) (.state 1) a b k i j =
      value M.G.S u (.state 1) a b k i j ∧
    value M.G.S (applyVector M true init dt nuDiv nuVort scale u) (.state 0) a b k i j =
      value M.G.S (applyVector M false init dt nuDiv nuVort scale u) (.state 0) a b k i j := by
  obtain ⟨c1, c2⟩ := vector_change M true init dt nuDiv nuVort scale u a b k i j ha hb hk hi hj
  obtain ⟨d1, -⟩ := vector_change M false init dt nuDiv nuVort scale u a b k i j ha hb hk hi hj
  simp only [flowChange, change, if_true] at c1 c2 d1
  exact ⟨by linarith, by linarith⟩

/-! ### A case that meets the hypotheses -/

theorem sample_metric : Metric sampleMedium 1 0 := by
  intro i j _ _
  norm_num [jacAt, sampleMedium, sampleGeometry]

example : flowDot sampleMedium simpsonWeights 1 0 (flowOf sampleGeometry.S sampleState 1 0 0)
    (flowChange sampleGeometry.S (applyVector sampleMedium false sampleState (-1 / 10) 3 2 true sampleState) sampleState
      1 0 0) ≤ 0 := by
  refine C76_dissipates sampleMedium simpsonWeights sample_paired _ _ _ _ _ _ 1 0 0 (by decide) (by decide) (by decide)
    sample_metric ?_ (by norm_num) (by norm_num) (by norm_num) (by norm_num [sampleMedium, sampleGeometry])
    (by norm_num [sampleMedium])
  intro i j _ _
  have w : ∀ i, (0 : ℝ) ≤ simpsonWeights i := fun i => by unfold simpsonWeights; split <;> norm_num
  exact mul_nonneg (mul_nonneg (w i) (w j)) zero_le_one

end Verif.Horiz
