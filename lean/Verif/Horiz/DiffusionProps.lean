import Verif.Horiz.DiffusionSpec
import Verif.Horiz.ShallowProps

/-!
# C75: scalar viscosity
-/

namespace Verif.Horiz

theorem slopeA_deriv (M : Medium) (f : Nat → Nat → ℝ) (i j : Nat) : slopeA M f i j = derivA M.G M.B f i j := by
  rw [derivA_sum, slopeA, div_eq_mul_one_div]

theorem slopeB_deriv (M : Medium) (f : Nat → Nat → ℝ) (i j : Nat) : slopeB M f i j = derivB M.G M.B f i j := by
  rw [derivB_sum, slopeB, div_eq_mul_one_div]

theorem inner_quad (M : Medium) (ω : Nat → ℝ) (v : Var) (a b k : Nat) (f g : Nat → Nat → ℝ) :
    inner M ω v a b k f g = quad M.G.S.order ω (fun i j =>
      M.jacOf v (M.G.S.at a i) (M.G.S.at b j) k * (f i j * g i j)) := by
  unfold inner quad
  refine Finset.sum_congr rfl (fun i _ => Finset.sum_congr rfl (fun j _ => ?_))
  rw [nodeWeight, density_eq, area_at' M.G.S (fun x y k => M.jacOf v x y k)]
  ring

theorem buffer_diffused (M : Medium) (init : Data) (removeRef : Bool) (v : Var) (a b k i j : Nat) :
    buffer M init removeRef v a b k i j = diffused M init removeRef v a b k i j := by
  unfold buffer diffused
  rw [value_at, value_at]
  cases removeRef <;> simp

theorem RegularFor.at {M : Medium} {v : Var} {a b k : Nat} (h : RegularFor M v a b k) (i j : Nat)
    (hi : i < M.G.S.order) (hj : j < M.G.S.order) : M.jacOf v (M.G.S.at a i) (M.G.S.at b j) k ≠ 0 := by
  have := h i j hi hj
  rw [density_eq, area_at' M.G.S (fun x y k => M.jacOf v x y k)] at this
  exact this

/-- What a call adds at a node, in terms of the field that is diffused. -/
theorem change_at (M : Medium) (init : Data) (dt nu : ℝ) (scale : Bool) (ic : Int) (removeRef : Bool) (u r : Data)
    (h : applyScalar M init dt nu scale ic removeRef u = some r) (vs : List Var) (hc : M.chosen ic = some vs) (v : Var)
    (hv : v ∈ vs) (a b k : Nat) (ha : a < M.G.S.elemA) (hb : b < M.G.S.elemB)
    (hk : Carried M v k) (i j : Nat) (hi : i < M.G.S.order) (hj : j < M.G.S.order) :
    change M.G.S r u v a b k i j = dt * M.localNu nu scale * (1 / M.jacOf v (M.G.S.at a i) (M.G.S.at b j) k) *
      (weakA M.G M.B (gradientA M v a b k (diffused M init removeRef v a b k)) i j +
        weakB M.G M.B (gradientB M v a b k (diffused M init removeRef v a b k)) i j) := by
  obtain ⟨vs', hc', h1, -⟩ := scalar_value M init dt nu scale ic removeRef u r h
  rw [hc] at hc'
  cases hc'
  obtain ⟨n', hn', h2⟩ := h1 v hv
  obtain ⟨n, hn, hk⟩ := (carried_iff M v k).1 hk
  rw [hn] at hn'
  cases hn'
  have e : buffer M init removeRef v a b k = diffused M init removeRef v a b k := by
    funext i j
    exact buffer_diffused M init removeRef v a b k i j
  rw [change, h2 a b k i j ha hb hk hi hj, e]
  ring

section

variable (M : Medium) (ω : Nat → ℝ) (h : Paired M.G.S.order M.B ω) (init : Data) (dt nu : ℝ) (scale : Bool) (ic : Int)
  (removeRef : Bool) (u r : Data) (happ : applyScalar M init dt nu scale ic removeRef u = some r) (v : Var)
  (a b k : Nat) (ha : a < M.G.S.elemA) (hb : b < M.G.S.elemB) (hk : Carried M v k)

include h

theorem gradient_parts (φ ψ : Nat → Nat → ℝ) :
    quad M.G.S.order ω (fun i j => φ i j * (weakA M.G M.B (gradientA M v a b k ψ) i j +
      weakB M.G M.B (gradientB M v a b k ψ) i j)) =
      -inner M ω v a b k (fun _ _ => 1) (gradDot M a b ψ φ) := by
  have e : quad M.G.S.order ω (fun i j => φ i j * (weakA M.G M.B (gradientA M v a b k ψ) i j +
      weakB M.G M.B (gradientB M v a b k ψ) i j)) =
      quad M.G.S.order ω (fun i j => φ i j * weakA M.G M.B (gradientA M v a b k ψ) i j) +
      quad M.G.S.order ω (fun i j => φ i j * weakB M.G M.B (gradientB M v a b k ψ) i j) := by
    rw [← quad_add]
    exact quad_congr _ _ _ _ (fun i j _ _ => by ring)
  rw [e, parts_A M.G M.B ω h, parts_B M.G M.B ω h, inner_quad, ← neg_add, ← quad_add]
  congr 1
  refine quad_congr _ _ _ _ (fun i j _ _ => ?_)
  simp only [gradientA, gradientB, gradDot, slopeA_deriv, slopeB_deriv]
  rw [area_at' M.G.S (fun x y _ => M.G.metA x y 0) a b 0 i j, area_at' M.G.S (fun x y _ => M.G.metA x y 1) a b 0 i j,
    area_at' M.G.S (fun x y _ => M.G.metB x y 0) a b 0 i j, area_at' M.G.S (fun x y _ => M.G.metB x y 1) a b 0 i j]
  ring

include happ ha hb hk

/-- The change made by a call, tested with any field. -/
theorem change_tested (vs : List Var) (hc : M.chosen ic = some vs) (hv : v ∈ vs) (hr : RegularFor M v a b k)
    (φ : Nat → Nat → ℝ) : inner M ω v a b k φ (change M.G.S r u v a b k) =
      -(dt * M.localNu nu scale) *
        inner M ω v a b k (fun _ _ => 1) (gradDot M a b (diffused M init removeRef v a b k) φ) := by
  rw [neg_mul, ← mul_neg, ← gradient_parts M ω h v a b k, inner_quad, ← quad_mul]
  refine quad_congr _ _ _ _ (fun i j hi hj => ?_)
  rw [change_at M init dt nu scale ic removeRef u r happ vs hc v hv a b k ha hb hk i j hi hj]
  have := hr.at i j hi hj
  field_simp

/-- **C75 (mass).**  Viscosity of any strength and sign leaves the sum of a variable over the nodes of an element as it
was, at every level. -/
theorem C75_mass (hr : RegularFor M v a b k) :
    inner M ω v a b k (fun _ _ => 1) (value M.G.S r v a b k) =
      inner M ω v a b k (fun _ _ => 1) (value M.G.S u v a b k) := by
  obtain ⟨vs, hc, -, h2⟩ := scalar_value M init dt nu scale ic removeRef u r happ
  by_cases hv : v ∈ vs
  · have := change_tested M ω h init dt nu scale ic removeRef u r happ v a b k ha hb hk vs hc hv hr (fun _ _ => 1)
    have z : inner M ω v a b k (fun _ _ => 1) (gradDot M a b (diffused M init removeRef v a b k) (fun _ _ => 1)) = 0 := by
      rw [inner_quad, quad_congr _ _ _ (fun _ _ => 0) (fun i j hi hj => by
        unfold gradDot
        simp only [slopeA_deriv, slopeB_deriv]
        rw [derivA_const M.G M.B ω h (fun _ _ => 1) 1 i j hi (fun _ _ => rfl),
          derivB_const M.G M.B ω h (fun _ _ => 1) 1 i j hj (fun _ _ => rfl)]
        ring)]
      simp [quad]
    rw [z, mul_zero] at this
    rw [inner_quad] at this ⊢
    rw [inner_quad, ← sub_eq_zero, ← this, sub_eq_add_neg, ← quad_neg, ← quad_add]
    refine quad_congr _ _ _ _ (fun i j _ _ => ?_)
    rw [change]
    ring
  · have e : value M.G.S r v a b k = value M.G.S u v a b k := by
      funext i j
      exact h2 _ hv
    rw [e]

/-- **C75 (uniform field).**  Where the field that is diffused is uniform on an element, nothing changes there. -/
theorem C75_uniform (c : ℝ)
    (h0 : ∀ i j, i < M.G.S.order → j < M.G.S.order → diffused M init removeRef v a b k i j = c) (i j : Nat)
    (hi : i < M.G.S.order) (hj : j < M.G.S.order) : value M.G.S r v a b k i j = value M.G.S u v a b k i j := by
  obtain ⟨vs, hc, -, h2⟩ := scalar_value M init dt nu scale ic removeRef u r happ
  by_cases hv : v ∈ vs
  · have := change_at M init dt nu scale ic removeRef u r happ vs hc v hv a b k ha hb hk i j hi hj
    have gA : ∀ i j, i < M.G.S.order → j < M.G.S.order →
        gradientA M v a b k (diffused M init removeRef v a b k) i j = 0 := by
      intro i j hi hj
      rw [gradientA, derivA_const M.G M.B ω h _ c i j hi (fun s hs => h0 s j hs hj),
        derivB_const M.G M.B ω h _ c i j hj (fun s hs => h0 i s hi hs)]
      ring
    have gB : ∀ i j, i < M.G.S.order → j < M.G.S.order →
        gradientB M v a b k (diffused M init removeRef v a b k) i j = 0 := by
      intro i j hi hj
      rw [gradientB, derivA_const M.G M.B ω h _ c i j hi (fun s hs => h0 s j hs hj),
        derivB_const M.G M.B ω h _ c i j hj (fun s hs => h0 i s hi hs)]
      ring
    rw [weakA_sum, weakB_sum,
      Finset.sum_eq_zero (fun s hs => by rw [gA s j (Finset.mem_range.1 hs) hj, zero_mul]),
      Finset.sum_eq_zero (fun s hs => by rw [gB i s hi (Finset.mem_range.1 hs), zero_mul]), change] at this
    simp only [neg_zero, zero_mul, add_zero, mul_zero] at this
    linarith
  · exact h2 _ hv

/-- **C75 (dissipation).**  What a call adds to a chosen variable, times the field that is diffused and summed over an
element, is minus time step times viscosity times the sum of the squared gradient. -/
theorem C75_rate (vs : List Var) (hc : M.chosen ic = some vs) (hv : v ∈ vs) (hr : RegularFor M v a b k) :
    inner M ω v a b k (diffused M init removeRef v a b k) (change M.G.S r u v a b k) =
      -(dt * M.localNu nu scale) * inner M ω v a b k (fun _ _ => 1)
        (gradDot M a b (diffused M init removeRef v a b k) (diffused M init removeRef v a b k)) :=
  change_tested M ω h init dt nu scale ic removeRef u r happ v a b k ha hb hk vs hc hv hr _

/-- **C75 (dissipation, sign).**  With weights and metric as on any grid, and time step and viscosity not negative, that
sum is never positive: viscosity does not pump. -/
theorem C75_dissipates (hs : Sound M ω v a b k) (hdt : 0 ≤ dt) (hnu : 0 ≤ nu) (hdA : 0 ≤ M.G.deltaA)
    (hL : 0 ≤ M.refLength) (hr : RegularFor M v a b k) :
    inner M ω v a b k (diffused M init removeRef v a b k) (change M.G.S r u v a b k) ≤ 0 := by
  obtain ⟨vs, hc, -, h2⟩ := scalar_value M init dt nu scale ic removeRef u r happ
  by_cases hv : v ∈ vs
  · rw [C75_rate M ω h init dt nu scale ic removeRef u r happ v a b k ha hb hk vs hc hv hr]
    have l : 0 ≤ M.localNu nu scale := by
      unfold Medium.localNu
      split
      · split
        · exact mul_nonneg hnu (Real.rpow_nonneg (div_nonneg hdA hL) _)
        · exact hnu
      · exact hnu
    have p : 0 ≤ inner M ω v a b k (fun _ _ => 1)
        (gradDot M a b (diffused M init removeRef v a b k) (diffused M init removeRef v a b k)) := by
      refine Finset.sum_nonneg (fun i hi => Finset.sum_nonneg (fun j hj => ?_))
      refine mul_nonneg (hs.weight i j (Finset.mem_range.1 hi) (Finset.mem_range.1 hj)) ?_
      rw [one_mul]
      exact hs.metric i j (Finset.mem_range.1 hi) (Finset.mem_range.1 hj) _ _
    have := mul_nonneg (mul_nonneg hdt l) p
    linarith
  · have e : inner M ω v a b k (diffused M init removeRef v a b k) (change M.G.S r u v a b k) = 0 := by
      refine Finset.sum_eq_zero (fun i _ => Finset.sum_eq_zero (fun j _ => ?_))
      rw [change, show value M.G.S r v a b k i j = value M.G.S u v a b k i j from h2 _ hv]
      ring
    rw [e]

/-- **C75 (symmetry).**  Two calls with the same settings on two fields: each field sees as much of the change of the
other, summed over an element.  This is what makes viscosity of order four dissipate, too. -/
theorem C75_symmetric (init' u' r' : Data) (happ' : applyScalar M init' dt nu scale ic removeRef u' = some r')
    (hs : Symmetric M.G a b) (hr : RegularFor M v a b k) :
    inner M ω v a b k (diffused M init' removeRef v a b k) (change M.G.S r u v a b k) =
      inner M ω v a b k (diffused M init removeRef v a b k) (change M.G.S r' u' v a b k) := by
  obtain ⟨vs, hc, -, h2⟩ := scalar_value M init dt nu scale ic removeRef u r happ
  obtain ⟨vs', hc', -, h2'⟩ := scalar_value M init' dt nu scale ic removeRef u' r' happ'
  rw [hc] at hc'
  cases hc'
  by_cases hv : v ∈ vs
  · rw [change_tested M ω h init dt nu scale ic removeRef u r happ v a b k ha hb hk vs hc hv hr,
      change_tested M ω h init' dt nu scale ic removeRef u' r' happ' v a b k ha hb hk vs hc hv hr]
    congr 1
    rw [inner_quad, inner_quad]
    refine quad_congr _ _ _ _ (fun i j hi hj => ?_)
    simp only [gradDot]
    rw [← hs i j hi hj]
    ring
  · have e : ∀ r u : Data, (∀ x : Cell, x.v ∉ vs → r x = u x) → ∀ φ : Nat → Nat → ℝ,
        inner M ω v a b k φ (change M.G.S r u v a b k) = 0 := by
      intro r u h2 φ
      refine Finset.sum_eq_zero (fun i _ => Finset.sum_eq_zero (fun j _ => ?_))
      rw [change, show value M.G.S r v a b k i j = value M.G.S u v a b k i j from h2 _ hv]
      ring
    rw [e r u h2, e r' u' h2']

end

/-- **C75 (variance).**  Applied to a state itself, without reference state, the call changes the sum of the squares of a
chosen variable over an element by minus twice time step times viscosity times the squared gradient, and a term of second
order in the time step. -/
theorem C75_variance (M : Medium) (ω : Nat → ℝ) (h : Paired M.G.S.order M.B ω) (u : Data) (nu : ℝ) (scale : Bool)
    (ic : Int) (v : Var) (a b k : Nat) (ha : a < M.G.S.elemA)
    (hb : b < M.G.S.elemB) (hk : Carried M v k) (vs : List Var) (hc : M.chosen ic = some vs) (hv : v ∈ vs)
    (hr : RegularFor M v a b k) : ∃ e : ℝ, ∀ (dt : ℝ) (r : Data), applyScalar M u dt nu scale ic false u = some r →
      inner M ω v a b k (value M.G.S r v a b k) (value M.G.S r v a b k) =
        inner M ω v a b k (value M.G.S u v a b k) (value M.G.S u v a b k) -
          2 * dt * M.localNu nu scale * inner M ω v a b k (fun _ _ => 1)
            (gradDot M a b (value M.G.S u v a b k) (value M.G.S u v a b k)) + dt ^ 2 * e := by
  let q := fun i j => M.localNu nu scale * (1 / M.jacOf v (M.G.S.at a i) (M.G.S.at b j) k) *
      (weakA M.G M.B (gradientA M v a b k (diffused M u false v a b k)) i j +
        weakB M.G M.B (gradientB M v a b k (diffused M u false v a b k)) i j)
  refine ⟨inner M ω v a b k q q, fun dt r happ => ?_⟩
  have hd : diffused M u false v a b k = value M.G.S u v a b k := by
    funext i j
    simp [diffused]
  have h1 := C75_rate M ω h u dt nu scale ic false u r happ v a b k ha hb hk vs hc hv hr
  rw [hd] at h1
  have h2 : inner M ω v a b k (value M.G.S r v a b k) (value M.G.S r v a b k) =
      inner M ω v a b k (value M.G.S u v a b k) (value M.G.S u v a b k) +
        2 * inner M ω v a b k (value M.G.S u v a b k) (change M.G.S r u v a b k) + dt ^ 2 * inner M ω v a b k q q := by
    rw [inner_quad, inner_quad, inner_quad, inner_quad, ← quad_mul, ← quad_mul, ← quad_add, ← quad_add]
    refine quad_congr _ _ _ _ (fun i j hi hj => ?_)
    have h3 := change_at M u dt nu scale ic false u r happ vs hc v hv a b k ha hb hk i j hi hj
    have h4 : value M.G.S r v a b k i j = value M.G.S u v a b k i j + dt * q i j := by
      rw [change] at h3
      simp only [q]
      linarith
    rw [change, h4]
    ring
  rw [h2, h1]
  ring

/-- **C75 (scaling).**  The strength of viscosity is the one asked for, unless it is to be scaled and the grid has a
reference length; then it is the one asked for on elements of the reference length and grows with the power 3.2 of the
length of the element. -/
theorem C75_scaling (M : Medium) (nu : ℝ) :
    M.localNu nu false = nu ∧ (M.refLength = 0 → ∀ scale, M.localNu nu scale = nu) ∧
      (M.refLength ≠ 0 → M.G.deltaA = M.refLength → ∀ scale, M.localNu nu scale = nu) ∧
      (0 < M.refLength → 0 < M.G.deltaA → ∀ (M' : Medium) (c : ℝ), 0 < c → M'.refLength = M.refLength →
        M'.G.deltaA = c * M.G.deltaA → M'.localNu nu true = c ^ (3.2 : ℝ) * M.localNu nu true) := by
  refine ⟨rfl, ?_, ?_, ?_⟩
  · intro h scale
    cases scale <;> simp [Medium.localNu, h]
  · intro h h' scale
    cases scale <;> simp [Medium.localNu, h, h']
  · intro h hA M' c hc h1 h2
    have h0 : M.refLength ≠ 0 := ne_of_gt h
    simp only [Medium.localNu, h1, h2, h0, ne_eq, not_false_eq_true, if_true]
    rw [mul_div_assoc, Real.mul_rpow hc.le (div_nonneg hA.le h.le)]
    ring

/-- **C75 (what is diffused).**  The call succeeds exactly if the component asked for exists and every variable to be
diffused lives on levels or interfaces; -1 asks for all state variables but the horizontal velocity and for all tracers. -/
theorem C75_succeeds (M : Medium) (init : Data) (dt nu : ℝ) (scale : Bool) (ic : Int) (removeRef : Bool) (u : Data) :
    (∃ r, applyScalar M init dt nu scale ic removeRef u = some r) ↔
      (ic = -1 ∧ ∀ c, 2 ≤ c → c < M.components → M.located c ≠ .other) ∨
      (0 ≤ ic ∧ ic < M.components ∧ M.located ic.toNat ≠ .other) := by
  have fold : ∀ (f : Data → Var → Nat → Data) (vs : List Var) (u : Data), (∃ r, vs.foldlM (fun u v => match M.levelsOf v with
      | none => none
      | some n => some (f u v n)) u = some r) ↔ ∀ v ∈ vs, M.levelsOf v ≠ none := by
    intro f vs
    induction vs with
    | nil => intro u; simp
    | cons w ws ih =>
      intro u
      rw [List.foldlM_cons]
      cases hl : M.levelsOf w with
      | none => simp [hl]
      | some n =>
        have := ih (f u w n)
        simp only [Option.bind_eq_bind, Option.bind_some]
        rw [this]
        simp [hl]
  have lev : ∀ c, M.levelsOf (.state c) ≠ none ↔ M.located c ≠ .other := by
    intro c
    unfold Medium.levelsOf
    cases hl : M.located c <;> simp [hl]
  unfold applyScalar Medium.chosen
  by_cases h1 : ic < -1
  · rw [if_pos h1]
    simp only [reduceCtorEq, exists_false, false_iff]
    omega
  · rw [if_neg h1]
    by_cases h2 : ic = -1
    · rw [if_neg (by omega)]
      simp only
      refine (fold (fun u v n => diffuseVar M init removeRef dt (M.localNu nu scale) n v u) _ u).trans ?_
      constructor
      · intro h
        refine Or.inl ⟨h2, fun c hc1 hc2 => (lev c).1 (h _ ?_)⟩
        refine List.mem_append_left _ (List.mem_map.2 ⟨c, ?_, rfl⟩)
        rw [List.mem_iff_getElem]
        refine ⟨c - 2, by simp; omega, ?_⟩
        simp
        omega
      · intro h v hv
        rcases h with ⟨-, h⟩ | h
        · rcases List.mem_append.1 hv with hv | hv
          · obtain ⟨c, hc, rfl⟩ := List.mem_map.1 hv
            refine (lev c).2 (h c ?_ ?_)
            · obtain ⟨m, hm, rfl⟩ := List.mem_iff_getElem.1 hc
              simp
            · exact List.mem_range.1 (List.mem_of_mem_drop hc)
          · obtain ⟨c, hc, rfl⟩ := List.mem_map.1 hv
            simp [Medium.levelsOf]
        · omega
    · rw [if_pos h2]
      by_cases h3 : ic ≥ M.components
      · rw [if_pos h3]
        simp only [reduceCtorEq, exists_false, false_iff]
        omega
      · rw [if_neg h3]
        simp only
        refine (fold (fun u v n => diffuseVar M init removeRef dt (M.localNu nu scale) n v u) _ u).trans ?_
        simp only [List.mem_singleton, forall_eq]
        rw [lev]
        constructor
        · intro h
          exact Or.inr ⟨by omega, by omega, h⟩
        · rintro (h | h)
          · omega
          · exact h.2.2

/-- **C75 (what is left alone).**  Asked for all components, the call leaves the horizontal velocity alone; asked for one
component, it leaves all others and all tracers alone. -/
theorem C75_untouched (M : Medium) (init : Data) (dt nu : ℝ) (scale : Bool) (ic : Int) (removeRef : Bool) (u r : Data)
    (h : applyScalar M init dt nu scale ic removeRef u = some r) (x : Cell)
    (hx : (ic = -1 ∧ (x.v = .state 0 ∨ x.v = .state 1)) ∨ (ic ≠ -1 ∧ x.v ≠ .state ic.toNat)) : r x = u x := by
  obtain ⟨vs, hc, -, h2⟩ := scalar_value M init dt nu scale ic removeRef u r h
  refine h2 x ?_
  unfold Medium.chosen at hc
  rcases hx with ⟨rfl, hx⟩ | ⟨hi, hx⟩
  · rw [if_neg (by omega), if_neg (by omega)] at hc
    cases hc
    intro hm
    rcases List.mem_append.1 hm with hv | hv
    · obtain ⟨c, hc, he⟩ := List.mem_map.1 hv
      obtain ⟨m, hm, rfl⟩ := List.mem_iff_getElem.1 hc
      rw [← he] at hx
      simp at hx
      omega
    · obtain ⟨c, hc, he⟩ := List.mem_map.1 hv
      rw [← he] at hx
      simp at hx
  · by_cases h1 : ic < -1
    · rw [if_pos h1] at hc; cases hc
    · rw [if_neg h1, if_pos hi] at hc
      by_cases h3 : ic ≥ M.components
      · rw [if_pos h3] at hc; cases hc
      · rw [if_neg h3] at hc
        cases hc
        simpa using hx

end Verif.Horiz
