import Mathlib.Analysis.SpecialFunctions.Trigonometric.Deriv
import Verif.Metric.Lemmas
import Verif.Horiz.BasisProps
import Verif.Interp.Props
import Verif.Sphere.PropsLonLat

/-!
# C81: slopes of the ground and the Coriolis parameter
-/

namespace Verif.Metric

open Real Verif.Horiz Verif.Interp Verif.Sphere Polynomial

/-! ### Lemmas -/

theorem topo_loop (n : Nat) (body : Nat → Topography → Topography) (fA fB : Nat → (Nat × Nat → ℝ) → Nat × Nat → ℝ)
    (v : Nat × Nat → ℝ) (h : ∀ t a b, body t ⟨v, a, b⟩ = ⟨v, fA t a, fB t b⟩) (a b : Nat × Nat → ℝ) :
    loop n body ⟨v, a, b⟩ = ⟨v, loop n fA a, loop n fB b⟩ := by
  induction n with
  | zero => rfl
  | succ n ih => rw [loop_succ, ih, h, loop_succ, loop_succ]

theorem slopes_split (S : Shape) (B : Basis) (dA dB : ℝ) (T : Topography) :
    slopes S B dA dB T = ⟨T.value,
      overNodes S (fun a b i j s => put s (S.at a i, S.at b j)
        (topoDerivA S B dA (fun x y => T.value (x, y)) a b i j)) T.derivA,
      overNodes S (fun a b i j s => put s (S.at a i, S.at b j)
        (topoDerivB S B dB (fun x y => T.value (x, y)) a b i j)) T.derivB⟩ := by
  obtain ⟨v, p, q⟩ := T
  unfold slopes overNodes
  exact topo_loop _ _ _ _ v (fun _ _ _ => topo_loop _ _ _ _ v (fun _ _ _ => topo_loop _ _ _ _ v (fun _ _ _ =>
    topo_loop _ _ _ _ v (fun _ _ _ => rfl) _ _) _ _) _ _) p q

theorem at_div (S : Shape) (a i : Nat) (hi : i < S.order) : (S.at a i - S.halo) / S.order = a := by
  unfold Shape.at
  rw [Nat.add_sub_cancel, Nat.add_comm, Nat.add_mul_div_right _ _ (by omega), Nat.div_eq_of_lt hi, Nat.zero_add]

/-- A loop over nodes that assigns to each a number. -/
theorem overNodes_put (S : Shape) (v : Nat → Nat → Nat → Nat → ℝ) (s : Nat × Nat → ℝ) (a b i j : Nat)
    (ha : a < S.elemA) (hb : b < S.elemB) (hi : i < S.order) (hj : j < S.order) :
    overNodes S (fun a b i j s => put s (S.at a i, S.at b j) (v a b i j)) s (S.at a i, S.at b j) = v a b i j := by
  let w : Nat × Nat → ℝ → ℝ := fun y _ => v ((y.1 - S.halo) / S.order) ((y.2 - S.halo) / S.order)
    ((y.1 - S.halo) % S.order) ((y.2 - S.halo) % S.order)
  have hw : Settled w := fun _ _ => rfl
  have h := (writes_overNodes S (fun a b i j s => put s (S.at a i, S.at b j) (v a b i j)) w hw (fun a b i j _ _ hi hj => by
    refine ⟨fun s y hy => ?_, fun s y hy => if_neg hy⟩
    subst hy
    simp only [put, if_true, w, at_mod S a i hi, at_mod S b j hj, at_div S a i hi, at_div S b j hj])).1 s
      (S.at a i, S.at b j) ⟨a, ha, b, hb, i, hi, j, hj, rfl⟩
  rw [h]
  simp only [w, at_mod S a i hi, at_mod S b j hj, at_div S a i hi, at_div S b j hj]

theorem slopes_value (S : Shape) (B : Basis) (dA dB : ℝ) (T : Topography) : (slopes S B dA dB T).value = T.value := by
  rw [slopes_split]

theorem slopes_at (S : Shape) (B : Basis) (dA dB : ℝ) (T : Topography) (a b i j : Nat)
    (ha : a < S.elemA) (hb : b < S.elemB) (hi : i < S.order) (hj : j < S.order) :
    (slopes S B dA dB T).derivA (S.at a i, S.at b j) =
      (∑ s ∈ Finset.range S.order, B.dx s i * T.value (S.at a s, S.at b j)) / dA ∧
    (slopes S B dA dB T).derivB (S.at a i, S.at b j) =
      (∑ s ∈ Finset.range S.order, B.dx s j * T.value (S.at a i, S.at b s)) / dB := by
  rw [slopes_split]
  constructor
  · refine (overNodes_put S (fun a b i j => topoDerivA S B dA (fun x y => T.value (x, y)) a b i j) _ a b i j ha hb hi hj).trans ?_
    unfold topoDerivA
    rw [loop_add, zero_add]
  · refine (overNodes_put S (fun a b i j => topoDerivB S B dB (fun x y => T.value (x, y)) a b i j) _ a b i j ha hb hi hj).trans ?_
    unfold topoDerivB
    rw [loop_add, zero_add]

theorem apply_range (n : Nat) (c : Nat → ℝ) (f : Nat → ℝ) :
    apply ((List.range n).map c) f = ∑ s ∈ Finset.range n, c s * f s := by
  unfold apply
  induction n with
  | zero => simp
  | succ n ih =>
    rw [List.range_succ, List.map_append, List.zipIdx_append, List.map_append, List.sum_append, ih,
      Finset.sum_range_succ]
    simp

/-- The derivative coefficients of a width applied to a polynomial in the stretched coordinate. -/
theorem stretched (n : Nat) (h4 : n ≠ 4) (x w : Nat → ℝ) (hx : ApartNodes n x) (δ o : ℝ) (hδ : δ ≠ 0) (i : Nat)
    (p : ℝ[X]) (hp : p.degree < n) :
    (∑ s ∈ Finset.range n, (basisOf n x w).dx s i * p.eval (o + δ * x s)) / δ = p.derivative.eval (o + δ * x i) := by
  have hlin : (C o + C δ * X : ℝ[X]).natDegree = 1 := by
    rw [natDegree_C_add, natDegree_C_mul_X _ hδ]
  have hq : (p.comp (C o + C δ * X)).degree < n := by
    rcases eq_or_ne p 0 with rfl | h0
    · simpa using hp
    · have hc : p.comp (C o + C δ * X) ≠ 0 := by
        intro e
        rcases comp_eq_zero_iff.1 e with h | h
        · exact h0 h
        · have : (C o + C δ * X : ℝ[X]).natDegree = 0 := by rw [h.2]; exact natDegree_C _
          omega
      rw [degree_eq_natDegree hc, natDegree_comp, hlin, mul_one, ← degree_eq_natDegree h0]
      exact hp
  have h := C39_first n x hx (x i) (p.comp (C o + C δ * X)) hq
  rw [derivative_comp] at h
  simp only [eval_comp, eval_add, eval_C, eval_mul, eval_X, derivative_add, derivative_C, derivative_mul, derivative_X,
    zero_add, zero_mul, mul_one] at h
  have e : (basisOf n x w).dx = fun s i => diffCoeff n x (x i) s := by unfold basisOf; rw [if_neg h4]
  rw [e, ← apply_range n (fun s => diffCoeff n x (x i) s) (fun s => p.eval (o + δ * x s))]
  unfold diffCoeffs at h
  rw [h]
  field_simp

/-! ### Statements -/

/-- **C81 (slopes of the ground).**  On both grids, for every order but four, the stored slopes of the ground at a node of
an element are the derivatives there of the polynomial of degree less than the order through the heights of the ground
at the nodes of the element in that direction. -/
theorem C81_slopes (S : Shape) (h4 : S.order ≠ 4) (x w : Nat → ℝ) (hx : ApartNodes S.order x) (dA dB : ℝ) (hA : dA ≠ 0)
    (hB : dB ≠ 0) (na nb : Nat) (panel : Int) (ztop : ℝ) (α β : Nat → ℝ) (f : ℝ → ℝ → ℝ) (T T' : Topography)
    (h : sphereTopography S (basisOf S.order x w) dA dB na nb panel α β f T = some T' ∨
      planeTopography S (basisOf S.order x w) dA dB na nb ztop α β f T = some T')
    (a b i j : Nat) (ha : a < S.elemA) (hb : b < S.elemB) (hi : i < S.order) (hj : j < S.order) (o : ℝ) (p : ℝ[X])
    (hp : p.degree < S.order) :
    ((∀ s < S.order, p.eval (o + dA * x s) = T'.value (S.at a s, S.at b j)) →
      T'.derivA (S.at a i, S.at b j) = p.derivative.eval (o + dA * x i)) ∧
    ((∀ s < S.order, p.eval (o + dB * x s) = T'.value (S.at a i, S.at b s)) →
      T'.derivB (S.at a i, S.at b j) = p.derivative.eval (o + dB * x j)) := by
  obtain ⟨T0, rfl⟩ : ∃ T0, T' = slopes S (basisOf S.order x w) dA dB T0 := by
    rcases h with h | h
    · unfold sphereTopography at h
      split_ifs at h
      simp only [Option.some.injEq] at h
      exact ⟨_, h.symm⟩
    · unfold planeTopography at h
      split_ifs at h
      simp only [Option.some.injEq] at h
      exact ⟨_, h.symm⟩
  obtain ⟨e1, e2⟩ := slopes_at S (basisOf S.order x w) dA dB T0 a b i j ha hb hi hj
  rw [e1, e2, slopes_value]
  constructor
  · intro hv
    rw [← stretched S.order h4 x w hx dA o hA i p hp]
    congr 1
    exact Finset.sum_congr rfl (fun s hs => by rw [hv s (Finset.mem_range.1 hs)])
  · intro hv
    rw [← stretched S.order h4 x w hx dB o hB j p hp]
    congr 1
    exact Finset.sum_congr rfl (fun s hs => by rw [hv s (Finset.mem_range.1 hs)])

/-- **C81 (ground).**  The stored height of the ground at every node, halo included, is what the test case gives at the
longitude and latitude of the node on the cubed sphere, and at its coordinates on the Cartesian grid. -/
theorem C81_ground (S : Shape) (B : Basis) (dA dB : ℝ) (na nb : Nat) (panel : Int) (ztop : ℝ) (α β : Nat → ℝ)
    (f : ℝ → ℝ → ℝ) (T T' : Topography) (i j : Nat) (hi : i < na) (hj : j < nb) :
    (sphereTopography S B dA dB na nb panel α β f T = some T' →
      ∃ lon lat, rllFromABP (α i) (β j) panel = some (lon, lat) ∧ T'.value (i, j) = f lon lat) ∧
    (planeTopography S B dA dB na nb ztop α β f T = some T' → T'.value (i, j) = f (α i) (β j)) := by
  constructor
  · intro h
    unfold sphereTopography at h
    split_ifs at h with hp
    simp only [Option.some.injEq] at h
    subst h
    obtain ⟨lon, lat, hl⟩ : ∃ lon lat, rllFromABP (α i) (β j) panel = some (lon, lat) := by
      have : panel = 0 ∨ panel = 1 ∨ panel = 2 ∨ panel = 3 ∨ panel = 4 ∨ panel = 5 := by omega
      unfold rllFromABP
      rcases this with rfl | rfl | rfl | rfl | rfl | rfl <;> exact ⟨_, _, by simp [rllFromXYP]; exact ⟨rfl, rfl⟩⟩
    refine ⟨lon, lat, hl, ?_⟩
    rw [slopes_value]
    simp only [fill_at, if_pos (And.intro hi hj)]
    unfold topoAt
    rw [hl]
  · intro h
    unfold planeTopography at h
    split_ifs at h
    simp only [Option.some.injEq] at h
    subst h
    rw [slopes_value]
    simp only [fill_at, if_pos (And.intro hi hj)]

theorem sin_lat (X Y lon lat : ℝ) (p : Int) (h : rllFromXYP X Y p = some (lon, lat)) : sin lat = (image p X Y).2.2 := by
  have hr := roots X Y
  have hd := hr.d_pos
  have l2 := sin_latEq X Y
  have l4 := sin_latNorth X Y
  have l6 := sin_latSouth X Y
  unfold latEq at l2
  unfold latNorth at l4
  unfold latSouth at l6
  rw [image_frame]
  unfold rllFromXYP at h
  split_ifs at h with q0 q1 q2 q3 q4 q5
  all_goals simp only [Option.some.injEq, Prod.mk.injEq] at h
  all_goals obtain ⟨rfl, rfl⟩ := h
  all_goals subst_vars
  all_goals first | rw [l2] | rw [l4] | rw [l6]
  all_goals simp [frame, centre, axisA, axisB]

/-- **C81 (rotation, cubed sphere).**  The Coriolis parameter of a node, halo included, is twice the component of the
rotation of the planet along the vertical of the point of the sphere at which the node is, on every panel. -/
theorem C81_coriolis_sphere (na nb : Nat) (omega : ℝ) (panel : Int) (α β : Nat → ℝ) (lon lat : Nat → Nat → ℝ)
    (h : ∀ i j, i < na → j < nb → rllFromABP (α i) (β j) panel = some (lon i j, lat i j)) (s : Nat × Nat → ℝ) (i j : Nat)
    (hi : i < na) (hj : j < nb) :
    sphereCoriolis na nb omega lat s (i, j) = 2 * dot (0, 0, omega) (image panel (tan (α i)) (tan (β j))) := by
  unfold sphereCoriolis
  rw [fill_at, if_pos ⟨hi, hj⟩, sin_lat _ _ _ _ _ (h i j hi hj)]
  simp [dot]; ring

/-- **C81 (rotation, Cartesian grid).**  On a grid that is not a vertical slice the Coriolis parameter is the tangent, at
the reference latitude, of the Coriolis parameter of the sphere as a function of the distance to the north from the
line half the width of the grid above zero; on a vertical slice it vanishes. -/
theorem C81_coriolis_plane (na nb : Nat) (omega radius refLat ymin ymax : ℝ) (hr : radius ≠ 0) (y : Nat → Nat → ℝ)
    (s : Nat × Nat → ℝ) (i j : Nat) (hi : i < na) (hj : j < nb) :
    (∃ b : ℝ, HasDerivAt (fun d => 2 * omega * sin (refLat + d / radius)) b 0 ∧
      planeCoriolis na nb false omega radius refLat ymin ymax y s (i, j) =
        2 * omega * sin refLat + b * (y i j - |ymax - ymin| / 2)) ∧
    planeCoriolis na nb true omega radius refLat ymin ymax y s (i, j) = 0 := by
  constructor
  · refine ⟨2 * omega * cos refLat / radius, ?_, ?_⟩
    · have h0 : HasDerivAt (fun d : ℝ => refLat + d / radius) (1 / radius) 0 :=
        ((hasDerivAt_id (0 : ℝ)).div_const radius).const_add refLat
      have h1 := (h0.sin).const_mul (2 * omega)
      refine h1.congr_deriv ?_
      simp; ring
    · unfold planeCoriolis
      rw [fill_at, if_pos ⟨hi, hj⟩, if_neg (by decide)]
      ring
  · unfold planeCoriolis
    rw [fill_at, if_pos ⟨hi, hj⟩]
    rfl

/-- **C81 (centre of the Cartesian grid).**  On a rotating planet away from the poles the reference latitude is that of
the centre of the grid exactly when the grid begins at zero. -/
theorem C81_centre (na nb : Nat) (omega radius refLat ymin ymax : ℝ) (hr : radius ≠ 0) (ho : omega ≠ 0)
    (hc : cos refLat ≠ 0) (hy : ymin ≤ ymax) (y : Nat → Nat → ℝ) (s : Nat × Nat → ℝ) (i j : Nat) (hi : i < na)
    (hj : j < nb) (hm : y i j = (ymin + ymax) / 2) :
    planeCoriolis na nb false omega radius refLat ymin ymax y s (i, j) = 2 * omega * sin refLat ↔ ymin = 0 := by
  unfold planeCoriolis
  rw [fill_at, if_pos ⟨hi, hj⟩, if_neg (by decide), hm, abs_of_nonneg (by linarith)]
  have e : (ymin + ymax) / 2 - 0.5 * (ymax - ymin) = ymin := by ring
  rw [e]
  have hk : 2 * omega * cos refLat / radius ≠ 0 := by positivity
  constructor
  · intro h
    have : 2 * omega * cos refLat / radius * ymin = 0 := by linarith
    exact (mul_eq_zero.1 this).resolve_left hk
  · rintro rfl; simp

/-- A grid from -3 to 3 with its reference latitude on a rotating planet: the centre does not have it. -/
theorem C81_false_centre : planeCoriolis 1 1 false 1 1 0 (-3) 3 (fun _ _ => 0) (fun _ => 0) (0, 0) ≠
    2 * 1 * sin 0 := by
  rw [Ne, C81_centre 1 1 1 1 0 (-3) 3 one_ne_zero one_ne_zero (by simp) (by norm_num) _ _ 0 0 (by omega) (by omega)
    (by norm_num)]
  norm_num

/-- Three nodes at 0, 1/2 and 1 of an element of width 2 with ground `s²`: the slope at the last node, at 2, is 4. -/
example : ∃ T', planeTopography ⟨3, 1, 1, 1, 0, 0⟩ (basisOf 3 (fun i => (i : ℝ) / 2) (fun _ => 1)) 2 2 3 3 100
    (fun i => i) (fun j => j) (fun a _ => a ^ 2) ⟨fun _ => 0, fun _ => 0, fun _ => 0⟩ = some T' ∧
    T'.derivA (2, 1) = 4 := by
  have hn : ¬ ∃ i < 3, ∃ j < 3, (fun a _ => a ^ 2 : ℝ → ℝ → ℝ) ((fun i : Nat => (i : ℝ)) i) ((fun j : Nat => (j : ℝ)) j) ≥ 100 := by
    rintro ⟨i, hi, j, -, h⟩
    interval_cases i <;> norm_num at h
  have hap : ApartNodes 3 (fun i => (i : ℝ) / 2) := by
    intro i j hi hj hij
    interval_cases i <;> interval_cases j <;> first | exact absurd rfl hij | norm_num
  obtain ⟨T', hT⟩ : ∃ T', planeTopography ⟨3, 1, 1, 1, 0, 0⟩ (basisOf 3 (fun i => (i : ℝ) / 2) (fun _ => 1)) 2 2 3 3 100
      (fun i => i) (fun j => j) (fun a _ => a ^ 2) ⟨fun _ => 0, fun _ => 0, fun _ => 0⟩ = some T' := by
    unfold planeTopography; rw [if_neg hn]; exact ⟨_, rfl⟩
  refine ⟨T', hT, ?_⟩
  have := (C81_slopes ⟨3, 1, 1, 1, 0, 0⟩ (by decide) _ _ hap 2 2 (by norm_num) (by norm_num) 3 3 0 100 _ _ _ _ T'
    (Or.inr hT) 0 0 2 1 (by decide) (by decide) (by decide) (by decide) 0 (X ^ 2) (by
      rw [degree_X_pow]; norm_num)).1 (fun s hs => by
        have e := (C81_ground ⟨3, 1, 1, 1, 0, 0⟩ (basisOf 3 (fun i => (i : ℝ) / 2) (fun _ => 1)) 2 2 3 3 0 100
          (fun i => i) (fun j => j) (fun a _ => a ^ 2) _ T' s 1 hs (by decide)).2 hT
        simp only [Shape.at, Nat.zero_mul, Nat.zero_add, Nat.add_zero]
        rw [e, eval_pow, eval_X]; ring)
  simp only [Shape.at, Nat.zero_mul, Nat.zero_add, Nat.add_zero] at this
  rw [this]
  norm_num

end Verif.Metric
