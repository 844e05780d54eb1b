/-
C137: the Jacobian of the equations of a column of vertical method v2.
-/
import Verif.VertV2.ColumnProps
import Verif.Vdyn.JacobianProps

namespace Verif.ColumnV2

open Verif.Column Verif.Vdyn Finset

section Rows

variable (S : Setup) (G : Metric) (M : Memory) (x y : Nat → ℝ)

/-- The statements for fluxes are those of the default method with the metric for vertical velocity in length per time. -/
theorem flux_physical (k : Nat) : fluxUpdates S G M x k = Vdyn.fluxUpdates S (physical G) M x k := by
  unfold fluxUpdates Vdyn.fluxUpdates
  rw [xiDotEdge_physical]
  simp only [physical, if_true, mul_assoc]

theorem time_same : timeUpdates S = Vdyn.timeUpdates S := rfl

theorem pressure_other (k i : Nat) (h : i ≠ 3 * k + 1) : product (pressureUpdates S G M x k) y i = 0 := by
  have h1 : vec 1 k ≠ i := by unfold vec; omega
  unfold pressureUpdates
  rw [product_append, product_map, product_flatMap]
  have e1 : ∀ l : List Nat, ∀ f : Nat → ℝ, (l.map fun m => if (upd 0 m 1 k (f m)).row = i then
      (upd 0 m 1 k (f m)).value * y (upd 0 m 1 k (f m)).col else 0).sum = 0 := by
    intro l f
    simp [upd, h1]
  have e2 : ∀ l : List Nat, ∀ f g : Nat → ℝ, (l.map fun n => product [upd 0 n 1 k (f n), upd 2 n 1 k (g n)] y i).sum = 0 := by
    intro l f g
    simp [upd, h1, product_cons, product_nil]
  rw [e1, e2, add_zero]

theorem pressure_row (k : Nat) : product (pressureUpdates S G M x k) y (3 * k + 1) =
    edgeState S M x 2 k * S.phys.r / (G.derivR k * edgeState S M x 4 k * (S.phys.cp - S.phys.r)) *
      applyRow S.diffNE (fun m => exnerNode S M x m / nodeState S M x 2 m * y (3 * m)) k +
    1 / G.derivREdge k / (edgeState S M x 4 k * edgeState S M x 4 k) * diffPEdge S M x k *
      (applyRow S.interpNE (fun n => y (3 * n)) k * edgeState S M x 4 k -
        applyRow S.interpNE (fun n => y (3 * n + 2)) k * edgeState S M x 2 k) := by
  unfold pressureUpdates
  rw [product_append, product_map, product_flatMap, sum_stencil, sum_stencil, Vdyn.applyRow_eq, Vdyn.applyRow_eq, Vdyn.applyRow_eq]
  congr 1
  · rw [mul_sum]
    apply sum_congr rfl
    intro m _
    simp only [upd, vec]
    rw [if_pos trivial, Nat.add_zero]
    ring
  · rw [sum_mul, sum_mul, ← sum_sub_distrib, mul_sum]
    apply sum_congr rfl
    intro n _
    simp only [product_cons, product_nil, upd, vec]
    rw [if_pos trivial, if_pos trivial, Nat.add_zero]
    ring

theorem clark_other (k i : Nat) (h : i ≠ 3 * k + 1) : product (clarkUpdates S G M x k) y i = 0 := by
  have h1 : vec 1 k ≠ i := by unfold vec; omega
  unfold clarkUpdates
  rw [product_flatMap]
  apply List.sum_eq_zero
  intro v hv
  rw [List.mem_map] at hv
  obtain ⟨l, -, rfl⟩ := hv
  rw [product_map]
  simp [upd, h1]

theorem clark_row (k : Nat) : product (clarkUpdates S G M x k) y (3 * k + 1) =
    applyRow S.diffNE (fun l => xiDotNode S G M x l * (G.derivR l * applyRow S.interpEN (fun m => y (3 * m + 1)) l)) k / G.derivREdge k := by
  unfold clarkUpdates
  rw [product_flatMap, sum_stencil, Vdyn.applyRow_eq, sum_div]
  apply sum_congr rfl
  intro l _
  rw [product_map, sum_stencil, Vdyn.applyRow_eq, mul_sum, mul_sum, mul_sum, sum_div]
  apply sum_congr rfl
  intro m _
  simp only [upd, vec]
  rw [if_pos trivial]
  ring

end Rows

/-- Rows of levels. -/
theorem product_level {S : Setup} {node edge : Nat → ℝ} {gauss lob : List ℝ × List ℝ} (E : Elements S node edge gauss lob)
    (hL : Lorenz S) (G : Metric) (D : Data) (M : Memory) (x y : Nat → ℝ) (k c : Nat) (hc : c = 0 ∨ c = 2) (hk : k < S.levels) :
    Vdyn.product (jacobianUpdates S G (setupColumn S D M) x) y (3 * k + c) =
      applyRow S.diffEN (fun m => G.jacEdge m * (applyRow S.interpNE (fun n => x (3 * n + c)) m * windChange S (physical G) y m +
        applyRow S.interpNE (fun n => y (3 * n + c)) m * verticalWind S (physical G) (asColumn D x) m)) k / G.jac k +
      y (3 * k + c) / S.dt := by
  obtain ⟨solve, hs, hA, hB, hP⟩ := E.setup
  obtain ⟨hr, hcol, hrange, -⟩ := C70_interfaces S.order S.levels (S.levels + 1) node edge S.levels node false S.diffEN hB E.separated
    0 0 (fun _ => 0)
  have hend := (hrange k (by omega)).1
  rw [hcol] at hend
  have hedge : edgeState S (setupColumn S D M) x (c + 2) = applyRow S.interpNE (fun n => x (3 * n + c)) := by
    rcases hc with rfl | rfl
    · rw [edge_two hL]; rfl
    · rw [edge_four hL]; rfl
  have hflux : product ((List.range S.levels).flatMap (fluxUpdates S G (setupColumn S D M) x)) y (3 * k + c) =
      applyRow S.diffEN (fun m => G.jacEdge m * (applyRow S.interpNE (fun n => x (3 * n + c)) m * windChange S (physical G) y m +
        applyRow S.interpNE (fun n => y (3 * n + c)) m * verticalWind S (physical G) (asColumn D x) m)) k / G.jac k := by
    rw [show fluxUpdates S G (setupColumn S D M) x = Vdyn.fluxUpdates S (physical G) (setupColumn S D M) x from
      funext fun k => flux_physical S G _ x k,
      product_levels _ List.nodup_range _ _ _ (fun k' hk' => flux_other S (physical G) _ x y k' _ hk'),
      show (3 * k + c) / 3 = k by omega, if_pos (List.mem_range.2 hk), flux_row S (physical G) _ x y k c hc, Vdyn.wind_eq hL, hedge,
      Vdyn.applyRow_eq, Vdyn.applyRow_eq]
    congr 1
    apply sum_congr rfl
    intro m hmem
    rw [mem_Ico] at hmem
    change _ * (G.jacEdge m * _) = _
    congr 3
    unfold windChange
    by_cases h0 : m ≠ 0 ∧ m ≠ S.levels
    · rw [if_pos h0, if_neg (by omega)]
    · rw [if_neg h0, if_pos (by omega), mul_zero]
  have hpress : ∀ l : List Nat, product (l.flatMap (pressureUpdates S G (setupColumn S D M) x)) y (3 * k + c) = 0 := fun l => by
    rw [product_flatMap]
    exact sum_zero _ _ fun k' => pressure_other S G _ x y k' _ (by omega)
  have hclark : ∀ l : List Nat, product (l.flatMap (clarkUpdates S G (setupColumn S D M) x)) y (3 * k + c) = 0 := fun l => by
    rw [product_flatMap]
    exact sum_zero _ _ fun k' => clark_other S G _ x y k' _ (by omega)
  unfold jacobianUpdates
  simp only [product_append]
  rw [hflux, hpress, hclark, time_same, time_row S y _ (by omega)]
  ring

/-- Rows of interfaces. -/
theorem product_interface {S : Setup} (hL : Lorenz S) (G : Metric) (D : Data) (M : Memory) (x y : Nat → ℝ) (k : Nat) (h0 : 0 < k)
    (hk : k < S.levels) :
    Vdyn.product (jacobianUpdates S G (setupColumn S D M) x) y (3 * k + 1) =
      applyRow S.interpNE (asColumn D x).p k * S.phys.r / (G.derivR k * applyRow S.interpNE (asColumn D x).r k * (S.phys.cp - S.phys.r)) *
        applyRow S.diffNE (fun m => exner S (asColumn D x) m / x (3 * m) * y (3 * m)) k +
      1 / G.derivREdge k / (applyRow S.interpNE (asColumn D x).r k * applyRow S.interpNE (asColumn D x).r k) *
        applyRow S.diffNE (exner S (asColumn D x)) k *
        (applyRow S.interpNE (fun n => y (3 * n)) k * applyRow S.interpNE (asColumn D x).r k -
          applyRow S.interpNE (fun n => y (3 * n + 2)) k * applyRow S.interpNE (asColumn D x).p k) +
      applyRow S.diffNE (fun l => (G.conXi l 0 * D.node 0 l + G.conXi l 1 * D.node 1 l +
        G.conXi l 2 * (applyRow S.interpEN (asColumn D x).w l * G.derivR l)) *
          (G.derivR l * applyRow S.interpEN (fun m => y (3 * m + 1)) l)) k / G.derivREdge k +
      y (3 * k + 1) / S.dt := by
  have hflux : product ((List.range S.levels).flatMap (fluxUpdates S G (setupColumn S D M) x)) y (3 * k + 1) = 0 := by
    rw [show fluxUpdates S G (setupColumn S D M) x = Vdyn.fluxUpdates S (physical G) (setupColumn S D M) x from
      funext fun k => flux_physical S G _ x k,
      product_levels _ List.nodup_range _ _ _ (fun k' hk' => flux_other S (physical G) _ x y k' _ hk'),
      show (3 * k + 1) / 3 = k by omega, flux_w]
    simp
  have hin : k ∈ List.range' 1 (S.levels - 1) := by
    rw [List.mem_range'_1]
    omega
  have hpress := product_levels (List.range' 1 (S.levels - 1)) List.nodup_range' (pressureUpdates S G (setupColumn S D M) x) y
    (3 * k + 1) (fun k' hk' => pressure_other S G _ x y k' _ (by omega))
  have hclark := product_levels (List.range' 1 (S.levels - 1)) List.nodup_range' (clarkUpdates S G (setupColumn S D M) x) y
    (3 * k + 1) (fun k' hk' => clark_other S G _ x y k' _ (by omega))
  rw [show (3 * k + 1) / 3 = k by omega, if_pos hin] at hpress hclark
  unfold jacobianUpdates
  simp only [product_append]
  rw [hflux, hpress, hclark, time_same, time_row S y _ (by omega), pressure_row, clark_row, edge_two hL, edge_four hL]
  unfold diffPEdge
  rw [exner_eq hL, node_two hL,
    show xiDotNode S G (setupColumn S D M) x = _ from funext fun l => xiDotNode_eq hL G D M x l]
  dsimp only [asColumn]
  ring

/-- Rows of the bottom and the top. -/
theorem product_end {S : Setup} (G : Metric) (D : Data) (M : Memory) (x y : Nat → ℝ) (k : Nat) (hk : k = 0 ∨ k = S.levels) :
    Vdyn.product (jacobianUpdates S G (setupColumn S D M) x) y (3 * k + 1) = y (3 * k + 1) / S.dt := by
  have hflux : product ((List.range S.levels).flatMap (fluxUpdates S G (setupColumn S D M) x)) y (3 * k + 1) = 0 := by
    rw [show fluxUpdates S G (setupColumn S D M) x = Vdyn.fluxUpdates S (physical G) (setupColumn S D M) x from
      funext fun k => flux_physical S G _ x k,
      product_levels _ List.nodup_range _ _ _ (fun k' hk' => flux_other S (physical G) _ x y k' _ hk'),
      show (3 * k + 1) / 3 = k by omega, flux_w]
    simp
  have hin : k ∉ List.range' 1 (S.levels - 1) := by
    rw [List.mem_range'_1]
    omega
  have hpress := product_levels (List.range' 1 (S.levels - 1)) List.nodup_range' (pressureUpdates S G (setupColumn S D M) x) y
    (3 * k + 1) (fun k' hk' => pressure_other S G _ x y k' _ (by omega))
  have hclark := product_levels (List.range' 1 (S.levels - 1)) List.nodup_range' (clarkUpdates S G (setupColumn S D M) x) y
    (3 * k + 1) (fun k' hk' => clark_other S G _ x y k' _ (by omega))
  rw [show (3 * k + 1) / 3 = k by omega, if_neg hin] at hpress hclark
  unfold jacobianUpdates
  simp only [product_append]
  rw [hflux, hpress, hclark, time_same, time_row S y _ (by omega)]
  ring

/-! ### Derivatives -/

theorem diffuse_deriv (S : Setup) (A : Op) (nu : ℝ) (x y : Nat → ℝ) (c : Nat) (ref : Nat → ℝ) (k : Nat) :
    HasDerivAt (fun t : ℝ => diffuse S A nu (fun j => x (3 * j + c) + t * y (3 * j + c)) ref k)
      (diffuse S A nu (fun j => y (3 * j + c)) (fun _ => 0) k) 0 := by
  unfold diffuse
  by_cases hu : S.uniform = true
  · simp only [if_pos hu, applyRow_zero, sub_zero]
    exact ((applyRow_deriv A (fun t : ℝ => fun j => x (3 * j + c) + t * y (3 * j + c)) _ k 0
      fun j => line_deriv x y (3 * j + c) 0).sub_const _).const_mul _
  · simp only [if_neg hu]
    exact hasDerivAt_const _ _

/-- **C137 (levels).**  Along any direction, the derivative of the residuals of density and of density times potential temperature is the
Jacobian times the direction, but for uniform diffusion, which the Jacobian leaves out. -/
theorem C137_levels {S : Setup} {node edge : Nat → ℝ} {gauss lob : List ℝ × List ℝ} (E : Elements S node edge gauss lob)
    (hL : Lorenz S) (G : Metric) (D : Data) (M : Memory) (href : S.useRef = true) (x y : Nat → ℝ) (k : Nat) (hk : k < S.levels) :
    HasDerivAt (fun t => residual S G (setupColumn S D M) (fun i => x i + t * y i) (3 * k + 2))
      (Vdyn.product (jacobianUpdates S G (setupColumn S D M) x) y (3 * k + 2)) 0 ∧
    HasDerivAt (fun t => residual S G (setupColumn S D M) (fun i => x i + t * y i) (3 * k))
      (Vdyn.product (jacobianUpdates S G (setupColumn S D M) x) y (3 * k) -
        diffuse S S.diffDiffNN S.nuScalar (fun j => y (3 * j)) (fun _ => 0) k) 0 := by
  have hX : (fun i => x i + (0 : ℝ) * y i) = x := by funext i; simp
  have hfl : ∀ c, HasDerivAt (fun t => applyRow S.diffEN (flux S (physical G) (asColumn D fun i => x i + t * y i)
        (fun j => x (3 * j + c) + t * y (3 * j + c))) k / G.jac k)
      (applyRow S.diffEN (fun m => G.jacEdge m * (applyRow S.interpNE (fun n => x (3 * n + c)) m * windChange S (physical G) y m +
        applyRow S.interpNE (fun n => y (3 * n + c)) m * verticalWind S (physical G) (asColumn D x) m)) k / G.jac k) 0 := by
    intro c
    refine (applyRow_deriv _ _ _ k 0 fun m => ?_).div_const _
    unfold flux
    have d1 := applyRow_deriv S.interpNE (fun t : ℝ => fun j => x (3 * j + c) + t * y (3 * j + c)) (fun j => y (3 * j + c)) m 0
      (fun j => line_deriv x y (3 * j + c) 0)
    have d2 := (d1.const_mul (G.jacEdge m)).mul (wind_deriv S (physical G) D x y m)
    refine d2.congr_deriv ?_
    simp only [zero_mul, add_zero]
    ring
  have ht : ∀ i : Nat, ∀ b : ℝ, HasDerivAt (fun t => (x i + t * y i - b) / S.dt) (y i / S.dt) 0 := fun i b =>
    ((line_deriv x y i 0).sub_const b).div_const _
  constructor
  · have e : (fun t : ℝ => residual S G (setupColumn S D M) (fun i => x i + t * y i) (3 * k + 2)) = fun t => _ :=
      funext fun t => (C136_levels hL G D M (fun i => x i + t * y i) href k hk).1
    rw [e, product_level E hL G D M x y k 2 (Or.inr rfl) hk]
    exact (hfl 2).add (ht (3 * k + 2) (D.node 4 k))
  · have e : (fun t : ℝ => residual S G (setupColumn S D M) (fun i => x i + t * y i) (3 * k)) = fun t => _ :=
      funext fun t => (C136_levels hL G D M (fun i => x i + t * y i) href k hk).2
    have hp := product_level E hL G D M x y k 0 (Or.inl rfl) hk
    rw [Nat.add_zero] at hp
    rw [e, hp]
    refine (((hfl 0).sub (diffuse_deriv S S.diffDiffNN S.nuScalar x y 0 (D.refNode 2) k)).add (ht (3 * k) (D.node 2 k))).congr_deriv ?_
    simp only [Nat.add_zero]
    ring

/-- **C137 (interfaces).**  Along any direction, the derivative of the residual of vertical velocity is the Jacobian times the direction,
but for uniform diffusion and for shear over sloping interfaces, which the Jacobian leaves out, and for the change of the Exner pressure,
which it divides by the derivative of height on level `k` instead of that on interface `k`. -/
theorem C137_interfaces {S : Setup} {node edge : Nat → ℝ} {gauss lob : List ℝ × List ℝ} (E : Elements S node edge gauss lob)
    (hL : Lorenz S) (G : Metric) (hsym : ∀ k < S.levels, G.conA k 2 = G.conXi k 0 ∧ G.conB k 2 = G.conXi k 1)
    (D : Data) (M : Memory) (href : S.useRef = true) (x y : Nat → ℝ) (hp0 : S.phys.r / S.phys.p0 ≠ 0)
    (hp : ∀ k < S.levels, x (3 * k) ≠ 0) (k : Nat) (h0 : 0 < k) (hk : k < S.levels)
    (hr : applyRow S.interpNE (asColumn D x).r k ≠ 0) (hd : G.derivREdge k ≠ 0) :
    HasDerivAt (fun t => residual S G (setupColumn S D M) (fun i => x i + t * y i) (3 * k + 1))
      (Vdyn.product (jacobianUpdates S G (setupColumn S D M) x) y (3 * k + 1) - slope S G D k * y (3 * k + 1) -
        diffuse S S.diffDiffEE S.nuVector (fun j => y (3 * j + 1)) (fun _ => 0) k -
        (1 / G.derivR k - 1 / G.derivREdge k) * pressureChange S D x y k) 0 := by
  have hend : (S.diffNE.row k).iend ≤ S.levels := by
    obtain ⟨solve, hs, hA, -, -⟩ := E.setup
    obtain ⟨-, hN, hm, f, -, -, -, hrow⟩ := flux_cases hA
    rw [hrow]
    exact le_trans (fluxRow_range f S.order (S.levels / S.order) node edge true (edge k) hm).1 (by rw [← hN])
  have dp := applyRow_deriv S.interpNE (fun t : ℝ => fun j => x (3 * j) + t * y (3 * j)) _ k 0 fun j => line_deriv x y (3 * j) 0
  have dr := applyRow_deriv S.interpNE (fun t : ℝ => fun j => x (3 * j + 2) + t * y (3 * j + 2)) _ k 0
    fun j => line_deriv x y (3 * j + 2) 0
  have dth : HasDerivAt (fun t => theta S (asColumn D fun i => x i + t * y i) k) _ 0 :=
    dp.div dr (by simpa only [zero_mul, add_zero] using hr)
  have dex := applyRow_deriv_in S.diffNE (fun t : ℝ => exner S (asColumn D fun i => x i + t * y i)) _ k 0
    fun j hj => exner_deriv S D x y hp0 j (hp j (by omega))
  have dkin := applyRow_deriv_in S.diffNE (fun t : ℝ => kinetic S G (asColumn D fun i => x i + t * y i))
    (fun l => (G.conXi l 0 * D.node 0 l + G.conXi l 1 * D.node 1 l +
      G.conXi l 2 * (applyRow S.interpEN (asColumn D x).w l * G.derivR l)) *
        (G.derivR l * applyRow S.interpEN (fun m => y (3 * m + 1)) l)) k 0
    (by
      intro j hj
      have dw := (applyRow_deriv S.interpEN (fun t : ℝ => fun m => x (3 * m + 1) + t * y (3 * m + 1)) _ j 0
        fun m => line_deriv x y (3 * m + 1) 0).mul_const (G.derivR j)
      obtain ⟨e1, e2⟩ := hsym j (by omega)
      have d := (((((dw.const_mul (G.conA j 2)).const_add (G.conA j 0 * D.node 0 j + G.conA j 1 * D.node 1 j)).mul_const
        (D.node 0 j)).add (((dw.const_mul (G.conB j 2)).const_add (G.conB j 0 * D.node 0 j + G.conB j 1 * D.node 1 j)).mul_const
        (D.node 1 j))).add (((dw.const_mul (G.conXi j 2)).const_add (G.conXi j 0 * D.node 0 j + G.conXi j 1 * D.node 1 j)).mul
        dw)).div_const 2
      refine d.congr_deriv ?_
      simp only [zero_mul, add_zero, asColumn]
      rw [e1, e2]
      ring)
  have dsh : HasDerivAt (fun t => shear S (physical G) (asColumn D fun i => x i + t * y i) k)
      (slope S (physical G) D k * y (3 * k + 1)) 0 := by
    have dw := line_deriv x y (3 * k + 1) 0
    have d := (((dw.const_mul ((physical G).conAEdge k 2)).const_add ((physical G).conAEdge k 0 * applyRow S.interpNE (D.node 0) k +
      (physical G).conAEdge k 1 * applyRow S.interpNE (D.node 1) k)).mul_const (applyRow S.diffNE (D.node 0) k)).add
      (((dw.const_mul ((physical G).conBEdge k 2)).const_add ((physical G).conBEdge k 0 * applyRow S.interpNE (D.node 0) k +
      (physical G).conBEdge k 1 * applyRow S.interpNE (D.node 1) k)).mul_const (applyRow S.diffNE (D.node 1) k))
    refine d.congr_deriv ?_
    unfold Vdyn.slope
    ring
  have hslope : slope S (physical G) D k = slope S G D k * G.derivREdge k := by
    unfold Vdyn.slope physical
    simp only [if_true]
    ring
  have ddif := diffuse_deriv S S.diffDiffEE S.nuVector x y 1 (D.refEdge 3) k
  have dt : HasDerivAt (fun t => (x (3 * k + 1) + t * y (3 * k + 1) - D.edge 3 k) / S.dt) (y (3 * k + 1) / S.dt) 0 :=
    ((line_deriv x y (3 * k + 1) 0).sub_const _).div_const _
  have e : (fun t : ℝ => residual S G (setupColumn S D M) (fun i => x i + t * y i) (3 * k + 1)) = fun t => _ :=
    funext fun t => (C136_velocity hL G D M (fun i => x i + t * y i) href k).1 h0 hk
  rw [e, product_interface hL G D M x y k h0 hk]
  refine ((((((dth.mul dex).add dkin).sub dsh).div_const (G.derivREdge k)).add_const S.phys.g).sub ddif).add dt |>.congr_deriv ?_
  have hmul : applyRow S.diffNE (fun j => S.phys.r / (S.phys.cp - S.phys.r) * (exner S (asColumn D x) j / x (3 * j) * y (3 * j))) k =
      S.phys.r / (S.phys.cp - S.phys.r) * applyRow S.diffNE (fun j => exner S (asColumn D x) j / x (3 * j) * y (3 * j)) k := by
    rw [Vdyn.applyRow_eq, Vdyn.applyRow_eq, mul_sum]
    exact sum_congr rfl fun j _ => by ring
  rw [hmul, hslope]
  unfold pressureChange
  simp only [theta, zero_mul, add_zero, asColumn] at hr ⊢
  generalize applyRow S.interpNE (fun k => x (3 * k + 2)) k = r at *
  generalize G.derivREdge k = d at *
  have h1 : S.phys.r / (S.phys.cp - S.phys.r) = S.phys.r * (S.phys.cp - S.phys.r)⁻¹ := div_eq_mul_inv _ _
  have h2 : ∀ a b c e : ℝ, a / (b * c * e) = a * b⁻¹ * c⁻¹ * e⁻¹ := fun a b c e => by rw [div_eq_mul_inv, mul_inv, mul_inv]; ring
  rw [h1, h2, one_div (G.derivR k)]
  generalize (S.phys.cp - S.phys.r)⁻¹ = q
  generalize (G.derivR k)⁻¹ = n
  field_simp
  ring

/-- **C137 (ends).**  At the bottom and the top the derivative of the residual of vertical velocity is the Jacobian times the
direction. -/
theorem C137_ends {S : Setup} (hL : Lorenz S) (G : Metric) (D : Data) (M : Memory) (href : S.useRef = true) (x y : Nat → ℝ) (k : Nat)
    (hk : k = 0 ∨ k = S.levels) :
    HasDerivAt (fun t => residual S G (setupColumn S D M) (fun i => x i + t * y i) (3 * k + 1))
      (Vdyn.product (jacobianUpdates S G (setupColumn S D M) x) y (3 * k + 1)) 0 := by
  have e : (fun t : ℝ => residual S G (setupColumn S D M) (fun i => x i + t * y i) (3 * k + 1)) = fun t => _ :=
    funext fun t => (C136_velocity hL G D M (fun i => x i + t * y i) href k).2 hk
  rw [e, product_end G D M x y k hk]
  exact ((line_deriv x y (3 * k + 1) 0).sub_const _).div_const _

/-- **C137 (derivative; partial).**  Without uniform diffusion and without shear over sloping interfaces, where height grows along the
vertical coordinate on every inner interface as on the level above it, the Jacobian times any direction is the derivative of the residual
along the direction, in the equation of every unknown; no assumption on the wind.  Missing: what `C137_interfaces` and `C137_levels`
show the Jacobian to leave out or to divide by another number. -/
theorem C137_derivative_partial {S : Setup} {node edge : Nat → ℝ} {gauss lob : List ℝ × List ℝ} (E : Elements S node edge gauss lob)
    (hL : Lorenz S) (G : Metric) (hsym : ∀ k < S.levels, G.conA k 2 = G.conXi k 0 ∧ G.conB k 2 = G.conXi k 1)
    (D : Data) (M : Memory) (href : S.useRef = true) (x y : Nat → ℝ) (hp0 : S.phys.r / S.phys.p0 ≠ 0)
    (hp : ∀ k < S.levels, x (3 * k) ≠ 0)
    (hr : ∀ k, 0 < k → k < S.levels → applyRow S.interpNE (asColumn D x).r k ≠ 0)
    (hd : ∀ k, 0 < k → k < S.levels → G.derivREdge k ≠ 0 ∧ G.derivR k = G.derivREdge k)
    (hu : S.uniform = false) (hslope : ∀ k, 0 < k → k < S.levels → slope S G D k = 0) (i : Nat) (hi : IsUnknown S i) :
    HasDerivAt (fun t => residual S G (setupColumn S D M) (fun i => x i + t * y i) i)
      (Vdyn.product (jacobianUpdates S G (setupColumn S D M) x) y i) 0 := by
  have hz : ∀ A nu f g k, diffuse S A nu f g k = 0 := fun A nu f g k => by unfold diffuse; rw [hu]; simp
  obtain ⟨h1, h2⟩ := hi
  obtain h | h | h : i = 3 * (i / 3) ∨ i = 3 * (i / 3) + 1 ∨ i = 3 * (i / 3) + 2 := by omega
  · have := (C137_levels E hL G D M href x y (i / 3) (by omega)).2
    rw [hz, sub_zero, ← h] at this
    exact this
  · by_cases hk : i / 3 = 0 ∨ i / 3 = S.levels
    · have := C137_ends hL G D M href x y (i / 3) hk
      rw [← h] at this
      exact this
    · have hk0 : 0 < i / 3 := by omega
      have hkl : i / 3 < S.levels := by omega
      have := C137_interfaces E hL G hsym D M href x y hp0 hp (i / 3) hk0 hkl (hr _ hk0 hkl) (hd _ hk0 hkl).1
      rw [hz, sub_zero, hslope _ hk0 hkl, zero_mul, sub_zero, (hd _ hk0 hkl).2, sub_self, zero_mul, sub_zero, ← h] at this
      exact this
  · have := (C137_levels E hL G D M href x y (i / 3) (by omega)).1
    rw [← h] at this
    exact this

end Verif.ColumnV2
