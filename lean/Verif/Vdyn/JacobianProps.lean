/-
C91: the Jacobian of the vertical equations is the derivative of the residual, up to two terms that the code leaves out.
-/
import Verif.Vdyn.JacobianLemmas
import Verif.Vdyn.Energy
import Mathlib.Analysis.Calculus.Deriv.Abs
import Mathlib.Analysis.SpecialFunctions.ExpDeriv
import Mathlib.Analysis.SpecialFunctions.Log.Deriv

namespace Verif.Vdyn

open Verif.Column Verif.Interp Finset Polynomial

/-! ### The Jacobian times a vector, in the words of the specification -/

theorem signWeight_eq {S : Setup} (hL : Lorenz S) (G : Metric) (D : Data) (M : Memory) (x y : Nat → ℝ) (k : Nat) :
    signWeight S G (setupColumn S D M) x k * y (3 * k + 1) = sgn (verticalWind S G (asColumn D x) k) * windChange S G y k := by
  unfold signWeight sgn windChange
  rw [wind_eq hL]
  by_cases hk : k = 0 ∨ S.levels ≤ k
  · rw [verticalWind, if_pos hk, if_pos hk]
    simp
  · rw [if_neg hk]
    split_ifs <;> ring

theorem penalty_facts {S : Setup} {node edge : Nat → ℝ} {gauss lob : List ℝ × List ℝ} (E : Elements S node edge gauss lob) :
    0 < S.order ∧ S.levels = S.levels / S.order * S.order ∧ 0 < S.levels / S.order ∧
    (S.levels / S.order = 1 → ∀ w y out i o, penaltyApply S.penalty w y out i o = out) ∧
    (1 < S.levels / S.order → S.penalty.n = S.order ∧ S.penalty.m = S.levels / S.order ∧
      S.penalty.left.rows = S.penalty.m * S.penalty.n ∧ S.penalty.right.rows = S.penalty.m * S.penalty.n) := by
  obtain ⟨solve, hs, hA, -, hP⟩ := E.setup
  obtain ⟨hn, hN, hm, -⟩ := flux_cases hA
  refine ⟨hn, hN, hm, fun h1 w y out i o => (C87_refused solve S.order S.levels (S.levels + 1) node edge hn).2 _ _ _ _ _ _ hP h1,
    fun h1 => ?_⟩
  obtain ⟨-, -, f, -, hPe⟩ := init_cases hP h1
  rw [hPe]
  exact ⟨rfl, rfl, hN, hN⟩

/-- Rows of levels. -/
theorem product_level {S : Setup} {node edge : Nat → ℝ} {gauss lob : List ℝ × List ℝ} (E : Elements S node edge gauss lob)
    (hL : Lorenz S) (G : Metric) (D : Data) (M : Memory) (x y : Nat → ℝ) (k c : Nat) (hc : c = 0 ∨ c = 2) (hk : k < S.levels) :
    product (jacobianUpdates S G (setupColumn S D M) x) y (3 * k + c) =
      applyRow S.diffEN (fun m => G.jacEdge m * (applyRow S.interpNE (fun n => x (3 * n + c)) m * windChange S G y m +
        applyRow S.interpNE (fun n => y (3 * n + c)) m * verticalWind S G (asColumn D x) m)) k / G.jac k -
      penaltyApply S.penalty (fun a => |verticalWind S G (asColumn D x) ((a + 1) * S.order)|) (fun l => y (3 * l + c))
        (fun _ => 0) 1 1 k -
      penaltyApply S.penalty (fun a => sgn (verticalWind S G (asColumn D x) ((a + 1) * S.order)) *
        windChange S G y ((a + 1) * S.order)) (fun l => x (3 * l + c)) (fun _ => 0) 1 1 k + y (3 * k + c) / S.dt := by
  obtain ⟨hn, hN, hm, hone, hmany⟩ := penalty_facts E
  obtain ⟨solve, hs, hA, hB, hP⟩ := E.setup
  obtain ⟨hr, hcol, hrange, -⟩ := C70_interfaces S.order S.levels (S.levels + 1) node edge S.levels node false S.diffEN hB E.separated
    0 0 (fun _ => 0)
  have hend := (hrange k (by omega)).1
  rw [hcol] at hend
  have hper : perElement S = S.order := by simp [perElement, E.elements]
  have hne : nElements S = S.levels / S.order := by simp [nElements, E.elements]
  have hnode : nodeState S (setupColumn S D M) x (c + 2) = fun l => x (3 * l + c) := by
    rcases hc with rfl | rfl
    · rw [node_two hL]; rfl
    · rw [node_four hL]; rfl
  have hedge : edgeState S (setupColumn S D M) x (c + 2) = applyRow S.interpNE (fun n => x (3 * n + c)) := by
    rcases hc with rfl | rfl
    · rw [edge_two hL]; rfl
    · rw [edge_four hL]; rfl
  have hflux : product ((List.range S.levels).flatMap (fluxUpdates S G (setupColumn S D M) x)) y (3 * k + c) =
      applyRow S.diffEN (fun m => G.jacEdge m * (applyRow S.interpNE (fun n => x (3 * n + c)) m * windChange S G y m +
        applyRow S.interpNE (fun n => y (3 * n + c)) m * verticalWind S G (asColumn D x) m)) k / G.jac k := by
    rw [product_levels _ List.nodup_range _ _ _ (fun k' hk' => flux_other S G _ x y k' _ hk'),
      show (3 * k + c) / 3 = k by omega, if_pos (List.mem_range.2 hk), flux_row S G _ x y k c hc, wind_eq hL, hedge,
      applyRow_eq, applyRow_eq]
    congr 1
    apply sum_congr rfl
    intro m hmem
    rw [mem_Ico] at hmem
    congr 3
    unfold windChange
    by_cases h0 : m ≠ 0 ∧ m ≠ S.levels
    · rw [if_pos h0, if_neg (by omega)]
    · rw [if_neg h0, if_pos (by omega), mul_zero]
  have hpress : ∀ l : List Nat, product (l.flatMap (pressureUpdates S (setupColumn S D M) x)) y (3 * k + c) = 0 := fun l => by
    rw [product_flatMap]
    exact sum_zero _ _ fun k' => pressure_other S _ x y k' _ (by omega)
  have hclark : ∀ l : List Nat, product (l.flatMap (clarkUpdates S G (setupColumn S D M) x)) y (3 * k + c) = 0 := fun l => by
    rw [product_flatMap]
    exact sum_zero _ _ fun k' => clark_other S G _ x y k' _ (by omega)
  have hup3 : product (upwindUpdates S G (setupColumn S D M) x 3) y (3 * k + c) = 0 := by
    have : onEdge S 3 = true := by simp [onEdge, hL.1]
    rw [upwindUpdates, this, if_pos rfl, upwindEdge_other S G _ x y _ (by omega)]
  have hlev : ∀ c' : Nat, c' = 2 ∨ c' = 4 → upwindUpdates S G (setupColumn S D M) x c' =
      (List.range' 1 (nElements S - 1)).flatMap (upwindLevelUpdates S G (setupColumn S D M) x c') := by
    intro c' hc'
    have : onEdge S c' = false := by
      rcases hc' with rfl | rfl
      · simp [onEdge, hL.2.1]
      · simp [onEdge]
    rw [upwindUpdates, this]
    simp
  have hupo : ∀ c' : Nat, c' = 2 ∨ c' = 4 → c' ≠ c + 2 → product (upwindUpdates S G (setupColumn S D M) x c') y (3 * k + c) = 0 := by
    intro c' hc' hne
    rw [hlev c' hc', product_flatMap]
    exact sum_zero _ _ fun a => upwindLevel_other S G _ x y c' a _ hc' (by omega)
  have hup : product (upwindUpdates S G (setupColumn S D M) x (c + 2)) y (3 * k + c) =
      -penaltyApply S.penalty (fun a => |verticalWind S G (asColumn D x) ((a + 1) * S.order)|) (fun l => y (3 * l + c))
        (fun _ => 0) 1 1 k -
      penaltyApply S.penalty (fun a => sgn (verticalWind S G (asColumn D x) ((a + 1) * S.order)) *
        windChange S G y ((a + 1) * S.order)) (fun l => x (3 * l + c)) (fun _ => 0) 1 1 k := by
    rw [hlev (c + 2) (by omega)]
    by_cases h1 : S.levels / S.order = 1
    · rw [hone h1, hone h1, hne, h1]
      simp [product]
    · obtain ⟨p1, p2, p3, p4⟩ := hmany (by omega)
      have := upwindLevel_row S G (setupColumn S D M) x y (c + 2) (by omega) (by rw [p1, hper]) (by rw [p2, hne]) p3 p4
        (by rw [hper]; exact hn) k (by rw [hper, hne, ← hN]; exact hk)
      rw [show c + 2 - 2 = c by omega] at this
      rw [this, hper, hnode, wind_eq hL]
      congr 3
      funext a
      exact signWeight_eq hL G D M x y _
  unfold jacobianUpdates
  simp only [product_append]
  rw [hflux, hpress, hclark, hup3, time_row S y _ (by omega)]
  rcases hc with rfl | rfl
  · rw [hup, hupo 4 (by omega) (by omega)]
    ring
  · rw [hupo 2 (by omega) (by omega), hup]
    ring

/-- Rows of interfaces. -/
theorem product_interface {S : Setup} (hL : Lorenz S) (G : Metric) (D : Data) (M : Memory) (x y : Nat → ℝ) (k : Nat) (h0 : 0 < k)
    (hk : k < S.levels) :
    product (jacobianUpdates S G (setupColumn S D M) x) y (3 * k + 1) =
      applyRow S.interpNE (asColumn D x).p k * S.phys.r / (applyRow S.interpNE (asColumn D x).r k * (S.phys.cp - S.phys.r)) *
        applyRow S.diffNE (fun m => exner S (asColumn D x) m / x (3 * m) * y (3 * m)) k +
      1 / (applyRow S.interpNE (asColumn D x).r k * applyRow S.interpNE (asColumn D x).r k) *
        applyRow S.diffNE (exner S (asColumn D x)) k *
        (applyRow S.interpNE (fun n => y (3 * n)) k * applyRow S.interpNE (asColumn D x).r k -
          applyRow S.interpNE (fun n => y (3 * n + 2)) k * applyRow S.interpNE (asColumn D x).p k) +
      applyRow S.diffNE (fun l => (G.conXi l 0 * D.node 0 l + G.conXi l 1 * D.node 1 l +
        G.conXi l 2 * applyRow S.interpEN (asColumn D x).w l) * applyRow S.interpEN (fun m => y (3 * m + 1)) l) k -
      (sgn (verticalWind S G (asColumn D x) k) * windChange S G y k * applyRow S.diffDiffEE (asColumn D x).w k +
        |verticalWind S G (asColumn D x) k| * applyRow S.diffDiffEE (fun n => y (3 * n + 1)) k) / (2 * S.levels) +
      y (3 * k + 1) / S.dt := by
  have hflux : product ((List.range S.levels).flatMap (fluxUpdates S G (setupColumn S D M) x)) y (3 * k + 1) = 0 := by
    rw [product_levels _ List.nodup_range _ _ _ (fun k' hk' => flux_other S G _ x y k' _ hk'),
      show (3 * k + 1) / 3 = k by omega, flux_w]
    simp
  have hin : k ∈ List.range' 1 (S.levels - 1) := by
    rw [List.mem_range'_1]
    omega
  have hpress := product_levels (List.range' 1 (S.levels - 1)) List.nodup_range' (pressureUpdates S (setupColumn S D M) x) y
    (3 * k + 1) (fun k' hk' => pressure_other S _ x y k' _ (by omega))
  have hclark := product_levels (List.range' 1 (S.levels - 1)) List.nodup_range' (clarkUpdates S G (setupColumn S D M) x) y
    (3 * k + 1) (fun k' hk' => clark_other S G _ x y k' _ (by omega))
  rw [show (3 * k + 1) / 3 = k by omega, if_pos hin] at hpress hclark
  have hlev : ∀ c' : Nat, c' = 2 ∨ c' = 4 → product (upwindUpdates S G (setupColumn S D M) x c') y (3 * k + 1) = 0 := by
    intro c' hc'
    have : onEdge S c' = false := by
      rcases hc' with rfl | rfl
      · simp [onEdge, hL.2.1]
      · simp [onEdge]
    rw [upwindUpdates, this]
    simp only [Bool.false_eq_true, if_false]
    rw [product_flatMap]
    exact sum_zero _ _ fun a => upwindLevel_other S G _ x y c' a _ hc' (by omega)
  have hup3 : product (upwindUpdates S G (setupColumn S D M) x 3) y (3 * k + 1) =
      -(1 / 2 * (1 / (S.levels : ℝ)) * (signWeight S G (setupColumn S D M) x k * y (3 * k + 1) *
        applyRow S.diffDiffEE (edgeState S (setupColumn S D M) x 3) k +
        |xiDotEdge S G (setupColumn S D M) x k| * applyRow S.diffDiffEE (fun n => y (3 * n + 1)) k)) := by
    have : onEdge S 3 = true := by simp [onEdge, hL.1]
    rw [upwindUpdates, this, if_pos rfl, upwindEdge_row S G _ x y k (by omega)]
  unfold jacobianUpdates
  simp only [product_append]
  rw [hflux, hpress, hclark, hlev 2 (by omega), hup3, hlev 4 (by omega), time_row S y _ (by omega), pressure_row, clark_row,
    edge_two hL, edge_four hL, edge_three hL, wind_eq hL, signWeight_eq hL]
  unfold diffPEdge
  rw [exner_eq hL, node_two hL]
  have hxi : xiDotNode S G (setupColumn S D M) x = fun l => G.conXi l 0 * D.node 0 l + G.conXi l 1 * D.node 1 l +
      G.conXi l 2 * applyRow S.interpEN (asColumn D x).w l := by
    funext l
    unfold xiDotNode
    rw [node_zero hL, node_one hL, node_three hL]
  rw [hxi]
  dsimp only [asColumn]
  ring

/-- Rows of the bottom and the top. -/
theorem product_end {S : Setup} (hL : Lorenz S) (G : Metric) (D : Data) (M : Memory) (x y : Nat → ℝ) (k : Nat)
    (hk : k = 0 ∨ k = S.levels) :
    product (jacobianUpdates S G (setupColumn S D M) x) y (3 * k + 1) = y (3 * k + 1) / S.dt := by
  have hflux : product ((List.range S.levels).flatMap (fluxUpdates S G (setupColumn S D M) x)) y (3 * k + 1) = 0 := by
    rw [product_levels _ List.nodup_range _ _ _ (fun k' hk' => flux_other S G _ x y k' _ hk'),
      show (3 * k + 1) / 3 = k by omega, flux_w]
    simp
  have hin : k ∉ List.range' 1 (S.levels - 1) := by
    rw [List.mem_range'_1]
    omega
  have hpress := product_levels (List.range' 1 (S.levels - 1)) List.nodup_range' (pressureUpdates S (setupColumn S D M) x) y
    (3 * k + 1) (fun k' hk' => pressure_other S _ x y k' _ (by omega))
  have hclark := product_levels (List.range' 1 (S.levels - 1)) List.nodup_range' (clarkUpdates S G (setupColumn S D M) x) y
    (3 * k + 1) (fun k' hk' => clark_other S G _ x y k' _ (by omega))
  rw [show (3 * k + 1) / 3 = k by omega, if_neg hin] at hpress hclark
  have hlev : ∀ c' : Nat, c' = 2 ∨ c' = 4 → product (upwindUpdates S G (setupColumn S D M) x c') y (3 * k + 1) = 0 := by
    intro c' hc'
    have : onEdge S c' = false := by
      rcases hc' with rfl | rfl
      · simp [onEdge, hL.2.1]
      · simp [onEdge]
    rw [upwindUpdates, this]
    simp only [Bool.false_eq_true, if_false]
    rw [product_flatMap]
    exact sum_zero _ _ fun a => upwindLevel_other S G _ x y c' a _ hc' (by omega)
  have hup3 : product (upwindUpdates S G (setupColumn S D M) x 3) y (3 * k + 1) = 0 := by
    have : onEdge S 3 = true := by simp [onEdge, hL.1]
    rw [upwindUpdates, this, if_pos rfl, upwindEdge_row S G _ x y k (by omega), wind_eq hL, signWeight_eq hL, windChange,
      if_pos (by omega), verticalWind, if_pos (by omega)]
    simp
  unfold jacobianUpdates
  simp only [product_append]
  rw [hflux, hpress, hclark, hlev 2 (by omega), hup3, hlev 4 (by omega), time_row S y _ (by omega)]
  ring

/-! ### Derivatives -/

theorem applyRow_deriv (A : Op) (f : ℝ → Nat → ℝ) (f' : Nat → ℝ) (k : Nat) (s : ℝ) (h : ∀ j, HasDerivAt (fun t => f t j) (f' j) s) :
    HasDerivAt (fun t => applyRow A (f t) k) (applyRow A f' k) s := by
  simp only [applyRow_eq]
  exact HasDerivAt.fun_sum fun j _ => (h j).const_mul _

/-- A column moved by `t` times `y`. -/
theorem line_deriv (x y : Nat → ℝ) (i : Nat) (s : ℝ) : HasDerivAt (fun t : ℝ => x i + t * y i) (y i) s := by
  simpa using ((hasDerivAt_id s).mul_const (y i)).const_add (x i)

theorem wind_deriv (S : Setup) (G : Metric) (D : Data) (x y : Nat → ℝ) (k : Nat) :
    HasDerivAt (fun t : ℝ => verticalWind S G (asColumn D fun i => x i + t * y i) k) (windChange S G y k) 0 := by
  unfold verticalWind windChange
  by_cases hk : k = 0 ∨ S.levels ≤ k
  · simp only [if_pos hk]
    exact hasDerivAt_const _ _
  · simp only [if_neg hk]
    exact HasDerivAt.const_add (G.conXiEdge k 0 * applyRow S.interpNE (D.node 0) k + G.conXiEdge k 1 * applyRow S.interpNE (D.node 1) k)
      ((line_deriv x y (3 * k + 1) 0).const_mul (G.conXiEdge k 2))

theorem abs_deriv {f : ℝ → ℝ} {f' s : ℝ} (h : HasDerivAt f f' s) (h0 : f s ≠ 0) : HasDerivAt (fun t => |f t|) (sgn (f s) * f') s := by
  unfold sgn
  rcases lt_or_gt_of_ne h0 with hneg | hpos
  · rw [if_neg (by linarith), if_pos hneg]
    exact (hasDerivAt_abs_neg hneg).comp s h
  · rw [if_pos hpos]
    exact (hasDerivAt_abs_pos hpos).comp s h

theorem penalty_deriv {S : Setup} {node edge : Nat → ℝ} {gauss lob : List ℝ × List ℝ} (E : Elements S node edge gauss lob)
    (w : ℝ → Nat → ℝ) (w' : Nat → ℝ) (q : ℝ → Nat → ℝ) (q' : Nat → ℝ) (s : ℝ)
    (hw : ∀ a, a + 1 < S.levels / S.order → HasDerivAt (fun t => w t a) (w' a) s) (hq : ∀ j, HasDerivAt (fun t => q t j) (q' j) s)
    (k : Nat) (hk : k < S.levels) :
    HasDerivAt (fun t => penaltyApply S.penalty (w t) (q t) (fun _ => 0) 1 1 k)
      (penaltyApply S.penalty (w s) q' (fun _ => 0) 1 1 k + penaltyApply S.penalty w' (q s) (fun _ => 0) 1 1 k) s := by
  obtain ⟨hn, hN, hm, hone, hmany⟩ := penalty_facts E
  by_cases h1 : S.levels / S.order = 1
  · simp only [hone h1, add_zero]
    exact hasDerivAt_const _ _
  · obtain ⟨p1, p2, p3, p4⟩ := hmany (by omega)
    have hkm : k / S.order < S.levels / S.order := (Nat.div_lt_iff_lt_mul hn).2 (by rw [← hN]; exact hk)
    have e : ∀ v z : Nat → ℝ, penaltyApply S.penalty v z (fun _ => 0) 1 1 k =
        (if k / S.order < S.levels / S.order - 1 then applyRow S.penalty.left z k * v (k / S.order) else 0) +
        (if 1 ≤ k / S.order then applyRow S.penalty.right z k * v (k / S.order - 1) else 0) := by
      intro v z
      have := apply_at S.penalty (by omega) p3 p4 v z (fun _ => 0) 1 1 one_pos k (by rw [p2, p1, ← hN]; exact hk)
      simp only [mul_one, zero_add] at this
      rw [this, p1, p2]
      rfl
    simp only [e]
    have d1 : HasDerivAt (fun t => if k / S.order < S.levels / S.order - 1 then applyRow S.penalty.left (q t) k * w t (k / S.order)
        else 0) (if k / S.order < S.levels / S.order - 1 then applyRow S.penalty.left q' k * w s (k / S.order) +
          applyRow S.penalty.left (q s) k * w' (k / S.order) else 0) s := by
      by_cases h : k / S.order < S.levels / S.order - 1
      · simp only [if_pos h]
        exact (applyRow_deriv _ _ _ k s hq).mul (hw _ (by omega))
      · simp only [if_neg h]
        exact hasDerivAt_const _ _
    have d2 : HasDerivAt (fun t => if 1 ≤ k / S.order then applyRow S.penalty.right (q t) k * w t (k / S.order - 1)
        else 0) (if 1 ≤ k / S.order then applyRow S.penalty.right q' k * w s (k / S.order - 1) +
          applyRow S.penalty.right (q s) k * w' (k / S.order - 1) else 0) s := by
      by_cases h : 1 ≤ k / S.order
      · simp only [if_pos h]
        exact (applyRow_deriv _ _ _ k s hq).mul (hw _ (by omega))
      · simp only [if_neg h]
        exact hasDerivAt_const _ _
    refine (d1.add d2).congr_deriv ?_
    split_ifs <;> ring

/-- **C91 (levels).**  Along any direction, the derivative of the residuals of density and of density times potential temperature
is the Jacobian times the direction, but for uniform diffusion, which the Jacobian leaves out. -/
theorem C91_levels {S : Setup} {node edge : Nat → ℝ} {gauss lob : List ℝ × List ℝ} (E : Elements S node edge gauss lob)
    (hL : Lorenz S) (G : Metric) (D : Data) (M : Memory) (href : S.useRef = true) (x y : Nat → ℝ)
    (hwind : ∀ k, 0 < k → k < S.levels → verticalWind S G (asColumn D x) k ≠ 0) (k : Nat) (hk : k < S.levels) :
    HasDerivAt (fun t => residual S G (setupColumn S D M) (fun i => x i + t * y i) (3 * k + 2))
      (product (jacobianUpdates S G (setupColumn S D M) x) y (3 * k + 2)) 0 ∧
    HasDerivAt (fun t => residual S G (setupColumn S D M) (fun i => x i + t * y i) (3 * k))
      (product (jacobianUpdates S G (setupColumn S D M) x) y (3 * k) -
        diffuse S S.diffDiffNN S.nuScalar (fun j => y (3 * j)) (fun _ => 0) k) 0 := by
  obtain ⟨hn, hN, hm, -⟩ := penalty_facts E
  have hX : (fun i => x i + (0 : ℝ) * y i) = x := by funext i; simp
  have hw : ∀ a, a + 1 < S.levels / S.order → HasDerivAt
      (fun t : ℝ => |verticalWind S G (asColumn D fun i => x i + t * y i) ((a + 1) * S.order)|)
      (sgn (verticalWind S G (asColumn D x) ((a + 1) * S.order)) * windChange S G y ((a + 1) * S.order)) 0 := by
    intro a ha
    have h1 : (a + 1) * S.order < S.levels / S.order * S.order := Nat.mul_lt_mul_of_pos_right ha hn
    have := abs_deriv (wind_deriv S G D x y ((a + 1) * S.order)) (by
      rw [hX]; exact hwind _ (Nat.mul_pos (by omega) hn) (by omega))
    rwa [hX] at this
  have hfl : ∀ c, HasDerivAt (fun t => applyRow S.diffEN (flux S G (asColumn D fun i => x i + t * y i)
        (fun j => x (3 * j + c) + t * y (3 * j + c))) k / G.jac k)
      (applyRow S.diffEN (fun m => G.jacEdge m * (applyRow S.interpNE (fun n => x (3 * n + c)) m * windChange S G y m +
        applyRow S.interpNE (fun n => y (3 * n + c)) m * verticalWind S G (asColumn D x) m)) k / G.jac k) 0 := by
    intro c
    refine (applyRow_deriv _ _ _ k 0 fun m => ?_).div_const _
    unfold flux
    have d1 := applyRow_deriv S.interpNE (fun t : ℝ => fun j => x (3 * j + c) + t * y (3 * j + c)) (fun j => y (3 * j + c)) m 0
      (fun j => line_deriv x y (3 * j + c) 0)
    have d2 := (d1.const_mul (G.jacEdge m)).mul (wind_deriv S G D x y m)
    refine d2.congr_deriv ?_
    simp only [zero_mul, add_zero]
    ring
  have hpe := fun c => penalty_deriv E (fun t a => |verticalWind S G (asColumn D fun i => x i + t * y i) ((a + 1) * S.order)|) _
    (fun t j => x (3 * j + c) + t * y (3 * j + c)) (fun j => y (3 * j + c)) 0 hw (fun j => line_deriv x y (3 * j + c) 0) k hk
  simp only [zero_mul, add_zero] at hpe
  have ht : ∀ i : Nat, ∀ b : ℝ, HasDerivAt (fun t => (x i + t * y i - b) / S.dt) (y i / S.dt) 0 := fun i b =>
    ((line_deriv x y i 0).sub_const b).div_const _
  constructor
  · have e : (fun t : ℝ => residual S G (setupColumn S D M) (fun i => x i + t * y i) (3 * k + 2)) = fun t => _ :=
      funext fun t => (C90_levels hL E.elements G D M (fun i => x i + t * y i) href k hk).1
    rw [e, product_level E hL G D M x y k 2 (Or.inr rfl) hk]
    refine (((hfl 2).sub (hpe 2)).add (ht (3 * k + 2) (D.node 4 k))).congr_deriv ?_
    ring
  · have e : (fun t : ℝ => residual S G (setupColumn S D M) (fun i => x i + t * y i) (3 * k)) = fun t => _ :=
      funext fun t => (C90_levels hL E.elements G D M (fun i => x i + t * y i) href k hk).2
    have hp := product_level E hL G D M x y k 0 (Or.inl rfl) hk
    rw [Nat.add_zero] at hp
    have hdif : HasDerivAt (fun t : ℝ => diffuse S S.diffDiffNN S.nuScalar (fun j => x (3 * j) + t * y (3 * j)) (D.refNode 2) k)
        (diffuse S S.diffDiffNN S.nuScalar (fun j => y (3 * j)) (fun _ => 0) k) 0 := by
      unfold diffuse
      by_cases hu : S.uniform = true
      · simp only [if_pos hu, applyRow_zero, sub_zero]
        exact ((applyRow_deriv S.diffDiffNN (fun t : ℝ => fun j => x (3 * j) + t * y (3 * j)) _ k 0
          fun j => line_deriv x y (3 * j) 0).sub_const _).const_mul _
      · simp only [if_neg hu]
        exact hasDerivAt_const _ _
    rw [e, hp]
    refine ((((hfl 0).sub (hpe 0)).sub hdif).add (ht (3 * k) (D.node 2 k))).congr_deriv ?_
    simp only [Nat.add_zero]
    ring

theorem applyRow_deriv_in (A : Op) (f : ℝ → Nat → ℝ) (f' : Nat → ℝ) (k : Nat) (s : ℝ)
    (h : ∀ j < (A.row k).iend, HasDerivAt (fun t => f t j) (f' j) s) :
    HasDerivAt (fun t => applyRow A (f t) k) (applyRow A f' k) s := by
  simp only [applyRow_eq]
  exact HasDerivAt.fun_sum fun j hj => (h j (mem_Ico.1 hj).2).const_mul _

theorem exner_deriv (S : Setup) (D : Data) (x y : Nat → ℝ) (hp0 : S.phys.r / S.phys.p0 ≠ 0) (j : Nat) (hj : x (3 * j) ≠ 0) :
    HasDerivAt (fun t : ℝ => exner S (asColumn D fun i => x i + t * y i) j)
      (S.phys.r / (S.phys.cp - S.phys.r) * (exner S (asColumn D x) j / x (3 * j) * y (3 * j))) 0 := by
  unfold exner
  have d0 := (line_deriv x y (3 * j) 0).const_mul (S.phys.r / S.phys.p0)
  have d1 := (((d0.log (by simpa using mul_ne_zero hp0 hj)).const_mul (S.phys.r / (S.phys.cp - S.phys.r))).exp).const_mul S.phys.cp
  refine d1.congr_deriv ?_
  simp only [zero_mul, add_zero, asColumn]
  generalize Real.exp _ = e
  generalize S.phys.r / S.phys.p0 = c at *
  field_simp

/-- **C91 (interfaces).**  Along any direction, the derivative of the residual of vertical velocity is the Jacobian times the
direction, but for uniform diffusion and for shear over sloping interfaces, which the Jacobian leaves out. -/
theorem C91_interfaces {S : Setup} {node edge : Nat → ℝ} {gauss lob : List ℝ × List ℝ} (E : Elements S node edge gauss lob)
    (hL : Lorenz S) (G : Metric) (hsym : ∀ k < S.levels, G.conA k 2 = G.conXi k 0 ∧ G.conB k 2 = G.conXi k 1)
    (D : Data) (M : Memory) (href : S.useRef = true) (x y : Nat → ℝ) (hp0 : S.phys.r / S.phys.p0 ≠ 0)
    (hp : ∀ k < S.levels, x (3 * k) ≠ 0) (k : Nat) (h0 : 0 < k) (hk : k < S.levels)
    (hr : applyRow S.interpNE (asColumn D x).r k ≠ 0) (hwind : verticalWind S G (asColumn D x) k ≠ 0) :
    HasDerivAt (fun t => residual S G (setupColumn S D M) (fun i => x i + t * y i) (3 * k + 1))
      (product (jacobianUpdates S G (setupColumn S D M) x) y (3 * k + 1) - slope S G D k * y (3 * k + 1) -
        diffuse S S.diffDiffEE S.nuVector (fun j => y (3 * j + 1)) (fun _ => 0) k) 0 := by
  have hX : (fun i => x i + (0 : ℝ) * y i) = x := by funext i; simp
  have hend : (S.diffNE.row k).iend ≤ S.levels := by
    obtain ⟨solve, hs, hA, -, -⟩ := E.setup
    obtain ⟨-, hN, hm, f, -, -, -, hrow⟩ := flux_cases hA
    rw [hrow]
    exact le_trans (fluxRow_range f S.order (S.levels / S.order) node edge true (edge k) hm).1 (by rw [← hN])
  have dp := applyRow_deriv S.interpNE (fun t : ℝ => fun j => x (3 * j) + t * y (3 * j)) _ k 0 fun j => line_deriv x y (3 * j) 0
  have dr := applyRow_deriv S.interpNE (fun t : ℝ => fun j => x (3 * j + 2) + t * y (3 * j + 2)) _ k 0
    fun j => line_deriv x y (3 * j + 2) 0
  have dth : HasDerivAt (fun t => theta S (asColumn D fun i => x i + t * y i) k) _ 0 :=
    dp.div dr (by simpa only [zero_mul, add_zero] using hr)
  have dex := applyRow_deriv_in S.diffNE (fun t : ℝ => exner S (asColumn D fun i => x i + t * y i)) _ k 0
    fun j hj => exner_deriv S D x y hp0 j (hp j (by omega))
  have dkin := applyRow_deriv_in S.diffNE (fun t : ℝ => kinetic S G (asColumn D fun i => x i + t * y i))
    (fun l => (G.conXi l 0 * D.node 0 l + G.conXi l 1 * D.node 1 l +
      G.conXi l 2 * applyRow S.interpEN (asColumn D x).w l) * applyRow S.interpEN (fun m => y (3 * m + 1)) l) k 0
    (by
      intro j hj
      have dw := applyRow_deriv S.interpEN (fun t : ℝ => fun m => x (3 * m + 1) + t * y (3 * m + 1)) _ j 0
        fun m => line_deriv x y (3 * m + 1) 0
      obtain ⟨e1, e2⟩ := hsym j (by omega)
      have d := (((((dw.const_mul (G.conA j 2)).const_add (G.conA j 0 * D.node 0 j + G.conA j 1 * D.node 1 j)).mul_const
        (D.node 0 j)).add (((dw.const_mul (G.conB j 2)).const_add (G.conB j 0 * D.node 0 j + G.conB j 1 * D.node 1 j)).mul_const
        (D.node 1 j))).add (((dw.const_mul (G.conXi j 2)).const_add (G.conXi j 0 * D.node 0 j + G.conXi j 1 * D.node 1 j)).mul
        dw)).div_const 2
      refine d.congr_deriv ?_
      simp only [zero_mul, add_zero, asColumn]
      rw [e1, e2]
      ring)
  have dsh : HasDerivAt (fun t => shear S G (asColumn D fun i => x i + t * y i) k) (slope S G D k * y (3 * k + 1)) 0 := by
    have dw := line_deriv x y (3 * k + 1) 0
    have d := (((dw.const_mul (G.conAEdge k 2)).const_add (G.conAEdge k 0 * applyRow S.interpNE (D.node 0) k +
      G.conAEdge k 1 * applyRow S.interpNE (D.node 1) k)).mul_const (applyRow S.diffNE (D.node 0) k)).add
      (((dw.const_mul (G.conBEdge k 2)).const_add (G.conBEdge k 0 * applyRow S.interpNE (D.node 0) k +
      G.conBEdge k 1 * applyRow S.interpNE (D.node 1) k)).mul_const (applyRow S.diffNE (D.node 1) k))
    refine d.congr_deriv ?_
    unfold slope
    ring
  have ddif : HasDerivAt (fun t : ℝ => diffuse S S.diffDiffEE S.nuVector (fun j => x (3 * j + 1) + t * y (3 * j + 1)) (D.refEdge 3) k)
      (diffuse S S.diffDiffEE S.nuVector (fun j => y (3 * j + 1)) (fun _ => 0) k) 0 := by
    unfold diffuse
    by_cases hu : S.uniform = true
    · simp only [if_pos hu, applyRow_zero, sub_zero]
      exact ((applyRow_deriv S.diffDiffEE (fun t : ℝ => fun j => x (3 * j + 1) + t * y (3 * j + 1)) _ k 0
        fun j => line_deriv x y (3 * j + 1) 0).sub_const _).const_mul _
    · simp only [if_neg hu]
      exact hasDerivAt_const _ _
  have dup : HasDerivAt (fun t => upwindW S G (asColumn D fun i => x i + t * y i) k)
      ((sgn (verticalWind S G (asColumn D x) k) * windChange S G y k * applyRow S.diffDiffEE (asColumn D x).w k +
        |verticalWind S G (asColumn D x) k| * applyRow S.diffDiffEE (fun n => y (3 * n + 1)) k) / (2 * S.levels)) 0 := by
    have d1 := abs_deriv (wind_deriv S G D x y k) (by rw [hX]; exact hwind)
    have d2 := applyRow_deriv S.diffDiffEE (fun t : ℝ => fun m => x (3 * m + 1) + t * y (3 * m + 1)) _ k 0
      fun m => line_deriv x y (3 * m + 1) 0
    refine ((d1.div_const (2 * (S.levels : ℝ))).mul d2).congr_deriv ?_
    simp only [zero_mul, add_zero, asColumn]
    ring
  have dt : HasDerivAt (fun t => (x (3 * k + 1) + t * y (3 * k + 1) - D.edge 3 k) / S.dt) (y (3 * k + 1) / S.dt) 0 :=
    ((line_deriv x y (3 * k + 1) 0).sub_const _).div_const _
  have e : (fun t : ℝ => residual S G (setupColumn S D M) (fun i => x i + t * y i) (3 * k + 1)) = fun t => _ :=
    funext fun t => (C90_velocity hL G D M (fun i => x i + t * y i) href k).1 h0 hk
  rw [e, product_interface hL G D M x y k h0 hk]
  refine (((((((dth.mul dex).add_const (S.phys.g * G.derivREdge k)).add dkin).sub dsh).sub ddif).sub dup).add dt).congr_deriv ?_
  have hmul : applyRow S.diffNE (fun j => S.phys.r / (S.phys.cp - S.phys.r) * (exner S (asColumn D x) j / x (3 * j) * y (3 * j))) k =
      S.phys.r / (S.phys.cp - S.phys.r) * applyRow S.diffNE (fun j => exner S (asColumn D x) j / x (3 * j) * y (3 * j)) k := by
    rw [applyRow_eq, applyRow_eq, mul_sum]
    exact sum_congr rfl fun j _ => by ring
  rw [hmul]
  simp only [theta, zero_mul, add_zero, asColumn] at hr ⊢
  generalize applyRow S.interpNE (fun k => x (3 * k + 2)) k = r at *
  field_simp
  ring

/-- **C91 (ends).**  At the bottom and the top the derivative of the residual of vertical velocity is the Jacobian times the
direction. -/
theorem C91_ends {S : Setup} (hL : Lorenz S) (G : Metric) (D : Data) (M : Memory) (href : S.useRef = true) (x y : Nat → ℝ) (k : Nat)
    (hk : k = 0 ∨ k = S.levels) :
    HasDerivAt (fun t => residual S G (setupColumn S D M) (fun i => x i + t * y i) (3 * k + 1))
      (product (jacobianUpdates S G (setupColumn S D M) x) y (3 * k + 1)) 0 := by
  have e : (fun t : ℝ => residual S G (setupColumn S D M) (fun i => x i + t * y i) (3 * k + 1)) = fun t => _ :=
    funext fun t => (C90_velocity hL G D M (fun i => x i + t * y i) href k).2 hk
  rw [e, product_end hL G D M x y k hk]
  exact ((line_deriv x y (3 * k + 1) 0).sub_const _).div_const _

/-- The unknowns of a column: density and density times potential temperature on levels, vertical velocity on interfaces. -/
def IsUnknown (S : Setup) (i : Nat) : Prop := i < 3 * (S.levels + 1) ∧ (i % 3 = 1 ∨ i < 3 * S.levels)

/-- **C91 (derivative; partial).**  Without uniform diffusion and without shear over sloping interfaces, the Jacobian times any
direction is the derivative of the residual along the direction, in the equation of every unknown.  Missing: the terms that
`C91_interfaces` and `C91_levels` show the Jacobian to leave out. -/
theorem C91_derivative_partial {S : Setup} {node edge : Nat → ℝ} {gauss lob : List ℝ × List ℝ} (E : Elements S node edge gauss lob)
    (hL : Lorenz S) (G : Metric) (hsym : ∀ k < S.levels, G.conA k 2 = G.conXi k 0 ∧ G.conB k 2 = G.conXi k 1)
    (D : Data) (M : Memory) (href : S.useRef = true) (x y : Nat → ℝ) (hp0 : S.phys.r / S.phys.p0 ≠ 0)
    (hp : ∀ k < S.levels, x (3 * k) ≠ 0)
    (hr : ∀ k, 0 < k → k < S.levels → applyRow S.interpNE (asColumn D x).r k ≠ 0)
    (hwind : ∀ k, 0 < k → k < S.levels → verticalWind S G (asColumn D x) k ≠ 0)
    (hu : S.uniform = false) (hslope : ∀ k, 0 < k → k < S.levels → slope S G D k = 0) (i : Nat) (hi : IsUnknown S i) :
    HasDerivAt (fun t => residual S G (setupColumn S D M) (fun i => x i + t * y i) i)
      (product (jacobianUpdates S G (setupColumn S D M) x) y i) 0 := by
  have hz : ∀ A nu f g k, diffuse S A nu f g k = 0 := fun A nu f g k => by unfold diffuse; rw [hu]; simp
  obtain ⟨h1, h2⟩ := hi
  obtain h | h | h : i = 3 * (i / 3) ∨ i = 3 * (i / 3) + 1 ∨ i = 3 * (i / 3) + 2 := by omega
  · have := (C91_levels E hL G D M href x y hwind (i / 3) (by omega)).2
    rw [hz, sub_zero, ← h] at this
    exact this
  · by_cases hk : i / 3 = 0 ∨ i / 3 = S.levels
    · have := C91_ends hL G D M href x y (i / 3) hk
      rw [← h] at this
      exact this
    · have := C91_interfaces E hL G hsym D M href x y hp0 hp (i / 3) (by omega) (by omega) (hr _ (by omega) (by omega))
        (hwind _ (by omega) (by omega))
      rw [hz, sub_zero, hslope _ (by omega) (by omega), zero_mul, sub_zero, ← h] at this
      exact this
  · have := (C91_levels E hL G D M href x y hwind (i / 3) (by omega)).1
    rw [← h] at this
    exact this

/-- **C91 (refused).**  The Jacobian is built for vertical velocity on interfaces and density times potential temperature on
levels only; everything else is refused. -/
theorem C91_refused (S : Setup) (G : Metric) (M : Memory) (x : Nat → ℝ) :
    (jacobian S G M x = none ↔ S.pOnEdge = true ∨ S.wOnEdge = false) ∧
    (Lorenz S → jacobian S G M x = some (jacobianUpdates S G M x)) ∧
    (S.volumes = false → (offDiagonals S = none ↔ S.order = 0 ∨ 5 < S.order)) := by
  refine ⟨?_, ?_, ?_⟩
  · unfold jacobian
    cases S.pOnEdge <;> cases S.wOnEdge <;> simp
  · intro hL
    unfold jacobian
    rw [hL.1, hL.2.1]
    simp
  · intro hv
    unfold offDiagonals
    rw [hv]
    simp only [Bool.false_eq_true, if_false]
    split_ifs <;> simp <;> omega

/-! ### Band storage -/

theorem store_from (d : Nat) (us : List Update) (m : Int → ℝ) (a : Int) :
    us.foldl (fun m u => Function.update m (address d u.row u.col) (m (address d u.row u.col) + u.value)) m a =
      m a + (us.map fun u => if address d u.row u.col = a then u.value else 0).sum := by
  induction us generalizing m with
  | nil => simp
  | cons u us ih =>
    rw [List.foldl_cons, ih, List.map_cons, List.sum_cons]
    by_cases h : address d u.row u.col = a
    · rw [h, Function.update_self, if_pos rfl]
      ring
    · rw [Function.update_of_ne (Ne.symm h), if_neg h]
      ring

/-- Statements no further than twice the band width from the diagonal do not reach the entries of others. -/
theorem address_inj (d : Nat) (row col i j : Nat) (h1 : row ≤ col + 2 * d) (h2 : col ≤ row + 2 * d) (hi : i ≤ j + d) (hj : j ≤ i + d) :
    address d row col = (2 * d + i - j : Int) + (3 * d + 1) * j ↔ row = i ∧ col = j := by
  unfold address
  constructor
  · intro h
    have hcol : col = j := by
      rcases Nat.lt_trichotomy col j with hlt | heq | hgt
      · exfalso
        have h3 : ((3 : Int) * d + 1) * (col + 1) ≤ (3 * d + 1) * j := by
          apply mul_le_mul_of_nonneg_left <;> omega
        have e : ((3 : Int) * d + 1) * (col + 1) = (3 * d + 1) * col + (3 * d + 1) := by ring
        omega
      · exact heq
      · exfalso
        have h3 : ((3 : Int) * d + 1) * (j + 1) ≤ (3 * d + 1) * col := by
          apply mul_le_mul_of_nonneg_left <;> omega
        have e : ((3 : Int) * d + 1) * (j + 1) = (3 * d + 1) * j + (3 * d + 1) := by ring
        omega
    subst hcol
    exact ⟨by omega, rfl⟩
  · rintro ⟨rfl, rfl⟩
    rfl

/-- **C91 (band storage).**  What the solver takes for an entry inside the band is the sum of all that was added to the entry,
provided nothing was added further than twice the band width from the diagonal. -/
theorem C91_band (d : Nat) (us : List Update) (h : ∀ u ∈ us, u.row ≤ u.col + 2 * d ∧ u.col ≤ u.row + 2 * d) (i j : Nat) :
    banded d (store d us) i j = if i ≤ j + d ∧ j ≤ i + d then total us i j else 0 := by
  unfold banded
  by_cases hb : i ≤ j + d ∧ j ≤ i + d
  · rw [if_pos hb, if_pos hb]
    unfold store total
    rw [store_from, zero_add]
    congr 1
    apply List.map_congr_left
    intro u hu
    obtain ⟨h1, h2⟩ := h u hu
    have := address_inj d u.row u.col i j h1 h2 hb.1 hb.2
    by_cases hc : u.row = i ∧ u.col = j
    · rw [if_pos hc, if_pos (this.2 hc)]
    · rw [if_neg hc, if_neg (fun hh => hc (this.1 hh))]
  · rw [if_neg hb, if_neg hb]

/-- The matrix of the totals times a vector is the product. -/
theorem total_product (us : List Update) (n : Nat) (h : ∀ u ∈ us, u.value ≠ 0 → u.col < n) (y : Nat → ℝ) (i : Nat) :
    ∑ j ∈ range n, total us i j * y j = product us y i := by
  induction us with
  | nil => simp [total, product]
  | cons u us ih =>
    have e : ∀ j, total (u :: us) i j = (if u.row = i ∧ u.col = j then u.value else 0) + total us i j := fun j => by
      simp [total]
    have e' : product (u :: us) y i = (if u.row = i then u.value * y u.col else 0) + product us y i := by simp [product]
    simp only [e, add_mul, sum_add_distrib]
    rw [ih fun v hv => h v (List.mem_cons_of_mem _ hv), e']
    congr 1
    by_cases hr : u.row = i
    · rw [if_pos hr]
      by_cases hv : u.value = 0
      · simp [hv]
      · rw [sum_eq_single u.col]
        · rw [if_pos ⟨hr, rfl⟩]
        · intro j _ hj
          rw [if_neg (fun hh => hj hh.2.symm), zero_mul]
        · intro hn
          exact absurd (mem_range.2 (h u List.mem_cons_self hv)) hn
    · rw [if_neg hr]
      apply sum_eq_zero
      intro j _
      rw [if_neg (fun hh => hr hh.1), zero_mul]

/-- **C91 (what the solver multiplies by).**  If every statement that adds something lies in the band, the matrix that the
solver reads, times a vector, is the sum of the statements times the vector. -/
theorem C91_solver (d n : Nat) (us : List Update) (h2 : ∀ u ∈ us, u.row ≤ u.col + 2 * d ∧ u.col ≤ u.row + 2 * d)
    (hin : ∀ u ∈ us, u.value ≠ 0 → u.col < n ∧ u.row ≤ u.col + d ∧ u.col ≤ u.row + d) (y : Nat → ℝ) (i : Nat) :
    ∑ j ∈ range n, banded d (store d us) i j * y j = product us y i := by
  rw [← total_product us n (fun u hu hv => (hin u hu hv).1) y i]
  apply sum_congr rfl
  intro j _
  rw [C91_band d us h2]
  by_cases hb : i ≤ j + d ∧ j ≤ i + d
  · rw [if_pos hb]
  · rw [if_neg hb]
    have : total us i j = 0 := by
      unfold total
      apply List.sum_eq_zero
      intro v hv
      obtain ⟨u, hu, rfl⟩ := List.mem_map.1 hv
      by_cases hc : u.row = i ∧ u.col = j
      · by_contra hne
        rw [if_pos hc] at hne
        have := hin u hu hne
        omega
      · rw [if_neg hc]
    rw [this]

end Verif.Vdyn
