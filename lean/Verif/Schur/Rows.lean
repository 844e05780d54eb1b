/-
Lemmas: the equations of a column row by row, in terms of the data.
-/
import Verif.Schur.Solve

namespace Verif.Schur

open Verif.Column Verif.Vdyn Finset

section Physical
variable {S : Setup} (hL : Lorenz S) (G : Metric) (D : Data) (M : Memory) (x : Nat → ℝ)

theorem xiDot_physical (M : Memory) : xiDotEdge S G M x = Vdyn.xiDotEdge S (physical G) M x := by
  funext k
  unfold xiDotEdge Vdyn.xiDotEdge
  by_cases h : 1 ≤ k ∧ k < S.levels
  · rw [if_pos h, if_pos h]
    simp [physical]
    ring
  · rw [if_neg h, if_neg h]

theorem fluxUpdates_physical (M : Memory) (k : Nat) : fluxUpdates S G M x k = Vdyn.fluxUpdates S (physical G) M x k := by
  unfold fluxUpdates Vdyn.fluxUpdates
  rw [xiDot_physical]
  have e : ∀ m, (physical G).conXiEdge m 2 = G.conXiEdge m 2 * G.derivREdge m := fun m => by simp [physical]
  have ej : (physical G).jac = G.jac := rfl
  have ee : (physical G).jacEdge = G.jacEdge := rfl
  simp only [e, ej, ee, mul_assoc]

include hL

theorem wind_schur : xiDotEdge S G (setupColumn S D M) x = verticalWind S (physical G) (asColumn D x) := by
  rw [xiDot_physical, wind_eq hL]

theorem diffFlux_schur (c : Nat) (q : Nat → ℝ) (hc : edgeState S (setupColumn S D M) x c = applyRow S.interpNE q) :
    diffFlux S G (setupColumn S D M) x c = applyRow S.diffEN (flux S (physical G) (asColumn D x) q) := by
  rw [← Vdyn.flux_eq hL (physical G) D M x c q hc]
  unfold diffFlux Vdyn.diffFlux fluxOnLevels
  rw [hL.1, hL.2.2]
  simp only [Bool.not_true, Bool.or_self, Bool.false_eq_true, if_false, xiDot_physical]
  rfl

end Physical

theorem pressure_other (S : Setup) (G : Metric) (M : Memory) (x y : Nat → ℝ) (k i : Nat) (h : i ≠ 3 * k + 1) :
    Vdyn.product (pressureUpdates S G M x k) y i = 0 := by
  have h1 : vec 1 k ≠ i := by unfold vec; omega
  unfold pressureUpdates
  dsimp only
  rw [product_append, product_map, product_flatMap]
  have e1 : ∀ l : List Nat, ∀ f : Nat → ℝ, (l.map fun m => if (upd 0 m 1 k (f m)).row = i then
      (upd 0 m 1 k (f m)).value * y (upd 0 m 1 k (f m)).col else 0).sum = 0 := by
    intro l f
    simp [upd, h1]
  have e2 : ∀ l : List Nat, ∀ f g : Nat → ℝ, (l.map fun n => Vdyn.product [upd 0 n 1 k (f n), upd 2 n 1 k (g n)] y i).sum = 0 := by
    intro l f g
    simp [upd, h1, product_cons, product_nil]
  rw [e1, e2, add_zero]

theorem pressure_row (S : Setup) (G : Metric) (M : Memory) (x y : Nat → ℝ) (k : Nat) :
    Vdyn.product (pressureUpdates S G M x k) y (3 * k + 1) =
    edgeState S M x 2 k * S.phys.r / (G.derivR k * edgeState S M x 4 k * (S.phys.cp - S.phys.r)) *
      applyRow S.diffNE (fun m => exnerNode S M x m / nodeState S M x 2 m * y (3 * m)) k +
    1 / G.derivREdge k / (edgeState S M x 4 k * edgeState S M x 4 k) * diffPEdge S M x k *
      (applyRow S.interpNE (fun n => y (3 * n)) k * edgeState S M x 4 k -
        applyRow S.interpNE (fun n => y (3 * n + 2)) k * edgeState S M x 2 k) := by
  unfold pressureUpdates
  dsimp only
  rw [product_append, product_map, product_flatMap, sum_stencil, sum_stencil, applyRow_eq, applyRow_eq, applyRow_eq]
  congr 1
  · rw [mul_sum]
    apply sum_congr rfl
    intro m _
    simp only [upd, vec]
    rw [if_pos trivial, Nat.add_zero]
    ring
  · rw [sum_mul, sum_mul, ← sum_sub_distrib, mul_sum]
    apply sum_congr rfl
    intro n _
    simp only [product_cons, product_nil, upd, vec]
    rw [if_pos trivial, if_pos trivial, Nat.add_zero]
    ring

theorem upwind_other (S : Setup) (G : Metric) (M : Memory) (x y : Nat → ℝ) (c i : Nat) (hc : c = 2 ∨ c = 4) (hi : i % 3 ≠ c - 2) :
    Vdyn.product (upwindUpdates S G M x c) y i = 0 := by
  have h3 : c - 2 < 3 := by omega
  unfold upwindUpdates
  rw [product_flatMap]
  refine sum_zero _ _ fun a => ?_
  unfold upwindLevelUpdates
  simp only [product_append]
  rw [side_other y _ _ _ 1 (c - 2) (fun _ => a * perElement S) _ i hi h3,
    side_other y _ _ _ 1 (c - 2) (fun _ => a * perElement S) _ i hi h3,
    side_other y _ _ _ (c - 2) (c - 2) (fun l => l) _ i hi h3, side_other y _ _ _ (c - 2) (c - 2) (fun l => l) _ i hi h3]
  ring

section Volumes
variable {S : Setup} {node edge : Nat → ℝ} (V : Volumes S node edge)
include V

/-- The penalty on one level. -/
theorem penalty_volumes (h2 : 2 ≤ S.levels) (v z : Nat → ℝ) (k : Nat) (hk : k < S.levels) :
    penaltyApply S.penalty v z (fun _ => 0) 1 1 k =
      (if k + 1 < S.levels then applyRow S.penalty.left z k * v k else 0) +
      (if 1 ≤ k then applyRow S.penalty.right z k * v (k - 1) else 0) := by
  have e := penalty_eq V h2
  have := apply_at S.penalty (by rw [e]; exact one_pos) (by rw [e]; simp) (by rw [e]; simp) v z (fun _ => 0) 1 1 one_pos k
    (by rw [e]; simpa using hk)
  have en : S.penalty.n = 1 := by rw [e]
  have em : S.penalty.m = S.levels := by rw [e]
  rw [en, em] at this
  simp only [mul_one, zero_add, Nat.div_one] at this
  rw [this]
  simp only [show k < S.levels - 1 ↔ k + 1 < S.levels by omega]
  rfl

theorem penalty_congr_volumes (h2 : 2 ≤ S.levels) (v v' z z' : Nat → ℝ) (hv : ∀ a, a + 1 < S.levels → v a = v' a)
    (hz : ∀ j < S.levels, z j = z' j) (k : Nat) (hk : k < S.levels) :
    penaltyApply S.penalty v z (fun _ => 0) 1 1 k = penaltyApply S.penalty v' z' (fun _ => 0) 1 1 k := by
  rw [penalty_volumes V h2 v z k hk, penalty_volumes V h2 v' z' k hk]
  obtain ⟨p1, p2⟩ := penalty_row V h2 k
  congr 1
  · by_cases h : k + 1 < S.levels
    · rw [if_pos h, if_pos h, hv k h, applyRow_congr _ z z' k fun j _ hj => hz j (by have := (p1 h).2.2; omega)]
    · rw [if_neg h, if_neg h]
  · by_cases h : 1 ≤ k
    · rw [if_pos h, if_pos h, hv (k - 1) (by omega), applyRow_congr _ z z' k fun j _ hj => hz j (by have := (p2 h hk).2.2; omega)]
    · rw [if_neg h, if_neg h]

/-- Upwinding at its own equation. -/
theorem upwind_row (G : Metric) (M : Memory) (x y : Nat → ℝ) (h2 : 2 ≤ S.levels) (c : Nat) (hc : c = 2 ∨ c = 4) (k : Nat)
    (hk : k < S.levels) :
    Vdyn.product (upwindUpdates S G M x c) y (3 * k + (c - 2)) =
      -penaltyApply S.penalty (fun a => |xiDotEdge S G M x (a + 1)|) (fun l => y (3 * l + (c - 2))) (fun _ => 0) 1 1 k -
        penaltyApply S.penalty (fun a => signWeight S G M x (a + 1) / G.derivREdge (a + 1) * y (3 * (a + 1) + 1))
          (nodeState S M x c) (fun _ => 0) 1 1 k := by
  obtain ⟨e1, e2⟩ := volume_elements V
  have h3 : c - 2 < 3 := by omega
  rw [penalty_volumes V h2 _ _ k hk, penalty_volumes V h2 _ _ k hk]
  unfold upwindUpdates
  rw [product_flatMap, sum_range', e2]
  have e : ∀ a, Vdyn.product (upwindLevelUpdates S G M x c (1 + a)) y (3 * k + (c - 2)) =
      (if a = k then -(signWeight S G M x (a + 1) / G.derivREdge (a + 1) * y (3 * (a + 1) + 1) *
            applyRow S.penalty.left (nodeState S M x c) k) -
          |xiDotEdge S G M x (a + 1)| * applyRow S.penalty.left (fun l => y (3 * l + (c - 2))) k else 0) +
      (if a + 1 = k then -(signWeight S G M x (a + 1) / G.derivREdge (a + 1) * y (3 * (a + 1) + 1) *
            applyRow S.penalty.right (nodeState S M x c) k) -
          |xiDotEdge S G M x (a + 1)| * applyRow S.penalty.right (fun l => y (3 * l + (c - 2))) k else 0) := by
    intro a
    unfold upwindLevelUpdates
    simp only [product_append]
    rw [side_row y _ _ _ 1 (c - 2) (fun _ => (1 + a) * perElement S) _ k h3,
      side_row y _ _ _ 1 (c - 2) (fun _ => (1 + a) * perElement S) _ k h3,
      side_row y _ _ _ (c - 2) (c - 2) (fun l => l) _ k h3, side_row y _ _ _ (c - 2) (c - 2) (fun l => l) _ k h3]
    rw [e1]
    simp only [mul_one, show 1 + a = a + 1 by omega, Nat.add_sub_cancel]
    simp only [show (a ≤ k ∧ k < a + 1) ↔ a = k by omega, show (a + 1 ≤ k ∧ k < a + 1 + 1) ↔ a + 1 = k by omega, applyRow_eq]
    by_cases h1 : a = k
    · rw [if_pos h1, if_pos h1, if_pos h1, if_neg (show ¬ a + 1 = k by omega),
        if_neg (show ¬ a + 1 = k by omega), if_neg (show ¬ a + 1 = k by omega)]
      simp only [mul_sum, add_zero]
      rw [← sum_neg_distrib, ← sum_sub_distrib, ← sum_add_distrib]
      exact sum_congr rfl fun l _ => by ring
    · rw [if_neg h1, if_neg h1, if_neg h1]
      by_cases h2 : a + 1 = k
      · rw [if_pos h2, if_pos h2, if_pos h2]
        simp only [mul_sum, zero_add, add_zero]
        rw [← sum_neg_distrib, ← sum_sub_distrib, ← sum_add_distrib]
        exact sum_congr rfl fun l _ => by ring
      · rw [if_neg h2, if_neg h2, if_neg h2]
        ring
  rw [sum_congr rfl fun a _ => e a, sum_add_distrib]
  have s1 : ∀ g : Nat → ℝ, ∑ a ∈ range (S.levels - 1), (if a = k then g a else 0) = if k + 1 < S.levels then g k else 0 := by
    intro g
    rw [Finset.sum_ite_eq']
    simp only [mem_range, show k < S.levels - 1 ↔ k + 1 < S.levels by omega]
  have s2 : ∀ g : Nat → ℝ, ∑ a ∈ range (S.levels - 1), (if a + 1 = k then g a else 0) = if 1 ≤ k then g (k - 1) else 0 := by
    intro g
    by_cases h : 1 ≤ k
    · rw [if_pos h, sum_eq_single (k - 1)]
      · rw [if_pos (by omega)]
      · intro b _ hb
        exact if_neg (by omega)
      · intro h'
        rw [mem_range] at h'
        omega
    · rw [if_neg h]
      exact sum_eq_zero fun a _ => if_neg (by omega)
  rw [s1, s2]
  by_cases h1 : k + 1 < S.levels <;> by_cases h2 : 1 ≤ k <;> simp only [h1, h2, if_true, if_false] <;> ring

variable (hL : Lorenz S) (G : Metric) (D : Data) (M : Memory) (x y : Nat → ℝ)
include hL

theorem sign_schur (k : Nat) : signWeight S G (setupColumn S D M) x k = sgn (verticalWind S (physical G) (asColumn D x) k) := by
  unfold signWeight sgn
  rw [wind_schur hL]

/-- The Jacobian times a vector on levels. -/
theorem product_level (h2 : 2 ≤ S.levels) (k c : Nat) (hc : c = 0 ∨ c = 2) (hk : k < S.levels) :
    Vdyn.product (jacobianUpdates S G (setupColumn S D M) x) y (3 * k + c) =
      applyRow S.diffEN (fluxChange S G (verticalWind S (physical G) (asColumn D x)) (fun n => x (3 * n + c)) (fun n => y (3 * n + 1))
        (fun n => y (3 * n + c))) k / G.jac k -
      penaltyApply S.penalty (fun a => |verticalWind S (physical G) (asColumn D x) (a + 1)|) (fun l => y (3 * l + c))
        (fun _ => 0) 1 1 k -
      penaltyApply S.penalty (fun a => sgn (verticalWind S (physical G) (asColumn D x) (a + 1)) / G.derivREdge (a + 1) *
        y (3 * (a + 1) + 1)) (fun l => x (3 * l + c)) (fun _ => 0) 1 1 k + y (3 * k + c) / S.dt := by
  have hnode : nodeState S (setupColumn S D M) x (c + 2) = fun l => x (3 * l + c) := by
    rcases hc with rfl | rfl
    · rw [node_two hL]; rfl
    · rw [node_four hL]; rfl
  have hedge : edgeState S (setupColumn S D M) x (c + 2) = applyRow S.interpNE (fun n => x (3 * n + c)) := by
    rcases hc with rfl | rfl
    · rw [edge_two hL]; rfl
    · rw [edge_four hL]; rfl
  have hflux : Vdyn.product ((List.range S.levels).flatMap (fluxUpdates S G (setupColumn S D M) x)) y (3 * k + c) =
      applyRow S.diffEN (fluxChange S G (verticalWind S (physical G) (asColumn D x)) (fun n => x (3 * n + c))
        (fun n => y (3 * n + 1)) (fun n => y (3 * n + c))) k / G.jac k := by
    have ef : fluxUpdates S G (setupColumn S D M) x = Vdyn.fluxUpdates S (physical G) (setupColumn S D M) x := by
      funext k
      exact fluxUpdates_physical G x _ k
    rw [ef, product_levels _ List.nodup_range _ _ _ (fun k' hk' => flux_other S (physical G) _ x y k' _ hk'),
      show (3 * k + c) / 3 = k by omega, if_pos (List.mem_range.2 hk), flux_row S (physical G) _ x y k c hc, wind_eq hL, hedge,
      applyRow_eq, applyRow_eq]
    obtain ⟨d1, d2⟩ := divergence_row V k
    show _ / G.jac k = _
    congr 1
    apply sum_congr rfl
    intro m hmem
    rw [mem_Ico] at hmem
    congr 1
    unfold fluxChange
    show G.jacEdge m * _ = _
    by_cases h0 : 1 ≤ m ∧ m < S.levels
    · rw [if_pos h0, if_pos (by omega)]
      rw [show (physical G).conXiEdge m 2 = G.conXiEdge m 2 * G.derivREdge m by simp [physical]]
    · rw [if_neg h0, if_neg (by omega), verticalWind, if_pos (by omega)]
      ring
  have hpress : ∀ l : List Nat, Vdyn.product (l.flatMap (pressureUpdates S G (setupColumn S D M) x)) y (3 * k + c) = 0 := fun l => by
    rw [product_flatMap]
    exact sum_zero _ _ fun k' => pressure_other S G _ x y k' _ (by omega)
  have hup := upwind_row V G (setupColumn S D M) x y h2 (c + 2) (by omega) k hk
  rw [show c + 2 - 2 = c by omega, hnode, wind_schur hL] at hup
  simp only [sign_schur V hL G D M x] at hup
  unfold jacobianUpdates
  simp only [product_append]
  rw [hflux, hpress, time_eq, time_row S y _ (by omega)]
  rcases hc with rfl | rfl
  · rw [hup, upwind_other S G _ x y 4 _ (by omega) (by omega)]
    ring
  · rw [upwind_other S G _ x y 2 _ (by omega) (by omega), hup]
    ring

omit V

/-- The Jacobian times a vector on interfaces. -/
theorem product_interface (k : Nat) (hk : k ≤ S.levels) :
    Vdyn.product (jacobianUpdates S G (setupColumn S D M) x) y (3 * k + 1) =
      (if 1 ≤ k ∧ k < S.levels then
        applyRow S.interpNE (asColumn D x).p k * S.phys.r /
          (G.derivR k * applyRow S.interpNE (asColumn D x).r k * (S.phys.cp - S.phys.r)) *
          applyRow S.diffNE (fun m => exner S (asColumn D x) m / x (3 * m) * y (3 * m)) k +
        1 / G.derivREdge k / (applyRow S.interpNE (asColumn D x).r k * applyRow S.interpNE (asColumn D x).r k) *
          applyRow S.diffNE (exner S (asColumn D x)) k *
          (applyRow S.interpNE (fun n => y (3 * n)) k * applyRow S.interpNE (asColumn D x).r k -
            applyRow S.interpNE (fun n => y (3 * n + 2)) k * applyRow S.interpNE (asColumn D x).p k) else 0) +
      y (3 * k + 1) / S.dt := by
  have hflux : Vdyn.product ((List.range S.levels).flatMap (fluxUpdates S G (setupColumn S D M) x)) y (3 * k + 1) = 0 := by
    have ef : fluxUpdates S G (setupColumn S D M) x = Vdyn.fluxUpdates S (physical G) (setupColumn S D M) x := by
      funext k
      exact fluxUpdates_physical G x _ k
    rw [ef, product_levels _ List.nodup_range _ _ _ (fun k' hk' => flux_other S (physical G) _ x y k' _ hk'),
      show (3 * k + 1) / 3 = k by omega, flux_w]
    simp
  have hpress := product_levels (List.range' 1 (S.levels - 1)) List.nodup_range' (pressureUpdates S G (setupColumn S D M) x) y
    (3 * k + 1) (fun k' hk' => pressure_other S G _ x y k' _ (by omega))
  rw [show (3 * k + 1) / 3 = k by omega] at hpress
  simp only [List.mem_range'_1, show (1 ≤ k ∧ k < 1 + (S.levels - 1)) ↔ (1 ≤ k ∧ k < S.levels) by omega] at hpress
  unfold jacobianUpdates
  simp only [product_append]
  rw [hflux, hpress, upwind_other S G _ x y 2 _ (by omega) (by omega), upwind_other S G _ x y 4 _ (by omega) (by omega), time_eq,
    time_row S y _ (by omega), pressure_row, edge_two hL, edge_four hL]
  unfold diffPEdge
  rw [exner_eq hL, node_two hL]
  dsimp only [asColumn]
  ring

/-- The residual on levels. -/
theorem residual_level (V : Volumes S node edge) (href : S.useRef = true) (k : Nat) (hk : k < S.levels) :
    residual S G (setupColumn S D M) x (3 * k) =
      applyRow S.diffEN (flux S (physical G) (asColumn D x) (asColumn D x).p) k / G.jac k -
        penaltyApply S.penalty (fun a => |verticalWind S (physical G) (asColumn D x) (a + 1)|) (asColumn D x).p (fun _ => 0) 1 1 k -
        diffuse S S.diffDiffNN S.nuScalar (asColumn D x).p (D.refNode 2) k + (x (3 * k) - D.node 2 k) / S.dt ∧
    residual S G (setupColumn S D M) x (3 * k + 2) =
      applyRow S.diffEN (flux S (physical G) (asColumn D x) (asColumn D x).r) k / G.jac k -
        penaltyApply S.penalty (fun a => |verticalWind S (physical G) (asColumn D x) (a + 1)|) (asColumn D x).r (fun _ => 0) 1 1 k +
        (x (3 * k + 2) - D.node 4 k) / S.dt := by
  have hw : upwindWeight S G (setupColumn S D M) x = fun a => |verticalWind S (physical G) (asColumn D x) (a + 1)| := by
    funext a
    unfold upwindWeight
    rw [(volume_elements V).1, wind_schur hL, mul_one]
  have hs := state_eq hL D M k hk
  constructor
  · unfold residual
    rw [show 3 * k % 3 = 0 by omega, show 3 * k / 3 = k by omega, hs.1]
    unfold tendency
    rw [if_neg (by omega), if_pos hk, diffFlux_schur hL G D M x 2 _ (edge_two hL D M x), diffusion_level hL D M x href]
    unfold upwind
    rw [hw, node_two hL]
    ring
  · unfold residual
    rw [show (3 * k + 2) % 3 = 2 by omega, show (3 * k + 2) / 3 = k by omega, hs.2]
    unfold tendency
    rw [if_neg (by omega), if_pos hk, diffFlux_schur hL G D M x 4 _ (edge_four hL D M x)]
    have hd : diffusion S (setupColumn S D M) x (2 + 2) k = 0 := by simp [diffusion]
    unfold upwind
    rw [hd, hw, node_four hL]
    ring

/-- The residual on interfaces. -/
theorem residual_interface (href : S.useRef = true) (k : Nat) (hk : k ≤ S.levels) :
    residual S G (setupColumn S D M) x (3 * k + 1) =
      (if 1 ≤ k ∧ k < S.levels then theta S (asColumn D x) k * applyRow S.diffNE (exner S (asColumn D x)) k / G.derivREdge k +
        S.phys.g - diffuse S S.diffDiffEE S.nuVector (asColumn D x).w (D.refEdge 3) k else 0) +
      (x (3 * k + 1) - D.edge 3 k) / S.dt := by
  unfold residual
  rw [show (3 * k + 1) % 3 = 1 by omega, show (3 * k + 1) / 3 = k by omega, state_w hL]
  unfold tendency
  rw [if_pos rfl]
  by_cases h : 1 ≤ k ∧ k < S.levels
  · rw [if_pos h, if_neg (by omega)]
    have hd : diffusion S (setupColumn S D M) x 3 k = diffuse S S.diffDiffEE S.nuVector (asColumn D x).w (D.refEdge 3) k := by
      unfold diffusion diffuse diffDiffUniform onEdge
      rw [edge_three hL]
      by_cases hu : S.uniform = true
      · simp [hu, hL.1, setupColumn, href, pow_two]
        intro h'
        omega
      · simp [hu]
    unfold forceEdge diffPEdge
    rw [if_pos h, hd, exner_eq hL, edge_two hL, edge_four hL]
    unfold theta
    ring
  · rw [if_neg h, if_pos (by omega)]
    ring

end Volumes

end Verif.Schur
