/-
Lemmas: the Jacobian times a vector, equation by equation.
-/
import Verif.Vdyn.JacobianSpec
import Verif.Vdyn.Lemmas

namespace Verif.Vdyn

open Verif.Column Verif.Interp Finset

theorem product_nil (y : Nat → ℝ) (i : Nat) : product [] y i = 0 := rfl

theorem product_append (us vs : List Update) (y : Nat → ℝ) (i : Nat) :
    product (us ++ vs) y i = product us y i + product vs y i := by
  simp [product]

theorem product_cons (u : Update) (us : List Update) (y : Nat → ℝ) (i : Nat) :
    product (u :: us) y i = (if u.row = i then u.value * y u.col else 0) + product us y i := by
  simp [product]

theorem product_upd (c0 k0 c1 k1 : Nat) (v : ℝ) (us : List Update) (y : Nat → ℝ) (i : Nat) :
    product (upd c0 k0 c1 k1 v :: us) y i = (if 3 * k1 + c1 = i then v * y (3 * k0 + c0) else 0) + product us y i :=
  product_cons _ _ _ _

theorem product_flatMap {α : Type} (l : List α) (f : α → List Update) (y : Nat → ℝ) (i : Nat) :
    product (l.flatMap f) y i = (l.map fun a => product (f a) y i).sum := by
  induction l with
  | nil => rfl
  | cons a l ih => rw [List.flatMap_cons, product_append, ih, List.map_cons, List.sum_cons]

theorem product_map {α : Type} (l : List α) (f : α → Update) (y : Nat → ℝ) (i : Nat) :
    product (l.map f) y i = (l.map fun a => if (f a).row = i then (f a).value * y (f a).col else 0).sum := by
  rw [product, List.map_map]
  rfl

theorem product_upds (l : List Nat) (c0 c1 : Nat) (k0 k1 : Nat → Nat) (v : Nat → ℝ) (y : Nat → ℝ) (i : Nat) :
    product (l.map fun a => upd c0 (k0 a) c1 (k1 a) (v a)) y i =
      (l.map fun a => if 3 * k1 a + c1 = i then v a * y (3 * k0 a + c0) else 0).sum :=
  product_map _ _ _ _

theorem sum_range' (a n : Nat) (f : Nat → ℝ) : ((List.range' a n).map f).sum = ∑ i ∈ range n, f (a + i) := by
  induction n with
  | zero => simp
  | succ n ih =>
    rw [List.range'_concat, List.map_append, List.sum_append, ih, sum_range_succ]
    simp

theorem sum_range (n : Nat) (f : Nat → ℝ) : ((List.range n).map f).sum = ∑ i ∈ range n, f i := by
  rw [List.range_eq_range', sum_range']
  simp

theorem sum_stencil (A : Op) (k : Nat) (f : Nat → ℝ) :
    ((stencil A k).map f).sum = ∑ j ∈ Ico (A.row k).ibegin (A.row k).iend, f j := by
  rw [stencil, sum_range', sum_Ico_eq_sum_range]

theorem applyRow_eq (A : Op) (f : Nat → ℝ) (k : Nat) :
    applyRow A f k = ∑ j ∈ Ico (A.row k).ibegin (A.row k).iend, (A.row k).coeff j * f j := by
  rw [applyRow, rowLoop_eq, zero_add]

/-- A group of statements for the equations of level `k` only counts there. -/
theorem product_levels (l : List Nat) (hl : l.Nodup) (f : Nat → List Update) (y : Nat → ℝ) (i : Nat)
    (h : ∀ k, k ≠ i / 3 → product (f k) y i = 0) :
    product (l.flatMap f) y i = if i / 3 ∈ l then product (f (i / 3)) y i else 0 := by
  rw [product_flatMap]
  induction l with
  | nil => simp
  | cons a l ih =>
    rw [List.nodup_cons] at hl
    rw [List.map_cons, List.sum_cons, ih hl.2]
    by_cases ha : a = i / 3
    · subst ha
      rw [if_neg hl.1, if_pos (by simp), add_zero]
    · rw [h a ha, zero_add]
      have : (i / 3 ∈ a :: l) ↔ i / 3 ∈ l := by
        rw [List.mem_cons]
        constructor
        · rintro (h | h)
          · exact absurd h.symm ha
          · exact h
        · exact Or.inr
      simp only [this]

section Rows

variable (S : Setup) (G : Metric) (M : Memory) (x y : Nat → ℝ)

/-- Fluxes at the equations of other levels. -/
theorem flux_other (k i : Nat) (h : k ≠ i / 3) : product (fluxUpdates S G M x k) y i = 0 := by
  have h0 : vec 0 k ≠ i := by unfold vec; omega
  have h2 : vec 2 k ≠ i := by unfold vec; omega
  unfold fluxUpdates
  rw [product_flatMap]
  apply List.sum_eq_zero
  intro v hv
  rw [List.mem_map] at hv
  obtain ⟨m, -, rfl⟩ := hv
  rw [product_append, product_flatMap]
  have e1 : (List.map (fun a => product [upd 2 a 2 k ((S.diffEN.row k).coeff m * G.jacEdge m * (1 / G.jac k) *
      (S.interpNE.row m).coeff a * xiDotEdge S G M x m), upd 0 a 0 k ((S.diffEN.row k).coeff m * G.jacEdge m * (1 / G.jac k) *
      (S.interpNE.row m).coeff a * xiDotEdge S G M x m)] y i) (stencil S.interpNE m)).sum = 0 := by
    apply List.sum_eq_zero
    intro v hv
    rw [List.mem_map] at hv
    obtain ⟨n, -, rfl⟩ := hv
    simp [product_cons, product_nil, upd, h0, h2]
  rw [e1, add_zero]
  split_ifs <;> simp [product_cons, product_nil, upd, h0, h2]

/-- Fluxes at the equation of component `c` (0 or 2) of level `k`. -/
theorem flux_row (k c : Nat) (hc : c = 0 ∨ c = 2) : product (fluxUpdates S G M x k) y (3 * k + c) =
    applyRow S.diffEN (fun m => G.jacEdge m * ((if m ≠ 0 ∧ m ≠ S.levels then edgeState S M x (c + 2) m *
      (G.conXiEdge m 2 * y (3 * m + 1)) else 0) + applyRow S.interpNE (fun n => y (3 * n + c)) m * xiDotEdge S G M x m)) k / G.jac k := by
  unfold fluxUpdates
  rw [product_flatMap, sum_stencil, applyRow_eq, Finset.sum_div]
  apply sum_congr rfl
  intro m _
  rw [product_append, product_flatMap, sum_stencil, applyRow_eq]
  have e2 : (if m ≠ 0 ∧ m ≠ S.levels then edgeState S M x (c + 2) m * (G.conXiEdge m 2 * y (3 * m + 1)) else 0) *
      ((S.diffEN.row k).coeff m * G.jacEdge m / G.jac k) =
      product (if m ≠ 0 ∧ m ≠ S.levels then
        [upd 1 m 0 k ((S.diffEN.row k).coeff m * G.jacEdge m * (1 / G.jac k) * G.conXiEdge m 2 * edgeState S M x 2 m),
          upd 1 m 2 k ((S.diffEN.row k).coeff m * G.jacEdge m * (1 / G.jac k) * G.conXiEdge m 2 * edgeState S M x 4 m)]
        else []) y (3 * k + c) := by
    by_cases hm : m ≠ 0 ∧ m ≠ S.levels
    · rw [if_pos hm, if_pos hm, product_upd, product_upd, product_nil]
      rcases hc with rfl | rfl
      · rw [if_pos rfl, if_neg (show ¬ 3 * k + 2 = 3 * k + 0 by omega)]
        ring
      · rw [if_neg (show ¬ 3 * k + 0 = 3 * k + 2 by omega), if_pos rfl]
        ring
    · rw [if_neg hm, if_neg hm, product_nil, zero_mul]
  have e1 : ∀ n, product [upd 2 n 2 k ((S.diffEN.row k).coeff m * G.jacEdge m * (1 / G.jac k) * (S.interpNE.row m).coeff n *
      xiDotEdge S G M x m), upd 0 n 0 k ((S.diffEN.row k).coeff m * G.jacEdge m * (1 / G.jac k) * (S.interpNE.row m).coeff n *
      xiDotEdge S G M x m)] y (3 * k + c) =
      ((S.interpNE.row m).coeff n * y (3 * n + c)) * ((S.diffEN.row k).coeff m * G.jacEdge m / G.jac k * xiDotEdge S G M x m) := by
    intro n
    rw [product_upd, product_upd, product_nil]
    rcases hc with rfl | rfl
    · rw [if_neg (show ¬ 3 * k + 2 = 3 * k + 0 by omega), if_pos rfl]
      ring
    · rw [if_pos rfl, if_neg (show ¬ 3 * k + 0 = 3 * k + 2 by omega)]
      ring
  simp only [e1]
  rw [← sum_mul, ← e2]
  ring

/-- Fluxes do not change vertical velocity. -/
theorem flux_w (k : Nat) : product (fluxUpdates S G M x k) y (3 * k + 1) = 0 := by
  have h0 : vec 0 k ≠ 3 * k + 1 := by unfold vec; omega
  have h2 : vec 2 k ≠ 3 * k + 1 := by unfold vec; omega
  unfold fluxUpdates
  rw [product_flatMap]
  apply List.sum_eq_zero
  intro v hv
  rw [List.mem_map] at hv
  obtain ⟨m, -, rfl⟩ := hv
  rw [product_append, product_flatMap]
  have e1 : (List.map (fun a => product [upd 2 a 2 k ((S.diffEN.row k).coeff m * G.jacEdge m * (1 / G.jac k) *
      (S.interpNE.row m).coeff a * xiDotEdge S G M x m), upd 0 a 0 k ((S.diffEN.row k).coeff m * G.jacEdge m * (1 / G.jac k) *
      (S.interpNE.row m).coeff a * xiDotEdge S G M x m)] y (3 * k + 1)) (stencil S.interpNE m)).sum = 0 := by
    apply List.sum_eq_zero
    intro v hv
    rw [List.mem_map] at hv
    obtain ⟨n, -, rfl⟩ := hv
    simp only [product_cons, product_nil, upd]
    rw [if_neg h2, if_neg h0]
    ring
  rw [e1, add_zero]
  split_ifs
  · simp only [product_cons, product_nil, upd]
    rw [if_neg h2, if_neg h0]
    ring
  · rfl

/-- The pressure gradient at other equations. -/
theorem pressure_other (k i : Nat) (h : i ≠ 3 * k + 1) : product (pressureUpdates S M x k) y i = 0 := by
  have h1 : vec 1 k ≠ i := by unfold vec; omega
  unfold pressureUpdates
  rw [product_append, product_map, product_flatMap]
  have e1 : ∀ l : List Nat, ∀ f : Nat → ℝ, (l.map fun m => if (upd 0 m 1 k (f m)).row = i then
      (upd 0 m 1 k (f m)).value * y (upd 0 m 1 k (f m)).col else 0).sum = 0 := by
    intro l f
    simp [upd, h1]
  have e2 : ∀ l : List Nat, ∀ f g : Nat → ℝ, (l.map fun n => product [upd 0 n 1 k (f n), upd 2 n 1 k (g n)] y i).sum = 0 := by
    intro l f g
    simp [upd, h1, product_cons, product_nil]
  rw [e1, e2, add_zero]

/-- The pressure gradient at its own equation. -/
theorem pressure_row (k : Nat) : product (pressureUpdates S M x k) y (3 * k + 1) =
    edgeState S M x 2 k * S.phys.r / (edgeState S M x 4 k * (S.phys.cp - S.phys.r)) *
      applyRow S.diffNE (fun m => exnerNode S M x m / nodeState S M x 2 m * y (3 * m)) k +
    1 / (edgeState S M x 4 k * edgeState S M x 4 k) * diffPEdge S M x k *
      (applyRow S.interpNE (fun n => y (3 * n)) k * edgeState S M x 4 k -
        applyRow S.interpNE (fun n => y (3 * n + 2)) k * edgeState S M x 2 k) := by
  unfold pressureUpdates
  rw [product_append, product_map, product_flatMap, sum_stencil, sum_stencil, applyRow_eq, applyRow_eq, applyRow_eq]
  congr 1
  · rw [mul_sum]
    apply sum_congr rfl
    intro m _
    simp only [upd, vec]
    rw [if_pos trivial, Nat.add_zero]
    ring
  · rw [sum_mul, sum_mul, ← sum_sub_distrib, mul_sum]
    apply sum_congr rfl
    intro n _
    simp only [product_cons, product_nil, upd, vec]
    rw [if_pos trivial, if_pos trivial, Nat.add_zero]
    ring

/-- Kinetic energy at other equations. -/
theorem clark_other (k i : Nat) (h : i ≠ 3 * k + 1) : product (clarkUpdates S G M x k) y i = 0 := by
  have h1 : vec 1 k ≠ i := by unfold vec; omega
  unfold clarkUpdates
  rw [product_flatMap]
  apply List.sum_eq_zero
  intro v hv
  rw [List.mem_map] at hv
  obtain ⟨l, -, rfl⟩ := hv
  rw [product_map]
  simp [upd, h1]

/-- Kinetic energy at its own equation. -/
theorem clark_row (k : Nat) : product (clarkUpdates S G M x k) y (3 * k + 1) =
    applyRow S.diffNE (fun l => xiDotNode S G M x l * applyRow S.interpEN (fun m => y (3 * m + 1)) l) k := by
  unfold clarkUpdates
  rw [product_flatMap, sum_stencil, applyRow_eq]
  apply sum_congr rfl
  intro l _
  rw [product_map, sum_stencil, applyRow_eq, mul_sum, mul_sum]
  apply sum_congr rfl
  intro m _
  simp only [upd, vec]
  rw [if_pos trivial]
  ring

/-- The identity. -/
theorem time_row (i : Nat) (hi : i < 3 * (S.levels + 1)) : product (timeUpdates S) y i = 1 / S.dt * y i := by
  unfold timeUpdates
  rw [product_levels _ (List.nodup_range) _ _ _ ?_]
  · rw [if_pos (by rw [List.mem_range]; omega)]
    simp only [product_cons, product_nil, upd, vec]
    obtain h | h | h : i % 3 = 0 ∨ i % 3 = 1 ∨ i % 3 = 2 := by omega
    · rw [if_pos (by omega), if_neg (by omega), if_neg (by omega), show 3 * (i / 3) + 0 = i by omega]; ring
    · rw [if_neg (by omega), if_pos (by omega), if_neg (by omega), show 3 * (i / 3) + 1 = i by omega]; ring
    · rw [if_neg (by omega), if_neg (by omega), if_pos (by omega), show 3 * (i / 3) + 2 = i by omega]; ring
  · intro k hk
    simp only [product_cons, product_nil, upd, vec]
    rw [if_neg (by omega), if_neg (by omega), if_neg (by omega)]
    ring

theorem sum_zero (l : List Nat) (f : Nat → ℝ) (h : ∀ a, f a = 0) : (l.map f).sum = 0 := by
  apply List.sum_eq_zero
  intro v hv
  rw [List.mem_map] at hv
  obtain ⟨a, -, rfl⟩ := hv
  exact h a

/-- Upwinding of vertical velocity at other equations. -/
theorem upwindEdge_other (i : Nat) (h : i % 3 ≠ 1) : product (upwindEdgeUpdates S G M x 3) y i = 0 := by
  unfold upwindEdgeUpdates
  rw [product_append, product_upds, product_flatMap, sum_zero _ _ (fun k => if_neg (by omega)), zero_add]
  refine sum_zero _ _ fun k => ?_
  rw [product_upds, sum_zero _ _ (fun k => if_neg (by omega))]

/-- Upwinding of vertical velocity at its own equation. -/
theorem upwindEdge_row (k : Nat) (hk : k ≤ S.levels) : product (upwindEdgeUpdates S G M x 3) y (3 * k + 1) =
    -(1 / 2 * (1 / (S.levels : ℝ)) * (signWeight S G M x k * y (3 * k + 1) * applyRow S.diffDiffEE (edgeState S M x 3) k +
      |xiDotEdge S G M x k| * applyRow S.diffDiffEE (fun n => y (3 * n + 1)) k)) := by
  unfold upwindEdgeUpdates
  rw [product_append, product_upds, sum_range, product_levels _ (List.nodup_range)]
  · rw [sum_eq_single k]
    · rw [if_pos (show 3 * k + (3 - 2) = 3 * k + 1 by omega), if_pos (by rw [List.mem_range]; omega),
        show (3 * k + 1) / 3 = k by omega, product_upds, sum_stencil]
      have e : ∀ n, (if 3 * k + (3 - 2) = 3 * k + 1 then -(1 / 2 * (1 / (S.levels : ℝ)) * |xiDotEdge S G M x k| *
          (S.diffDiffEE.row k).coeff n) * y (3 * n + (3 - 2)) else 0) =
          -(1 / 2 * (1 / (S.levels : ℝ)) * |xiDotEdge S G M x k|) * ((S.diffDiffEE.row k).coeff n * y (3 * n + 1)) := by
        intro n
        rw [if_pos (by omega)]
        ring
      rw [sum_congr rfl fun n _ => e n, ← mul_sum, ← applyRow_eq S.diffDiffEE (fun n => y (3 * n + 1)) k]
      ring
    · intro b _ hb
      exact if_neg (by omega)
    · intro h
      rw [mem_range] at h
      omega
  · intro k' hk'
    rw [product_upds, sum_zero _ _ (fun k => if_neg (by omega))]

/-- One side of the penalty at one edge, at the equation of level `k`. -/
theorem side_row (A : Op) (b n c0 c : Nat) (f : Nat → Nat) (v : Nat → Nat → ℝ) (k : Nat) (hc : c < 3) :
    product ((List.range' b n).flatMap fun k => (stencil A k).map fun l => upd c0 (f l) c k (v k l)) y (3 * k + c) =
      if b ≤ k ∧ k < b + n then ∑ l ∈ Ico (A.row k).ibegin (A.row k).iend, v k l * y (3 * f l + c0) else 0 := by
  rw [product_levels _ List.nodup_range']
  · rw [show (3 * k + c) / 3 = k by omega]
    simp only [List.mem_range'_1]
    by_cases h : b ≤ k ∧ k < b + n
    · rw [if_pos h, if_pos h, product_upds, sum_stencil]
      exact sum_congr rfl fun l _ => if_pos rfl
    · rw [if_neg h, if_neg h]
  · intro k' hk'
    rw [product_upds, sum_zero _ _ (fun k => if_neg (by omega))]

/-- One side of the penalty at other equations. -/
theorem side_other (A : Op) (b n c0 c : Nat) (f : Nat → Nat) (v : Nat → Nat → ℝ) (i : Nat) (hi : i % 3 ≠ c) (hc : c < 3) :
    product ((List.range' b n).flatMap fun k => (stencil A k).map fun l => upd c0 (f l) c k (v k l)) y i = 0 := by
  rw [product_flatMap]
  refine sum_zero _ _ fun k => ?_
  rw [product_upds, sum_zero _ _ (fun k => if_neg (by omega))]

/-- Upwinding on levels at other equations. -/
theorem upwindLevel_other (c a i : Nat) (hc : c = 2 ∨ c = 4) (hi : i % 3 ≠ c - 2) :
    product (upwindLevelUpdates S G M x c a) y i = 0 := by
  unfold upwindLevelUpdates
  have h3 : c - 2 < 3 := by omega
  simp only [product_append]
  rw [side_other y _ _ _ 1 (c - 2) (fun _ => a * perElement S) _ i hi h3,
    side_other y _ _ _ 1 (c - 2) (fun _ => a * perElement S) _ i hi h3,
    side_other y _ _ _ (c - 2) (c - 2) (fun l => l) _ i hi h3, side_other y _ _ _ (c - 2) (c - 2) (fun l => l) _ i hi h3]
  ring

/-- Upwinding on levels at its own equation. -/
theorem upwindLevel_row (c : Nat) (hc : c = 2 ∨ c = 4) (hP : S.penalty.n = perElement S) (hm : S.penalty.m = nElements S)
    (hl : S.penalty.left.rows = S.penalty.m * S.penalty.n) (hr : S.penalty.right.rows = S.penalty.m * S.penalty.n)
    (hn : 0 < perElement S) (k : Nat) (hk : k < nElements S * perElement S) :
    product ((List.range' 1 (nElements S - 1)).flatMap (upwindLevelUpdates S G M x c)) y (3 * k + (c - 2)) =
      -penaltyApply S.penalty (fun a => |xiDotEdge S G M x ((a + 1) * perElement S)|) (fun l => y (3 * l + (c - 2))) (fun _ => 0) 1 1 k -
        penaltyApply S.penalty (fun a => signWeight S G M x ((a + 1) * perElement S) * y (3 * ((a + 1) * perElement S) + 1))
          (nodeState S M x c) (fun _ => 0) 1 1 k := by
  have h3 : c - 2 < 3 := by omega
  have hkn : k / perElement S < nElements S := (Nat.div_lt_iff_lt_mul hn).2 hk
  have hbelow : ∀ a, (a * perElement S ≤ k ∧ k < a * perElement S + perElement S) ↔ a = k / perElement S := by
    intro a
    rw [show a * perElement S + perElement S = (a + 1) * perElement S by ring, ← Nat.le_div_iff_mul_le hn, ← Nat.div_lt_iff_lt_mul hn]
    omega
  rw [product_flatMap, sum_range']
  have e : ∀ a, product (upwindLevelUpdates S G M x c (1 + a)) y (3 * k + (c - 2)) =
      (if a = k / perElement S then
        -(signWeight S G M x ((a + 1) * perElement S) * y (3 * ((a + 1) * perElement S) + 1) *
            rowLoop (S.penalty.left.row k) 0 (nodeState S M x c)) -
          |xiDotEdge S G M x ((a + 1) * perElement S)| * rowLoop (S.penalty.left.row k) 0 (fun l => y (3 * l + (c - 2))) else 0) +
      (if a + 1 = k / perElement S then
        -(signWeight S G M x ((a + 1) * perElement S) * y (3 * ((a + 1) * perElement S) + 1) *
            rowLoop (S.penalty.right.row k) 0 (nodeState S M x c)) -
          |xiDotEdge S G M x ((a + 1) * perElement S)| * rowLoop (S.penalty.right.row k) 0 (fun l => y (3 * l + (c - 2))) else 0) := by
    intro a
    unfold upwindLevelUpdates
    simp only [product_append]
    rw [side_row y _ _ _ 1 (c - 2) (fun _ => (1 + a) * perElement S) _ k h3,
      side_row y _ _ _ 1 (c - 2) (fun _ => (1 + a) * perElement S) _ k h3,
      side_row y _ _ _ (c - 2) (c - 2) (fun l => l) _ k h3, side_row y _ _ _ (c - 2) (c - 2) (fun l => l) _ k h3]
    simp only [show 1 + a - 1 = a by omega]
    simp only [show 1 + a = a + 1 by omega, hbelow, rowLoop_eq, zero_add]
    by_cases h1 : a = k / perElement S
    · rw [if_pos h1, if_pos h1, if_pos h1, if_neg (show ¬ a + 1 = k / perElement S by omega),
        if_neg (show ¬ a + 1 = k / perElement S by omega), if_neg (show ¬ a + 1 = k / perElement S by omega)]
      simp only [mul_sum, add_zero]
      rw [← sum_neg_distrib, ← sum_sub_distrib, ← sum_add_distrib]
      exact sum_congr rfl fun l _ => by ring
    · rw [if_neg h1, if_neg h1, if_neg h1]
      by_cases h2 : a + 1 = k / perElement S
      · rw [if_pos h2, if_pos h2, if_pos h2]
        simp only [mul_sum, zero_add, add_zero]
        rw [← sum_neg_distrib, ← sum_sub_distrib, ← sum_add_distrib]
        exact sum_congr rfl fun l _ => by ring
      · rw [if_neg h2, if_neg h2, if_neg h2]
        ring
  rw [sum_congr rfl fun a _ => e a, sum_add_distrib]
  have p1 := apply_at S.penalty (by omega) hl hr (fun a => |xiDotEdge S G M x ((a + 1) * perElement S)|)
    (fun l => y (3 * l + (c - 2))) (fun _ => 0) 1 1 one_pos k (by rw [hm, hP]; exact hk)
  have p2 := apply_at S.penalty (by omega) hl hr
    (fun a => signWeight S G M x ((a + 1) * perElement S) * y (3 * ((a + 1) * perElement S) + 1))
    (nodeState S M x c) (fun _ => 0) 1 1 one_pos k (by rw [hm, hP]; exact hk)
  simp only [mul_one] at p1 p2
  rw [p1, p2, hm, hP]
  have s1 : ∀ g : Nat → ℝ, ∑ a ∈ range (nElements S - 1), (if a = k / perElement S then g a else 0) =
      if k / perElement S < nElements S - 1 then g (k / perElement S) else 0 := by
    intro g
    rw [Finset.sum_ite_eq']
    simp only [mem_range]
  have s2 : ∀ g : Nat → ℝ, ∑ a ∈ range (nElements S - 1), (if a + 1 = k / perElement S then g a else 0) =
      if 1 ≤ k / perElement S then g (k / perElement S - 1) else 0 := by
    intro g
    by_cases h : 1 ≤ k / perElement S
    · rw [if_pos h, ← sum_ite_eq' (range (nElements S - 1)) (k / perElement S - 1) g |>.trans (if_pos (by rw [mem_range]; omega))]
      exact sum_congr rfl fun a _ => by simp only [show a + 1 = k / perElement S ↔ a = k / perElement S - 1 by omega]
    · rw [if_neg h]
      exact sum_eq_zero fun a _ => if_neg (by omega)
  rw [s1, s2]
  by_cases h1 : k / perElement S < nElements S - 1 <;> by_cases h2 : 1 ≤ k / perElement S <;>
    simp only [h1, h2, if_true, if_false] <;> ring

end Rows

end Verif.Vdyn
