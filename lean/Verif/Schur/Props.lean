/-
C131: the step of a column by a Schur complement.
-/
import Verif.Schur.Step

namespace Verif.Schur

open Verif.Column Verif.Vdyn Verif.Interp Finset

section
variable {S : Setup} {node edge : Nat → ℝ}

/-- A vector of unknowns from quantities on levels and interfaces. -/
def interleave (p w r : Nat → ℝ) (i : Nat) : ℝ := if i % 3 = 0 then p (i / 3) else if i % 3 = 1 then w (i / 3) else r (i / 3)

theorem interleave_p (p w r : Nat → ℝ) : (fun n => interleave p w r (3 * n)) = p := by
  funext n
  unfold interleave
  rw [if_pos (by omega), show 3 * n / 3 = n by omega]

theorem interleave_w (p w r : Nat → ℝ) : (fun n => interleave p w r (3 * n + 1)) = w := by
  funext n
  unfold interleave
  rw [if_neg (by omega), if_pos (by omega), show (3 * n + 1) / 3 = n by omega]

theorem interleave_r (p w r : Nat → ℝ) : (fun n => interleave p w r (3 * n + 2)) = r := by
  funext n
  unfold interleave
  rw [if_neg (by omega), if_neg (by omega), show (3 * n + 2) / 3 = n by omega]

/-- The linear equations of the data are those that are solved. -/
theorem linear_iff (V : Volumes S node edge) (hL : Lorenz S) (G : Metric) (D : Data) (M : Memory) (h2 : 2 ≤ S.levels)
    (y f : Nat → ℝ) :
    Linear S G (column D) (strayFactor S G (column D)) (fun n => y (3 * n)) (fun n => y (3 * n + 1)) (fun n => y (3 * n + 2))
      (fun k => f (3 * k)) (fun k => f (3 * k + 1)) (fun k => f (3 * k + 2)) ↔
    ∀ i, Unknown S.levels i → Vdyn.product (jacobianUpdates S G (setupColumn S D M) (setupColumn S D M).state ++
        stray S (jacobianUpdates S G (setupColumn S D M) (setupColumn S D M).state)) y i = f i := by
  obtain ⟨e1, e2⟩ := equations_rows V hL G D M h2 y
  constructor
  · intro h i hi
    unfold Unknown at hi
    obtain h0 | h0 | h0 : i = 3 * (i / 3) ∨ i = 3 * (i / 3) + 1 ∨ i = 3 * (i / 3) + 2 := by omega
    · rw [h0, (e1 _ (by omega)).1]
      exact (h.1 _ (by omega)).1
    · rw [h0, e2 _ (by omega)]
      exact h.2 _ (by omega)
    · rw [h0, (e1 _ (by omega)).2]
      exact (h.1 _ (by omega)).2
  · intro h
    refine ⟨fun k hk => ⟨?_, ?_⟩, fun k hk => ?_⟩
    · rw [← (e1 k hk).1]
      exact h _ (Or.inl (by omega))
    · exact (e1 k hk).2.symm.trans (h (3 * k + 2) (Or.inl (by omega)))
    · exact (e2 k hk).symm.trans (h (3 * k + 1) (by unfold Unknown; omega))

theorem stray_zero (S : Setup) (G : Metric) (C : Column) : strayFactor S G C 0 = 0 := by
  unfold strayFactor
  rw [if_neg (by omega)]

theorem singular_iff (V : Volumes S node edge) (hL : Lorenz S) (G : Metric) (D : Data) (M : Memory) (h2 : 2 ≤ S.levels) :
    Singular S G D (strayFactor S G (column D)) ↔
    ¬ Solvable S.levels (jacobianUpdates S G (setupColumn S D M) (setupColumn S D M).state ++
        stray S (jacobianUpdates S G (setupColumn S D M) (setupColumn S D M).state)) := by
  have hnone : ∀ y : Nat → ℝ, Nothing S (fun n => y (3 * n)) (fun n => y (3 * n + 1)) (fun n => y (3 * n + 2)) ↔
      ∀ i, Unknown S.levels i → y i = 0 := by
    intro y
    constructor
    · intro h i hi
      unfold Unknown at hi
      obtain h0 | h0 | h0 : i = 3 * (i / 3) ∨ i = 3 * (i / 3) + 1 ∨ i = 3 * (i / 3) + 2 := by omega
      · rw [h0]
        exact (h.1 _ (by omega)).1
      · rw [h0]
        exact h.2 _ (by omega)
      · rw [h0]
        exact (h.1 _ (by omega)).2
    · intro h
      exact ⟨fun k hk => ⟨h _ (Or.inl (by omega)), h _ (Or.inl (by omega))⟩, fun k hk => h _ (by unfold Unknown; omega)⟩
  constructor
  · rintro ⟨p, w, r, h1, h3⟩ hs
    apply h3
    have h4 := (hnone (interleave p w r)).2 (hs (interleave p w r) ((linear_iff V hL G D M h2 (interleave p w r) (fun _ => 0)).1 (by
      rw [interleave_p, interleave_w, interleave_r]
      exact h1)))
    rwa [interleave_p, interleave_w, interleave_r] at h4
  · intro hs
    unfold Solvable at hs
    push Not at hs
    obtain ⟨y, hy, i, hi, hne⟩ := hs
    refine ⟨fun n => y (3 * n), fun n => y (3 * n + 1), fun n => y (3 * n + 2), (linear_iff V hL G D M h2 y (fun _ => 0)).2 hy, ?_⟩
    intro h
    exact hne ((hnone y).1 h i hi)

/-- **C131 (refused).**  The step is refused if density times potential temperature is on interfaces, vertical velocity on levels, or
the discretisation is not by volumes.  Otherwise it is refused if and only if the order is above six, the column has too few levels
for the band solver, or the equations that are solved have no unique solution. -/
theorem C131_refused (V : Volumes S node edge) (solve : BandSolver) (hs : Lapack solve) (hdt : S.dt ≠ 0) (G : Metric) (D : Data)
    (M : Memory) (U : State) :
    (∀ S' : Setup, S'.pOnEdge = true ∨ S'.wOnEdge = false ∨ S'.volumes = false → implicitColumn S' G M solve D U = none) ∧
    (Lorenz S → (implicitColumn S G M solve D U = none ↔
      6 < S.order ∨ 2 * S.levels < 3 * (S.order + 1) + 1 ∨ Singular S G D (strayFactor S G (column D)))) := by
  constructor
  · intro S' h
    unfold implicitColumn newtonStep jacobian offDiagonals
    rcases h with h | h | h
    · simp [h]
    · simp [h]
    · simp only [h, Bool.false_eq_true, if_false]
      split <;> simp_all
  · intro hL
    unfold implicitColumn
    rw [Option.map_eq_none_iff]
    rcases Nat.lt_or_ge 6 S.order with h6 | h6
    · have : newtonStep S G M solve D = none := by
        unfold newtonStep
        rw [(off_half V).2.2 h6]
        dsimp only
        split
        · rename_i h7
          cases h7
        · rfl
      simp [this, h6]
    · rw [(newton_cases V hL G D M solve hs hdt h6).1]
      obtain ⟨hh, ho, hN⟩ := order_half V
      by_cases hlt : 2 * S.levels < 3 * (S.order + 1) + 1
      · simp [hlt]
      · rw [singular_iff V hL G D M (by omega)]
        simp only [hlt, false_or]
        constructor
        · exact Or.inr
        · rintro (h | h)
          · omega
          · exact h

/-- What a step that succeeds leaves behind. -/
theorem step_solves (V : Volumes S node edge) (hL : Lorenz S) (solve : BandSolver) (hs : Lapack solve) (hdt : S.dt ≠ 0)
    (href : S.useRef = true) (hin : S.uniform = true → ∀ k < S.levels, (S.diffDiffNN.row k).iend ≤ S.levels)
    (G : Metric) (D : Data) (M : Memory) (U W : State) (hW : implicitColumn S G M solve D U = some W) :
    NewtonStep S G D (strayFactor S G (column D)) (W.node 2) (W.edge 3) (W.node 4) ∧
    ¬ Singular S G D (strayFactor S G (column D)) ∧ 2 ≤ S.levels := by
  have hne : ¬ (6 < S.order ∨ 2 * S.levels < 3 * (S.order + 1) + 1 ∨ Singular S G D (strayFactor S G (column D))) := by
    intro h
    rw [((C131_refused V solve hs hdt G D M U).2 hL).2 h] at hW
    cases hW
  push Not at hne
  obtain ⟨h6, hlev, hsing⟩ := hne
  obtain ⟨hh, ho, hN⟩ := order_half V
  have h2 : 2 ≤ S.levels := by omega
  unfold implicitColumn at hW
  obtain ⟨s, h1, rfl⟩ := Option.map_eq_some_iff.1 hW
  have hsol := (newton_cases V hL G D M solve hs hdt h6).2 s h1
  obtain ⟨r1, r2⟩ := residual_rows V hL G D M h2 href hin
  have hlin := (linear_iff V hL G D M h2 (fun j => (setupColumn S D M).state j - s j)
    (residual S G (setupColumn S D M) (setupColumn S D M).state)).2 hsol
  refine ⟨?_, hsing, h2⟩
  have hp : ∀ k < S.levels, (writeSoln S s U).node 2 k = s (3 * k) := by
    intro k hk
    simp [writeSoln, hL.2.1, hk, vec]
  have hr : ∀ k < S.levels, (writeSoln S s U).node 4 k = s (3 * k + 2) := by
    intro k hk
    simp [writeSoln, hL.2.1, hk, vec]
  have hw : ∀ k ≤ S.levels, (writeSoln S s U).edge 3 k = s (3 * k + 1) := by
    intro k hk
    simp [writeSoln, hL.1, hk, vec]
  have := linear_of V h2 G (column D) _ _ _ _ (fun k => D.node 2 k - (writeSoln S s U).node 2 k)
    (fun k => D.edge 3 k - (writeSoln S s U).edge 3 k) (fun k => D.node 4 k - (writeSoln S s U).node 4 k) _ _ _
    (stray_zero S G (column D))
    (fun k hk => by rw [hp k hk, ← (state_eq hL D M k hk).1]) (fun k hk => by rw [hw k hk, ← state_w hL D M k])
    (fun k hk => by rw [hr k hk, ← (state_eq hL D M k hk).2]) hlin
  refine ⟨fun k hk => ?_, fun k hk => ?_⟩
  · exact ⟨(this.1 k hk).1.trans (r1 k hk).1, (this.1 k hk).2.trans (r1 k hk).2⟩
  · exact (this.2 k hk).trans (r2 k hk)

theorem linear_sub {G : Metric} (V : Volumes S node edge) (h2 : 2 ≤ S.levels) (C : Column)
    (f p w r p' w' r' a b c : Nat → ℝ) (h : Linear S G C f p w r a b c) (h' : Linear S G C f p' w' r' a b c) :
    Linear S G C f (fun k => p k - p' k) (fun k => w k - w' k) (fun k => r k - r' k) (fun _ => 0) (fun _ => 0) (fun _ => 0) := by
  have hA : ∀ (A : Op) (u v : Nat → ℝ) (k : Nat), applyRow A (fun n => u n - v n) k = applyRow A u k - applyRow A v k := by
    intro A u v k
    rw [applyRow_eq, applyRow_eq, applyRow_eq, ← sum_sub_distrib]
    exact sum_congr rfl fun n _ => by ring
  have hside : ∀ (q u v u' v' : Nat → ℝ) (k : Nat), k < S.levels → levelSide S G C q (fun n => u n - u' n) (fun n => v n - v' n) k =
      levelSide S G C q u v k - levelSide S G C q u' v' k := by
    intro q u v u' v' k hk
    have e : applyRow S.diffEN (fluxChange S G (wind S G C) q (fun n => u n - u' n) (fun n => v n - v' n)) k =
        applyRow S.diffEN (fluxChange S G (wind S G C) q u v) k - applyRow S.diffEN (fluxChange S G (wind S G C) q u' v') k := by
      rw [← hA]
      congr 1
      funext m
      unfold fluxChange
      rw [hA]
      split_ifs <;> ring
    unfold levelSide
    rw [e, penalty_volumes V h2 _ _ k hk, penalty_volumes V h2 _ _ k hk, penalty_volumes V h2 _ _ k hk, penalty_volumes V h2 _ _ k hk,
      penalty_volumes V h2 _ _ k hk, penalty_volumes V h2 _ _ k hk, hA, hA]
    by_cases a1 : k + 1 < S.levels <;> by_cases a2 : 1 ≤ k <;> simp only [a1, a2, if_true, if_false] <;> ring
  refine ⟨fun k hk => ?_, fun k hk => ?_⟩
  · obtain ⟨e1, e2⟩ := h.1 k hk
    obtain ⟨e1', e2'⟩ := h'.1 k hk
    rw [hside C.p w p w' p' k hk, hside C.r w r w' r' k hk]
    constructor <;> linarith
  · have e := h.2 k hk
    have e' := h'.2 k hk
    rw [show (0 : ℝ) = b k - b k by ring]
    nth_rw 1 [← e]
    rw [← e']
    unfold interfaceSide
    rw [hA, hA]
    have : applyRow S.diffNE (fun m => exner S C m / C.p m * (p m - p' m)) k =
        applyRow S.diffNE (fun m => exner S C m / C.p m * p m) k - applyRow S.diffNE (fun m => exner S C m / C.p m * p' m) k := by
      rw [← hA]
      congr 1
      funext m
      ring
    rw [this]
    split_ifs <;> ring

/-- **C131 (the step).**  A step that succeeds takes the column to the one and only state that solves the linear equations of
`NewtonStep`, with the factors of `strayFactor` in the equations for density. -/
theorem C131_step (V : Volumes S node edge) (hL : Lorenz S) (solve : BandSolver) (hs : Lapack solve) (hdt : S.dt ≠ 0)
    (href : S.useRef = true) (hin : S.uniform = true → ∀ k < S.levels, (S.diffDiffNN.row k).iend ≤ S.levels)
    (G : Metric) (D : Data) (M : Memory) (U W : State) (hW : implicitColumn S G M solve D U = some W) (p w r : Nat → ℝ) :
    NewtonStep S G D (strayFactor S G (column D)) p w r ↔
      (∀ k < S.levels, p k = W.node 2 k ∧ r k = W.node 4 k) ∧ ∀ k ≤ S.levels, w k = W.edge 3 k := by
  obtain ⟨h1, hsing, h2⟩ := step_solves V hL solve hs hdt href hin G D M U W hW
  constructor
  · intro h
    have hlin := linear_sub V h2 (column D) _ _ _ _ _ _ _ _ _ _ h h1
    have hno : Nothing S (fun k => D.node 2 k - p k - (D.node 2 k - W.node 2 k)) (fun k => D.edge 3 k - w k - (D.edge 3 k - W.edge 3 k))
        (fun k => D.node 4 k - r k - (D.node 4 k - W.node 4 k)) := by
      by_contra hne
      exact hsing ⟨_, _, _, hlin, hne⟩
    refine ⟨fun k hk => ?_, fun k hk => ?_⟩
    · obtain ⟨a, b⟩ := hno.1 k hk
      constructor <;> linarith
    · have a := hno.2 k hk
      simp only at a
      linarith
  · rintro ⟨a, b⟩
    exact linear_of V h2 G (column D) _ _ _ _ _ _ _ _ _ _ (stray_zero S G (column D))
      (fun k hk => by rw [(a k hk).1]) (fun k hk => by rw [b k hk]) (fun k hk => by rw [(a k hk).2]) h1

/-- **C131 (Newton's method; partial).**  At fourth and sixth order the state after a step is the one and only solution of the
equations of Newton's method.  Missing: second order, see `C131_newton_false`. -/
theorem C131_newton_partial (V : Volumes S node edge) (hL : Lorenz S) (solve : BandSolver) (hs : Lapack solve) (hdt : S.dt ≠ 0)
    (href : S.useRef = true) (hin : S.uniform = true → ∀ k < S.levels, (S.diffDiffNN.row k).iend ≤ S.levels)
    (G : Metric) (D : Data) (M : Memory) (U W : State) (hW : implicitColumn S G M solve D U = some W) (ho : S.order ≠ 2)
    (p w r : Nat → ℝ) :
    NewtonStep S G D (fun _ => 0) p w r ↔
      (∀ k < S.levels, p k = W.node 2 k ∧ r k = W.node 4 k) ∧ ∀ k ≤ S.levels, w k = W.edge 3 k := by
  have e : strayFactor S G (column D) = fun _ => 0 := by
    funext k
    unfold strayFactor
    rw [if_neg (fun h => ho h.1)]
  have := C131_step V hL solve hs hdt href hin G D M U W hW p w r
  rwa [e] at this

/-! ### Conservation -/

/-- The left hand side of an equation, summed over the column. -/
theorem side_amount (V : Volumes S node edge) (h2 : 2 ≤ S.levels) (G : Metric) (j : ℝ) (hj : j ≠ 0)
    (hJ : ∀ k < S.levels, G.jac k = j) (C : Column) (q w r : Nat → ℝ) :
    amount S G edge (levelSide S G C q w r) = amount S G edge r / S.dt := by
  obtain ⟨hh, ho, hN⟩ := order_half V
  obtain ⟨E, hE⟩ := ((C71_refused .levels .levels S.order S.levels (S.levels + 1) node edge).2.2 rfl (by omega) (by omega) (by omega)).2
  have hdiv := (C71_conserve S.order S.levels (S.levels + 1) node edge V.increasing S.diffEN E V.divergence hE
    (fluxChange S G (wind S G C) q w r)).1
  have hP := V.jumps
  rw [ho] at hP
  have hpen := fun v z => C87_volumes_conserve (half S) S.levels (S.levels + 1) hh node edge S.penalty hP h2 V.increasing V.distinct v z
    (fun _ => 0) 1 1 one_pos
  simp only [mul_one, mul_zero, sum_const_zero] at hpen
  unfold amount
  have e : ∀ k ∈ range S.levels, (edge (k + 1) - edge k) * G.jac k * levelSide S G C q w r k =
      (edge (k + 1) - edge k) * applyRow S.diffEN (fluxChange S G (wind S G C) q w r) k -
      j * ((edge (k + 1) - edge k) * penaltyApply S.penalty (fun a => |wind S G C (a + 1)|) r (fun _ => 0) 1 1 k) -
      j * ((edge (k + 1) - edge k) * penaltyApply S.penalty (fun a => sgn (wind S G C (a + 1)) / G.derivREdge (a + 1) * w (a + 1)) q
        (fun _ => 0) 1 1 k) + (edge (k + 1) - edge k) * G.jac k * r k / S.dt := by
    intro k hk
    rw [mem_range] at hk
    unfold levelSide
    rw [hJ k hk]
    field_simp
  rw [sum_congr rfl e, sum_add_distrib, sum_sub_distrib, sum_sub_distrib, ← mul_sum, ← mul_sum, hpen, hpen, hdiv, Finset.sum_div]
  unfold fluxChange
  rw [if_neg (by omega), if_neg (by omega)]
  ring

/-- The right hand side of an equation, summed over the column. -/
theorem tend_amount (V : Volumes S node edge) (h2 : 2 ≤ S.levels) (G : Metric) (j : ℝ) (hj : j ≠ 0)
    (hJ : ∀ k < S.levels, G.jac k = j) (C : Column) (q : Nat → ℝ) : amount S G edge (levelTend S G C q) = 0 := by
  obtain ⟨hh, ho, hN⟩ := order_half V
  obtain ⟨E, hE⟩ := ((C71_refused .levels .levels S.order S.levels (S.levels + 1) node edge).2.2 rfl (by omega) (by omega) (by omega)).2
  have hdiv := (C71_conserve S.order S.levels (S.levels + 1) node edge V.increasing S.diffEN E V.divergence hE
    (flux S (physical G) C q)).1
  have hP := V.jumps
  rw [ho] at hP
  have hpen := fun v z => C87_volumes_conserve (half S) S.levels (S.levels + 1) hh node edge S.penalty hP h2 V.increasing V.distinct v z
    (fun _ => 0) 1 1 one_pos
  simp only [mul_one, mul_zero, sum_const_zero] at hpen
  unfold amount
  have e : ∀ k ∈ range S.levels, (edge (k + 1) - edge k) * G.jac k * levelTend S G C q k =
      (edge (k + 1) - edge k) * applyRow S.diffEN (flux S (physical G) C q) k -
      j * ((edge (k + 1) - edge k) * penaltyApply S.penalty (fun a => |wind S G C (a + 1)|) q (fun _ => 0) 1 1 k) := by
    intro k hk
    rw [mem_range] at hk
    unfold levelTend
    rw [hJ k hk]
    field_simp
  rw [sum_congr rfl e, sum_sub_distrib, ← mul_sum, hpen, hdiv]
  unfold flux verticalWind
  rw [if_pos (by omega), if_pos (by omega)]
  ring

/-- **C131 (conservation; partial).**  Where the volume element is the same on all levels of a column, a step keeps the amount of
density times potential temperature in the column, without uniform diffusion, and at fourth and sixth order the mass; at second order
the mass changes by what `strayFactor` brings in.  Missing: volume elements that change with height, uniform diffusion. -/
theorem C131_conserved_partial (V : Volumes S node edge) (hL : Lorenz S) (solve : BandSolver) (hs : Lapack solve) (hdt : S.dt ≠ 0)
    (href : S.useRef = true) (hu : S.uniform = false) (G : Metric) (j : ℝ) (hj : j ≠ 0) (hJ : ∀ k < S.levels, G.jac k = j)
    (D : Data) (M : Memory) (U W : State) (hW : implicitColumn S G M solve D U = some W) :
    amount S G edge (W.node 2) = amount S G edge (D.node 2) ∧
    (S.order ≠ 2 → amount S G edge (W.node 4) = amount S G edge (D.node 4)) ∧
    amount S G edge (W.node 4) = amount S G edge (D.node 4) +
      S.dt * amount S G edge (fun k => strayFactor S G (column D) k * (D.node 2 (k - 1) - W.node 2 (k - 1))) := by
  obtain ⟨h1, -, h2⟩ := step_solves V hL solve hs hdt href (by simp [hu]) G D M U W hW
  have hsub : ∀ a b : Nat → ℝ, amount S G edge (fun k => a k - b k) = amount S G edge a - amount S G edge b := by
    intro a b
    unfold amount
    rw [← sum_sub_distrib]
    exact sum_congr rfl fun k _ => by ring
  have hadd : ∀ a b : Nat → ℝ, amount S G edge (fun k => a k + b k) = amount S G edge a + amount S G edge b := by
    intro a b
    unfold amount
    rw [← sum_add_distrib]
    exact sum_congr rfl fun k _ => by ring
  have hcongr : ∀ a b : Nat → ℝ, (∀ k < S.levels, a k = b k) → amount S G edge a = amount S G edge b := by
    intro a b h
    unfold amount
    exact sum_congr rfl fun k hk => by rw [h k (mem_range.1 hk)]
  have ep := hcongr _ _ fun k hk => (h1.1 k hk).1
  have er := hcongr _ _ fun k hk => (h1.1 k hk).2
  have hd : ∀ k, diffuse S S.diffDiffNN S.nuScalar (D.node 2) (D.refNode 2) k = 0 := fun k => by simp [diffuse, hu]
  simp only [hd, sub_zero] at ep
  rw [side_amount V h2 G j hj hJ, hsub, tend_amount V h2 G j hj hJ, div_eq_zero_iff] at ep
  rw [hadd, side_amount V h2 G j hj hJ, hsub, tend_amount V h2 G j hj hJ] at er
  have hm : amount S G edge (W.node 4) = amount S G edge (D.node 4) +
      S.dt * amount S G edge (fun k => strayFactor S G (column D) k * (D.node 2 (k - 1) - W.node 2 (k - 1))) := by
    field_simp at er
    linarith
  refine ⟨?_, fun ho => ?_, hm⟩
  · rcases ep with h | h
    · linarith
    · exact absurd h hdt
  · have hz := hcongr (fun k => strayFactor S G (column D) k * (D.node 2 (k - 1) - W.node 2 (k - 1))) (fun _ => 0) fun k _ => by
      unfold strayFactor
      rw [if_neg (fun h => ho h.1), zero_mul]
    rw [hm, hz]
    simp [amount]

/-- **C131 (ends).**  A step does not change vertical velocity at the bottom and at the top. -/
theorem C131_ends (V : Volumes S node edge) (hL : Lorenz S) (solve : BandSolver) (hs : Lapack solve) (hdt : S.dt ≠ 0)
    (href : S.useRef = true) (hin : S.uniform = true → ∀ k < S.levels, (S.diffDiffNN.row k).iend ≤ S.levels)
    (G : Metric) (D : Data) (M : Memory) (U W : State) (hW : implicitColumn S G M solve D U = some W) :
    W.edge 3 0 = D.edge 3 0 ∧ W.edge 3 S.levels = D.edge 3 S.levels := by
  obtain ⟨h1, -, -⟩ := step_solves V hL solve hs hdt href hin G D M U W hW
  have key : ∀ k, k = 0 ∨ k = S.levels → W.edge 3 k = D.edge 3 k := by
    intro k hk
    have := h1.2 k (by omega)
    unfold interfaceSide interfaceTend at this
    rw [if_neg (by omega), if_neg (by omega), zero_add, div_eq_zero_iff] at this
    rcases this with h | h
    · linarith
    · exact absurd h hdt
  exact ⟨key 0 (Or.inl rfl), key _ (Or.inr rfl)⟩

/-- **C131 (balance).**  A step leaves a column with no wind through its interfaces and in hydrostatic balance as it was, without
uniform diffusion. -/
theorem C131_balance (V : Volumes S node edge) (hL : Lorenz S) (solve : BandSolver) (hs : Lapack solve) (hdt : S.dt ≠ 0)
    (href : S.useRef = true) (hu : S.uniform = false) (G : Metric) (D : Data) (M : Memory) (U W : State)
    (hW : implicitColumn S G M solve D U = some W)
    (hwind : ∀ k, 1 ≤ k → k < S.levels → wind S G (column D) k = 0)
    (hbal : ∀ k, 1 ≤ k → k < S.levels →
      theta S (column D) k * applyRow S.diffNE (exner S (column D)) k = -S.phys.g * G.derivREdge k ∧ G.derivREdge k ≠ 0) :
    (∀ k < S.levels, W.node 2 k = D.node 2 k ∧ W.node 4 k = D.node 4 k) ∧ ∀ k ≤ S.levels, W.edge 3 k = D.edge 3 k := by
  obtain ⟨-, -, h2⟩ := step_solves V hL solve hs hdt href (by simp [hu]) G D M U W hW
  have hw0 : ∀ k, wind S G (column D) k = 0 := by
    intro k
    by_cases hk : 1 ≤ k ∧ k < S.levels
    · exact hwind k hk.1 hk.2
    · unfold wind verticalWind
      rw [if_pos (by omega)]
  have hzero : ∀ A : Op, ∀ k, applyRow A (fun _ => (0 : ℝ)) k = 0 := by
    intro A k
    rw [applyRow_eq]
    simp
  have htend : ∀ q k, k < S.levels → levelTend S G (column D) q k = 0 := by
    intro q k hk
    have hf : flux S (physical G) (column D) q = fun _ => 0 := by
      funext m
      have := hw0 m
      unfold wind at this
      unfold flux
      rw [this, mul_zero]
    unfold levelTend
    rw [hf, hzero, penalty_volumes V h2 _ _ k hk]
    simp [hw0]
  have hside : ∀ q k, k < S.levels → levelSide S G (column D) q (fun _ => 0) (fun _ => 0) k = 0 := by
    intro q k hk
    have hf : fluxChange S G (wind S G (column D)) q (fun _ => 0) (fun _ => 0) = fun _ => 0 := by
      funext m
      unfold fluxChange
      rw [hw0, mul_zero, mul_zero, mul_zero, add_zero, mul_zero, ite_self]
    unfold levelSide
    rw [hf, hzero, penalty_volumes V h2 _ _ k hk, penalty_volumes V h2 _ _ k hk]
    simp [hw0]
  have hN : NewtonStep S G D (strayFactor S G (column D)) (D.node 2) (D.edge 3) (D.node 4) := by
    unfold NewtonStep
    simp only [sub_self]
    refine ⟨fun k hk => ⟨?_, ?_⟩, fun k hk => ?_⟩
    · rw [hside _ k hk]
      dsimp only
      rw [htend _ k hk]
      simp [diffuse, hu]
    · rw [hside _ k hk, htend _ k hk]
      simp
    · unfold interfaceSide interfaceTend
      by_cases h : 1 ≤ k ∧ k < S.levels
      · rw [if_pos h, if_pos h]
        simp only [mul_zero, hzero]
        rw [(hbal k h.1 h.2).1]
        have := (hbal k h.1 h.2).2
        simp only [diffuse, hu, Bool.false_eq_true, if_false]
        field_simp
        ring
      · rw [if_neg h, if_neg h]
        simp
  obtain ⟨a, b⟩ := (C131_step V hL solve hs hdt href (by simp [hu]) G D M U W hW _ _ _).1 hN
  exact ⟨fun k hk => ⟨((a k hk).1).symm, ((a k hk).2).symm⟩, fun k hk => (b k hk).symm⟩

/-- **C131 (untouched).**  A step writes density times potential temperature and density of levels and vertical velocity of
interfaces and nothing else, and what it writes does not depend on what was there before. -/
theorem C131_untouched (hL : Lorenz S) (solve : BandSolver) (G : Metric) (D : Data) (M : Memory) (U W : State)
    (hW : implicitColumn S G M solve D U = some W) :
    (∀ c k, ¬ ((c = 2 ∨ c = 4) ∧ k < S.levels) → W.node c k = U.node c k) ∧
    (∀ c k, ¬ (c = 3 ∧ k ≤ S.levels) → W.edge c k = U.edge c k) ∧ W.tracer = U.tracer ∧
    ∀ U', ∃ W', implicitColumn S G M solve D U' = some W' ∧ (∀ k < S.levels, W'.node 2 k = W.node 2 k ∧ W'.node 4 k = W.node 4 k) ∧
      ∀ k ≤ S.levels, W'.edge 3 k = W.edge 3 k := by
  unfold implicitColumn at hW
  obtain ⟨s, h1, rfl⟩ := Option.map_eq_some_iff.1 hW
  refine ⟨fun c k h => ?_, fun c k h => ?_, rfl, fun U' => ⟨writeSoln S s U', ?_, fun k hk => ⟨?_, ?_⟩, fun k hk => ?_⟩⟩
  · unfold writeSoln
    dsimp only
    rw [if_neg (fun h' => h ⟨Or.inl h'.1, h'.2.2⟩), if_neg (by simp [hL.1]), if_neg (fun h' => h ⟨Or.inr h'.1, h'.2⟩)]
  · unfold writeSoln
    dsimp only
    rw [if_neg (by simp [hL.2.1]), if_neg (fun h' => h ⟨h'.1, h'.2.2⟩)]
  · unfold implicitColumn
    rw [h1]
    rfl
  · simp [writeSoln, hL.2.1, hk]
  · simp [writeSoln, hL.2.1, hk]
  · simp [writeSoln, hL.1, hk]

end

end Verif.Schur
