/-
C131: what the step by a Schur complement does at second order, and examples for the theorems on it.
-/
import Verif.Schur.WitnessFourth

namespace Verif.Schur

open Verif.Column Verif.Vdyn Verif.Interp Finset

/-- **C131 (not Newton's method).**  At second order the step is not that of Newton's method and does not keep the mass of the
column: in a column at rest that is not balanced, neither holds although the volume elements of all levels are the same. -/
theorem C131_newton_false : ∃ (S : Setup) (node edge : Nat → ℝ) (G : Metric) (D : Data) (M : Memory) (U W : State) (solve : BandSolver),
    Volumes S node edge ∧ Lorenz S ∧ Lapack solve ∧ S.dt ≠ 0 ∧ S.useRef = true ∧ S.uniform = false ∧ S.order = 2 ∧
    (∀ k, G.jac k = 1) ∧ implicitColumn S G M solve D U = some W ∧
    ¬ NewtonStep S G D (fun _ => 0) (W.node 2) (W.edge 3) (W.node 4) ∧
    amount S G edge (W.node 4) ≠ amount S G edge (D.node 4) := by
  obtain ⟨A, B, E, P, solve, W, V, hs, hW⟩ := Witness.steps 20 ⟨fun _ _ => 0, fun _ _ => 0, fun _ _ => 0, fun _ _ => 0, fun _ => 0,
    fun _ => 0, fun _ => 0⟩ ⟨fun _ _ => 0, fun _ _ => 0, fun _ _ => 0⟩
  have hstep := (C131_step V Witness.lorenz solve hs (by simp [Witness.setup]) rfl (by simp [Witness.setup]) Witness.metric Witness.data _ _ W hW
    (W.node 2) (W.edge 3) (W.node 4)).2 ⟨fun k _ => ⟨rfl, rfl⟩, fun k _ => rfl⟩
  refine ⟨_, _, _, _, _, _, _, W, solve, V, Witness.lorenz, hs, by simp [Witness.setup], rfl, rfl, rfl, fun _ => rfl, hW, ?_, ?_⟩
  all_goals
    have hlin : Linear (Witness.setup 20 A B E P) Witness.metric (column Witness.data)
        (strayFactor (Witness.setup 20 A B E P) Witness.metric (column Witness.data))
        (fun k => Witness.data.node 2 k - W.node 2 k) (fun k => Witness.data.edge 3 k - W.edge 3 k)
        (fun k => Witness.data.node 4 k - W.node 4 k) (fun _ => 0) (fun k => if 1 ≤ k ∧ k < 5 then 10 else 0) (fun _ => 0) := by
      refine ⟨fun k hk => ⟨((hstep.1 k hk).1).trans ?_, ((hstep.1 k hk).2).trans (Witness.level_tend V 4 k hk)⟩,
        fun k hk => (hstep.2 k hk).trans ?_⟩
      · dsimp only
        rw [Witness.level_tend V 2 k hk]
        simp [diffuse, Witness.setup]
      · dsimp only
        unfold interfaceTend
        rw [show (Witness.setup 20 A B E P).levels = 5 from rfl]
        by_cases h : 1 ≤ k ∧ k < 5
        · rw [if_pos h, if_pos h]
          have e1 : applyRow A (column Witness.data).p k = _ := Witness.interp_data V k h.1 h.2 2 (Or.inl rfl)
          have e2 : applyRow A (column Witness.data).r k = _ := Witness.interp_data V k h.1 h.2 4 (Or.inr rfl)
          have hp := Witness.positive k h.2
          unfold theta
          rw [show (Witness.setup 20 A B E P).interpNE = A from rfl, show (Witness.setup 20 A B E P).diffNE = B from rfl, e1, e2,
            Witness.exner_gradient V k h.1 h.2, div_self hp.ne']
          simp [diffuse, Witness.setup, Witness.metric]
          norm_num
        · rw [if_neg h, if_neg h]
    obtain ⟨⟨w0, w5, a0, a1, a2, a3, a4⟩, ⟨r0, r1, r2, r3, r4⟩, i1, i2, i3, i4⟩ := Witness.equations V (fun _ => rfl) hlin
  · intro hN
    have h1 := (hN.1 3 (by change 3 < 5; omega)).2
    have h2 := (hstep.1 3 (by change 3 < 5; omega)).2
    rw [Witness.stray_at V 3 (by omega) (by omega)] at h2
    simp only at h1 h2
    linarith
  · unfold amount
    rw [show (Witness.setup 20 A B E P).levels = 5 from rfl]
    simp only [Finset.sum_range_succ, Finset.sum_range_zero, Witness.metric, Witness.edge]
    norm_num
    intro h
    linarith

/-! ### Examples -/

/-- A column in balance meets the hypotheses of `C131_balance`, and with them those of `C131_step`, `C131_ends`,
`C131_conserved_partial` and `C131_untouched`. -/
example (M : Memory) (U : State) : ∃ S node edge solve W, Volumes S node edge ∧ Lorenz S ∧ Lapack solve ∧ S.dt ≠ 0 ∧
    S.useRef = true ∧ S.uniform = false ∧ implicitColumn S Witness.metric M solve Witness.data U = some W ∧
    (∀ k, 1 ≤ k → k < S.levels → wind S Witness.metric (column Witness.data) k = 0) ∧
    (∀ k, 1 ≤ k → k < S.levels →
      theta S (column Witness.data) k * applyRow S.diffNE (exner S (column Witness.data)) k = -S.phys.g * Witness.metric.derivREdge k ∧
      Witness.metric.derivREdge k ≠ 0) ∧ S.phys.g = 10 ∧ ∀ k, Witness.metric.jac k = 1 := by
  obtain ⟨A, B, E, P, solve, W, V, hs, hW⟩ := Witness.steps 10 M U
  refine ⟨_, _, _, solve, W, V, Witness.lorenz, hs, by simp [Witness.setup], rfl, rfl, hW, fun k _ _ => Witness.no_wind k, fun k h1 h5 => ?_,
    rfl, fun _ => rfl⟩
  have e1 : applyRow A (column Witness.data).p k = _ := Witness.interp_data V k h1 h5 2 (Or.inl rfl)
  have e2 : applyRow A (column Witness.data).r k = _ := Witness.interp_data V k h1 h5 4 (Or.inr rfl)
  have hp := Witness.positive k h5
  unfold theta
  rw [show (Witness.setup 10 A B E P).interpNE = A from rfl, show (Witness.setup 10 A B E P).diffNE = B from rfl, e1, e2,
    Witness.exner_gradient V k h1 h5, div_self hp.ne']
  simp [Witness.setup, Witness.metric]

/-- A column that meets the hypotheses of `C131_newton_partial`. -/
example (M : Memory) (U : State) : ∃ S node edge solve W, Volumes S node edge ∧ Lorenz S ∧ Lapack solve ∧ S.dt ≠ 0 ∧
    S.useRef = true ∧ S.uniform = false ∧ S.order = 4 ∧ implicitColumn S WitnessFourth.metric M solve WitnessFourth.data U = some W := by
  obtain ⟨A, B, E, P, solve, W, V, hs, hW⟩ := WitnessFourth.steps M U
  exact ⟨_, _, _, solve, W, V, ⟨rfl, rfl, rfl⟩, hs, by simp [WitnessFourth.setup, Witness.setup], rfl, rfl, rfl, hW⟩

end Verif.Schur
