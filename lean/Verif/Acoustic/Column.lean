import Verif.Acoustic.RestProps

/-!
# A solver and a column
-/

namespace Verif.Acoustic

open Verif.Horiz

open Classical in
/-- A solver that keeps the promise of `dgtsv`. -/
noncomputable def ideal (n : Nat) : Solver := fun A B C D =>
  if h : ∃ x, Rows n A B C D x ∧ ∀ y, Rows n A B C D y → ∀ k, k ≤ n → y k = x k then some h.choose else none

theorem ideal_exact (n : Nat) : Exact n (ideal n) := by
  intro A B C D x h
  unfold ideal at h
  split at h
  case isTrue hx =>
    rw [← Option.some.inj h]
    exact hx.choose_spec
  case isFalse => exact absurd h (by simp)

theorem ideal_two (A B C D : Nat → ℝ) (hB0 : B 0 = 1) (hC0 : C 0 = 0) (hA1 : A 1 = 0) (hB2 : B 2 = 1) (hB1 : B 1 ≠ 0)
    (hD0 : D 0 = 0) (hD2 : D 2 = 0) :
    ∃ x, ideal 2 A B C D = some x ∧ x 0 = 0 ∧ x 1 = D 1 / B 1 ∧ x 2 = 0 := by
  have rows : Rows 2 A B C D (fun k => if k = 1 then D 1 / B 1 else 0) := by
    refine ⟨?_, ?_, ?_⟩
    · simp [hC0, hD0]
    · intro k h0 h2
      obtain rfl : k = 1 := by omega
      simp
      field_simp
    · simp [hA1, hD2]
  have only : ∀ y, Rows 2 A B C D y → ∀ k, k ≤ 2 → y k = if k = 1 then D 1 / B 1 else 0 := by
    intro y ⟨y0, y1, y2⟩ k hk
    have z0 : y 0 = 0 := by rw [hB0, hC0, hD0] at y0; linarith
    have z2 : y 2 = 0 := by rw [hA1, hB2, hD2] at y2; linarith
    have z1 := y1 1 (by omega) (by omega)
    rw [z2, show 1 - 1 = 0 from rfl, z0] at z1
    interval_cases k
    · simpa using z0
    · rw [if_pos rfl, eq_div_iff hB1]
      linarith
    · simpa using z2
  have ex : ∃ x, Rows 2 A B C D x ∧ ∀ y, Rows 2 A B C D y → ∀ k, k ≤ 2 → y k = x k := ⟨_, rows, only⟩
  refine ⟨ex.choose, dif_pos ex, ?_, ?_, ?_⟩
  · exact only _ ex.choose_spec.1 0 (by omega)
  · exact only _ ex.choose_spec.1 1 (by omega)
  · exact only _ ex.choose_spec.1 2 (by omega)

theorem solve_two (G : Grid) (hn : G.levels = 2) (τ : ℝ) (q θ rhs : Fld)
    (hd : ∀ e i j, e < G.elements → i < G.order → j < G.order → diag G τ q θ e i j 1 ≠ 0)
    (h0 : ∀ e i j, rhs e i j 0 = 0) (h2 : ∀ e i j, rhs e i j 2 = 0) :
    ∃ X, solveAll G (ideal 2) τ q θ rhs = some X ∧ ∀ e i j, e < G.elements → i < G.order → j < G.order →
      X e i j 0 = 0 ∧ X e i j 1 = rhs e i j 1 / diag G τ q θ e i j 1 ∧ X e i j 2 = 0 := by
  have two : ∀ e i j, e < G.elements → i < G.order → j < G.order → ∃ x,
      ideal 2 (lower G τ q θ e i j) (diag G τ q θ e i j) (upper G τ q θ e i j) (rhs e i j) = some x ∧ x 0 = 0 ∧
        x 1 = rhs e i j 1 / diag G τ q θ e i j 1 ∧ x 2 = 0 := by
    intro e i j he hi hj
    refine ideal_two _ _ _ _ ?_ ?_ ?_ ?_ (hd e i j he hi hj) (h0 e i j) (h2 e i j)
    · exact if_neg (by omega)
    · exact if_neg (by omega)
    · exact if_neg (by omega)
    · exact if_neg (by omega)
  have all : ∀ e i j, e < G.elements → i < G.order → j < G.order →
      (ideal 2 (lower G τ q θ e i j) (diag G τ q θ e i j) (upper G τ q θ e i j) (rhs e i j)).isSome := by
    intro e i j he hi hj
    obtain ⟨x, hx, _⟩ := two e i j he hi hj
    rw [hx]
    rfl
  refine ⟨_, if_pos all, fun e i j he hi hj => ?_⟩
  obtain ⟨x, hx, hx'⟩ := two e i j he hi hj
  simp only [hx, Option.getD_some]
  exact hx'

/-- With two levels a step succeeds if the single equation of each column can be solved. -/
theorem split_runs (G : Grid) (hn : G.levels = 2) (base iI iU : Nat) (hI : iI < base) (hIU : iI ≠ iU) (dt : ℝ) (st : Store)
    (hd : ∀ e i j, e < G.elements → i < G.order → j < G.order →
      diag G (timeScale (dt / 3)) (stiffness G (st iI)) (thetaEdge G (st iI)) e i j 1 ≠ 0) :
    ∃ st', stepExplicit G (ideal 2) true true base iI iU dt st = some st' := by
  have first : ∀ T old, ∃ a, firstLoop G (ideal 2) (st iI) T (dt / 3) old = some a := by
    intro T old
    obtain ⟨X, hX, _⟩ := solve_two G hn _ _ _ (firstRhs G T (dt / 3)
      (firstMass G T (dt / 3) (fun e i j k => dt / 3 * T.u e i j k) (fun e i j k => dt / 3 * T.v e i j k))
      (firstHeat G (st iI) T (dt / 3) (fun e i j k => dt / 3 * T.u e i j k) (fun e i j k => dt / 3 * T.v e i j k)))
      hd (fun _ _ _ => by unfold firstRhs inner; exact if_neg (by omega))
      (fun _ _ _ => by unfold firstRhs inner; exact if_neg (by omega))
    unfold firstLoop
    simp only [hX, Option.map_some]
    exact ⟨_, rfl⟩
  have next : ∀ T a0 a1 old, ∃ a, nextLoop G (ideal 2) (st iI) T (dt / 3) a0 a1 old = some a := by
    intro T a0 a1 old
    unfold nextLoop
    obtain ⟨X, hX, _⟩ := solve_two G hn (timeScale (dt / 3)) (stiffness G (st iI)) (thetaEdge G (st iI))
      (nextRhs G (st iI) T (dt / 3) a1
        (nextMass G T (dt / 3) a1
          (fun e i j k => a1.u e i j k - dt / 3 * conGradA G (soundPressure G (st iI) a0 a1) e i j k + dt / 3 * T.u e i j k)
          (fun e i j k => a1.v e i j k - dt / 3 * conGradB G (soundPressure G (st iI) a0 a1) e i j k + dt / 3 * T.v e i j k))
        (nextHeat G (st iI) T (dt / 3) a1
          (fun e i j k => a1.u e i j k - dt / 3 * conGradA G (soundPressure G (st iI) a0 a1) e i j k + dt / 3 * T.u e i j k)
          (fun e i j k => a1.v e i j k - dt / 3 * conGradB G (soundPressure G (st iI) a0 a1) e i j k + dt / 3 * T.v e i j k)))
      hd (fun _ _ _ => by unfold nextRhs inner; exact if_neg (by omega))
      (fun _ _ _ => by unfold nextRhs inner; exact if_neg (by omega))
    simp only [hX, Option.map_some]
    exact ⟨_, rfl⟩
  have n0 : iI ≠ base := by omega
  have n1 : iI ≠ base + 1 := by omega
  have n2 : iI ≠ base + 2 := by omega
  have n3 : iI ≠ base + 3 := by omega
  unfold stepExplicit
  simp only [hIU, if_false, Bool.not_true]
  simp only [putSlot, n0, n1, n2, n3, if_false]
  obtain ⟨a, ha⟩ := first (tendencies G (st iI) (st base)) (zero (st (base + 1)))
  obtain ⟨b, hb⟩ := next (tendencies G (st iI) (st base)) (zero (st (base + 3))) a (zero (st (base + 2)))
  obtain ⟨c, hc⟩ := next (tendencies G (st iI) (st base)) a b (zero (st (base + 3)))
  simp [ha, hb, hc]

/-- One column of unit layers over flat ground that does not rotate. -/
noncomputable def column (n : Nat) (g gamma : ℝ) (pressure : ℝ → ℝ) : Grid where
  elements := 1
  order := 1
  levels := n
  B := ⟨fun _ _ => 0, fun _ _ => 0⟩
  deltaA := fun _ => 1
  deltaB := fun _ => 1
  jac := fun _ _ _ _ => 1
  jacEdge := fun _ _ _ _ => 1
  jac2d := fun _ _ _ => 1
  covA := fun _ _ _ m => if m = 0 then 1 else 0
  covB := fun _ _ _ m => if m = 1 then 1 else 0
  conA := fun _ _ _ m => if m = 0 then 1 else 0
  conB := fun _ _ _ m => if m = 1 then 1 else 0
  derivR := fun _ _ _ _ _ => 0
  derivREdge := fun _ _ _ _ _ => 0
  zn := fun _ _ _ k => k
  zi := fun _ _ _ k => k
  coriolis := fun _ _ _ => 0
  g := g
  gamma := gamma
  pressure := pressure
  point := fun _ _ _ => 0
  vec := fun φ => φ

section

variable (n : Nat) (g gamma : ℝ) (pressure : ℝ → ℝ)

theorem column_paired : Paired (column n g gamma pressure).order (column n g gamma pressure).B (fun _ => 1) := by
  constructor
  · intro i hi
    simp [column]
  · intro m i hm hi
    simp [column]

theorem column_mean (φ : Fld) (k : Nat) : mean (column n g gamma pressure) φ 0 0 0 k = φ 0 0 0 k := by
  simp [mean, column]

theorem column_derA (φ : Fld) (e i j k : Nat) : derA (column n g gamma pressure) φ e i j k = 0 := by
  simp [derA, column, loop]

theorem column_derB (φ : Fld) (e i j k : Nat) : derB (column n g gamma pressure) φ e i j k = 0 := by
  simp [derB, column, loop]

theorem column_div (φ ψ : Fld) (e i j k : Nat) : div (column n g gamma pressure) φ ψ e i j k = 0 := by
  simp [div, weakA, weakB, column, loop]

theorem column_conGradA (φ : Fld) (e i j k : Nat) : conGradA (column n g gamma pressure) φ e i j k = 0 := by
  unfold conGradA gradA gradB
  rw [column_derA, column_derB]
  simp [column]

theorem column_conGradB (φ : Fld) (e i j k : Nat) : conGradB (column n g gamma pressure) φ e i j k = 0 := by
  unfold conGradB gradA gradB
  rw [column_derA, column_derB]
  simp [column]

theorem column_dz (φ : Fld) (e i j k : Nat) :
    dz (column n g gamma pressure) φ e i j k = φ e i j (k + 1) - φ e i j k := by
  simp [dz, column]

theorem column_dzEdge (φ : Fld) (e i j : Nat) :
    dzEdge (column n g gamma pressure) φ e i j 1 = φ e i j 1 - φ e i j 0 := by
  simp [dzEdge, column]

theorem column_carryW (s : State) (e i j : Nat) (hu : ∀ e i j k, s.u e i j k = 0) (hv : ∀ e i j k, s.v e i j k = 0) :
    carryW (column n g gamma pressure) s e i j 1 =
      0.5 * (s.w e i j 1 + s.w e i j 2) - 0.5 * (s.w e i j 0 + s.w e i j 1) := by
  unfold carryW
  rw [column_dzEdge]
  simp [weakA, weakB, column, loop, sDotW]

end

end Verif.Acoustic
