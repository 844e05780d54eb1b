/-
Lemmas: the step by a Schur complement solves the equations of the column.
-/
import Verif.Schur.Elimination
import Verif.Vdyn.ImplicitProps

namespace Verif.Schur

open Verif.Column Verif.Vdyn Finset

theorem sum_two (n : Nat) (g : Nat → ℝ) : ∑ j ∈ range (2 * n), g j = ∑ l ∈ range n, (g (2 * l) + g (2 * l + 1)) := by
  induction n with
  | zero => rfl
  | succ n ih => rw [show 2 * (n + 1) = 2 * n + 1 + 1 by ring, sum_range_succ, sum_range_succ, ih, sum_range_succ, add_assoc]

theorem sum_three (n : Nat) (g : Nat → ℝ) :
    ∑ j ∈ range (3 * n), g j = ∑ l ∈ range n, (g (3 * l) + g (3 * l + 1) + g (3 * l + 2)) := by
  induction n with
  | zero => rfl
  | succ n ih =>
    rw [show 3 * (n + 1) = 3 * n + 1 + 1 + 1 by ring, sum_range_succ, sum_range_succ, sum_range_succ, ih, sum_range_succ]
    ring

section Shape
variable {N h : Nat} {dt : ℝ} {A : Nat → Nat → ℝ} (T : Shape N h dt A)
include T

/-- The matrix times a vector on a level. -/
theorem shape_level (y : Nat → ℝ) (c k : Nat) (hc : c < 2) (hk : k < N) :
    ∑ j ∈ range (3 * (N + 1)), A (3 * k + 2 * c) j * y j =
      ∑ l ∈ range N, (A (3 * k + 2 * c) (3 * l) * y (3 * l) + A (3 * k + 2 * c) (3 * l + 2) * y (3 * l + 2)) +
      ∑ i ∈ Ico 1 N, A (3 * k + 2 * c) (3 * i + 1) * y (3 * i + 1) := by
  obtain ⟨s1, s2, s3, s4⟩ := T
  have hw : ∑ i ∈ Ico 1 N, A (3 * k + 2 * c) (3 * i + 1) * y (3 * i + 1) =
      ∑ i ∈ range (N + 1), A (3 * k + 2 * c) (3 * i + 1) * y (3 * i + 1) := by
    apply sum_subset
    · intro i hi
      rw [mem_Ico] at hi
      rw [mem_range]
      omega
    · intro i _ hi
      rw [mem_Ico] at hi
      by_contra hne
      have := s1 (2 * c) k i (by omega) hk (left_ne_zero_of_mul hne)
      omega
  have e0 : A (3 * k + 2 * c) (3 * N) = 0 := by
    by_contra hne
    have := s2 (2 * c) k 0 N (by omega) (by omega) hk hne
    omega
  have e2 : A (3 * k + 2 * c) (3 * N + 2) = 0 := by
    by_contra hne
    have := s2 (2 * c) k 2 N (by omega) (by omega) hk hne
    omega
  have hl : ∑ l ∈ range N, (A (3 * k + 2 * c) (3 * l) * y (3 * l) + A (3 * k + 2 * c) (3 * l + 2) * y (3 * l + 2)) =
      ∑ l ∈ range (N + 1), (A (3 * k + 2 * c) (3 * l) * y (3 * l) + A (3 * k + 2 * c) (3 * l + 2) * y (3 * l + 2)) := by
    rw [sum_range_succ, e0, e2]
    ring
  rw [sum_three, hw, hl, ← sum_add_distrib]
  exact sum_congr rfl fun l _ => by ring

/-- The matrix times a vector on an interface. -/
theorem shape_w (y : Nat → ℝ) (k : Nat) (hk : k ≤ N) :
    ∑ j ∈ range (3 * (N + 1)), A (3 * k + 1) j * y j =
      ∑ l ∈ range N, (A (3 * k + 1) (3 * l) * y (3 * l) + A (3 * k + 1) (3 * l + 2) * y (3 * l + 2)) + 1 / dt * y (3 * k + 1) := by
  obtain ⟨s1, s2, s3, s4⟩ := T
  have hw : 1 / dt * y (3 * k + 1) = ∑ i ∈ range (N + 1), A (3 * k + 1) (3 * i + 1) * y (3 * i + 1) := by
    rw [sum_eq_single k]
    · rw [s4 k k hk, if_pos rfl]
    · intro b _ hb
      rw [s4 k b hk, if_neg (Ne.symm hb), zero_mul]
    · intro h
      rw [mem_range] at h
      omega
  have e0 : A (3 * k + 1) (3 * N) = 0 := by
    by_contra hne
    have := s3 0 k N (by omega) hk hne
    omega
  have e2 : A (3 * k + 1) (3 * N + 2) = 0 := by
    by_contra hne
    have := s3 2 k N (by omega) hk hne
    omega
  have hl : ∑ l ∈ range N, (A (3 * k + 1) (3 * l) * y (3 * l) + A (3 * k + 1) (3 * l + 2) * y (3 * l + 2)) =
      ∑ l ∈ range (N + 1), (A (3 * k + 1) (3 * l) * y (3 * l) + A (3 * k + 1) (3 * l + 2) * y (3 * l + 2)) := by
    rw [sum_range_succ, e0, e2]
    ring
  rw [sum_three, hw, hl, ← sum_add_distrib]
  exact sum_congr rfl fun l _ => by ring

/-- At the ends only the time derivative remains. -/
theorem shape_end (y : Nat → ℝ) (k : Nat) (hk : k = 0 ∨ k = N) :
    ∑ j ∈ range (3 * (N + 1)), A (3 * k + 1) j * y j = 1 / dt * y (3 * k + 1) := by
  rw [shape_w T y k (by omega)]
  obtain ⟨s1, s2, s3, s4⟩ := T
  rw [sum_eq_zero, zero_add]
  intro l _
  have e0 : A (3 * k + 1) (3 * l) = 0 := by
    by_contra hne
    have := s3 0 k l (by omega) (by omega) hne
    omega
  have e2 : A (3 * k + 1) (3 * l + 2) = 0 := by
    by_contra hne
    have := s3 2 k l (by omega) (by omega) hne
    omega
  rw [e0, e2]
  ring

/-- Elimination of vertical velocity. -/
theorem eliminate (hdt : dt ≠ 0) (B : Nat → Nat → ℝ)
    (hB : ∀ c k c' l, c < 2 → c' < 2 → k < N → l < N → B (2 * k + c) (2 * l + c') = A (3 * k + 2 * c) (3 * l + 2 * c') -
      ∑ i ∈ Ico 1 N, dt * A (3 * k + 2 * c) (3 * i + 1) * A (3 * i + 1) (3 * l + 2 * c'))
    (y z g : Nat → ℝ) (hz : ∀ l < N, z (2 * l) = y (3 * l) ∧ z (2 * l + 1) = y (3 * l + 2))
    (hg : ∀ i, 1 ≤ i → i < N → ∑ j ∈ range (3 * (N + 1)), A (3 * i + 1) j * y j = g i) (c k : Nat) (hc : c < 2) (hk : k < N) :
    ∑ j ∈ range (2 * N), B (2 * k + c) j * z j =
      ∑ j ∈ range (3 * (N + 1)), A (3 * k + 2 * c) j * y j - ∑ i ∈ Ico 1 N, dt * A (3 * k + 2 * c) (3 * i + 1) * g i := by
  have hb0 : ∀ l < N, B (2 * k + c) (2 * l) = A (3 * k + 2 * c) (3 * l) -
      ∑ i ∈ Ico 1 N, dt * A (3 * k + 2 * c) (3 * i + 1) * A (3 * i + 1) (3 * l) := fun l hl => by
    have := hB c k 0 l hc (by omega) hk hl
    simpa using this
  have hb1 : ∀ l < N, B (2 * k + c) (2 * l + 1) = A (3 * k + 2 * c) (3 * l + 2) -
      ∑ i ∈ Ico 1 N, dt * A (3 * k + 2 * c) (3 * i + 1) * A (3 * i + 1) (3 * l + 2) := fun l hl => by
    have := hB c k 1 l hc (by omega) hk hl
    simpa using this
  have e1 : ∑ j ∈ range (2 * N), B (2 * k + c) j * z j =
      ∑ l ∈ range N, (A (3 * k + 2 * c) (3 * l) * y (3 * l) + A (3 * k + 2 * c) (3 * l + 2) * y (3 * l + 2)) -
      ∑ l ∈ range N, ∑ i ∈ Ico 1 N, dt * A (3 * k + 2 * c) (3 * i + 1) *
        (A (3 * i + 1) (3 * l) * y (3 * l) + A (3 * i + 1) (3 * l + 2) * y (3 * l + 2)) := by
    rw [sum_two, ← sum_sub_distrib]
    apply sum_congr rfl
    intro l hl
    rw [mem_range] at hl
    rw [hb0 l hl, hb1 l hl, (hz l hl).1, (hz l hl).2, sub_mul, sub_mul, sum_mul, sum_mul]
    have : ∑ i ∈ Ico 1 N, dt * A (3 * k + 2 * c) (3 * i + 1) *
        (A (3 * i + 1) (3 * l) * y (3 * l) + A (3 * i + 1) (3 * l + 2) * y (3 * l + 2)) =
        ∑ i ∈ Ico 1 N, dt * A (3 * k + 2 * c) (3 * i + 1) * A (3 * i + 1) (3 * l) * y (3 * l) +
        ∑ i ∈ Ico 1 N, dt * A (3 * k + 2 * c) (3 * i + 1) * A (3 * i + 1) (3 * l + 2) * y (3 * l + 2) := by
      rw [← sum_add_distrib]
      exact sum_congr rfl fun i _ => by ring
    rw [this]
    ring
  rw [e1, shape_level T y c k hc hk, sum_comm, add_sub_assoc, sub_eq_add_neg]
  congr 1
  rw [← sum_neg_distrib, ← sum_sub_distrib]
  apply sum_congr rfl
  intro i hi
  rw [mem_Ico] at hi
  rw [← hg i hi.1 hi.2, shape_w T y i (by omega), ← mul_sum]
  field_simp
  ring

/-- The solution of the Schur complement gives that of the equations. -/
theorem elimination_solves (hdt : dt ≠ 0) (B : Nat → Nat → ℝ)
    (hB : ∀ c k c' l, c < 2 → c' < 2 → k < N → l < N → B (2 * k + c) (2 * l + c') = A (3 * k + 2 * c) (3 * l + 2 * c') -
      ∑ i ∈ Ico 1 N, dt * A (3 * k + 2 * c) (3 * i + 1) * A (3 * i + 1) (3 * l + 2 * c'))
    (f z s : Nat → ℝ) (hz : ∀ c k, c < 2 → k < N → ∑ j ∈ range (2 * N), B (2 * k + c) j * z j =
      f (3 * k + 2 * c) - ∑ i ∈ Ico 1 N, dt * A (3 * k + 2 * c) (3 * i + 1) * f (3 * i + 1))
    (hs : ∀ l < N, z (2 * l) = s (3 * l) ∧ z (2 * l + 1) = s (3 * l + 2))
    (hw : ∀ i, 1 ≤ i → i < N → s (3 * i + 1) = dt * (f (3 * i + 1) -
      ∑ l ∈ range N, (A (3 * i + 1) (3 * l) * z (2 * l) + A (3 * i + 1) (3 * l + 2) * z (2 * l + 1))))
    (he : ∀ k, k = 0 ∨ k = N → s (3 * k + 1) = dt * f (3 * k + 1)) (i : Nat) (hi : Unknown N i) :
    ∑ j ∈ range (3 * (N + 1)), A i j * s j = f i := by
  have hg : ∀ i, 1 ≤ i → i < N → ∑ j ∈ range (3 * (N + 1)), A (3 * i + 1) j * s j = f (3 * i + 1) := by
    intro i h1 hi
    rw [shape_w T s i (by omega), hw i h1 hi]
    have : ∑ l ∈ range N, (A (3 * i + 1) (3 * l) * z (2 * l) + A (3 * i + 1) (3 * l + 2) * z (2 * l + 1)) =
        ∑ l ∈ range N, (A (3 * i + 1) (3 * l) * s (3 * l) + A (3 * i + 1) (3 * l + 2) * s (3 * l + 2)) := by
      apply sum_congr rfl
      intro l hl
      rw [mem_range] at hl
      rw [(hs l hl).1, (hs l hl).2]
    rw [this]
    field_simp
    ring
  have hl : ∀ c k, c < 2 → k < N → ∑ j ∈ range (3 * (N + 1)), A (3 * k + 2 * c) j * s j = f (3 * k + 2 * c) := by
    intro c k hc hk
    have := eliminate T hdt B hB s z (fun i => f (3 * i + 1)) hs hg c k hc hk
    rw [hz c k hc hk] at this
    linarith
  have hend : ∀ k, k = 0 ∨ k = N → ∑ j ∈ range (3 * (N + 1)), A (3 * k + 1) j * s j = f (3 * k + 1) := by
    intro k hk
    rw [shape_end T s k hk, he k hk]
    field_simp
  unfold Unknown at hi
  obtain h | h | h : i = 3 * (i / 3) + 2 * 0 ∨ i = 3 * (i / 3) + 1 ∨ i = 3 * (i / 3) + 2 * 1 := by omega
  · rw [h]
    exact hl 0 _ (by omega) (by omega)
  · rw [h]
    by_cases hk : i / 3 = 0 ∨ i / 3 = N
    · exact hend _ hk
    · exact hg _ (by omega) (by omega)
  · rw [h]
    exact hl 1 _ (by omega) (by omega)

/-- The Schur complement is regular if the equations can be solved, and only then. -/
theorem elimination_regular (hdt : dt ≠ 0) (B : Nat → Nat → ℝ)
    (hB : ∀ c k c' l, c < 2 → c' < 2 → k < N → l < N → B (2 * k + c) (2 * l + c') = A (3 * k + 2 * c) (3 * l + 2 * c') -
      ∑ i ∈ Ico 1 N, dt * A (3 * k + 2 * c) (3 * i + 1) * A (3 * i + 1) (3 * l + 2 * c')) :
    (∀ z : Nat → ℝ, (∀ i < 2 * N, ∑ j ∈ range (2 * N), B i j * z j = 0) → ∀ i < 2 * N, z i = 0) ↔
    ∀ y : Nat → ℝ, (∀ i, Unknown N i → ∑ j ∈ range (3 * (N + 1)), A i j * y j = 0) → ∀ i, Unknown N i → y i = 0 := by
  constructor
  · intro hreg y hy
    let z : Nat → ℝ := fun j => y (3 * (j / 2) + 2 * (j % 2))
    have hz : ∀ l < N, z (2 * l) = y (3 * l) ∧ z (2 * l + 1) = y (3 * l + 2) := by
      intro l _
      constructor
      · show y _ = _
        congr 1
        omega
      · show y _ = _
        congr 1
        omega
    have hg : ∀ i, 1 ≤ i → i < N → ∑ j ∈ range (3 * (N + 1)), A (3 * i + 1) j * y j = (fun _ => 0) i := fun i _ hi =>
      hy _ (Or.inl (by omega))
    have hz0 := hreg z fun i hi => by
      have := eliminate T hdt B hB y z (fun _ => 0) hz hg (i % 2) (i / 2) (by omega) (by omega)
      rw [show 2 * (i / 2) + i % 2 = i by omega] at this
      rw [this, hy _ (Or.inl (by omega))]
      simp
    have hlev : ∀ l < N, y (3 * l) = 0 ∧ y (3 * l + 2) = 0 := fun l hl =>
      ⟨(hz l hl).1 ▸ hz0 _ (by omega), (hz l hl).2 ▸ hz0 _ (by omega)⟩
    have hwl : ∀ k ≤ N, y (3 * k + 1) = 0 := by
      intro k hk
      have h1 := hy (3 * k + 1) (by unfold Unknown; omega)
      rw [shape_w T y k hk, sum_eq_zero, zero_add] at h1
      · rcases mul_eq_zero.1 h1 with h | h
        · exact absurd h (one_div_ne_zero hdt)
        · exact h
      · intro l hl
        rw [mem_range] at hl
        rw [(hlev l hl).1, (hlev l hl).2]
        ring
    intro i hi
    unfold Unknown at hi
    obtain h | h | h : i = 3 * (i / 3) ∨ i = 3 * (i / 3) + 1 ∨ i = 3 * (i / 3) + 2 := by omega
    · rw [h]
      exact (hlev _ (by omega)).1
    · rw [h]
      exact hwl _ (by omega)
    · rw [h]
      exact (hlev _ (by omega)).2
  · intro hsol z hz
    let s : Nat → ℝ := fun j => if j % 3 = 1 then (if 1 ≤ j / 3 ∧ j / 3 < N then dt * (0 -
      ∑ l ∈ range N, (A j (3 * l) * z (2 * l) + A j (3 * l + 2) * z (2 * l + 1))) else 0) else z (2 * (j / 3) + j % 3 / 2)
    have hs : ∀ l < N, z (2 * l) = s (3 * l) ∧ z (2 * l + 1) = s (3 * l + 2) := by
      intro l _
      constructor
      · show _ = if _ then _ else _
        rw [if_neg (by omega)]
        congr 1
        omega
      · show _ = if _ then _ else _
        rw [if_neg (by omega)]
        congr 1
        omega
    have h0 := hsol s (elimination_solves T hdt B hB (fun _ => 0) z s (fun c k hc hk => by
      rw [hz _ (by omega)]
      simp) hs (fun i h1 hi => by
        show (if _ then _ else _) = _
        rw [if_pos (by omega), if_pos (by omega)]) (fun k hk => by
        show (if _ then _ else _) = _
        rw [if_pos (by omega), if_neg (by omega), mul_zero]))
    intro i hi
    obtain h | h : i = 2 * (i / 2) ∨ i = 2 * (i / 2) + 1 := by omega
    · rw [h, (hs _ (by omega)).1]
      exact h0 _ (Or.inl (by omega))
    · rw [h, (hs _ (by omega)).2]
      exact h0 _ (Or.inl (by omega))

end Shape

end Verif.Schur
