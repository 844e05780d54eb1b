/-
C24: the connections of a patch.
-/
import Verif.Patch.ConnLemmas
import Verif.Exchange.Spec
import Mathlib.Tactic.Tauto

namespace Verif.Patch

open Verif.Exchange (Dir Res)

theorem mem_bottomPart (f : Int × Int × Int → Option Nat) (x : Box) (n : Nat) (hA : x.aInteriorWidth = n + 1)
    (t : Nat) (d : Dir) (a b : Int) : (⟨t, d, a, b⟩ : Reg) ∈ bottomPart f x n ↔
      (d = .bottom ∧ IsSegment f x .bottom t a b) ∨
      (d = .bottomLeft ∧ b = x.bInteriorBegin ∧ x.aInteriorBegin < a ∧ a < x.aInteriorEnd ∧
        faces f x .bottom a ≠ some t ∧ faces f x .bottom (a - 1) = some t) ∨
      (d = .bottomRight ∧ b = x.bInteriorBegin ∧ x.aInteriorBegin ≤ a ∧ a < x.aInteriorEnd - 1 ∧
        faces f x .bottom (a + 1) = some t ∧ faces f x .bottom a ≠ some t) := by
  have hw : x.aInteriorEnd = x.aInteriorBegin + (n + 1) := by
    simp only [Box.aInteriorWidth, Box.aInteriorEnd, Box.aInteriorBegin] at *; omega
  have h := mem_up_side (faces f x .bottom) x.aInteriorBegin n .bottom .bottomLeft .bottomRight
    (fun i => (i, x.bInteriorBegin)) (fun i => (i - 1, x.bInteriorBegin)) ⟨t, d, a, b⟩
  unfold bottomPart
  rw [h]
  refine or_congr ?_ (or_congr ?_ ?_)
  · constructor
    · rintro ⟨t', a', b', e, h1, h2, h3, h4, h5, h6⟩
      obtain ⟨rfl, rfl, rfl, rfl⟩ := Reg.mk.inj e
      exact ⟨rfl, h1, h2, by simp only [sideEnd]; omega, h4, h5, by simp only [sideEnd]; rw [hw]; exact h6⟩
    · rintro ⟨rfl, g⟩
      obtain ⟨h1, h2, h3, h4, h5, h6⟩ := g
      simp only [sideBegin, sideEnd] at h1 h3 h5 h6
      rw [hw] at h3 h6
      exact ⟨t, a, b, rfl, h1, h2, h3, h4, h5, h6⟩
  · constructor
    · rintro ⟨t', i, e, h1, h2, h3, h4⟩
      obtain ⟨rfl, rfl, rfl, rfl⟩ := Reg.mk.inj e
      exact ⟨rfl, rfl, h1, by omega, h3, h4⟩
    · rintro ⟨rfl, rfl, h1, h2, h3, h4⟩
      exact ⟨t, a, rfl, h1, by omega, h3, h4⟩
  · constructor
    · rintro ⟨t', i, e, h1, h2, h3, h4⟩
      obtain ⟨rfl, rfl, rfl, rfl⟩ := Reg.mk.inj e
      exact ⟨rfl, rfl, by omega, by omega, by rw [show i - 1 + 1 = i by ring]; exact h3, h4⟩
    · rintro ⟨rfl, rfl, h1, h2, h3, h4⟩
      exact ⟨t, a + 1, by simp, by omega, by omega, h3, by rw [show a + 1 - 1 = a by ring]; exact h4⟩

theorem mem_rightPart (f : Int × Int × Int → Option Nat) (x : Box) (n : Nat) (hB : x.bInteriorWidth = n + 1)
    (t : Nat) (d : Dir) (a b : Int) : (⟨t, d, a, b⟩ : Reg) ∈ rightPart f x n ↔
      (d = .right ∧ IsSegment f x .right t a b) ∨
      (d = .bottomRight ∧ a = x.aInteriorEnd - 1 ∧ x.bInteriorBegin < b ∧ b < x.bInteriorEnd ∧
        faces f x .right b ≠ some t ∧ faces f x .right (b - 1) = some t) ∨
      (d = .topRight ∧ a = x.aInteriorEnd - 1 ∧ x.bInteriorBegin ≤ b ∧ b < x.bInteriorEnd - 1 ∧
        faces f x .right (b + 1) = some t ∧ faces f x .right b ≠ some t) := by
  have hw : x.bInteriorEnd = x.bInteriorBegin + (n + 1) := by
    simp only [Box.bInteriorWidth, Box.bInteriorEnd, Box.bInteriorBegin] at *; omega
  have h := mem_up_side (faces f x .right) x.bInteriorBegin n .right .bottomRight .topRight
    (fun j => (x.aInteriorEnd - 1, j)) (fun j => (x.aInteriorEnd - 1, j - 1)) ⟨t, d, a, b⟩
  unfold rightPart
  rw [h]
  refine or_congr ?_ (or_congr ?_ ?_)
  · constructor
    · rintro ⟨t', a', b', e, h1, h2, h3, h4, h5, h6⟩
      obtain ⟨rfl, rfl, rfl, rfl⟩ := Reg.mk.inj e
      exact ⟨rfl, h1, h2, by simp only [sideEnd]; omega, h4, h5, by simp only [sideEnd]; rw [hw]; exact h6⟩
    · rintro ⟨rfl, g⟩
      obtain ⟨h1, h2, h3, h4, h5, h6⟩ := g
      simp only [sideBegin, sideEnd] at h1 h3 h5 h6
      rw [hw] at h3 h6
      exact ⟨t, a, b, rfl, h1, h2, h3, h4, h5, h6⟩
  · constructor
    · rintro ⟨t', i, e, h1, h2, h3, h4⟩
      obtain ⟨rfl, rfl, rfl, rfl⟩ := Reg.mk.inj e
      exact ⟨rfl, rfl, h1, by omega, h3, h4⟩
    · rintro ⟨rfl, rfl, h1, h2, h3, h4⟩
      exact ⟨t, b, rfl, h1, by omega, h3, h4⟩
  · constructor
    · rintro ⟨t', i, e, h1, h2, h3, h4⟩
      obtain ⟨rfl, rfl, rfl, rfl⟩ := Reg.mk.inj e
      exact ⟨rfl, rfl, by omega, by omega, by rw [show i - 1 + 1 = i by ring]; exact h3, h4⟩
    · rintro ⟨rfl, rfl, h1, h2, h3, h4⟩
      exact ⟨t, b + 1, by simp, by omega, by omega, h3, by rw [show b + 1 - 1 = b by ring]; exact h4⟩

theorem mem_topPart (f : Int × Int × Int → Option Nat) (x : Box) (n : Nat) (hA : x.aInteriorWidth = n + 1)
    (t : Nat) (d : Dir) (a b : Int) : (⟨t, d, a, b⟩ : Reg) ∈ topPart f x n ↔
      (d = .top ∧ IsSegment f x .top t a b) ∨
      (d = .topRight ∧ b = x.bInteriorEnd - 1 ∧ x.aInteriorBegin ≤ a ∧ a < x.aInteriorEnd - 1 ∧
        faces f x .top a ≠ some t ∧ faces f x .top (a + 1) = some t) ∨
      (d = .topLeft ∧ b = x.bInteriorEnd - 1 ∧ x.aInteriorBegin < a ∧ a < x.aInteriorEnd ∧
        faces f x .top (a - 1) = some t ∧ faces f x .top a ≠ some t) := by
  have hw : x.aInteriorBegin = x.aInteriorEnd - (n + 1) := by
    simp only [Box.aInteriorWidth, Box.aInteriorEnd, Box.aInteriorBegin] at *; omega
  have h := mem_down_side (faces f x .top) x.aInteriorEnd n .top .topRight .topLeft
    (fun i => (i, x.bInteriorEnd - 1)) (fun i => (i + 1, x.bInteriorEnd - 1)) ⟨t, d, a, b⟩
  unfold topPart
  rw [h]
  refine or_congr ?_ (or_congr ?_ ?_)
  · constructor
    · rintro ⟨t', a', b', e, h1, h2, h3, h4, h5, h6⟩
      obtain ⟨rfl, rfl, rfl, rfl⟩ := Reg.mk.inj e
      exact ⟨rfl, by simp only [sideBegin]; omega, h2, h3, h4, by simp only [sideBegin]; rw [hw]; exact h5, h6⟩
    · rintro ⟨rfl, g⟩
      obtain ⟨h1, h2, h3, h4, h5, h6⟩ := g
      simp only [sideBegin, sideEnd] at h1 h3 h5 h6
      rw [hw] at h1 h5
      exact ⟨t, a, b, rfl, h1, h2, h3, h4, h5, h6⟩
  · constructor
    · rintro ⟨t', i, e, h1, h2, h3, h4⟩
      obtain ⟨rfl, rfl, rfl, rfl⟩ := Reg.mk.inj e
      exact ⟨rfl, rfl, by omega, by omega, h3, h4⟩
    · rintro ⟨rfl, rfl, h1, h2, h3, h4⟩
      exact ⟨t, a, rfl, by omega, by omega, h3, h4⟩
  · constructor
    · rintro ⟨t', i, e, h1, h2, h3, h4⟩
      obtain ⟨rfl, rfl, rfl, rfl⟩ := Reg.mk.inj e
      exact ⟨rfl, rfl, by omega, by omega, by rw [show i + 1 - 1 = i by ring]; exact h3, h4⟩
    · rintro ⟨rfl, rfl, h1, h2, h3, h4⟩
      exact ⟨t, a - 1, by simp, by omega, by omega, h3, by rw [show a - 1 + 1 = a by ring]; exact h4⟩

theorem mem_leftPart (f : Int × Int × Int → Option Nat) (x : Box) (n : Nat) (hB : x.bInteriorWidth = n + 1)
    (t : Nat) (d : Dir) (a b : Int) : (⟨t, d, a, b⟩ : Reg) ∈ leftPart f x n ↔
      (d = .left ∧ IsSegment f x .left t a b) ∨
      (d = .topLeft ∧ a = x.aInteriorBegin ∧ x.bInteriorBegin ≤ b ∧ b < x.bInteriorEnd - 1 ∧
        faces f x .left b ≠ some t ∧ faces f x .left (b + 1) = some t) ∨
      (d = .bottomLeft ∧ a = x.aInteriorBegin ∧ x.bInteriorBegin < b ∧ b < x.bInteriorEnd ∧
        faces f x .left (b - 1) = some t ∧ faces f x .left b ≠ some t) := by
  have hw : x.bInteriorBegin = x.bInteriorEnd - (n + 1) := by
    simp only [Box.bInteriorWidth, Box.bInteriorEnd, Box.bInteriorBegin] at *; omega
  have h := mem_down_side (faces f x .left) x.bInteriorEnd n .left .topLeft .bottomLeft
    (fun j => (x.aInteriorBegin, j)) (fun j => (x.aInteriorBegin, j + 1)) ⟨t, d, a, b⟩
  unfold leftPart
  rw [h]
  refine or_congr ?_ (or_congr ?_ ?_)
  · constructor
    · rintro ⟨t', a', b', e, h1, h2, h3, h4, h5, h6⟩
      obtain ⟨rfl, rfl, rfl, rfl⟩ := Reg.mk.inj e
      exact ⟨rfl, by simp only [sideBegin]; omega, h2, h3, h4, by simp only [sideBegin]; rw [hw]; exact h5, h6⟩
    · rintro ⟨rfl, g⟩
      obtain ⟨h1, h2, h3, h4, h5, h6⟩ := g
      simp only [sideBegin, sideEnd] at h1 h3 h5 h6
      rw [hw] at h1 h5
      exact ⟨t, a, b, rfl, h1, h2, h3, h4, h5, h6⟩
  · constructor
    · rintro ⟨t', i, e, h1, h2, h3, h4⟩
      obtain ⟨rfl, rfl, rfl, rfl⟩ := Reg.mk.inj e
      exact ⟨rfl, rfl, by omega, by omega, h3, h4⟩
    · rintro ⟨rfl, rfl, h1, h2, h3, h4⟩
      exact ⟨t, b, rfl, by omega, by omega, h3, h4⟩
  · constructor
    · rintro ⟨t', i, e, h1, h2, h3, h4⟩
      obtain ⟨rfl, rfl, rfl, rfl⟩ := Reg.mk.inj e
      exact ⟨rfl, rfl, by omega, by omega, by rw [show i + 1 - 1 = i by ring]; exact h3, h4⟩
    · rintro ⟨rfl, rfl, h1, h2, h3, h4⟩
      exact ⟨t, b - 1, by simp, by omega, by omega, h3, by rw [show b - 1 + 1 = b by ring]; exact h4⟩

theorem diag_bottomLeft (f : Int × Int × Int → Option Nat) (x : Box) (hA : 1 ≤ x.aInteriorWidth) (hB : 1 ≤ x.bInteriorWidth)
    (t : Nat) (a b : Int) : IsDiagonal f x .bottomLeft t a b ↔
      (a = x.aInteriorBegin ∧ b = x.bInteriorBegin ∧ atNode f x (x.aInteriorBegin - 1) (x.bInteriorBegin - 1) = some t) ∨
      (b = x.bInteriorBegin ∧ x.aInteriorBegin < a ∧ a < x.aInteriorEnd ∧ faces f x .bottom a ≠ some t ∧ faces f x .bottom (a - 1) = some t) ∨
      (a = x.aInteriorBegin ∧ x.bInteriorBegin < b ∧ b < x.bInteriorEnd ∧ faces f x .left b ≠ some t ∧ faces f x .left (b - 1) = some t) := by
  have hwA : x.aInteriorBegin < x.aInteriorEnd := by
    simp only [Box.aInteriorWidth, Box.aInteriorEnd, Box.aInteriorBegin] at *; omega
  have hwB : x.bInteriorBegin < x.bInteriorEnd := by
    simp only [Box.bInteriorWidth, Box.bInteriorEnd, Box.bInteriorBegin] at *; omega
  constructor
  · rintro ⟨h1, h2, h3, h4⟩
    simp only [diagonalStep] at h2 h3 h4
    unfold InteriorNode at h1 h2 h4
    rcases h4 with ⟨g1, g2⟩ | ⟨g1, g2⟩ | ⟨g1, g2⟩
    · left
      have e1 : a = x.aInteriorBegin := by omega
      have e2 : b = x.bInteriorBegin := by omega
      subst e1; subst e2
      exact ⟨rfl, rfl, by simpa [sub_eq_add_neg] using h3⟩
    · right; left
      have e2 : b = x.bInteriorBegin := by omega
      subst e2
      refine ⟨rfl, by omega, by omega, ?_, ?_⟩
      · simpa [faces, facing, sub_eq_add_neg] using g2
      · simpa [faces, facing, sub_eq_add_neg] using h3
    · right; right
      have e1 : a = x.aInteriorBegin := by omega
      subst e1
      refine ⟨rfl, by omega, by omega, ?_, ?_⟩
      · simpa [faces, facing, sub_eq_add_neg] using g2
      · simpa [faces, facing, sub_eq_add_neg] using h3
  · rintro (⟨rfl, rfl, h⟩ | ⟨rfl, h1, h2, h3, h4⟩ | ⟨rfl, h1, h2, h3, h4⟩)
    · refine ⟨by unfold InteriorNode; omega, by simp only [diagonalStep]; unfold InteriorNode; omega,
        by simpa [diagonalStep, sub_eq_add_neg] using h, Or.inl ?_⟩
      simp only [diagonalStep]; unfold InteriorNode; omega
    · refine ⟨by unfold InteriorNode; omega, by simp only [diagonalStep]; unfold InteriorNode; omega,
        by simpa [diagonalStep, faces, facing, sub_eq_add_neg] using h4, Or.inr (Or.inl ⟨?_, ?_⟩)⟩
      · simp only [diagonalStep]; unfold InteriorNode; omega
      · simpa [diagonalStep, faces, facing, sub_eq_add_neg] using h3
    · refine ⟨by unfold InteriorNode; omega, by simp only [diagonalStep]; unfold InteriorNode; omega,
        by simpa [diagonalStep, faces, facing, sub_eq_add_neg] using h4, Or.inr (Or.inr ⟨?_, ?_⟩)⟩
      · simp only [diagonalStep]; unfold InteriorNode; omega
      · simpa [diagonalStep, faces, facing, sub_eq_add_neg] using h3

theorem diag_bottomRight (f : Int × Int × Int → Option Nat) (x : Box) (hA : 1 ≤ x.aInteriorWidth) (hB : 1 ≤ x.bInteriorWidth)
    (t : Nat) (a b : Int) : IsDiagonal f x .bottomRight t a b ↔
      (a = x.aInteriorEnd - 1 ∧ b = x.bInteriorBegin ∧ atNode f x x.aInteriorEnd (x.bInteriorBegin - 1) = some t) ∨
      (b = x.bInteriorBegin ∧ x.aInteriorBegin ≤ a ∧ a < x.aInteriorEnd - 1 ∧ faces f x .bottom a ≠ some t ∧ faces f x .bottom (a + 1) = some t) ∨
      (a = x.aInteriorEnd - 1 ∧ x.bInteriorBegin < b ∧ b < x.bInteriorEnd ∧ faces f x .right b ≠ some t ∧ faces f x .right (b - 1) = some t) := by
  have hwA : x.aInteriorBegin < x.aInteriorEnd := by
    simp only [Box.aInteriorWidth, Box.aInteriorEnd, Box.aInteriorBegin] at *; omega
  have hwB : x.bInteriorBegin < x.bInteriorEnd := by
    simp only [Box.bInteriorWidth, Box.bInteriorEnd, Box.bInteriorBegin] at *; omega
  constructor
  · rintro ⟨h1, h2, h3, h4⟩
    simp only [diagonalStep] at h2 h3 h4
    unfold InteriorNode at h1 h2 h4
    rcases h4 with ⟨g1, g2⟩ | ⟨g1, g2⟩ | ⟨g1, g2⟩
    · left
      have e1 : a = x.aInteriorEnd - 1 := by omega
      have e2 : b = x.bInteriorBegin := by omega
      subst e1; subst e2
      exact ⟨rfl, rfl, by simpa [sub_eq_add_neg] using h3⟩
    · right; left
      have e2 : b = x.bInteriorBegin := by omega
      subst e2
      refine ⟨rfl, by omega, by omega, ?_, ?_⟩
      · simpa [faces, facing, sub_eq_add_neg] using g2
      · simpa [faces, facing, sub_eq_add_neg] using h3
    · right; right
      have e1 : a = x.aInteriorEnd - 1 := by omega
      subst e1
      refine ⟨rfl, by omega, by omega, ?_, ?_⟩
      · simpa [faces, facing, sub_eq_add_neg] using g2
      · simpa [faces, facing, sub_eq_add_neg] using h3
  · rintro (⟨rfl, rfl, h⟩ | ⟨rfl, h1, h2, h3, h4⟩ | ⟨rfl, h1, h2, h3, h4⟩)
    · refine ⟨by unfold InteriorNode; omega, by simp only [diagonalStep]; unfold InteriorNode; omega,
        by simpa [diagonalStep, sub_eq_add_neg] using h, Or.inl ?_⟩
      simp only [diagonalStep]; unfold InteriorNode; omega
    · refine ⟨by unfold InteriorNode; omega, by simp only [diagonalStep]; unfold InteriorNode; omega,
        by simpa [diagonalStep, faces, facing, sub_eq_add_neg] using h4, Or.inr (Or.inl ⟨?_, ?_⟩)⟩
      · simp only [diagonalStep]; unfold InteriorNode; omega
      · simpa [diagonalStep, faces, facing, sub_eq_add_neg] using h3
    · refine ⟨by unfold InteriorNode; omega, by simp only [diagonalStep]; unfold InteriorNode; omega,
        by simpa [diagonalStep, faces, facing, sub_eq_add_neg] using h4, Or.inr (Or.inr ⟨?_, ?_⟩)⟩
      · simp only [diagonalStep]; unfold InteriorNode; omega
      · simpa [diagonalStep, faces, facing, sub_eq_add_neg] using h3

theorem diag_topRight (f : Int × Int × Int → Option Nat) (x : Box) (hA : 1 ≤ x.aInteriorWidth) (hB : 1 ≤ x.bInteriorWidth)
    (t : Nat) (a b : Int) : IsDiagonal f x .topRight t a b ↔
      (a = x.aInteriorEnd - 1 ∧ b = x.bInteriorEnd - 1 ∧ atNode f x x.aInteriorEnd x.bInteriorEnd = some t) ∨
      (b = x.bInteriorEnd - 1 ∧ x.aInteriorBegin ≤ a ∧ a < x.aInteriorEnd - 1 ∧ faces f x .top a ≠ some t ∧ faces f x .top (a + 1) = some t) ∨
      (a = x.aInteriorEnd - 1 ∧ x.bInteriorBegin ≤ b ∧ b < x.bInteriorEnd - 1 ∧ faces f x .right b ≠ some t ∧ faces f x .right (b + 1) = some t) := by
  have hwA : x.aInteriorBegin < x.aInteriorEnd := by
    simp only [Box.aInteriorWidth, Box.aInteriorEnd, Box.aInteriorBegin] at *; omega
  have hwB : x.bInteriorBegin < x.bInteriorEnd := by
    simp only [Box.bInteriorWidth, Box.bInteriorEnd, Box.bInteriorBegin] at *; omega
  constructor
  · rintro ⟨h1, h2, h3, h4⟩
    simp only [diagonalStep] at h2 h3 h4
    unfold InteriorNode at h1 h2 h4
    rcases h4 with ⟨g1, g2⟩ | ⟨g1, g2⟩ | ⟨g1, g2⟩
    · left
      have e1 : a = x.aInteriorEnd - 1 := by omega
      have e2 : b = x.bInteriorEnd - 1 := by omega
      subst e1; subst e2
      exact ⟨rfl, rfl, by simpa [sub_eq_add_neg] using h3⟩
    · right; left
      have e2 : b = x.bInteriorEnd - 1 := by omega
      subst e2
      refine ⟨rfl, by omega, by omega, ?_, ?_⟩
      · simpa [faces, facing, sub_eq_add_neg] using g2
      · simpa [faces, facing, sub_eq_add_neg] using h3
    · right; right
      have e1 : a = x.aInteriorEnd - 1 := by omega
      subst e1
      refine ⟨rfl, by omega, by omega, ?_, ?_⟩
      · simpa [faces, facing, sub_eq_add_neg] using g2
      · simpa [faces, facing, sub_eq_add_neg] using h3
  · rintro (⟨rfl, rfl, h⟩ | ⟨rfl, h1, h2, h3, h4⟩ | ⟨rfl, h1, h2, h3, h4⟩)
    · refine ⟨by unfold InteriorNode; omega, by simp only [diagonalStep]; unfold InteriorNode; omega,
        by simpa [diagonalStep, sub_eq_add_neg] using h, Or.inl ?_⟩
      simp only [diagonalStep]; unfold InteriorNode; omega
    · refine ⟨by unfold InteriorNode; omega, by simp only [diagonalStep]; unfold InteriorNode; omega,
        by simpa [diagonalStep, faces, facing, sub_eq_add_neg] using h4, Or.inr (Or.inl ⟨?_, ?_⟩)⟩
      · simp only [diagonalStep]; unfold InteriorNode; omega
      · simpa [diagonalStep, faces, facing, sub_eq_add_neg] using h3
    · refine ⟨by unfold InteriorNode; omega, by simp only [diagonalStep]; unfold InteriorNode; omega,
        by simpa [diagonalStep, faces, facing, sub_eq_add_neg] using h4, Or.inr (Or.inr ⟨?_, ?_⟩)⟩
      · simp only [diagonalStep]; unfold InteriorNode; omega
      · simpa [diagonalStep, faces, facing, sub_eq_add_neg] using h3

theorem diag_topLeft (f : Int × Int × Int → Option Nat) (x : Box) (hA : 1 ≤ x.aInteriorWidth) (hB : 1 ≤ x.bInteriorWidth)
    (t : Nat) (a b : Int) : IsDiagonal f x .topLeft t a b ↔
      (a = x.aInteriorBegin ∧ b = x.bInteriorEnd - 1 ∧ atNode f x (x.aInteriorBegin - 1) x.bInteriorEnd = some t) ∨
      (b = x.bInteriorEnd - 1 ∧ x.aInteriorBegin < a ∧ a < x.aInteriorEnd ∧ faces f x .top a ≠ some t ∧ faces f x .top (a - 1) = some t) ∨
      (a = x.aInteriorBegin ∧ x.bInteriorBegin ≤ b ∧ b < x.bInteriorEnd - 1 ∧ faces f x .left b ≠ some t ∧ faces f x .left (b + 1) = some t) := by
  have hwA : x.aInteriorBegin < x.aInteriorEnd := by
    simp only [Box.aInteriorWidth, Box.aInteriorEnd, Box.aInteriorBegin] at *; omega
  have hwB : x.bInteriorBegin < x.bInteriorEnd := by
    simp only [Box.bInteriorWidth, Box.bInteriorEnd, Box.bInteriorBegin] at *; omega
  constructor
  · rintro ⟨h1, h2, h3, h4⟩
    simp only [diagonalStep] at h2 h3 h4
    unfold InteriorNode at h1 h2 h4
    rcases h4 with ⟨g1, g2⟩ | ⟨g1, g2⟩ | ⟨g1, g2⟩
    · left
      have e1 : a = x.aInteriorBegin := by omega
      have e2 : b = x.bInteriorEnd - 1 := by omega
      subst e1; subst e2
      exact ⟨rfl, rfl, by simpa [sub_eq_add_neg] using h3⟩
    · right; left
      have e2 : b = x.bInteriorEnd - 1 := by omega
      subst e2
      refine ⟨rfl, by omega, by omega, ?_, ?_⟩
      · simpa [faces, facing, sub_eq_add_neg] using g2
      · simpa [faces, facing, sub_eq_add_neg] using h3
    · right; right
      have e1 : a = x.aInteriorBegin := by omega
      subst e1
      refine ⟨rfl, by omega, by omega, ?_, ?_⟩
      · simpa [faces, facing, sub_eq_add_neg] using g2
      · simpa [faces, facing, sub_eq_add_neg] using h3
  · rintro (⟨rfl, rfl, h⟩ | ⟨rfl, h1, h2, h3, h4⟩ | ⟨rfl, h1, h2, h3, h4⟩)
    · refine ⟨by unfold InteriorNode; omega, by simp only [diagonalStep]; unfold InteriorNode; omega,
        by simpa [diagonalStep, sub_eq_add_neg] using h, Or.inl ?_⟩
      simp only [diagonalStep]; unfold InteriorNode; omega
    · refine ⟨by unfold InteriorNode; omega, by simp only [diagonalStep]; unfold InteriorNode; omega,
        by simpa [diagonalStep, faces, facing, sub_eq_add_neg] using h4, Or.inr (Or.inl ⟨?_, ?_⟩)⟩
      · simp only [diagonalStep]; unfold InteriorNode; omega
      · simpa [diagonalStep, faces, facing, sub_eq_add_neg] using h3
    · refine ⟨by unfold InteriorNode; omega, by simp only [diagonalStep]; unfold InteriorNode; omega,
        by simpa [diagonalStep, faces, facing, sub_eq_add_neg] using h4, Or.inr (Or.inr ⟨?_, ?_⟩)⟩
      · simp only [diagonalStep]; unfold InteriorNode; omega
      · simpa [diagonalStep, faces, facing, sub_eq_add_neg] using h3

theorem connections_eq (lookup : List (Int × Int × Int) → Res (List (Option Nat))) (f : Int × Int × Int → Option Nat)
    (x : Box) (nA nB : Nat) (hA : x.aInteriorWidth = nA + 1) (hB : x.bInteriorWidth = nB + 1)
    (hl : lookup (perimeter x) = .ok ((perimeter x).map f)) :
    connections lookup x = .ok (connectionsOf x (nA + 1) (nB + 1) ((perimeter x).map f)) := by
  unfold connections
  rw [hl]
  simp only [Res.bind]
  rw [if_neg (by rw [C60_perimeter_length x (by omega) (by omega)]; simp), hA, hB]
  rfl

/-- Which of the eight parts of the perimeter (in the order walked) a connection belongs to. -/
def partOf (x : Box) (r : Reg) : Nat :=
  match r.dir with
  | .bottom => 2
  | .right => 4
  | .top => 6
  | .left => 8
  | .bottomLeft =>
    if r.first = x.aInteriorBegin ∧ r.second = x.bInteriorBegin then 1 else if r.second = x.bInteriorBegin then 2 else 8
  | .bottomRight =>
    if r.first = x.aInteriorEnd - 1 ∧ r.second = x.bInteriorBegin then 3
    else if r.second = x.bInteriorBegin then 2 else 4
  | .topRight =>
    if r.first = x.aInteriorEnd - 1 ∧ r.second = x.bInteriorEnd - 1 then 5
    else if r.first = x.aInteriorEnd - 1 then 4 else 6
  | .topLeft =>
    if r.first = x.aInteriorBegin ∧ r.second = x.bInteriorEnd - 1 then 7
    else if r.second = x.bInteriorEnd - 1 then 6 else 8
  | _ => 0

theorem nodup_grow {x : Box} {l m : List Reg} {i j : Nat} (hl : l.Nodup) (hm : m.Nodup)
    (h : ∀ r ∈ l, partOf x r ≤ i) (h' : ∀ r ∈ m, partOf x r = j) (hij : i < j) :
    (l ++ m).Nodup ∧ ∀ r ∈ l ++ m, partOf x r ≤ j := by
  constructor
  · rw [List.nodup_append]
    refine ⟨hl, hm, ?_⟩
    rintro a ha b hb rfl
    have := h a ha; have := h' a hb; omega
  · intro r hr
    rcases List.mem_append.1 hr with g | g
    · have := h r g; omega
    · exact Nat.le_of_eq (h' r g)

set_option maxHeartbeats 2000000 in
theorem connections_wanted (f : Int × Int × Int → Option Nat) (x : Box) (nA nB : Nat) (hA : 1 ≤ x.aInteriorWidth)
    (hB : 1 ≤ x.bInteriorWidth) (hnA : x.aInteriorWidth = nA + 1) (hnB : x.bInteriorWidth = nB + 1) (r : Reg) :
    r ∈ connectionsOf x (nA + 1) (nB + 1) ((perimeter x).map f) ↔ Wanted f x r := by
  obtain ⟨t, d, a, b⟩ := r
  rw [connectionsOf_eq f x nA nB _ (perimeter_at f x (nA + 1) (nB + 1) (by omega) (by omega))]
  simp only [List.mem_append, mem_reg, mem_bottomPart f x nA hnA, mem_rightPart f x nB hnB,
    mem_topPart f x nA hnA, mem_leftPart f x nB hnB, Wanted]
  cases d <;> simp only [reduceCtorEq, false_and, and_false, false_or, or_false, true_and, or_self]
  · rw [diag_topRight f x hA hB]; tauto
  · rw [diag_topLeft f x hA hB]; tauto
  · rw [diag_bottomLeft f x hA hB]; tauto
  · rw [diag_bottomRight f x hA hB]; tauto

/-- **C24.**  For every patch with at least one interior node and every arrangement of patches around it (`f` gives the
patch at each node, or none), building the connections registers, each exactly once: for each side the maximal
ranges facing one patch, and for diagonals those at the corners of the patch and at the points where the facing
patch changes.  Nothing else is registered. -/
theorem C24_exact (lookup : List (Int × Int × Int) → Res (List (Option Nat))) (f : Int × Int × Int → Option Nat)
    (x : Box) (hA : 1 ≤ x.aInteriorWidth) (hB : 1 ≤ x.bInteriorWidth)
    (hl : lookup (perimeter x) = .ok ((perimeter x).map f)) :
    ∃ regs, connections lookup x = .ok regs ∧ regs.Nodup ∧ ∀ r, r ∈ regs ↔ Wanted f x r := by
  obtain ⟨nA, hnA⟩ : ∃ n : Nat, x.aInteriorWidth = n + 1 := ⟨(x.aInteriorWidth - 1).toNat, by omega⟩
  obtain ⟨nB, hnB⟩ : ∃ n : Nat, x.bInteriorWidth = n + 1 := ⟨(x.bInteriorWidth - 1).toNat, by omega⟩
  refine ⟨_, connections_eq lookup f x nA nB hnA hnB hl, ?_, ?_⟩
  · rw [connectionsOf_eq f x nA nB _ (perimeter_at f x (nA + 1) (nB + 1) (by omega) (by omega))]
    have hwA : x.aInteriorBegin < x.aInteriorEnd := by
      simp only [Box.aInteriorWidth, Box.aInteriorEnd, Box.aInteriorBegin] at *; omega
    have hwB : x.bInteriorBegin < x.bInteriorEnd := by
      simp only [Box.bInteriorWidth, Box.bInteriorEnd, Box.bInteriorBegin] at *; omega
    have ndB : (bottomPart f x nA).Nodup := by
      unfold bottomPart; apply nodup_side <;> simp <;> omega
    have ndR : (rightPart f x nB).Nodup := by
      unfold rightPart; apply nodup_side <;> simp <;> omega
    have ndT : (topPart f x nA).Nodup := by
      unfold topPart; apply nodup_side <;> simp <;> omega
    have ndL : (leftPart f x nB).Nodup := by
      unfold leftPart; apply nodup_side <;> simp <;> omega
    have wB : ∀ r ∈ bottomPart f x nA, partOf x r = 2 := by
      rintro ⟨t, d, a, b⟩ h
      rcases (mem_bottomPart f x nA hnA t d a b).1 h with ⟨rfl, _⟩ | ⟨rfl, h1, h2, _⟩ | ⟨rfl, h1, h2, h3, _⟩
      · rfl
      · simp only [partOf]; rw [if_neg (by omega), if_pos h1]
      · simp only [partOf]; rw [if_neg (by omega), if_pos h1]
    have wR : ∀ r ∈ rightPart f x nB, partOf x r = 4 := by
      rintro ⟨t, d, a, b⟩ h
      rcases (mem_rightPart f x nB hnB t d a b).1 h with ⟨rfl, _⟩ | ⟨rfl, h1, h2, _⟩ | ⟨rfl, h1, h2, h3, _⟩
      · rfl
      · simp only [partOf]; rw [if_neg (by omega), if_neg (by omega)]
      · simp only [partOf]; rw [if_neg (by omega), if_pos h1]
    have wT : ∀ r ∈ topPart f x nA, partOf x r = 6 := by
      rintro ⟨t, d, a, b⟩ h
      rcases (mem_topPart f x nA hnA t d a b).1 h with ⟨rfl, _⟩ | ⟨rfl, h1, h2, h3, _⟩ | ⟨rfl, h1, h2, h3, _⟩
      · rfl
      · simp only [partOf]; rw [if_neg (by omega), if_neg (by omega)]
      · simp only [partOf]; rw [if_neg (by omega), if_pos h1]
    have wL : ∀ r ∈ leftPart f x nB, partOf x r = 8 := by
      rintro ⟨t, d, a, b⟩ h
      rcases (mem_leftPart f x nB hnB t d a b).1 h with ⟨rfl, _⟩ | ⟨rfl, h1, h2, h3, _⟩ | ⟨rfl, h1, h2, h3, _⟩
      · rfl
      · simp only [partOf]; rw [if_neg (by omega), if_neg (by omega)]
      · simp only [partOf]; rw [if_neg (by omega), if_neg (by omega)]
    have c1 : ∀ o, ∀ r ∈ reg o .bottomLeft x.aInteriorBegin x.bInteriorBegin, partOf x r = 1 := by
      rintro o ⟨t, d, a, b⟩ h
      obtain ⟨_, rfl, rfl, rfl⟩ := mem_reg.1 h
      simp [partOf]
    have c3 : ∀ o, ∀ r ∈ reg o .bottomRight (x.aInteriorEnd - 1) x.bInteriorBegin, partOf x r = 3 := by
      rintro o ⟨t, d, a, b⟩ h
      obtain ⟨_, rfl, rfl, rfl⟩ := mem_reg.1 h
      simp [partOf]
    have c5 : ∀ o, ∀ r ∈ reg o .topRight (x.aInteriorEnd - 1) (x.bInteriorEnd - 1), partOf x r = 5 := by
      rintro o ⟨t, d, a, b⟩ h
      obtain ⟨_, rfl, rfl, rfl⟩ := mem_reg.1 h
      simp [partOf]
    have c7 : ∀ o, ∀ r ∈ reg o .topLeft x.aInteriorBegin (x.bInteriorEnd - 1), partOf x r = 7 := by
      rintro o ⟨t, d, a, b⟩ h
      obtain ⟨_, rfl, rfl, rfl⟩ := mem_reg.1 h
      simp [partOf]
    have m1 : ∀ r ∈ reg (atNode f x (x.aInteriorBegin - 1) (x.bInteriorBegin - 1)) .bottomLeft x.aInteriorBegin
        x.bInteriorBegin, partOf x r ≤ 1 := fun r h => Nat.le_of_eq (c1 _ r h)
    have m2 := nodup_grow (nodup_reg _ _ _ _) ndB m1 wB (by omega)
    have m3 := nodup_grow m2.1 (nodup_reg _ _ _ _) m2.2 (c3 (atNode f x x.aInteriorEnd (x.bInteriorBegin - 1))) (by omega)
    have m4 := nodup_grow m3.1 ndR m3.2 wR (by omega)
    have m5 := nodup_grow m4.1 (nodup_reg _ _ _ _) m4.2 (c5 (atNode f x x.aInteriorEnd x.bInteriorEnd)) (by omega)
    have m6 := nodup_grow m5.1 ndT m5.2 wT (by omega)
    have m7 := nodup_grow m6.1 (nodup_reg _ _ _ _) m6.2 (c7 (atNode f x (x.aInteriorBegin - 1) x.bInteriorEnd)) (by omega)
    exact (nodup_grow m7.1 ndL m7.2 wL (by omega)).1
  · exact connections_wanted f x nA nB hA hB hnA hnB

/-- **C24 (coverage).**  Every position of every side that faces a patch lies in exactly one registered range of that
side, and that range is registered for the facing patch; a position that faces no patch lies in none. -/
theorem C24_cover (lookup : List (Int × Int × Int) → Res (List (Option Nat))) (f : Int × Int × Int → Option Nat)
    (x : Box) (hA : 1 ≤ x.aInteriorWidth) (hB : 1 ≤ x.bInteriorWidth)
    (hl : lookup (perimeter x) = .ok ((perimeter x).map f)) (regs : List Reg) (hr : connections lookup x = .ok regs)
    (d : Dir) (hd : d.Edge) (p : Int) (h0 : sideBegin x d ≤ p) (h1 : p < sideEnd x d) :
    (∀ t, faces f x d p = some t ↔ ∃ r ∈ regs, r.dir = d ∧ r.first ≤ p ∧ p < r.second ∧ r.target = t) ∧
    (∀ r ∈ regs, ∀ r' ∈ regs, r.dir = d → r'.dir = d → r.first ≤ p → p < r.second → r'.first ≤ p → p < r'.second →
      r = r') := by
  obtain ⟨regs', e, -, hm⟩ := C24_exact lookup f x hA hB hl
  rw [hr] at e; cases e
  have seg : ∀ r ∈ regs, r.dir = d → IsSegment f x d r.target r.first r.second := by
    intro r h e
    have := (hm r).1 h
    unfold Wanted at this
    rw [e] at this
    rcases hd with rfl | rfl | rfl | rfl <;> exact this
  constructor
  · intro t
    constructor
    · intro ht
      -- extend to the left and right as far as the patch is the same
      have left : ∀ k : Nat, ∀ q : Int, q - sideBegin x d = k → q ≤ p → (∀ s, q ≤ s → s ≤ p → faces f x d s = some t) →
          ∃ a, sideBegin x d ≤ a ∧ a ≤ p ∧ (∀ s, a ≤ s → s ≤ p → faces f x d s = some t) ∧
            (a = sideBegin x d ∨ faces f x d (a - 1) ≠ some t) := by
        intro k
        induction k with
        | zero => intro q hq hqp hall; exact ⟨q, by omega, hqp, hall, Or.inl (by omega)⟩
        | succ k ih =>
          intro q hq hqp hall
          by_cases hc : faces f x d (q - 1) = some t
          · refine ih (q - 1) (by omega) (by omega) ?_
            intro s s1 s2
            by_cases hs : s = q - 1
            · rw [hs]; exact hc
            · exact hall s (by omega) s2
          · exact ⟨q, by omega, hqp, hall, Or.inr hc⟩
      have right : ∀ k : Nat, ∀ q : Int, sideEnd x d - q = k → p < q → (∀ s, p ≤ s → s < q → faces f x d s = some t) →
          ∃ b, b ≤ sideEnd x d ∧ p < b ∧ (∀ s, p ≤ s → s < b → faces f x d s = some t) ∧
            (b = sideEnd x d ∨ faces f x d b ≠ some t) := by
        intro k
        induction k with
        | zero => intro q hq hqp hall; exact ⟨q, by omega, hqp, hall, Or.inl (by omega)⟩
        | succ k ih =>
          intro q hq hqp hall
          by_cases hc : faces f x d q = some t
          · refine ih (q + 1) (by omega) (by omega) ?_
            intro s s1 s2
            by_cases hs : s = q
            · rw [hs]; exact hc
            · exact hall s s1 (by omega)
          · exact ⟨q, by omega, hqp, hall, Or.inr hc⟩
      obtain ⟨a, a1, a2, a3, a4⟩ := left (p - sideBegin x d).toNat p (by omega) (by omega)
        (fun s s1 s2 => by rw [show s = p by omega]; exact ht)
      obtain ⟨b, b1, b2, b3, b4⟩ := right (sideEnd x d - (p + 1)).toNat (p + 1) (by omega) (by omega)
        (fun s s1 s2 => by rw [show s = p by omega]; exact ht)
      have hseg : IsSegment f x d t a b := ⟨a1, by omega, b1, by
        intro s s1 s2
        by_cases hs : s ≤ p
        · exact a3 s s1 hs
        · exact b3 s (by omega) s2, a4, b4⟩
      refine ⟨⟨t, d, a, b⟩, (hm _).2 ?_, rfl, a2, b2, rfl⟩
      unfold Wanted
      rcases hd with rfl | rfl | rfl | rfl <;> exact hseg
    · rintro ⟨r, hr, hrd, r1, r2, rfl⟩
      exact (seg r hr hrd).all p r1 r2
  · intro r hr' r' hr'' e e' h1 h2 h3 h4
    have s := seg r hr' e
    have s' := seg r' hr'' e'
    have ht : r.target = r'.target := by
      have := s.all p h1 h2
      rw [s'.all p h3 h4] at this
      exact (Option.some.inj this).symm
    have ha : r.first = r'.first := by
      rcases Int.lt_trichotomy r.first r'.first with h | h | h
      · rcases s'.before with g | g
        · have := s.begin_le; omega
        · exact absurd (by rw [← ht]; exact s.all (r'.first - 1) (by omega) (by omega)) g
      · exact h
      · rcases s.before with g | g
        · have := s'.begin_le; omega
        · exact absurd (by rw [ht]; exact s'.all (r.first - 1) (by omega) (by omega)) g
    have hb : r.second = r'.second := by
      rcases Int.lt_trichotomy r.second r'.second with h | h | h
      · rcases s.after with g | g
        · have := s'.le_end; omega
        · exact absurd (by rw [ht]; exact s'.all r.second (by omega) (by omega)) g
      · exact h
      · rcases s'.after with g | g
        · have := s.le_end; omega
        · exact absurd (by rw [← ht]; exact s.all r'.second (by omega) (by omega)) g
    obtain ⟨t1, d1, a1, b1⟩ := r
    obtain ⟨t2, d2, a2, b2⟩ := r'
    simp only at ht ha hb e e'
    rw [ht, ha, hb, e, e']

/-- **C24 (sound ranges).**  A registered range is a non-empty part of its side, and a registered diagonal starts at an
interior node and leads to a halo node of the patch it is registered for. -/
theorem C24_ranges (lookup : List (Int × Int × Int) → Res (List (Option Nat))) (f : Int × Int × Int → Option Nat)
    (x : Box) (hA : 1 ≤ x.aInteriorWidth) (hB : 1 ≤ x.bInteriorWidth)
    (hl : lookup (perimeter x) = .ok ((perimeter x).map f)) (regs : List Reg) (hr : connections lookup x = .ok regs)
    (r : Reg) (h : r ∈ regs) :
    (r.dir.Edge ∧ sideBegin x r.dir ≤ r.first ∧ r.first < r.second ∧ r.second ≤ sideEnd x r.dir) ∨
    (r.dir.Corner ∧ InteriorNode x r.first r.second ∧
      ¬ InteriorNode x (r.first + (diagonalStep r.dir).1) (r.second + (diagonalStep r.dir).2) ∧
      atNode f x (r.first + (diagonalStep r.dir).1) (r.second + (diagonalStep r.dir).2) = some r.target) := by
  obtain ⟨regs', e, -, hm⟩ := C24_exact lookup f x hA hB hl
  rw [hr] at e; cases e
  have hw := (hm r).1 h
  obtain ⟨t, d, a, b⟩ := r
  unfold Wanted at hw
  cases d <;> simp only at hw ⊢
  · left; exact ⟨by simp [Dir.Edge], hw.begin_le, hw.nonempty, hw.le_end⟩
  · left; exact ⟨by simp [Dir.Edge], hw.begin_le, hw.nonempty, hw.le_end⟩
  · left; exact ⟨by simp [Dir.Edge], hw.begin_le, hw.nonempty, hw.le_end⟩
  · left; exact ⟨by simp [Dir.Edge], hw.begin_le, hw.nonempty, hw.le_end⟩
  · right; exact ⟨by simp [Dir.Corner], hw.interior, hw.outside, hw.target⟩
  · right; exact ⟨by simp [Dir.Corner], hw.interior, hw.outside, hw.target⟩
  · right; exact ⟨by simp [Dir.Corner], hw.interior, hw.outside, hw.target⟩
  · right; exact ⟨by simp [Dir.Corner], hw.interior, hw.outside, hw.target⟩

/-- A 4 by 2 patch with two patches below it (7 and 8), one above (9) and nothing at the sides. -/
def demoAround : Int × Int × Int → Option Nat
  | (_, a, b) => if b < 0 then (if a < 2 then some 7 else some 8) else if b ≥ 2 then some 9 else none

/-- Their connections: the two halves of the bottom side with the two diagonals at the change, the whole top side and
the four corners. -/
example : ∃ regs, connections (fun pts => .ok (pts.map demoAround)) (Box.make 0 0 1 0 4 0 2) = .ok regs ∧
    regs = [⟨7, .bottomLeft, 1, 1⟩, ⟨7, .bottom, 1, 3⟩, ⟨7, .bottomLeft, 3, 1⟩, ⟨8, .bottomRight, 2, 1⟩,
      ⟨8, .bottom, 3, 5⟩, ⟨8, .bottomRight, 4, 1⟩, ⟨9, .topRight, 4, 2⟩, ⟨9, .top, 1, 5⟩, ⟨9, .topLeft, 1, 2⟩] :=
  ⟨_, rfl, by decide⟩

end Verif.Patch
