import Verif.Halo.Spec
import Verif.Halo.Model
import Verif.Dss.Lemmas
import Mathlib.Tactic.Ring
import Mathlib.Tactic.Linarith
import Mathlib.Tactic.FieldSimp
import Mathlib.Tactic.Positivity
import Mathlib.Tactic.NormNum

/-!
# The nodes along one direction of a panel
-/

namespace Verif.Halo

open Verif.Dss (twin)
open Real

variable {p res : Int} {x : Nat → ℝ}

theorem Line.count (L : Line p res x) : 2 ≤ p * res := by
  have := L.order; have := L.cells; nlinarith

theorem div_mul_add (a b p : Int) (hp : 2 ≤ p) (h0 : 0 ≤ b) (h1 : b < p) :
    (a * p + b) / p = a ∧ (a * p + b) % p = b := by
  constructor
  · rw [Int.add_comm, Int.add_mul_ediv_right _ _ (by omega), Int.ediv_eq_zero_of_lt h0 h1]; omega
  · rw [Int.add_comm, Int.add_mul_emod_self_right]; exact Int.emod_eq_of_lt h0 h1

theorem split (g p : Int) (hp : 2 ≤ p) : ∃ e s, g = e * p + s ∧ 0 ≤ s ∧ s < p :=
  ⟨g / p, g % p, by have := Int.emod_add_mul_ediv g p; rw [Int.mul_comm] at this; omega,
    Int.emod_nonneg _ (by omega), Int.emod_lt_of_pos _ (by omega)⟩

theorem angle_at (e s : Int) (hp : 2 ≤ p) (h0 : 0 ≤ s) (h1 : s < p) :
    angle p res x (e * p + s) = -(π / 4) + π / 2 / res * (e : ℝ) + x s.toNat := by
  unfold angle
  rw [(div_mul_add e s p hp h0 h1).1, (div_mul_add e s p hp h0 h1).2]

theorem twin_at (e s : Int) (hp : 2 ≤ p) (h0 : 0 ≤ s) (h1 : s < p) :
    twin p (e * p + s) = if s = 0 then (e - 1) * p + (p - 1) else if s = p - 1 then (e + 1) * p + 0 else e * p + s := by
  unfold twin
  rw [(div_mul_add e s p hp h0 h1).2]
  split_ifs with h h'
  · rw [h]; ring
  · rw [h']; ring
  · rfl

theorem angle_twin (L : Line p res x) (g : Int) : angle p res x (twin p g) = angle p res x g := by
  have hp := L.order
  obtain ⟨e, s, rfl, h0, h1⟩ := split g p hp
  have hf := L.points.first
  have hl := L.points.last
  rw [twin_at e s hp h0 h1, angle_at e s hp h0 h1]
  split_ifs with h h'
  · rw [angle_at _ _ hp (by omega) (by omega), h, hl, Int.toNat_zero, hf]; push_cast; ring
  · rw [angle_at _ _ hp (by omega) (by omega), h', hl, Int.toNat_zero, hf]; push_cast; ring
  · rw [angle_at e s hp h0 h1]

theorem coord_twin (L : Line p res x) (g : Int) : coord p res x (twin p g) = coord p res x g := by
  unfold coord; rw [angle_twin L]

theorem points_range (L : Line p res x) (s : Int) (h0 : 0 ≤ s) (h1 : s < p) :
    0 ≤ x s.toNat ∧ x s.toNat ≤ π / 2 / res ∧ (x s.toNat = 0 → s = 0) ∧ (x s.toNat = π / 2 / res → s = p - 1) := by
  have hp := L.order
  have hf := L.points.first
  have hl := L.points.last
  have inc := L.points.increasing
  have a : s ≠ 0 → 0 < x s.toNat := fun h => by rw [← hf]; exact inc _ _ (by omega) (by omega)
  have b : s ≠ p - 1 → x s.toNat < π / 2 / res := fun h => by rw [← hl]; exact inc _ _ (by omega) (by omega)
  refine ⟨?_, ?_, ?_, ?_⟩
  · by_cases h : s = 0
    · rw [h, Int.toNat_zero, hf]
    · exact (a h).le
  · by_cases h : s = p - 1
    · rw [h, hl]
    · exact (b h).le
  · intro h; by_contra h'; exact absurd (a h') (by rw [h]; exact lt_irrefl _)
  · intro h; by_contra h'; exact absurd (b h') (by rw [h]; exact lt_irrefl _)

theorem width_pos (L : Line p res x) : 0 < π / 2 / (res : ℝ) := by
  have : (0 : ℝ) < res := by exact_mod_cast (show (0:Int) < res by have := L.cells; omega)
  positivity

theorem angle_lt (L : Line p res x) (g g' : Int) (h : g < g') (ht : g' ≠ twin p g) :
    angle p res x g < angle p res x g' := by
  have hp := L.order
  have hw := width_pos L
  obtain ⟨e, s, rfl, h0, h1⟩ := split g p hp
  obtain ⟨e', s', rfl, h0', h1'⟩ := split g' p hp
  rw [angle_at e s hp h0 h1, angle_at e' s' hp h0' h1']
  obtain ⟨a1, a2, a3, a4⟩ := points_range L s h0 h1
  obtain ⟨b1, b2, b3, b4⟩ := points_range L s' h0' h1'
  have hee : e ≤ e' := by
    by_contra hc
    have : (e' + 1) * p ≤ e * p := Int.mul_le_mul_of_nonneg_right (by omega) (by omega)
    rw [Int.add_mul, Int.one_mul] at this
    omega
  rcases Int.lt_or_eq_of_le hee with hlt | rfl
  · have key : (e : ℝ) + 1 ≤ e' := by exact_mod_cast hlt
    generalize π / 2 / (res : ℝ) = w at *
    by_cases hs : x s.toNat = w ∧ x s'.toNat = 0 ∧ e' = e + 1
    · exfalso; apply ht
      have e1 := a4 hs.1
      have e2 := b3 hs.2.1
      rw [twin_at e s hp h0 h1, if_neg (by omega), if_pos e1, hs.2.2, e2]
    · have m := mul_le_mul_of_nonneg_left key hw.le
      by_cases he : e' = e + 1
      · have : x s.toNat < w ∨ 0 < x s'.toNat := by
          by_contra hc
          push Not at hc
          exact hs ⟨le_antisymm a2 hc.1, le_antisymm hc.2 b1, he⟩
        rcases this with h | h <;> linarith
      · have key2 : (e : ℝ) + 2 ≤ e' := by exact_mod_cast (show e + 2 ≤ e' by omega)
        have m2 := mul_le_mul_of_nonneg_left key2 hw.le
        linarith
  · have : x s.toNat < x s'.toNat := L.points.increasing _ _ (by omega) (by omega)
    linarith

theorem twin_comm (hp : 2 ≤ p) (g g' : Int) : g' = twin p g ↔ g = twin p g' := by
  constructor <;> rintro rfl <;> exact (Dss.twin_twin p _ hp).symm

theorem angle_eq (L : Line p res x) (g g' : Int) :
    angle p res x g' = angle p res x g ↔ g' = g ∨ g' = twin p g := by
  constructor
  · intro h
    by_contra hc
    push Not at hc
    rcases lt_trichotomy g g' with hl | he | hl
    · exact absurd h (angle_lt L g g' hl hc.2).ne'
    · exact hc.1 he.symm
    · exact absurd h (angle_lt L g' g hl (fun e => hc.2 ((twin_comm L.order _ _).mpr e))).ne
  · rintro (rfl | rfl)
    · rfl
    · exact angle_twin L g

theorem angle_mirror (L : Line p res x) (g : Int) :
    angle p res x (p * res - 1 - g) = -angle p res x g := by
  have hp := L.order
  have hr : (res : ℝ) ≠ 0 := by
    have := L.cells
    exact_mod_cast (show res ≠ 0 by omega)
  obtain ⟨e, s, rfl, h0, h1⟩ := split g p hp
  rw [show p * res - 1 - (e * p + s) = (res - 1 - e) * p + (p - 1 - s) by ring,
    angle_at _ _ hp (by omega) (by omega), angle_at _ _ hp h0 h1, L.points.symmetric s h0 h1]
  push_cast
  field_simp
  ring

theorem angle_zero (L : Line p res x) : angle p res x 0 = -(π / 4) := by
  have := angle_at (res := res) (x := x) 0 0 L.order (le_refl _) (by have := L.order; omega)
  rw [Int.zero_mul, Int.zero_add] at this
  rw [this, Int.toNat_zero, L.points.first]; simp

theorem angle_last (L : Line p res x) : angle p res x (p * res - 1) = π / 4 := by
  have := angle_mirror L 0
  rw [sub_zero, angle_zero L] at this
  rw [this]; ring

theorem twin_zero (hp : 2 ≤ p) : twin p 0 = -1 := by
  unfold twin; rw [if_pos (by simp)]; rfl

theorem twin_end (hp : 2 ≤ p) (r : Int) : twin p (p * r - 1) = p * r := by
  have := twin_at (r - 1) (p - 1) hp (by omega) (by omega)
  rw [show (r - 1) * p + (p - 1) = p * r - 1 by ring, if_neg (by omega), if_pos rfl] at this
  rw [this]; ring

theorem angle_range (L : Line p res x) (g : Int) (h0 : -1 ≤ g) (h1 : g ≤ p * res) :
    -(π / 4) ≤ angle p res x g ∧ angle p res x g ≤ π / 4 := by
  have hN := L.count
  have lo : ∀ g, 0 ≤ g → -(π / 4) ≤ angle p res x g := by
    intro g hg
    rw [← angle_zero L]
    rcases Int.lt_or_eq_of_le hg with h | rfl
    · exact (angle_lt L 0 g h (by rw [twin_zero L.order]; omega)).le
    · exact le_refl _
  have hi : ∀ g, g ≤ p * res - 1 → angle p res x g ≤ π / 4 := by
    intro g hg
    rw [← angle_last L]
    rcases Int.lt_or_eq_of_le hg with h | rfl
    · exact (angle_lt L g _ h (fun e => by
        rw [twin_comm L.order, twin_end L.order] at e; omega)).le
    · exact le_refl _
  have hm : angle p res x (-1) = -(π / 4) := by
    rw [← twin_zero L.order, angle_twin L, angle_zero L]
  have hM : angle p res x (p * res) = π / 4 := by
    rw [← twin_end L.order res, angle_twin L, angle_last L]
  constructor
  · by_cases h : g = -1
    · rw [h, hm]
    · exact lo g (by omega)
  · by_cases h : g = p * res
    · rw [h, hM]
    · exact hi g (by omega)

theorem tan_inj {a b : ℝ} (ha : -(π / 4) ≤ a ∧ a ≤ π / 4) (hb : -(π / 4) ≤ b ∧ b ≤ π / 4) :
    tan a = tan b ↔ a = b := by
  have hpi := pi_pos
  constructor
  · intro h
    exact injOn_tan ⟨by linarith [ha.1], by linarith [ha.2]⟩ ⟨by linarith [hb.1], by linarith [hb.2]⟩ h
  · rintro rfl; rfl

/-- Two nodes of a direction have the same coordinate exactly when they are the two copies of a shared node. -/
theorem coord_eq (L : Line p res x) (g g' : Int) (h0 : -1 ≤ g) (h1 : g ≤ p * res) (h0' : -1 ≤ g')
    (h1' : g' ≤ p * res) : coord p res x g' = coord p res x g ↔ g' = g ∨ g' = twin p g := by
  unfold coord
  rw [tan_inj (angle_range L g' h0' h1') (angle_range L g h0 h1), angle_eq L]

theorem coord_zero (L : Line p res x) : coord p res x 0 = -1 := by
  unfold coord; rw [angle_zero L, tan_neg, tan_pi_div_four]

theorem coord_last (L : Line p res x) : coord p res x (p * res - 1) = 1 := by
  unfold coord; rw [angle_last L, tan_pi_div_four]

theorem coord_before (L : Line p res x) : coord p res x (-1) = -1 := by
  rw [← twin_zero L.order, coord_twin L, coord_zero L]

theorem coord_after (L : Line p res x) : coord p res x (p * res) = 1 := by
  rw [← twin_end L.order res, coord_twin L, coord_last L]

theorem coord_mirror (L : Line p res x) (g : Int) : coord p res x (p * res - 1 - g) = -coord p res x g := by
  unfold coord; rw [angle_mirror L, tan_neg]

theorem coord_range (L : Line p res x) (g : Int) (h0 : -1 ≤ g) (h1 : g ≤ p * res) :
    -1 ≤ coord p res x g ∧ coord p res x g ≤ 1 := by
  obtain ⟨a, b⟩ := angle_range L g h0 h1
  have hpi := pi_pos
  have mono := strictMonoOn_tan.monotoneOn
  have m1 := mono (a := -(π / 4)) (b := angle p res x g) ⟨by linarith, by linarith⟩ ⟨by linarith, by linarith⟩ a
  have m2 := mono (a := angle p res x g) (b := π / 4) ⟨by linarith, by linarith⟩ ⟨by linarith, by linarith⟩ b
  rw [tan_neg, tan_pi_div_four] at m1
  rw [tan_pi_div_four] at m2
  exact ⟨m1, m2⟩

theorem coord_low (L : Line p res x) (g : Int) (h0 : 0 ≤ g) (h1 : g < p * res) (h : coord p res x g = -1) :
    g = 0 := by
  rw [← coord_zero L, coord_eq L 0 g (by omega) (by have := L.count; omega) (by omega) (by omega),
    twin_zero L.order] at h
  omega

theorem coord_high (L : Line p res x) (g : Int) (h0 : 0 ≤ g) (h1 : g < p * res) (h : coord p res x g = 1) :
    g = p * res - 1 := by
  have hN := L.count
  rw [← coord_last L, coord_eq L _ g (by omega) (by omega) (by omega) (by omega), twin_end L.order] at h
  omega

/-- The arrays of the program hold these coordinates, wherever the spacing does not refuse the index. -/
theorem coordinate_eq (L : Line p res x) (g : Int) (h0 : -1 ≤ g) :
    coordinate p res x g = some (coord p res x g) := by
  have hp := L.order
  obtain ⟨e, s, hg, hs0, hs1⟩ := split g p hp
  have hdm := div_mul_add e s p hp hs0 hs1
  rw [← hg] at hdm
  have key : Vert.repeatedNode p x (0.5 * π / res) (-0.25 * π) g = .ok (angle p res x g) := by
    unfold Vert.repeatedNode Vert.spacingAt
    by_cases hneg : g < 0
    · have : g = -1 := by omega
      subst this
      have ha := angle_twin L 0
      rw [twin_zero hp, angle_zero L] at ha
      have d : (-1 : Int).tdiv p = 0 := by
        rw [Int.neg_tdiv, Int.tdiv_eq_zero_of_lt (by omega) (by omega)]; rfl
      have mo : (-1 : Int).tmod p = -1 := by
        rw [Int.neg_tmod, Int.tmod_eq_of_lt (by omega) (by omega)]
      simp only [d, mo, if_pos hneg]
      rw [if_neg (by omega)]
      have hl := L.points.last
      rw [show p + -1 = p - 1 by ring, hl, ha]
      congr 1
      push_cast; ring
    · simp only [if_neg hneg]
      rw [Int.tdiv_eq_ediv_of_nonneg (by omega), Int.tmod_eq_emod_of_nonneg (by omega), hdm.1, hdm.2,
        if_neg (by omega)]
      congr 1
      rw [hg, angle_at e s hp hs0 hs1]
      ring
  unfold coordinate
  rw [key]
  rfl

end Verif.Halo
