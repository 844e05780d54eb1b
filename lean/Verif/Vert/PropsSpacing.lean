/-
C52: grid spacings.
-/
import Mathlib.Tactic.Linarith
import Mathlib.Tactic.FieldSimp
import Mathlib.Tactic.Ring
import Verif.Vert.Model
import Verif.Vert.Spec

namespace Verif.Vert

/-- The coordinate that continues the pattern of an element of `period` points to all indices: point `i mod period` of
element `⌊i / period⌋`. -/
noncomputable def pattern (period : Int) (g : Nat → ℝ) (delta zero : ℝ) (ix : Int) : ℝ :=
  zero + delta * ((ix / period : Int) : ℝ) + g (ix % period).toNat

/-- **C52 (uniform).**  Nodes and edges of the uniform spacing alternate, increasing, a fixed distance apart, for every
index. -/
theorem C52_uniform (delta zero : ℝ) (h : 0 < delta) (ix : Int) :
    uniformEdge delta zero ix < uniformNode delta zero ix ∧ uniformNode delta zero ix < uniformEdge delta zero (ix + 1) ∧
    uniformNode delta zero (ix + 1) = uniformNode delta zero ix + delta ∧
    uniformEdge delta zero (ix + 1) = uniformEdge delta zero ix + delta ∧ uniformEdge delta zero 0 = zero := by
  unfold uniformNode uniformEdge
  push_cast
  refine ⟨?_, ?_, by ring, by ring, by ring⟩ <;> norm_num <;> nlinarith

theorem emod_of_tmod {n ix : Int} (hn : 0 < n) (hneg : ix < 0) (h : ix % n ≠ 0) :
    ix.tdiv n = ix / n + 1 ∧ ix.tmod n = ix % n - n := by
  have h1 := Int.tdiv_eq_ediv_of_nonneg (a := -ix) (b := n) (by omega)
  have h2 : (-ix).tdiv n = -(ix.tdiv n) := Int.neg_tdiv ..
  have h3 : (-ix) / n = -(ix / n) - 1 := by
    have e := Int.mul_ediv_add_emod ix n
    have b1 := Int.emod_nonneg ix hn.ne'
    have b2 := Int.emod_lt_of_pos ix hn
    have : -ix = (n - ix % n) + n * (-(ix / n) - 1) := by
      have : n * (-(ix / n) - 1) = -(n * (ix / n)) - n := by ring
      omega
    rw [this, Int.add_mul_ediv_left _ _ hn.ne', Int.ediv_eq_zero_of_lt (by omega) (by omega), zero_add]
  have h4 : ix.tdiv n = ix / n + 1 := by omega
  refine ⟨h4, ?_⟩
  have e := Int.mul_ediv_add_emod ix n
  have e2 := Int.mul_tdiv_add_tmod ix n
  rw [h4] at e2
  have : n * (ix / n + 1) = n * (ix / n) + n := by ring
  omega

/-- **C52 (repeated and mixed).**  Every index that is not negative, and every negative index that does not begin an
element, follows the pattern of the element; a negative multiple of the order is refused. -/
theorem C52_repeated_partial (order : Int) (ho : 0 < order) (g : Nat → ℝ) (delta zero : ℝ) (ix : Int) :
    ((0 ≤ ix ∨ ix % order ≠ 0) → repeatedNode order g delta zero ix = .ok (pattern order g delta zero ix)) ∧
    ((ix < 0 ∧ ix % order = 0) → repeatedNode order g delta zero ix = .exc) := by
  have b1 := Int.emod_nonneg ix ho.ne'
  have b2 := Int.emod_lt_of_pos ix ho
  unfold repeatedNode spacingAt pattern
  constructor
  · intro h
    by_cases hneg : ix < 0
    · obtain ⟨e1, e2⟩ := emod_of_tmod ho hneg (by omega)
      simp only [hneg, if_true, e1, e2]
      rw [if_neg (by omega), show ix / order + 1 - 1 = ix / order by omega,
        show order + (ix % order - order) = ix % order by omega]
    · have e1 := Int.tdiv_eq_ediv_of_nonneg (a := ix) (b := order) (by omega)
      have e2 := Int.tmod_eq_emod_of_nonneg (a := ix) (b := order) (by omega)
      simp only [hneg, if_false, e1, e2]
      rw [if_neg (by omega)]
  · rintro ⟨hneg, h0⟩
    have : ix.tmod order = 0 := Int.tmod_eq_zero_of_dvd (Int.dvd_of_emod_eq_zero h0)
    simp only [hneg, if_true, this]
    rw [if_pos (by omega)]

/-- **C52 (Gauss-Lobatto).**  Every index that is not negative follows the pattern, the last point of an element being the
first of the next. -/
theorem C52_lobatto_partial (order : Int) (ho : 2 ≤ order) (g : Nat → ℝ) (delta zero : ℝ) (ix : Int) (h : 0 ≤ ix) :
    gllNode order g delta zero ix = .ok (pattern (order - 1) g delta zero ix) := by
  have ho' : 0 < order - 1 := by omega
  have b1 := Int.emod_nonneg ix ho'.ne'
  have b2 := Int.emod_lt_of_pos ix ho'
  unfold gllNode spacingAt pattern
  have e1 := Int.tdiv_eq_ediv_of_nonneg (a := ix) (b := order - 1) (by omega)
  have e2 := Int.tmod_eq_emod_of_nonneg (a := ix) (b := order - 1) (by omega)
  simp only [show ¬ ix < 0 by omega, if_false, e1, e2]
  rw [if_neg (by omega)]

/-- **C52 (the pattern).**  The pattern repeats with the element spacing added.  If the points of an element increase and
stay below the spacing, it is strictly increasing; if the last point is the spacing, as for repeated Gauss-Lobatto
points, it does not decrease, and the last of an element is the first of the next. -/
theorem C52_pattern (period : Int) (hp : 0 < period) (g : Nat → ℝ) (delta zero : ℝ) :
    (∀ ix, pattern period g delta zero (ix + period) = pattern period g delta zero ix + delta) ∧
    ((∀ i j : Nat, i < j → (j : Int) < period → g i < g j) → g (period - 1).toNat < g 0 + delta →
      ∀ ix, pattern period g delta zero ix < pattern period g delta zero (ix + 1)) ∧
    ((∀ i j : Nat, i < j → (j : Int) < period → g i < g j) → g (period - 1).toNat = g 0 + delta →
      ∀ ix, pattern period g delta zero ix ≤ pattern period g delta zero (ix + 1) ∧
        (pattern period g delta zero ix = pattern period g delta zero (ix + 1) ↔ ix % period = period - 1)) := by
  have step : ∀ ix, (ix % period = period - 1 ∧ (ix + 1) / period = ix / period + 1 ∧ (ix + 1) % period = 0) ∨
      (ix % period < period - 1 ∧ (ix + 1) / period = ix / period ∧ (ix + 1) % period = ix % period + 1) := by
    intro ix
    have e := Int.mul_ediv_add_emod ix period
    have b1 := Int.emod_nonneg ix hp.ne'
    have b2 := Int.emod_lt_of_pos ix hp
    by_cases h : ix % period = period - 1
    · left
      have e2 : ix + 1 = 0 + period * (ix / period + 1) := by
        have : period * (ix / period + 1) = period * (ix / period) + period := by ring
        omega
      refine ⟨h, ?_, ?_⟩
      · rw [e2, Int.add_mul_ediv_left _ _ hp.ne']; simp
      · rw [e2, Int.add_mul_emod_self_left]; simp
    · right
      have e2 : ix + 1 = (ix % period + 1) + period * (ix / period) := by omega
      refine ⟨by omega, ?_, ?_⟩
      · conv_lhs => rw [e2]
        rw [Int.add_mul_ediv_left _ _ hp.ne', Int.ediv_eq_zero_of_lt (by omega) (by omega), zero_add]
      · conv_lhs => rw [e2]
        rw [Int.add_mul_emod_self_left, Int.emod_eq_of_lt (by omega) (by omega)]
  refine ⟨?_, ?_, ?_⟩
  · intro ix
    unfold pattern
    rw [Int.add_emod_right, Int.add_ediv_of_dvd_right (dvd_refl _), Int.ediv_self hp.ne']
    push_cast; ring
  · intro hg hlast ix
    unfold pattern
    have b1 := Int.emod_nonneg ix hp.ne'
    rcases step ix with ⟨h1, h2, h3⟩ | ⟨h1, h2, h3⟩
    · rw [h1, h2, h3]
      push_cast
      linarith
    · rw [h2, h3]
      have := hg (ix % period).toNat (ix % period + 1).toNat (by omega) (by omega)
      linarith
  · intro hg hlast ix
    unfold pattern
    have b1 := Int.emod_nonneg ix hp.ne'
    rcases step ix with ⟨h1, h2, h3⟩ | ⟨h1, h2, h3⟩
    · rw [h1, h2, h3]
      push_cast
      have : zero + delta * ((ix / period : Int) : ℝ) + g (period - 1).toNat =
          zero + delta * (((ix / period : Int) : ℝ) + 1) + g 0 := by linarith
      exact ⟨this.le, ⟨fun _ => rfl, fun _ => this⟩⟩
    · rw [h2, h3]
      have := hg (ix % period).toNat (ix % period + 1).toNat (by omega) (by omega)
      exact ⟨by linarith, ⟨fun h => by linarith, fun h => by omega⟩⟩

/-- **C52 (weights).**  For an index that is not negative the weight is that of the point of the element, doubled where
two elements meet; for a negative index inside an element the repeated and mixed spacings read before the array. -/
theorem C52_weights_partial (order : Int) (ho : 2 ≤ order) (w : Nat → ℝ) (ix : Int) :
    (0 ≤ ix → repeatedArea order w ix = .ok (w (ix % order).toNat)) ∧
    (0 ≤ ix → gllArea order w ix = .ok (if ix % (order - 1) = 0 then 2 * w 0 else w (ix % (order - 1)).toNat)) ∧
    (0 ≤ ix → mixedEdgeArea order w ix = .ok (if ix % order = 0 then 2 * w 0 else w (ix % order).toNat)) ∧
    (ix < 0 → ix % order ≠ 0 → repeatedArea order w ix = .ub) := by
  have b1 := Int.emod_nonneg ix (by omega : order ≠ 0)
  have b2 := Int.emod_lt_of_pos ix (by omega : 0 < order)
  have c1 := Int.emod_nonneg ix (by omega : order - 1 ≠ 0)
  have c2 := Int.emod_lt_of_pos ix (by omega : 0 < order - 1)
  refine ⟨?_, ?_, ?_, ?_⟩
  · intro h
    unfold repeatedArea readArray
    rw [Int.tmod_eq_emod_of_nonneg h, if_pos ⟨b1, b2⟩]
  · intro h
    unfold gllArea readArray
    simp only [Int.tmod_eq_emod_of_nonneg h]
    by_cases h0 : ix % (order - 1) = 0
    · rw [if_pos h0, if_pos h0]
    · rw [if_neg h0, if_neg h0, if_pos (by omega)]
  · intro h
    unfold mixedEdgeArea readArray
    simp only [Int.tmod_eq_emod_of_nonneg h]
    by_cases h0 : ix % order = 0
    · rw [if_pos h0, if_pos h0]
    · rw [if_neg h0, if_neg h0, if_pos (by omega)]
  · intro hneg h0
    obtain ⟨-, e2⟩ := emod_of_tmod (by omega : 0 < order) hneg h0
    unfold repeatedArea readArray
    rw [e2, if_neg (by omega)]

/-- **C52 is false for negative indices of the Gauss-Lobatto spacing.**  Node -1 of order 4 is put where node 0 is, and
node -3 is refused. -/
theorem C52_false (g : Nat → ℝ) (delta zero : ℝ) (hg : g 3 = g 0 + delta) :
    (∃ v, gllNode 4 g delta zero (-1) = .ok v ∧ gllNode 4 g delta zero 0 = .ok v) ∧
    gllNode 4 g delta zero (-3) = .exc := by
  refine ⟨⟨zero + g 0, ?_, ?_⟩, ?_⟩
  · unfold gllNode spacingAt
    simp [hg]
    ring
  · unfold gllNode spacingAt
    simp
  · unfold gllNode spacingAt
    simp

/-- Order 4 repeated points on elements of length 1: nodes 3 and 4 coincide, node -1 is the last of the element before. -/
example : repeatedNode 4 (fun k => k / 3) 1 0 3 = .ok 1 ∧ repeatedNode 4 (fun k => k / 3) 1 0 4 = .ok 1 ∧
    repeatedNode 4 (fun k => k / 3) 1 0 (-1) = .ok 0 := by
  refine ⟨?_, ?_, ?_⟩ <;> rw [(C52_repeated_partial 4 (by norm_num) _ _ _ _).1 (by decide)] <;> unfold pattern <;> norm_num <;>
    simp [show (3 : Int).toNat = 3 from rfl]

end Verif.Vert
