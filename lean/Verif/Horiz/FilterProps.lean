import Verif.Horiz.FilterLemmas
import Verif.Horiz.Spec
import Mathlib.Tactic.Positivity
import Mathlib.Tactic.FieldSimp
import Mathlib.Tactic.NormNum

/-!
# C73: the positive definite filter
-/

namespace Verif.Horiz

theorem value_eq (S : Shape) (u : Data) (v : Var) (a b k i j : Nat) :
    value S u v a b k i j = u ⟨v, S.at a i, S.at b j, k⟩ := by
  unfold value Shape.at
  congr 2 <;> omega

theorem area_at (S : Shape) (area : Nat → Nat → Nat → ℝ) (a b k i j : Nat) :
    area (S.halo + a * S.order + i) (S.halo + b * S.order + j) k = area (S.at a i) (S.at b j) k := by
  unfold Shape.at
  congr 1 <;> omega

theorem totalMass_eq (S : Shape) (area : Nat → Nat → Nat → ℝ) (u : Data) (c a b k : Nat) :
    totalMass S area u c a b k = elementMass S area u (.tracer c) a b k := by
  rw [(mass_sums S area u c a b k).1]
  unfold elementMass
  simp only [value_eq, area_at, mul_comm]

/-- The mass of the points at which the tracer is positive. -/
noncomputable def positiveMass (S : Shape) (area : Nat → Nat → Nat → ℝ) (u : Data) (v : Var) (a b k : Nat) : ℝ :=
  ∑ i ∈ Finset.range S.order, ∑ j ∈ Finset.range S.order,
    area (S.halo + a * S.order + i) (S.halo + b * S.order + j) k * max (value S u v a b k i j) 0

theorem nonNegativeMass_eq (S : Shape) (area : Nat → Nat → Nat → ℝ) (u : Data) (c a b k : Nat) :
    nonNegativeMass S area u c a b k = positiveMass S area u (.tracer c) a b k := by
  rw [(mass_sums S area u c a b k).2]
  unfold positiveMass
  refine Finset.sum_congr rfl (fun i _ => Finset.sum_congr rfl (fun j _ => ?_))
  rw [value_eq, area_at S area]
  split
  · next h => rw [max_eq_left (le_of_lt h), mul_comm]
  · next h => rw [max_eq_right (not_lt.1 h), mul_zero]

/-- The value after the filter. -/
theorem filter_value (S : Shape) (area : Nat → Nat → Nat → ℝ) (u : Data) (c a b k i j : Nat) (ha : a < S.elemA)
    (hb : b < S.elemB) (hc : c < S.tracers) (hk : k < S.levels) (hi : i < S.order) (hj : j < S.order) :
    value S (filterTracers S area u) (.tracer c) a b k i j =
      max (value S u (.tracer c) a b k i j) 0 *
        (elementMass S area u (.tracer c) a b k / positiveMass S area u (.tracer c) a b k) := by
  rw [value_eq, value_eq, (filterTracers_pass S area u).2 a b c k ha hb hc hk _
    ⟨i, hi, j, hj, (node_iff _ _ _ _ _).2 rfl⟩, filterElement_at S area c a b k i j hi hj, totalMass_eq,
    nonNegativeMass_eq]
  split
  · next h => rw [max_eq_left (le_of_lt h)]
  · next h => rw [max_eq_right (not_lt.1 h), zero_mul]

section

variable (S : Shape) (area : Nat → Nat → Nat → ℝ) (u : Data) (c a b k : Nat)

theorem mass_le (hp : PositiveAreas S area a b k) :
    elementMass S area u (.tracer c) a b k ≤ positiveMass S area u (.tracer c) a b k := by
  unfold elementMass positiveMass
  refine Finset.sum_le_sum (fun i hi => Finset.sum_le_sum (fun j hj => ?_))
  have := hp i j (Finset.mem_range.1 hi) (Finset.mem_range.1 hj)
  exact mul_le_mul_of_nonneg_left (le_max_left _ _) this.le

theorem positiveMass_nonneg (hp : PositiveAreas S area a b k) :
    0 ≤ positiveMass S area u (.tracer c) a b k := by
  unfold positiveMass
  refine Finset.sum_nonneg (fun i hi => Finset.sum_nonneg (fun j hj => ?_))
  have := hp i j (Finset.mem_range.1 hi) (Finset.mem_range.1 hj)
  exact mul_nonneg this.le (le_max_right _ _)

theorem positiveMass_pos (hp : PositiveAreas S area a b k) (i j : Nat) (hi : i < S.order) (hj : j < S.order)
    (h : 0 < value S u (.tracer c) a b k i j) : 0 < positiveMass S area u (.tracer c) a b k := by
  unfold positiveMass
  have h1 : ∀ i ∈ Finset.range S.order, 0 ≤ ∑ j ∈ Finset.range S.order,
      area (S.halo + a * S.order + i) (S.halo + b * S.order + j) k * max (value S u (.tracer c) a b k i j) 0 := by
    intro i hi
    refine Finset.sum_nonneg (fun j hj => ?_)
    exact mul_nonneg (hp i j (Finset.mem_range.1 hi) (Finset.mem_range.1 hj)).le (le_max_right _ _)
  refine lt_of_lt_of_le ?_ (Finset.single_le_sum h1 (Finset.mem_range.2 hi))
  refine lt_of_lt_of_le ?_ (Finset.single_le_sum (f := fun j =>
    area (S.halo + a * S.order + i) (S.halo + b * S.order + j) k * max (value S u (.tracer c) a b k i j) 0)
    (fun j hj => mul_nonneg (hp i j hi (Finset.mem_range.1 hj)).le (le_max_right _ _)) (Finset.mem_range.2 hj))
  exact mul_pos (hp i j hi hj) (lt_of_lt_of_le h (le_max_left _ _))

variable (ha : a < S.elemA) (hb : b < S.elemB) (hc : c < S.tracers) (hk : k < S.levels)

include ha hb hc hk

/-- **C73 (no negative values).**  After the filter no value of a tracer in an element is negative, whatever the values
before, provided the mass of the tracer in the element was not negative.  Without the proviso this fails, see
`C73_false`. -/
theorem C73_nonneg_partial (hp : PositiveAreas S area a b k) (hm : 0 ≤ elementMass S area u (.tracer c) a b k)
    (i j : Nat) (hi : i < S.order) (hj : j < S.order) :
    0 ≤ value S (filterTracers S area u) (.tracer c) a b k i j := by
  rw [filter_value S area u c a b k i j ha hb hc hk hi hj]
  exact mul_nonneg (le_max_right _ _) (div_nonneg hm (positiveMass_nonneg S area u c a b k hp))

/-- **C73 (mass).**  The filter leaves the mass of every tracer in every element at every level as it was, provided it
was not negative. -/
theorem C73_mass_partial (hp : PositiveAreas S area a b k) (hm : 0 ≤ elementMass S area u (.tracer c) a b k) :
    elementMass S area (filterTracers S area u) (.tracer c) a b k = elementMass S area u (.tracer c) a b k := by
  have h1 : elementMass S area (filterTracers S area u) (.tracer c) a b k =
      positiveMass S area u (.tracer c) a b k *
        (elementMass S area u (.tracer c) a b k / positiveMass S area u (.tracer c) a b k) := by
    conv_lhs => unfold elementMass
    conv_rhs => rw [show positiveMass S area u (.tracer c) a b k = ∑ i ∈ Finset.range S.order,
      ∑ j ∈ Finset.range S.order, area (S.halo + a * S.order + i) (S.halo + b * S.order + j) k *
        max (value S u (.tracer c) a b k i j) 0 from rfl, Finset.sum_mul]
    refine Finset.sum_congr rfl (fun i hi => ?_)
    rw [Finset.sum_mul]
    refine Finset.sum_congr rfl (fun j hj => ?_)
    rw [filter_value S area u c a b k i j ha hb hc hk (Finset.mem_range.1 hi) (Finset.mem_range.1 hj), mul_assoc]
    rfl
  rw [h1]
  by_cases h0 : positiveMass S area u (.tracer c) a b k = 0
  · have : elementMass S area u (.tracer c) a b k = 0 :=
      le_antisymm (h0 ▸ mass_le S area u c a b k hp) hm
    rw [h0, this, zero_mul]
  · field_simp

/-- **C73 (nothing to do).**  An element in which the tracer is nowhere negative is left as it was. -/
theorem C73_untouched (hp : PositiveAreas S area a b k)
    (hn : ∀ i j, i < S.order → j < S.order → 0 ≤ value S u (.tracer c) a b k i j) (i j : Nat) (hi : i < S.order)
    (hj : j < S.order) :
    value S (filterTracers S area u) (.tracer c) a b k i j = value S u (.tracer c) a b k i j := by
  rw [filter_value S area u c a b k i j ha hb hc hk hi hj]
  have he : positiveMass S area u (.tracer c) a b k = elementMass S area u (.tracer c) a b k := by
    unfold elementMass positiveMass
    refine Finset.sum_congr rfl (fun i hi => Finset.sum_congr rfl (fun j hj => ?_))
    rw [max_eq_left (hn i j (Finset.mem_range.1 hi) (Finset.mem_range.1 hj))]
  rw [max_eq_left (hn i j hi hj), he]
  rcases (hn i j hi hj).lt_or_eq with h | h
  · have := positiveMass_pos S area u c a b k hp i j hi hj h
    rw [he] at this
    rw [div_self this.ne', mul_one]
  · rw [← h, zero_mul]

/-- **C73 (no new maxima).**  The filter raises no positive value and raises negative values to zero at most. -/
theorem C73_bounded (hp : PositiveAreas S area a b k) (i j : Nat) (hi : i < S.order) (hj : j < S.order) :
    value S (filterTracers S area u) (.tracer c) a b k i j ≤ max (value S u (.tracer c) a b k i j) 0 := by
  rw [filter_value S area u c a b k i j ha hb hc hk hi hj]
  refine mul_le_of_le_one_right (le_max_right _ _) ?_
  exact div_le_one_of_le₀ (mass_le S area u c a b k hp) (positiveMass_nonneg S area u c a b k hp)

/-- **C73 (fails for negative mass).**  In every element in which the tracer has a negative total mass, the filter makes
every positive value negative.  The check that would refuse this is commented out in the code. -/
theorem C73_false (hp : PositiveAreas S area a b k) (hm : elementMass S area u (.tracer c) a b k < 0)
    (i j : Nat) (hi : i < S.order) (hj : j < S.order) (hv : 0 < value S u (.tracer c) a b k i j) :
    value S (filterTracers S area u) (.tracer c) a b k i j < 0 := by
  rw [filter_value S area u c a b k i j ha hb hc hk hi hj]
  exact mul_neg_of_pos_of_neg (lt_of_lt_of_le hv (le_max_left _ _))
    (div_neg_of_neg_of_pos hm (positiveMass_pos S area u c a b k hp i j hi hj hv))

/-- **C73 (fails for negative mass, 2).**  If moreover no value is positive, every value becomes zero and the mass, which
was negative, becomes zero. -/
theorem C73_false_mass (hn : ∀ i j, i < S.order → j < S.order → value S u (.tracer c) a b k i j ≤ 0) :
    (∀ i j, i < S.order → j < S.order → value S (filterTracers S area u) (.tracer c) a b k i j = 0) ∧
      elementMass S area (filterTracers S area u) (.tracer c) a b k = 0 := by
  have h1 : ∀ i j, i < S.order → j < S.order → value S (filterTracers S area u) (.tracer c) a b k i j = 0 := by
    intro i j hi hj
    rw [filter_value S area u c a b k i j ha hb hc hk hi hj, max_eq_right (hn i j hi hj), zero_mul]
  refine ⟨h1, ?_⟩
  unfold elementMass
  refine Finset.sum_eq_zero (fun i hi => Finset.sum_eq_zero (fun j hj => ?_))
  rw [h1 i j (Finset.mem_range.1 hi) (Finset.mem_range.1 hj), mul_zero]

end

/-- **C73 (elsewhere).**  The filter changes nothing but tracers, at nodes of the interior and at levels of the grid. -/
theorem C73_elsewhere (S : Shape) (area : Nat → Nat → Nat → ℝ) (u : Data) (v : Var) (iA iB k : Nat)
    (h : ¬ (Interior S iA iB ∧ k < S.levels ∧ ∃ c, c < S.tracers ∧ v = .tracer c)) :
    filterTracers S area u ⟨v, iA, iB, k⟩ = u ⟨v, iA, iB, k⟩ := by
  refine (filterTracers_pass S area u).1 _ ?_
  rintro a b ha hb ⟨c, hc, k', hk', i, hi, j, hj, h1, h2, h3, h4⟩
  simp only at h1 h2 h3 h4
  have b1 : a * S.order + S.order ≤ S.elemA * S.order := by
    have := Nat.mul_le_mul_right S.order ha
    rw [Nat.succ_mul] at this
    exact this
  have b2 : b * S.order + S.order ≤ S.elemB * S.order := by
    have := Nat.mul_le_mul_right S.order hb
    rw [Nat.succ_mul] at this
    exact this
  unfold Shape.at at h2 h3
  refine h ⟨?_, by omega, c, hc, h1⟩
  unfold Interior
  omega

/-- The mass of a tracer on a patch at one level. -/
noncomputable def patchMass (S : Shape) (area : Nat → Nat → Nat → ℝ) (u : Data) (v : Var) (k : Nat) : ℝ :=
  ∑ a ∈ Finset.range S.elemA, ∑ b ∈ Finset.range S.elemB, elementMass S area u v a b k

/-- **C73 (patch).**  The mass of a tracer on a patch is left as it was if no element held a negative mass. -/
theorem C73_patch_partial (S : Shape) (area : Nat → Nat → Nat → ℝ) (u : Data) (c k : Nat) (hc : c < S.tracers)
    (hk : k < S.levels)
    (h : ∀ a b, a < S.elemA → b < S.elemB → PositiveAreas S area a b k ∧
      0 ≤ elementMass S area u (.tracer c) a b k) :
    patchMass S area (filterTracers S area u) (.tracer c) k = patchMass S area u (.tracer c) k := by
  unfold patchMass
  refine Finset.sum_congr rfl (fun a ha => Finset.sum_congr rfl (fun b hb => ?_))
  obtain ⟨h1, h2⟩ := h a b (Finset.mem_range.1 ha) (Finset.mem_range.1 hb)
  exact C73_mass_partial S area u c a b k (Finset.mem_range.1 ha) (Finset.mem_range.1 hb) hc hk h1 h2

/-- Two elements of two by two nodes with unit areas, halo one, one tracer: `3, -1, 1, 0` in the first element and
`1, -2, -1, 0` in the second. -/
def sampleShape : Shape := ⟨2, 2, 1, 1, 1, 1⟩

/-- The tracer of the example. -/
def sampleTracer : Data := fun x =>
  if x.iA = 1 ∧ x.iB = 1 then 3 else if x.iA = 1 ∧ x.iB = 2 then -1 else if x.iA = 2 ∧ x.iB = 1 then 1
  else if x.iA = 3 ∧ x.iB = 1 then 1 else if x.iA = 3 ∧ x.iB = 2 then -2 else if x.iA = 4 ∧ x.iB = 1 then -1 else 0

theorem sample_mass : elementMass sampleShape (fun _ _ _ => 1) sampleTracer (.tracer 0) 0 0 0 = 3 ∧
    elementMass sampleShape (fun _ _ _ => 1) sampleTracer (.tracer 0) 1 0 0 = -2 := by
  constructor <;>
    norm_num [elementMass, value, sampleShape, sampleTracer, Finset.sum_range_succ]

example : elementMass sampleShape (fun _ _ _ => 1) (filterTracers sampleShape (fun _ _ _ => 1) sampleTracer)
    (.tracer 0) 0 0 0 = 3 :=
  (C73_mass_partial sampleShape _ sampleTracer 0 0 0 0 (by decide) (by decide) (by decide) (by decide)
    (fun _ _ _ _ => by norm_num) (by rw [sample_mass.1]; norm_num)).trans sample_mass.1

example : value sampleShape (filterTracers sampleShape (fun _ _ _ => 1) sampleTracer) (.tracer 0) 0 0 0 0 0 = 9 / 4 := by
  rw [filter_value sampleShape _ sampleTracer 0 0 0 0 0 0 (by decide) (by decide) (by decide) (by decide)
    (by decide) (by decide), sample_mass.1]
  norm_num [positiveMass, value, sampleShape, sampleTracer, Finset.sum_range_succ]

example : value sampleShape (filterTracers sampleShape (fun _ _ _ => 1) sampleTracer) (.tracer 0) 1 0 0 0 0 < 0 :=
  C73_false sampleShape _ sampleTracer 0 1 0 0 (by decide) (by decide) (by decide) (by decide)
    (fun _ _ _ _ => by norm_num) (by rw [sample_mass.2]; norm_num) 0 0 (by decide) (by decide)
    (by norm_num [value, sampleShape, sampleTracer])

end Verif.Horiz
