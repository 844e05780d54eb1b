import Verif.Horiz.ShallowLemmas
import Verif.Horiz.BasisProps

/-!
# Summation by parts on an element
-/

namespace Verif.Horiz

/-- The sum over the nodes of an element with weights. -/
noncomputable def quad (n : Nat) (ω : Nat → ℝ) (f : Nat → Nat → ℝ) : ℝ :=
  ∑ i ∈ Finset.range n, ∑ j ∈ Finset.range n, ω i * ω j * f i j

theorem quad_congr (n : Nat) (ω : Nat → ℝ) (f g : Nat → Nat → ℝ)
    (h : ∀ i j, i < n → j < n → f i j = g i j) : quad n ω f = quad n ω g := by
  unfold quad
  refine Finset.sum_congr rfl (fun i hi => Finset.sum_congr rfl (fun j hj => ?_))
  rw [h i j (Finset.mem_range.1 hi) (Finset.mem_range.1 hj)]

theorem quad_add (n : Nat) (ω : Nat → ℝ) (f g : Nat → Nat → ℝ) :
    quad n ω (fun i j => f i j + g i j) = quad n ω f + quad n ω g := by
  unfold quad
  simp only [mul_add, Finset.sum_add_distrib]

theorem quad_mul (n : Nat) (ω : Nat → ℝ) (c : ℝ) (f : Nat → Nat → ℝ) :
    quad n ω (fun i j => c * f i j) = c * quad n ω f := by
  unfold quad
  rw [Finset.mul_sum]
  refine Finset.sum_congr rfl (fun i _ => ?_)
  rw [Finset.mul_sum]
  refine Finset.sum_congr rfl (fun j _ => ?_)
  ring

theorem quad_neg (n : Nat) (ω : Nat → ℝ) (f : Nat → Nat → ℝ) :
    quad n ω (fun i j => -f i j) = -quad n ω f := by
  have := quad_mul n ω (-1) f
  simp only [neg_mul, one_mul] at this
  exact this

theorem quad_swap (n : Nat) (ω : Nat → ℝ) (f : Nat → Nat → ℝ) :
    quad n ω f = ∑ j ∈ Finset.range n, ∑ i ∈ Finset.range n, ω i * ω j * f i j := by
  unfold quad
  rw [Finset.sum_comm]

theorem derivA_sum (G : Geometry) (B : Basis) (f : Nat → Nat → ℝ) (i j : Nat) :
    derivA G B f i j = (∑ s ∈ Finset.range G.S.order, f s j * B.dx s i) * (1 / G.deltaA) := by
  unfold derivA
  rw [loop_add, zero_add]

theorem derivB_sum (G : Geometry) (B : Basis) (f : Nat → Nat → ℝ) (i j : Nat) :
    derivB G B f i j = (∑ s ∈ Finset.range G.S.order, f i s * B.dx s j) * (1 / G.deltaB) := by
  unfold derivB
  rw [loop_add, zero_add]

theorem weakA_sum (G : Geometry) (B : Basis) (f : Nat → Nat → ℝ) (i j : Nat) :
    weakA G B f i j = -(∑ s ∈ Finset.range G.S.order, f s j * B.stiff i s) * (1 / G.deltaA) := by
  unfold weakA
  rw [loop_sub, zero_sub]

theorem weakB_sum (G : Geometry) (B : Basis) (f : Nat → Nat → ℝ) (i j : Nat) :
    weakB G B f i j = -(∑ s ∈ Finset.range G.S.order, f i s * B.stiff j s) * (1 / G.deltaB) := by
  unfold weakB
  rw [loop_sub, zero_sub]

theorem line_parts (n : Nat) (B : Basis) (ω : Nat → ℝ) (h : Paired n B ω) (φ f : Nat → ℝ) :
    ∑ i ∈ Finset.range n, ω i * (φ i * ∑ s ∈ Finset.range n, f s * B.stiff i s) =
      ∑ s ∈ Finset.range n, ω s * (f s * ∑ i ∈ Finset.range n, φ i * B.dx i s) := by
  simp only [Finset.mul_sum]
  rw [Finset.sum_comm]
  refine Finset.sum_congr rfl (fun s hs => Finset.sum_congr rfl (fun i hi => ?_))
  have := h.transpose i s (Finset.mem_range.1 hi) (Finset.mem_range.1 hs)
  calc ω i * (φ i * (f s * B.stiff i s)) = φ i * f s * (ω i * B.stiff i s) := by ring
    _ = _ := by rw [this]; ring

/-- Summation by parts in alpha. -/
theorem parts_A (G : Geometry) (B : Basis) (ω : Nat → ℝ) (h : Paired G.S.order B ω) (φ f : Nat → Nat → ℝ) :
    quad G.S.order ω (fun i j => φ i j * weakA G B f i j) =
      -quad G.S.order ω (fun i j => f i j * derivA G B φ i j) := by
  rw [quad_swap, quad_swap, ← Finset.sum_neg_distrib]
  refine Finset.sum_congr rfl (fun j _ => ?_)
  have := line_parts G.S.order B ω h (fun i => φ i j) (fun s => f s j)
  calc _ = -(ω j * (1 / G.deltaA)) * ∑ i ∈ Finset.range G.S.order, ω i * (φ i j *
        ∑ s ∈ Finset.range G.S.order, f s j * B.stiff i s) := by
        rw [Finset.mul_sum]
        refine Finset.sum_congr rfl (fun i _ => ?_)
        rw [weakA_sum]
        ring
    _ = _ := by
        rw [this, Finset.mul_sum, ← Finset.sum_neg_distrib]
        refine Finset.sum_congr rfl (fun i _ => ?_)
        rw [derivA_sum]
        ring

/-- Summation by parts in beta. -/
theorem parts_B (G : Geometry) (B : Basis) (ω : Nat → ℝ) (h : Paired G.S.order B ω) (φ f : Nat → Nat → ℝ) :
    quad G.S.order ω (fun i j => φ i j * weakB G B f i j) =
      -quad G.S.order ω (fun i j => f i j * derivB G B φ i j) := by
  unfold quad
  beta_reduce
  rw [← Finset.sum_neg_distrib]
  refine Finset.sum_congr rfl (fun i _ => ?_)
  have := line_parts G.S.order B ω h (fun j => φ i j) (fun s => f i s)
  calc _ = -(ω i * (1 / G.deltaB)) * ∑ j ∈ Finset.range G.S.order, ω j * (φ i j *
        ∑ s ∈ Finset.range G.S.order, f i s * B.stiff j s) := by
        rw [Finset.mul_sum]
        refine Finset.sum_congr rfl (fun j _ => ?_)
        rw [weakB_sum]
        ring
    _ = _ := by
        rw [this, Finset.mul_sum, ← Finset.sum_neg_distrib]
        refine Finset.sum_congr rfl (fun j _ => ?_)
        rw [derivB_sum]
        ring

theorem derivA_const (G : Geometry) (B : Basis) (ω : Nat → ℝ) (h : Paired G.S.order B ω) (f : Nat → Nat → ℝ) (c : ℝ)
    (i j : Nat) (hi : i < G.S.order) (hf : ∀ s, s < G.S.order → f s j = c) : derivA G B f i j = 0 := by
  rw [derivA_sum, Finset.sum_congr rfl (fun s hs => by rw [hf s (Finset.mem_range.1 hs)]), ← Finset.mul_sum,
    h.constant i hi, mul_zero, zero_mul]

theorem derivB_const (G : Geometry) (B : Basis) (ω : Nat → ℝ) (h : Paired G.S.order B ω) (f : Nat → Nat → ℝ) (c : ℝ)
    (i j : Nat) (hj : j < G.S.order) (hf : ∀ s, s < G.S.order → f i s = c) : derivB G B f i j = 0 := by
  rw [derivB_sum, Finset.sum_congr rfl (fun s hs => by rw [hf s (Finset.mem_range.1 hs)]), ← Finset.mul_sum,
    h.constant j hj, mul_zero, zero_mul]

/-- The weak divergence of any flux has no integral over the element. -/
theorem weak_integral (G : Geometry) (B : Basis) (ω : Nat → ℝ) (h : Paired G.S.order B ω) (f g : Nat → Nat → ℝ) :
    quad G.S.order ω (fun i j => weakA G B f i j + weakB G B g i j) = 0 := by
  rw [quad_add]
  have hA := parts_A G B ω h (fun _ _ => 1) f
  have hB := parts_B G B ω h (fun _ _ => 1) g
  simp only [one_mul] at hA hB
  rw [hA, hB, quad_congr _ _ _ (fun _ _ => 0) (fun i j hi hj => by
    rw [derivA_const G B ω h (fun _ _ => 1) 1 i j hi (fun _ _ => rfl), mul_zero]),
    quad_congr _ _ (fun i j => g i j * _) (fun _ _ => 0) (fun i j hi hj => by
    rw [derivB_const G B ω h (fun _ _ => 1) 1 i j hj (fun _ _ => rfl), mul_zero])]
  simp [quad]

end Verif.Horiz
