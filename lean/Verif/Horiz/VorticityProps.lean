import Verif.Horiz.Vorticity
import Verif.Horiz.VectorProps
import Verif.Horiz.BasisProps
import Verif.Horiz.ShallowFour
import Mathlib.Analysis.SpecialFunctions.Integrals.Basic
import Verif.Vdyn.JacobianLemmas
import Mathlib.LinearAlgebra.Lagrange
import Mathlib.Analysis.Calculus.Deriv.Polynomial
import Mathlib.MeasureTheory.Integral.IntervalIntegral.FundThmCalculus

/-!
# C142: vorticity and divergence of the output

The theorems of Gauss and Stokes for the patch: what the output says about the interior is what flows through its edge
and around it.
-/

namespace Verif.Horiz

open Finset Polynomial

/-! ### Vocabulary -/

/-- The weights integrate derivatives: the weighted sum of the derivative of a field over the nodes is the last value less
the first. -/
def Closed (n : Nat) (B : Basis) (ω : Nat → ℝ) : Prop :=
  ∀ f : Nat → ℝ, ∑ i ∈ range n, ω i * ∑ s ∈ range n, f s * B.dx s i = f (n - 1) - f 0

section

variable (M : Medium) (ω : Nat → ℝ) (init : Data) (k : Nat)

/-- The integral of a field over a patch. -/
noncomputable def patchSum (f : Nat → Nat → Nat → Nat → ℝ) : ℝ :=
  ∑ a ∈ range M.G.S.elemA, ∑ b ∈ range M.G.S.elemB, M.G.deltaA * M.G.deltaB * areaSum M ω a b (f a b)

/-- The flow across a line of constant alpha, per length in beta. -/
noncomputable def acrossA (a b i j : Nat) : ℝ := jacAt M a b i j * (flowOf M.G.S init a b k).upA M a b i j

/-- The flow across a line of constant beta, per length in alpha. -/
noncomputable def acrossB (a b i j : Nat) : ℝ := jacAt M a b i j * (flowOf M.G.S init a b k).upB M a b i j

/-- The sum over the nodes of node `i` of elements `a`, along beta. -/
noncomputable def lineB (f : Nat → Nat → Nat → Nat → ℝ) (a i : Nat) : ℝ :=
  M.G.deltaB * ∑ b ∈ range M.G.S.elemB, ∑ j ∈ range M.G.S.order, ω j * f a b i j

/-- The sum over the nodes of node `j` of elements `b`, along alpha. -/
noncomputable def lineA (f : Nat → Nat → Nat → Nat → ℝ) (b j : Nat) : ℝ :=
  M.G.deltaA * ∑ a ∈ range M.G.S.elemA, ∑ i ∈ range M.G.S.order, ω i * f a b i j

/-- A field has the same value at the last nodes of an element and the first of the next, in alpha. -/
def JoinedA (S : Shape) (f : Nat → Nat → Nat → Nat → ℝ) : Prop :=
  ∀ a b j, a + 1 < S.elemA → b < S.elemB → j < S.order → f a b (S.order - 1) j = f (a + 1) b 0 j

/-- A field has the same value at the last nodes of an element and the first of the next, in beta. -/
def JoinedB (S : Shape) (f : Nat → Nat → Nat → Nat → ℝ) : Prop :=
  ∀ a b i, a < S.elemA → b + 1 < S.elemB → i < S.order → f a b i (S.order - 1) = f a (b + 1) i 0

end

/-! ### The rule -/

theorem closed_of (n : Nat) (hn : 2 ≤ n) (B : Basis) (ω : Nat → ℝ)
    (h : ∀ m < n, ∑ i ∈ range n, ω i * B.dx m i = (if m = n - 1 then 1 else 0) - (if m = 0 then 1 else 0)) :
    Closed n B ω := by
  intro f
  have : ∑ i ∈ range n, ω i * ∑ s ∈ range n, f s * B.dx s i = ∑ s ∈ range n, f s * ∑ i ∈ range n, ω i * B.dx s i := by
    simp only [mul_sum]
    rw [sum_comm]
    exact sum_congr rfl fun s _ => sum_congr rfl fun i _ => by ring
  rw [this, sum_congr rfl fun s hs => by rw [h s (mem_range.1 hs), mul_sub], sum_sub_distrib]
  simp only [mul_ite, mul_one, mul_zero]
  rw [sum_ite_eq' , sum_ite_eq', if_pos (mem_range.2 (by omega)), if_pos (mem_range.2 (by omega))]

/-- **C142 (rule).**  For every order from two on but four, and every rule on `[0, 1]` with both ends among its points that
is exact for polynomials of degree less than the order, as the Gauss-Lobatto rule, the derivative coefficients of the
grid are closed. -/
theorem C142_rule (n : Nat) (hn : 2 ≤ n) (h4 : n ≠ 4) (x w : Nat → ℝ) (hx : Interp.ApartNodes n x) (h0 : x 0 = 0)
    (h1 : x (n - 1) = 1) (hw : ∀ p : ℝ[X], p.degree < n → ∑ i ∈ range n, w i * p.eval (x i) = ∫ t in (0 : ℝ)..1, p.eval t) :
    Closed n (basisOf n x w) w := by
  refine closed_of n hn _ _ fun m hm => ?_
  have hinj : Set.InjOn x (range n : Finset ℕ) := by
    intro i hi j hj hij
    by_contra hne
    have := hx i j (mem_range.1 hi) (mem_range.1 hj) hne
    rw [hij, sub_self, abs_zero] at this
    norm_num at this
  set p := Lagrange.basis (range n) x m with hp
  have hval : ∀ i < n, p.eval (x i) = if i = m then 1 else 0 := by
    intro i hi
    split_ifs with h
    · subst h
      exact Lagrange.eval_basis_self hinj (mem_range.2 hm)
    · exact Lagrange.eval_basis_of_ne (Ne.symm h) (mem_range.2 hi)
  have hdeg : p.degree < n := by
    rw [hp, Lagrange.degree_basis hinj (mem_range.2 hm), card_range]
    exact_mod_cast Nat.sub_one_lt (by omega)
  have hcoeff : ∀ i < n, (basisOf n x w).dx m i = p.derivative.eval (x i) := by
    intro i hi
    rw [← Interp.C39_first n x hx (x i) p hdeg]
    unfold basisOf
    rw [if_neg h4]
    unfold Interp.apply Interp.diffCoeffs
    rw [List.zipIdx_map, List.map_map]
    have : ((List.range n).zipIdx.map ((fun ci : ℝ × ℕ => ci.1 * p.eval (x ci.2)) ∘
        Prod.map (Interp.diffCoeff n x (x i)) id)) = (List.range n).map fun s => if s = m then Interp.diffCoeff n x (x i) m else 0 := by
      apply List.ext_getElem
      · simp
      · intro s h1 h2
        simp only [List.length_map, List.length_zipIdx, List.length_range] at h1
        simp only [List.getElem_map, List.getElem_zipIdx, List.getElem_range, Function.comp_apply, Prod.map_apply, id_eq,
          Nat.zero_add]
        rw [hval s h1]
        split_ifs with h
        · rw [h, mul_one]
        · rw [mul_zero]
    rw [this]
    rw [Vdyn.sum_range, sum_ite_eq', if_pos (mem_range.2 hm)]
  rw [sum_congr rfl fun i hi => by rw [hcoeff i (mem_range.1 hi)],
    hw _ (lt_of_le_of_lt (degree_derivative_le) hdeg)]
  rw [intervalIntegral.integral_eq_sub_of_hasDerivAt (f := fun t => p.eval t) (fun t _ => p.hasDerivAt t)
    (Continuous.intervalIntegrable (by fun_prop) _ _)]
  have e1 := hval (n - 1) (by omega)
  have e0 := hval 0 (by omega)
  rw [h1] at e1
  rw [h0] at e0
  simp only [e1, e0, eq_comm]

/-- **C142 (rule, order four).**  The table for order four is closed for the Gauss-Lobatto weights
`1/12, 5/12, 5/12, 1/12`, exactly. -/
theorem C142_rule_four (x w : Nat → ℝ) : Closed 4 (basisOf 4 x w) lobattoFour := by
  refine closed_of 4 (by norm_num) _ _ fun m hm => ?_
  unfold basisOf
  rw [if_pos rfl]
  interval_cases m <;>
    norm_num [sum_range_succ, lobattoFour, dxTable, lit8090, lit3090, lit1618, lit2236, lit0618]

/-! ### The loops -/

theorem curlPoint_touches (M : Medium) (init : Data) (a b k i j : Nat) :
    Touches (curlPoint M init a b k i j)
      (Node (fun v => v = .state 0 ∨ v = .state 1) (M.G.S.at a i) (M.G.S.at b j) k) := by
  constructor
  · intro u x hx
    have h0 : x ≠ ⟨.state 0, M.G.S.at a i, M.G.S.at b j, k⟩ := by rintro rfl; exact hx ⟨Or.inl rfl, rfl, rfl, rfl⟩
    have h1 : x ≠ ⟨.state 1, M.G.S.at a i, M.G.S.at b j, k⟩ := by rintro rfl; exact hx ⟨Or.inr rfl, rfl, rfl, rfl⟩
    simp [curlPoint, put, h0, h1]
  · intro u u' he x hx
    have := he x hx
    by_cases h0 : x = ⟨.state 0, M.G.S.at a i, M.G.S.at b j, k⟩
    · subst h0
      simp [curlPoint, put]
    · by_cases h1 : x = ⟨.state 1, M.G.S.at a i, M.G.S.at b j, k⟩
      · subst h1
        simp [curlPoint, put]
      · simp [curlPoint, put, h0, h1, this]

section

variable (M : Medium) (init u : Data)

theorem curl_out (x : Cell) (h : ¬((x.v = .state 0 ∨ x.v = .state 1) ∧ ∃ a < M.G.S.elemA, ∃ b < M.G.S.elemB,
    ∃ i < M.G.S.order, ∃ j < M.G.S.order, x.k < M.G.S.levels ∧ x.iA = M.G.S.at a i ∧ x.iB = M.G.S.at b j)) :
    computeCurlAndDiv M init u x = u x := by
  refine (elems_touch (fun v => v = .state 0 ∨ v = .state 1) M.G.S M.G.S.levels (fun a b k u =>
    loop M.G.S.order (fun i u => loop M.G.S.order (fun j u => curlPoint M init a b k i j u) u) u)
    (fun a b k _ _ _ => nodes_touch _ M.G.S a b k _ (fun i j _ _ =>
      curlPoint_touches M init a b k i j))).1.out u x ?_
  rintro ⟨a, ha, b, hb, k, hk, i, hi, j, hj, h1, h2, h3, h4⟩
  exact h ⟨h1, a, ha, b, hb, i, hi, j, hj, by omega, h2, h3⟩

theorem curl_value (v : Var) (hv : v = .state 0 ∨ v = .state 1) (a b k i j : Nat) (ha : a < M.G.S.elemA)
    (hb : b < M.G.S.elemB) (hk : k < M.G.S.levels) (hi : i < M.G.S.order) (hj : j < M.G.S.order) :
    value M.G.S (computeCurlAndDiv M init u) v a b k i j =
      curlPoint M init a b k i j u ⟨v, M.G.S.at a i, M.G.S.at b j, k⟩ := by
  rw [value_at]
  have h1 := (elems_touch (fun v => v = .state 0 ∨ v = .state 1) M.G.S M.G.S.levels (fun a b k u =>
    loop M.G.S.order (fun i u => loop M.G.S.order (fun j u => curlPoint M init a b k i j u) u) u)
    (fun a b k _ _ _ => nodes_touch _ M.G.S a b k _ (fun i j _ _ =>
      curlPoint_touches M init a b k i j))).2 u a b k
    ha hb hk ⟨v, M.G.S.at a i, M.G.S.at b j, k⟩ ⟨i, hi, j, hj, hv, rfl, rfl, rfl⟩
  have h2 := nodes_at (fun v => v = .state 0 ∨ v = .state 1) M.G.S a b k _
    (fun i j _ _ => curlPoint_touches M init a b k i j)
    u i j hi hj ⟨v, M.G.S.at a i, M.G.S.at b j, k⟩ ⟨hv, rfl, rfl, rfl⟩
  unfold computeCurlAndDiv
  rw [h1, h2]

theorem computed (r : Data) (h : computeVorticityDivergence M init u = some r) : r = computeCurlAndDiv M init u := by
  unfold computeVorticityDivergence at h
  split_ifs at h <;> exact (Option.some.inj h).symm

end

/-! ### Sums over a patch -/

theorem telescope (n : Nat) (hn : 0 < n) (f g : Nat → ℝ) (h : ∀ a, a + 1 < n → f a = g (a + 1)) :
    ∑ a ∈ range n, (f a - g a) = f (n - 1) - g 0 := by
  induction n with
  | zero => omega
  | succ n ih =>
    rw [sum_range_succ]
    rcases Nat.eq_zero_or_pos n with rfl | hp
    · simp
    · rw [ih hp (fun a ha => h a (by omega))]
      have := h (n - 1) (by omega)
      rw [Nat.sub_add_cancel hp] at this
      rw [this]
      simp

/-- The integral of the sum of two derivatives over an element. -/
theorem element_sum (M : Medium) (ω : Nat → ℝ) (hc : Closed M.G.S.order M.B ω) (hA : M.G.deltaA ≠ 0)
    (hB : M.G.deltaB ≠ 0) (a b : Nat)
    (hJ : ∀ i j, i < M.G.S.order → j < M.G.S.order → jacAt M a b i j ≠ 0) (f g : Nat → Nat → ℝ) :
    M.G.deltaA * M.G.deltaB * areaSum M ω a b (fun i j => (slopeA M f i j + slopeB M g i j) / jacAt M a b i j) =
      M.G.deltaB * ∑ j ∈ range M.G.S.order, ω j * (f (M.G.S.order - 1) j - f 0 j) +
      M.G.deltaA * ∑ i ∈ range M.G.S.order, ω i * (g i (M.G.S.order - 1) - g i 0) := by
  have e : areaSum M ω a b (fun i j => (slopeA M f i j + slopeB M g i j) / jacAt M a b i j) =
      ∑ j ∈ range M.G.S.order, ω j * ((∑ i ∈ range M.G.S.order, ω i * ∑ s ∈ range M.G.S.order, f s j * M.B.dx s i) / M.G.deltaA) +
      ∑ i ∈ range M.G.S.order, ω i * ((∑ j ∈ range M.G.S.order, ω j * ∑ s ∈ range M.G.S.order, g i s * M.B.dx s j) / M.G.deltaB) := by
    have e1 : areaSum M ω a b (fun i j => (slopeA M f i j + slopeB M g i j) / jacAt M a b i j) =
        ∑ i ∈ range M.G.S.order, ∑ j ∈ range M.G.S.order, (ω i * ω j * slopeA M f i j + ω i * ω j * slopeB M g i j) := by
      unfold areaSum
      refine sum_congr rfl fun i hi => sum_congr rfl fun j hj => ?_
      have := hJ i j (mem_range.1 hi) (mem_range.1 hj)
      field_simp
    rw [e1]
    simp only [sum_add_distrib]
    congr 1
    · rw [sum_comm]
      refine sum_congr rfl fun j _ => ?_
      rw [sum_div, mul_sum]
      refine sum_congr rfl fun i _ => ?_
      unfold slopeA
      ring
    · refine sum_congr rfl fun i _ => ?_
      rw [sum_div, mul_sum]
      refine sum_congr rfl fun j _ => ?_
      unfold slopeB
      ring
  rw [e]
  have e2 : ∀ j, (∑ i ∈ range M.G.S.order, ω i * ∑ s ∈ range M.G.S.order, f s j * M.B.dx s i) =
    f (M.G.S.order - 1) j - f 0 j := fun j => hc (fun s => f s j)
  have e3 : ∀ i, (∑ j ∈ range M.G.S.order, ω j * ∑ s ∈ range M.G.S.order, g i s * M.B.dx s j) =
    g i (M.G.S.order - 1) - g i 0 := fun i => hc (fun s => g i s)
  simp only [e2, e3]
  rw [mul_add, mul_sum, mul_sum, mul_sum, mul_sum]
  congr 1
  · refine sum_congr rfl fun j _ => ?_
    field_simp
  · refine sum_congr rfl fun i _ => ?_
    field_simp

/-- The integral of the sum of two derivatives over a patch. -/
theorem patch_sum (M : Medium) (ω : Nat → ℝ) (hc : Closed M.G.S.order M.B ω) (hA : M.G.deltaA ≠ 0)
    (hB : M.G.deltaB ≠ 0) (nA : 0 < M.G.S.elemA) (nB : 0 < M.G.S.elemB)
    (hJ : ∀ a b i j, a < M.G.S.elemA → b < M.G.S.elemB → i < M.G.S.order → j < M.G.S.order → jacAt M a b i j ≠ 0)
    (f g : Nat → Nat → Nat → Nat → ℝ) (hf : JoinedA M.G.S f) (hg : JoinedB M.G.S g) :
    patchSum M ω (fun a b i j => (slopeA M (f a b) i j + slopeB M (g a b) i j) / jacAt M a b i j) =
      (lineB M ω f (M.G.S.elemA - 1) (M.G.S.order - 1) - lineB M ω f 0 0) +
      (lineA M ω g (M.G.S.elemB - 1) (M.G.S.order - 1) - lineA M ω g 0 0) := by
  unfold patchSum
  rw [sum_congr rfl fun a ha => sum_congr rfl fun b hb => element_sum M ω hc hA hB a b
    (fun i j hi hj => hJ a b i j (mem_range.1 ha) (mem_range.1 hb) hi hj) (f a b) (g a b)]
  simp only [sum_add_distrib]
  congr 1
  · unfold lineB
    rw [← mul_sub, ← sum_sub_distrib, mul_sum, sum_comm]
    refine sum_congr rfl fun b hb => ?_
    rw [← mul_sum, ← sum_sub_distrib, sum_comm]
    congr 1
    refine sum_congr rfl fun j hj => ?_
    rw [← mul_sum, telescope _ nA (fun a => f a b (M.G.S.order - 1) j) (fun a => f a b 0 j)
      (fun a ha => hf a b j ha (mem_range.1 hb) (mem_range.1 hj)), mul_sub]
  · unfold lineA
    rw [← mul_sub, ← sum_sub_distrib, mul_sum]
    refine sum_congr rfl fun a ha => ?_
    rw [← mul_sum, ← sum_sub_distrib, sum_comm]
    congr 1
    refine sum_congr rfl fun i hi => ?_
    rw [← mul_sum, telescope _ nB (fun b => g a b i (M.G.S.order - 1)) (fun b => g a b i 0)
      (fun b hb => hg a b i (mem_range.1 ha) hb (mem_range.1 hi)), mul_sub]

/-! ### Properties -/

section

variable (M : Medium) (init u : Data)

/-- **C142 (refused).**  Vorticity and divergence are refused exactly for states of less than three and of four
components. -/
theorem C142_refused : computeVorticityDivergence M init u = none ↔ M.components ≤ 2 ∨ M.components = 4 := by
  unfold computeVorticityDivergence
  split_ifs <;> simp <;> omega

variable (r : Data) (h : computeVorticityDivergence M init u = some r)

include h

/-- **C142 (values).**  At every node of every element and level the output is the divergence and the vorticity of the
velocity given; every other entry is left as it is. -/
theorem C142_value :
    (∀ a b k i j, a < M.G.S.elemA → b < M.G.S.elemB → k < M.G.S.levels → i < M.G.S.order → j < M.G.S.order →
      value M.G.S r (.state 0) a b k i j = (flowOf M.G.S init a b k).div M a b i j ∧
      value M.G.S r (.state 1) a b k i j = (flowOf M.G.S init a b k).curl M a b i j) ∧
    (∀ x : Cell, ¬((x.v = .state 0 ∨ x.v = .state 1) ∧ ∃ a < M.G.S.elemA, ∃ b < M.G.S.elemB,
      ∃ i < M.G.S.order, ∃ j < M.G.S.order, x.k < M.G.S.levels ∧ x.iA = M.G.S.halo + a * M.G.S.order + i ∧
        x.iB = M.G.S.halo + b * M.G.S.order + j) → r x = u x) := by
  rw [computed M init u r h]
  constructor
  · intro a b k i j ha hb hk hi hj
    rw [curl_value M init u _ (Or.inl rfl) a b k i j ha hb hk hi hj,
      curl_value M init u _ (Or.inr rfl) a b k i j ha hb hk hi hj, div_eq, curl_eq]
    simp [curlPoint, put]
  · intro x hx
    refine curl_out M init u x fun hc => hx ?_
    obtain ⟨hv, a, ha, b, hb, i, hi, j, hj, hk, hA, hB⟩ := hc
    refine ⟨hv, a, ha, b, hb, i, hi, j, hj, hk, ?_, ?_⟩
    · rw [hA]; simp only [Shape.at]; ring
    · rw [hB]; simp only [Shape.at]; ring

variable (ω : Nat → ℝ) (hc : Closed M.G.S.order M.B ω) (hA : M.G.deltaA ≠ 0)
    (hB : M.G.deltaB ≠ 0) (nA : 0 < M.G.S.elemA) (nB : 0 < M.G.S.elemB)
    (hJ : ∀ a b i j, a < M.G.S.elemA → b < M.G.S.elemB → i < M.G.S.order → j < M.G.S.order → jacAt M a b i j ≠ 0)
    (k : Nat) (hk : k < M.G.S.levels)

include hc hA hB nA nB hJ hk

/-- **C142 (Stokes).**  The vorticity of the output, integrated over a patch, is the circulation of the velocity around
the edge of the patch: up its last column of nodes, down its first, back along its last row and along its first.  Of the
velocity only this is supposed: nodes that adjacent elements share hold the same component along the common edge. -/
theorem C142_circulation (jA : JoinedA M.G.S (fun a b i j => value M.G.S init (.state 1) a b k i j))
    (jB : JoinedB M.G.S (fun a b i j => value M.G.S init (.state 0) a b k i j)) :
    patchSum M ω (fun a b i j => value M.G.S r (.state 1) a b k i j) =
      lineB M ω (fun a b i j => value M.G.S init (.state 1) a b k i j) (M.G.S.elemA - 1) (M.G.S.order - 1) -
      lineB M ω (fun a b i j => value M.G.S init (.state 1) a b k i j) 0 0 -
      lineA M ω (fun a b i j => value M.G.S init (.state 0) a b k i j) (M.G.S.elemB - 1) (M.G.S.order - 1) +
      lineA M ω (fun a b i j => value M.G.S init (.state 0) a b k i j) 0 0 := by
  have key := patch_sum M ω hc hA hB nA nB hJ (fun a b i j => value M.G.S init (.state 1) a b k i j)
    (fun a b i j => -value M.G.S init (.state 0) a b k i j) jA (fun a b i ha hb hi => congrArg Neg.neg (jB a b i ha hb hi))
  have e1 : patchSum M ω (fun a b i j => value M.G.S r (.state 1) a b k i j) =
      patchSum M ω (fun a b i j => (slopeA M (fun i j => value M.G.S init (.state 1) a b k i j) i j +
        slopeB M (fun i j => -value M.G.S init (.state 0) a b k i j) i j) / jacAt M a b i j) := by
    unfold patchSum areaSum
    refine sum_congr rfl fun a ha => sum_congr rfl fun b hb => ?_
    congr 1
    refine sum_congr rfl fun i hi => sum_congr rfl fun j hj => ?_
    beta_reduce
    rw [((C142_value M init u r h).1 a b k i j (mem_range.1 ha) (mem_range.1 hb) hk (mem_range.1 hi) (mem_range.1 hj)).2]
    congr 1
    unfold Flow.curl flowOf slopeB
    simp only [neg_mul, sum_neg_distrib, neg_div, sub_eq_add_neg]
  rw [e1, key]
  have e2 : ∀ b j, lineA M ω (fun a b i j => -value M.G.S init (.state 0) a b k i j) b j =
      -lineA M ω (fun a b i j => value M.G.S init (.state 0) a b k i j) b j := by
    intro b j
    unfold lineA
    simp only [mul_neg, sum_neg_distrib]
  rw [e2, e2]
  ring

/-- **C142 (Gauss).**  The divergence of the output, integrated over a patch, is what flows out through the edge of the
patch less what flows in.  Of the velocity only this is supposed: nodes that adjacent elements share hold the same flow
across the common edge. -/
theorem C142_flux (jA : JoinedA M.G.S (acrossA M init k)) (jB : JoinedB M.G.S (acrossB M init k)) :
    patchSum M ω (fun a b i j => value M.G.S r (.state 0) a b k i j) =
      (lineB M ω (acrossA M init k) (M.G.S.elemA - 1) (M.G.S.order - 1) - lineB M ω (acrossA M init k) 0 0) +
      (lineA M ω (acrossB M init k) (M.G.S.elemB - 1) (M.G.S.order - 1) - lineA M ω (acrossB M init k) 0 0) := by
  rw [← patch_sum M ω hc hA hB nA nB hJ (acrossA M init k) (acrossB M init k) jA jB]
  unfold patchSum areaSum
  refine sum_congr rfl fun a ha => sum_congr rfl fun b hb => ?_
  congr 1
  refine sum_congr rfl fun i hi => sum_congr rfl fun j hj => ?_
  beta_reduce
  rw [((C142_value M init u r h).1 a b k i j (mem_range.1 ha) (mem_range.1 hb) hk (mem_range.1 hi) (mem_range.1 hj)).1]
  congr 1

/-- **C142 (closed).**  On a patch that closes on itself, as that of a doubly periodic box run on one process, the
integrals of vorticity and of divergence are zero. -/
theorem C142_closed (jA : JoinedA M.G.S (fun a b i j => value M.G.S init (.state 1) a b k i j))
    (jB : JoinedB M.G.S (fun a b i j => value M.G.S init (.state 0) a b k i j))
    (jA' : JoinedA M.G.S (acrossA M init k)) (jB' : JoinedB M.G.S (acrossB M init k))
    (pA : ∀ b j, b < M.G.S.elemB → j < M.G.S.order →
      value M.G.S init (.state 1) (M.G.S.elemA - 1) b k (M.G.S.order - 1) j = value M.G.S init (.state 1) 0 b k 0 j ∧
      acrossA M init k (M.G.S.elemA - 1) b (M.G.S.order - 1) j = acrossA M init k 0 b 0 j)
    (pB : ∀ a i, a < M.G.S.elemA → i < M.G.S.order →
      value M.G.S init (.state 0) a (M.G.S.elemB - 1) k i (M.G.S.order - 1) = value M.G.S init (.state 0) a 0 k i 0 ∧
      acrossB M init k a (M.G.S.elemB - 1) i (M.G.S.order - 1) = acrossB M init k a 0 i 0) :
    patchSum M ω (fun a b i j => value M.G.S r (.state 0) a b k i j) = 0 ∧
    patchSum M ω (fun a b i j => value M.G.S r (.state 1) a b k i j) = 0 := by
  rw [C142_flux M init u r h ω hc hA hB nA nB hJ k hk jA' jB', C142_circulation M init u r h ω hc hA hB nA nB hJ k hk jA jB]
  have cB : ∀ f : Nat → Nat → Nat → Nat → ℝ, (∀ b j, b < M.G.S.elemB → j < M.G.S.order →
      f (M.G.S.elemA - 1) b (M.G.S.order - 1) j = f 0 b 0 j) →
      lineB M ω f (M.G.S.elemA - 1) (M.G.S.order - 1) = lineB M ω f 0 0 := by
    intro f hf
    unfold lineB
    congr 1
    exact sum_congr rfl fun b hb => sum_congr rfl fun j hj => by rw [hf b j (mem_range.1 hb) (mem_range.1 hj)]
  have cA : ∀ f : Nat → Nat → Nat → Nat → ℝ, (∀ a i, a < M.G.S.elemA → i < M.G.S.order →
      f a (M.G.S.elemB - 1) i (M.G.S.order - 1) = f a 0 i 0) →
      lineA M ω f (M.G.S.elemB - 1) (M.G.S.order - 1) = lineA M ω f 0 0 := by
    intro f hf
    unfold lineA
    congr 1
    exact sum_congr rfl fun a ha => sum_congr rfl fun i hi => by rw [hf a i (mem_range.1 ha) (mem_range.1 hi)]
  rw [cB _ fun b j hb hj => (pA b j hb hj).2, cA _ fun a i ha hi => (pB a i ha hi).2,
    cB _ fun b j hb hj => (pA b j hb hj).1, cA _ fun a i ha hi => (pB a i ha hi).1]
  constructor <;> ring

end

/-! ### Examples -/

theorem simpson_closed : Closed 3 (basisOf 3 simpsonNodes simpsonWeights) simpsonWeights := by
  refine C142_rule 3 (by decide) (by decide) _ _ ?_ (by norm_num [simpsonNodes]) (by norm_num [simpsonNodes]) ?_
  · intro i j hi hj hij
    rw [le_abs]
    interval_cases i <;> interval_cases j <;> simp_all [simpsonNodes] <;> norm_num
  · intro p hp
    have hd : p.natDegree < 3 := by
      rcases eq_or_ne p 0 with rfl | h0
      · simp
      · rw [degree_eq_natDegree h0] at hp
        exact_mod_cast hp
    have e : ∀ t : ℝ, p.eval t = p.coeff 0 + p.coeff 1 * t + p.coeff 2 * t ^ 2 := by
      intro t
      rw [eval_eq_sum_range' hd]
      simp [sum_range_succ]
    simp only [e]
    rw [intervalIntegral.integral_add (Continuous.intervalIntegrable (by fun_prop) _ _)
        (Continuous.intervalIntegrable (by fun_prop) _ _),
      intervalIntegral.integral_add (Continuous.intervalIntegrable (by fun_prop) _ _)
        (Continuous.intervalIntegrable (by fun_prop) _ _),
      intervalIntegral.integral_const, intervalIntegral.integral_const_mul, intervalIntegral.integral_const_mul,
      integral_id, integral_pow]
    norm_num [sum_range_succ, simpsonNodes, simpsonWeights]
    ring

/-- A turning flow on the two elements of the sample patch. -/
noncomputable def turning : Data := fun x =>
  match x.v with
  | .state 0 => x.iB
  | .state 1 => if x.iA ≤ 3 then x.iA else x.iA - 1
  | _ => 0

/-- A flow along both directions that repeats itself. -/
noncomputable def repeating : Data := fun x =>
  match x.v with
  | .state 0 => if x.iB = 2 then 1 else 0
  | .state 1 => if x.iA = 3 ∨ x.iA = 4 then 1 else 0
  | _ => 0

theorem sample_computes (init u : Data) : ∃ r, computeVorticityDivergence sampleMedium init u = some r :=
  Option.ne_none_iff_exists'.1 fun h => by
    rw [C142_refused] at h
    simp [sampleMedium] at h

theorem sample_jac (a b i j : Nat) : jacAt sampleMedium a b i j ≠ 0 := by
  norm_num [jacAt, sampleMedium, sampleGeometry]

/-- The turning flow has vorticity: minus one on the average of the area of four. -/
example (u : Data) : ∃ r, computeVorticityDivergence sampleMedium turning u = some r ∧
    patchSum sampleMedium simpsonWeights (fun a b i j => value sampleMedium.G.S r (.state 1) a b 0 i j) = -4 := by
  obtain ⟨r, hr⟩ := sample_computes turning u
  refine ⟨r, hr, ?_⟩
  rw [C142_circulation sampleMedium turning u r hr simpsonWeights simpson_closed (by norm_num [sampleMedium, sampleGeometry])
    (by norm_num [sampleMedium, sampleGeometry]) (by norm_num [sampleMedium, sampleGeometry])
    (by norm_num [sampleMedium, sampleGeometry]) (fun a b i j _ _ _ _ => sample_jac a b i j) 0
    (by norm_num [sampleMedium, sampleGeometry])]
  · norm_num [lineA, lineB, sampleMedium, sampleGeometry, value, turning, sum_range_succ, simpsonWeights]
  · intro a b j ha hb hj
    have : a = 0 := by simp only [sampleMedium, sampleGeometry] at ha; omega
    subst this
    norm_num [sampleMedium, sampleGeometry, value, turning]
  · intro a b i ha hb hi
    simp only [sampleMedium, sampleGeometry] at hb
    omega

/-- The flow that repeats itself meets what `C142_closed` supposes, and so what `C142_flux` does. -/
example (u : Data) : ∃ r, computeVorticityDivergence sampleMedium repeating u = some r ∧
    patchSum sampleMedium simpsonWeights (fun a b i j => value sampleMedium.G.S r (.state 0) a b 0 i j) = 0 ∧
    patchSum sampleMedium simpsonWeights (fun a b i j => value sampleMedium.G.S r (.state 1) a b 0 i j) = 0 := by
  obtain ⟨r, hr⟩ := sample_computes repeating u
  refine ⟨r, hr, ?_⟩
  refine C142_closed sampleMedium repeating u r hr simpsonWeights simpson_closed (by norm_num [sampleMedium, sampleGeometry])
    (by norm_num [sampleMedium, sampleGeometry]) (by norm_num [sampleMedium, sampleGeometry])
    (by norm_num [sampleMedium, sampleGeometry]) (fun a b i j _ _ _ _ => sample_jac a b i j) 0
    (by norm_num [sampleMedium, sampleGeometry]) ?_ ?_ ?_ ?_ ?_ ?_
  · intro a b j ha hb hj
    have : a = 0 := by simp only [sampleMedium, sampleGeometry] at ha; omega
    subst this
    norm_num [sampleMedium, sampleGeometry, value, repeating]
  · intro a b i ha hb hi
    simp only [sampleMedium, sampleGeometry] at hb
    omega
  · intro a b j ha hb hj
    norm_num [acrossA, jacAt, Flow.upA, flowOf, sampleMedium, sampleGeometry, value, repeating]
  · intro a b i ha hb hi
    simp only [sampleMedium, sampleGeometry] at hb
    omega
  · intro b j hb hj
    norm_num [acrossA, jacAt, Flow.upA, flowOf, sampleMedium, sampleGeometry, value, repeating]
  · intro a i ha hi
    norm_num [acrossB, jacAt, Flow.upB, flowOf, sampleMedium, sampleGeometry, value, repeating]

end Verif.Horiz
