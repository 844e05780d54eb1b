/-
C53: column operators.
-/
import Mathlib.Algebra.BigOperators.Intervals
import Mathlib.Algebra.BigOperators.Ring.Finset
import Mathlib.Tactic.Linarith
import Mathlib.Tactic.Ring
import Verif.Column.Spec

namespace Verif.Column

open Finset

theorem foldl_sum (f : Nat → ℝ) (s : ℝ) (n : Nat) : (List.range n).foldl (fun s t => s + f t) s = s + ∑ t ∈ range n, f t := by
  induction n with
  | zero => simp
  | succ n ih => rw [List.range_succ, List.foldl_append, ih, sum_range_succ, List.foldl_cons, List.foldl_nil]; ring

theorem rowLoop_eq (r : Row) (s : ℝ) (f : Nat → ℝ) :
    rowLoop r s f = s + ∑ j ∈ Ico r.ibegin r.iend, r.coeff j * f j := by
  unfold rowLoop
  rw [foldl_sum (fun t => r.coeff (r.ibegin + t) * f (r.ibegin + t)), sum_Ico_eq_sum_range]

/-- The loop over the stored range is the loop over the whole row. -/
theorem rowLoop_full (r : Row) (n : Nat) (h1 : r.iend ≤ n)
    (h2 : ∀ j < n, r.coeff j ≠ 0 → r.ibegin ≤ j ∧ j < r.iend) (s : ℝ) (f : Nat → ℝ) :
    rowLoop r s f = s + ∑ j ∈ range n, r.coeff j * f j := by
  rw [rowLoop_eq]
  congr 1
  apply sum_subset
  · intro j hj
    rw [mem_Ico] at hj
    rw [mem_range]; omega
  · intro j hj hj2
    rw [mem_range] at hj
    rw [mem_Ico] at hj2
    by_cases h : r.coeff j = 0
    · rw [h, zero_mul]
    · exact absurd (h2 j hj h) hj2

/-- **C53 (nothing dropped).**  If the range of a row holds its non-zero coefficients, applying the row gives the whole
matrix row times the column, with any stride; with a reference state, the reference plus the operator on the
difference. -/
theorem C53_apply (A : Op) (h : RangeOk A) (x xref : Nat → ℝ) (ref : ℝ) (k stride : Nat) (hk : k < A.rows) :
    applyRow A x k = act A x k ∧ applyRowStride A x k stride = act A (fun l => x (l * stride)) k ∧
    applyRowRef A x xref ref k stride = ref + act A (fun l => x (l * stride) - xref (l * stride)) k := by
  obtain ⟨h1, h2⟩ := h k hk
  refine ⟨?_, ?_, ?_⟩
  · rw [applyRow, rowLoop_full _ _ h1 h2, zero_add]; rfl
  · rw [applyRowStride, rowLoop_full _ _ h1 h2, zero_add]; rfl
  · rw [applyRowRef, rowLoop_full _ _ h1 h2]; rfl

theorem foldl_update (n s : Nat) (hs : 0 < s) (v out : Nat → ℝ) (i : Nat) :
    (List.range n).foldl (fun o k => Function.update o (k * s) (v k)) out i =
      if i % s = 0 ∧ i / s < n then v (i / s) else out i := by
  induction n with
  | zero => simp
  | succ n ih =>
    rw [List.range_succ, List.foldl_append]
    simp only [List.foldl_cons, List.foldl_nil]
    by_cases hi : i = n * s
    · have h1 : i / s = n := by rw [hi, Nat.mul_div_cancel _ hs]
      have h2 : i % s = 0 := by rw [hi, Nat.mul_mod_left]
      rw [if_pos ⟨h2, by omega⟩, h1, hi, Function.update_self]
    · rw [Function.update_of_ne hi, ih]
      have h1 : ¬ (i % s = 0 ∧ i / s = n) := by
        rintro ⟨h1, h2⟩
        apply hi
        have := Nat.div_add_mod i s
        rw [h1, h2, Nat.mul_comm] at this; omega
      by_cases h2 : i % s = 0 ∧ i / s < n
      · rw [if_pos h2, if_pos (by omega)]
      · rw [if_neg h2, if_neg (by omega)]

/-- **C53 (whole columns).**  Applying to a column writes row `k`'s value to cell `k * stride` for every row, and no other
cell. -/
theorem C53_column (A : Op) (h : RangeOk A) (x xref out outref : Nat → ℝ) (sIn sOut : Nat) (hs : 0 < sOut) :
    (∀ k < A.rows, applyAll A x out sIn sOut (k * sOut) = act A (fun l => x (l * sIn)) k ∧
      applyAllRef A x xref out outref sIn sOut (k * sOut) =
        outref (k * sOut) + act A (fun l => x (l * sIn) - xref (l * sIn)) k) ∧
    ∀ i, (∀ k < A.rows, i ≠ k * sOut) →
      applyAll A x out sIn sOut i = out i ∧ applyAllRef A x xref out outref sIn sOut i = out i := by
  unfold applyAll applyAllRef
  simp only [foldl_update _ _ hs]
  constructor
  · intro k hk
    obtain ⟨h1, h2⟩ := h k hk
    rw [Nat.mul_mod_left, Nat.mul_div_cancel _ hs, if_pos ⟨rfl, hk⟩, if_pos ⟨rfl, hk⟩,
      rowLoop_full _ _ h1 h2, rowLoop_full _ _ h1 h2, zero_add]
    exact ⟨rfl, rfl⟩
  · intro i hi
    have : ¬ (i % sOut = 0 ∧ i / sOut < A.rows) := by
      rintro ⟨h1, h2⟩
      apply hi _ h2
      have := Nat.div_add_mod i sOut
      rw [h1, Nat.mul_comm] at this; omega
    rw [if_neg this, if_neg this]
    exact ⟨rfl, rfl⟩

theorem product_eq (A B : Op) (i j : Nat) :
    product A B i j = ∑ k ∈ range A.cols, (A.row i).coeff k * (B.row k).coeff j := by
  unfold product
  rw [foldl_sum (fun k => (A.row i).coeff k * (B.row k).coeff j), zero_add]

theorem scan_spec (c : Nat → ℝ) (n : Nat) :
    let s := scan c n
    s.iend ≤ n ∧ (s.found = false → s.ibegin = 0 ∧ s.iend = 0 ∧ ∀ j < n, c j = 0) ∧
    (s.found = true → s.ibegin < s.iend ∧ c s.ibegin ≠ 0 ∧ c (s.iend - 1) ≠ 0 ∧
      ∀ j < n, c j ≠ 0 → s.ibegin ≤ j ∧ j < s.iend) := by
  induction n with
  | zero => simp [scan]
  | succ n ih =>
    simp only at ih ⊢
    unfold scan at ih ⊢
    rw [List.range_succ, List.foldl_append]
    simp only [List.foldl_cons, List.foldl_nil]
    generalize (List.range n).foldl (scanStep c) ⟨0, 0, false⟩ = s at ih
    obtain ⟨h1, h2, h3⟩ := ih
    unfold scanStep
    by_cases hc : c n = 0
    · rw [if_neg (by simpa using hc)]
      refine ⟨by omega, ?_, ?_⟩
      · intro hf
        obtain ⟨a, b, d⟩ := h2 hf
        refine ⟨a, b, fun j hj => ?_⟩
        rcases Nat.lt_or_ge j n with h | h
        · exact d j h
        · rw [show j = n by omega]; exact hc
      · intro hf
        obtain ⟨a, b, d, e⟩ := h3 hf
        refine ⟨a, b, d, fun j hj hj2 => ?_⟩
        rcases Nat.lt_or_ge j n with h | h
        · exact e j h hj2
        · rw [show j = n by omega] at hj2; exact absurd hc hj2
    · rw [if_pos hc]
      refine ⟨le_rfl, fun h => by simp at h, fun _ => ?_⟩
      cases hf : s.found
      · obtain ⟨a, b, d⟩ := h2 hf
        simp only [Bool.false_eq_true, if_false]
        refine ⟨by omega, hc, by simpa using hc, fun j hj hj2 => ?_⟩
        rcases Nat.lt_or_ge j n with h | h
        · exact absurd (d j h) hj2
        · omega
      · obtain ⟨a, b, d, e⟩ := h3 hf
        simp only [if_true]
        refine ⟨by omega, b, by simpa using hc, fun j hj hj2 => ?_⟩
        rcases Nat.lt_or_ge j n with h | h
        · have := e j h hj2; omega
        · omega

/-- **C53 (composition).**  When the sizes fit and neither side is empty, composing gives an operator that acts as the
one after the other; its ranges hold every non-zero coefficient and are as short as possible. -/
theorem C53_compose (A B : Op) (hA : RangeOk A) (hB : RangeOk B) (hc : A.cols = B.rows) (hr : 0 < A.rows) (hn : 0 < B.cols) :
    ∃ C, compose A B = some C ∧ C.rows = A.rows ∧ C.cols = B.cols ∧ RangeOk C ∧
      (∀ x, ∀ k < A.rows, applyRow C x k = applyRow A (applyRow B x) k) ∧
      ∀ k < A.rows, ((C.row k).ibegin = 0 ∧ (C.row k).iend = 0) ∨
        ((C.row k).ibegin < (C.row k).iend ∧ (C.row k).coeff (C.row k).ibegin ≠ 0 ∧
          (C.row k).coeff ((C.row k).iend - 1) ≠ 0) := by
  refine ⟨⟨A.rows, B.cols, fun i => ⟨product A B i, (scan (product A B i) B.cols).ibegin,
    (scan (product A B i) B.cols).iend⟩⟩, ?_, rfl, rfl, ?_, ?_, ?_⟩
  · unfold compose
    rw [if_neg (by omega), if_neg (by omega), if_neg (by omega)]
  · intro k hk
    obtain ⟨h1, h2, h3⟩ := scan_spec (product A B k) B.cols
    refine ⟨h1, fun j hj hj2 => ?_⟩
    cases hf : (scan (product A B k) B.cols).found
    · exact absurd ((h2 hf).2.2 j hj) hj2
    · exact (h3 hf).2.2.2 j hj hj2
  · intro x k hk
    have hC : RangeOk ⟨A.rows, B.cols, fun i => ⟨product A B i, (scan (product A B i) B.cols).ibegin,
        (scan (product A B i) B.cols).iend⟩⟩ := by
      intro k hk
      obtain ⟨h1, h2, h3⟩ := scan_spec (product A B k) B.cols
      refine ⟨h1, fun j hj hj2 => ?_⟩
      cases hf : (scan (product A B k) B.cols).found
      · exact absurd ((h2 hf).2.2 j hj) hj2
      · exact (h3 hf).2.2.2 j hj hj2
    rw [(C53_apply _ hC x x 0 k 0 hk).1, (C53_apply A hA _ x 0 k 0 hk).1]
    unfold act
    simp only [product_eq]
    have : ∀ j ∈ range A.cols, (A.row k).coeff j * applyRow B x j =
        ∑ l ∈ range B.cols, (A.row k).coeff j * (B.row j).coeff l * x l := by
      intro j hj
      rw [mem_range] at hj
      rw [(C53_apply B hB x x 0 j 0 (by omega)).1, act, mul_sum]
      exact sum_congr rfl fun l _ => by ring
    rw [sum_congr rfl this, sum_comm]
    exact sum_congr rfl fun l _ => by rw [sum_mul]
  · intro k hk
    obtain ⟨h1, h2, h3⟩ := scan_spec (product A B k) B.cols
    cases hf : (scan (product A B k) B.cols).found
    · exact Or.inl ⟨(h2 hf).1, (h2 hf).2.1⟩
    · exact Or.inr ⟨(h3 hf).1, (h3 hf).2.1, (h3 hf).2.2.1⟩

/-- **C53 (refused).**  Composition is refused exactly when the sizes do not fit, or the first has no rows, or the second
no columns. -/
theorem C53_refused (A B : Op) : compose A B = none ↔ A.cols ≠ B.rows ∨ A.rows = 0 ∨ B.cols = 0 := by
  unfold compose
  by_cases h1 : A.cols = B.rows
  · by_cases h2 : A.rows = 0
    · simp [h1, h2]
    · by_cases h3 : B.cols = 0
      · simp [h1, h2, h3]
      · simp [h1, h2, h3]
  · simp [h1]

/-- **C53 (identity).**  The identity gives each entry back, and composing with it on either side changes no result. -/
theorem C53_identity (n : Nat) :
    RangeOk (identity n) ∧ (∀ x, ∀ k < n, applyRow (identity n) x k = x k) ∧
    ∀ A, RangeOk A → 0 < A.rows → 0 < A.cols →
      (A.cols = n → ∃ C, compose A (identity n) = some C ∧ ∀ x, ∀ k < A.rows, applyRow C x k = applyRow A x k) ∧
      (A.rows = n → ∃ C, compose (identity n) A = some C ∧ ∀ x, ∀ k < A.rows, applyRow C x k = applyRow A x k) := by
  have hR : RangeOk (identity n) := by
    intro k hk
    change k < n at hk
    simp only [identity, if_pos hk]
    refine ⟨hk, fun j hj hj2 => ?_⟩
    have : j = k := by by_contra h; simp [h] at hj2
    omega
  have hI : ∀ x, ∀ k < n, applyRow (identity n) x k = x k := by
    intro x k hk
    rw [applyRow, rowLoop_eq]
    simp [identity, hk]
  refine ⟨hR, hI, fun A hA h1 h2 => ⟨?_, ?_⟩⟩
  · intro h3
    obtain ⟨C, c1, -, -, -, c5, -⟩ := C53_compose A (identity n) hA hR h3 h1 (by change 0 < n; omega)
    refine ⟨C, c1, fun x k hk => ?_⟩
    rw [c5 x k hk, (C53_apply A hA _ x 0 k 0 hk).1, (C53_apply A hA _ x 0 k 0 hk).1]
    exact sum_congr rfl fun j hj => by rw [hI x j (by rw [mem_range] at hj; omega)]
  · intro h3
    obtain ⟨C, c1, -, -, -, c5, -⟩ := C53_compose (identity n) A hR hA h3.symm (by change 0 < n; omega) h2
    refine ⟨C, c1, fun x k hk => ?_⟩
    rw [c5 x k (by change k < n; omega), hI _ k (by omega)]

/-- **C53 (as allocated).**  A freshly initialised operator maps everything to zero. -/
theorem C53_initialize (nIn nOut : Nat) : RangeOk (allocated nIn nOut) ∧ ∀ x k, applyRow (allocated nIn nOut) x k = 0 := by
  constructor
  · intro k hk
    refine ⟨Nat.zero_le _, fun j hj h => absurd rfl h⟩
  · intro x k
    rw [applyRow, rowLoop_eq]
    simp [allocated, blank]

/-- Differences of four values composed with averages of five. -/
noncomputable def sampleDiff : Op := ⟨3, 4, fun k => ⟨fun j => if j = k then -1 else if j = k + 1 then 1 else 0, k, k + 2⟩⟩
noncomputable def sampleMean : Op := ⟨4, 5, fun k => ⟨fun j => if j = k ∨ j = k + 1 then 1 / 2 else 0, k, k + 2⟩⟩

/-- The hypotheses hold of a concrete pair. -/
example : ∃ C, compose sampleDiff sampleMean = some C ∧ C.rows = 3 ∧ C.cols = 5 := by
  obtain ⟨C, h1, h2, h3, -⟩ := C53_compose sampleDiff sampleMean
    (by
      intro k hk
      change k < 3 at hk
      refine ⟨by change k + 2 ≤ 4; omega, fun j hj h => ?_⟩
      change k ≤ j ∧ j < k + 2
      by_contra hne
      apply h
      simp only [sampleDiff]
      rw [if_neg (by omega), if_neg (by omega)])
    (by
      intro k hk
      change k < 4 at hk
      refine ⟨by change k + 2 ≤ 5; omega, fun j hj h => ?_⟩
      change k ≤ j ∧ j < k + 2
      by_contra hne
      apply h
      simp only [sampleMean]
      rw [if_neg (by omega)]) rfl (by decide) (by decide)
  exact ⟨C, h1, h2, h3⟩

end Verif.Column
