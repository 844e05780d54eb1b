/-
C71: reconstructed column operators.
-/
import Mathlib.Tactic.NormNum
import Mathlib.Tactic.FieldSimp
import Mathlib.Tactic.IntervalCases
import Verif.Column.FemLemmas
import Verif.Column.Recon

namespace Verif.Column

open Finset Polynomial Verif.Interp

theorem two_sum (k : Nat) (u v : ℝ) (y : Nat → ℝ) :
    rowLoop ⟨fun j => if j = k + 1 then v else if j = k then u else 0, k, k + 2⟩ 0 y = u * y k + v * y (k + 1) := by
  rw [rowLoop_eq, zero_add]
  simp only
  rw [sum_Ico_succ_top (by omega), sum_Ico_succ_top (by omega), Ico_self, sum_empty, zero_add, if_neg (by omega), if_pos rfl, if_pos rfl]

/-- The stencils of an interface row, `h` half the order. -/
theorem reconRow_eq (h N : Nat) (hh : 0 < h) (node edge : Nat → ℝ) (k : Nat) (hk : k ≤ N) (hN : 0 < N) (y : Nat → ℝ) :
    rowLoop (reconRow (2 * h) N node edge k) 0 y =
      (if k = 0 then 0 else (if k = N then 1 else 1 / 2) *
        Interp.apply (lagrangeCoeffs (min (k + h - 1) N - (k - h)) (fun i => node (k - h + i)) (edge k)) (fun i => y (k - h + i))) +
      (if k = N then 0 else (if k = 0 then 1 else 1 / 2) *
        Interp.apply (lagrangeCoeffs (min (k + h) N - (k + 1 - h)) (fun i => node (k + 1 - h + i)) (edge k))
          (fun i => y (k + 1 - h + i))) := by
  unfold reconRow
  have e1 : k - ((2 * h - 2) / 2 + 1) = k - h := by omega
  have e2 : k + (2 * h - 2) / 2 = k + h - 1 := by omega
  have e3 : k - (2 * h - 2) / 2 = k + 1 - h := by omega
  have e4 : k + h - 1 + 1 = k + h := by omega
  simp only [e1, e2, e3, e4]
  rw [rowLoop_eq, zero_add]
  simp only
  have hb : (if k ≠ 0 then k - h else 0) = k - h := by split_ifs <;> omega
  have he : (if k ≠ N then min (k + h) N else N) = min (k + h) N := by split_ifs <;> omega
  rw [hb, he]
  have hl : ∀ j, (if k ≠ 0 ∧ k - h ≤ j ∧ j < min (k + h - 1) N then
      0 + (if k = 0 ∨ k = N then (1 : ℝ) else 0.5) *
        (lagrangeCoeffs (min (k + h - 1) N - (k - h)) (fun i => node (k - h + i)) (edge k)).getD (j - (k - h)) 0 else 0) =
      (if k = 0 then 0 else (if k = N then 1 else 1 / 2)) *
        put (fun _ => 0) (k - h) (lagrangeCoeffs (min (k + h - 1) N - (k - h)) (fun i => node (k - h + i)) (edge k)) j := by
    intro j
    by_cases hk0 : k = 0
    · rw [if_neg (fun x => x.1 hk0), if_pos hk0, zero_mul]
    · unfold put
      rw [length_lagrange, if_neg hk0]
      by_cases hj : k - h ≤ j ∧ j < min (k + h - 1) N
      · have hj' : k - h ≤ j ∧ j < k - h + (min (k + h - 1) N - (k - h)) := by omega
        rw [if_pos ⟨hk0, hj⟩, if_pos hj', zero_add]
        congr 1
        by_cases hkN : k = N
        · rw [if_pos (show k = 0 ∨ k = N from Or.inr hkN), if_pos hkN]
        · rw [if_neg (show ¬ (k = 0 ∨ k = N) by omega), if_neg hkN]; norm_num
      · have hj' : ¬ (k - h ≤ j ∧ j < k - h + (min (k + h - 1) N - (k - h))) := by omega
        rw [if_neg (fun x => hj x.2), if_neg hj', mul_zero]
  have hr : ∀ (c : ℝ) (j : Nat), (if k ≠ N ∧ k + 1 - h ≤ j ∧ j < min (k + h) N then
      c + (if k = 0 ∨ k = N then (1 : ℝ) else 0.5) *
        (lagrangeCoeffs (min (k + h) N - (k + 1 - h)) (fun i => node (k + 1 - h + i)) (edge k)).getD (j - (k + 1 - h)) 0 else c) =
      c + (if k = N then 0 else (if k = 0 then 1 else 1 / 2)) *
        put (fun _ => 0) (k + 1 - h) (lagrangeCoeffs (min (k + h) N - (k + 1 - h)) (fun i => node (k + 1 - h + i)) (edge k)) j := by
    intro c j
    by_cases hkN : k = N
    · rw [if_neg (fun x => x.1 hkN), if_pos hkN, zero_mul, add_zero]
    · unfold put
      rw [length_lagrange, if_neg hkN]
      by_cases hj : k + 1 - h ≤ j ∧ j < min (k + h) N
      · have hj' : k + 1 - h ≤ j ∧ j < k + 1 - h + (min (k + h) N - (k + 1 - h)) := by omega
        rw [if_pos ⟨hkN, hj⟩, if_pos hj']
        congr 2
        by_cases hk0 : k = 0
        · rw [if_pos (show k = 0 ∨ k = N from Or.inl hk0), if_pos hk0]
        · rw [if_neg (show ¬ (k = 0 ∨ k = N) by omega), if_neg hk0]; norm_num
      · have hj' : ¬ (k + 1 - h ≤ j ∧ j < k + 1 - h + (min (k + h) N - (k + 1 - h))) := by omega
        rw [if_neg (fun x => hj x.2), if_neg hj', mul_zero, add_zero]
  simp only [hl, hr]
  simp only [add_mul, sum_add_distrib, mul_assoc, ← mul_sum]
  congr 1
  · by_cases hk0 : k = 0
    · simp [hk0]
    · rw [if_neg hk0, if_neg hk0, put_sum _ _ _ _ le_rfl (by rw [length_lagrange]; omega)]
  · by_cases hkN : k = N
    · simp [hkN]
    · rw [if_neg hkN, if_neg hkN, put_sum _ _ _ _ (by omega) (by rw [length_lagrange]; omega)]

theorem reconRow_range (h N : Nat) (hh : 0 < h) (node edge : Nat → ℝ) (k : Nat) (hk : k ≤ N) :
    (reconRow (2 * h) N node edge k).iend ≤ N ∧ ∀ j, (reconRow (2 * h) N node edge k).coeff j ≠ 0 →
      (reconRow (2 * h) N node edge k).ibegin ≤ j ∧ j < (reconRow (2 * h) N node edge k).iend := by
  unfold reconRow
  simp only
  constructor
  · split_ifs <;> omega
  · intro j hj
    by_contra hne
    apply hj
    have hb : (if k ≠ 0 then k - ((2 * h - 2) / 2 + 1) else 0) = k - h := by split_ifs <;> omega
    have he : (if k ≠ N then min (k + (2 * h - 2) / 2 + 1) N else N) = min (k + h) N := by split_ifs <;> omega
    rw [hb, he] at hne
    rw [if_neg (by omega), if_neg (by omega)]

theorem meanRow_range (N k : Nat) (hk : k < N) : (meanRow k).iend ≤ N + 1 ∧
    ∀ j, (meanRow k).coeff j ≠ 0 → (meanRow k).ibegin ≤ j ∧ j < (meanRow k).iend := by
  unfold meanRow
  refine ⟨by simp only; omega, fun j hj => ?_⟩
  simp only at hj ⊢
  by_contra hne
  exact hj (by rw [if_neg (by omega), if_neg (by omega)])

theorem quotientRow_range (edge : Nat → ℝ) (N k : Nat) (hk : k < N) : (quotientRow edge k).iend ≤ N + 1 ∧
    ∀ j, (quotientRow edge k).coeff j ≠ 0 → (quotientRow edge k).ibegin ≤ j ∧ j < (quotientRow edge k).iend := by
  unfold quotientRow
  refine ⟨by simp only; omega, fun j hj => ?_⟩
  simp only at hj ⊢
  by_contra hne
  exact hj (by rw [if_neg (by omega), if_neg (by omega)])

theorem interp_cases {src dst : Source} {n N nEdge : Nat} {node edge : Nat → ℝ} {A : Op}
    (h : reconInterpInit src dst n N nEdge node edge = .ok A) : 0 < N ∧ nEdge = N + 1 ∧
    ((src = .interfaces ∧ dst = .levels ∧ A = ⟨N, nEdge, meanRow⟩) ∨
      (src = .levels ∧ dst = .interfaces ∧ A = ⟨nEdge, N, reconRow n N node edge⟩ ∧ ∃ q, 0 < q ∧ n = 2 * q)) := by
  unfold reconInterpInit at h
  by_cases h1 : N = 0
  · rw [if_pos h1] at h; cases h
  by_cases h2 : nEdge = 0
  · rw [if_neg h1, if_pos h2] at h; cases h
  by_cases h3 : n % 2 ≠ 0
  · rw [if_neg h1, if_neg h2, if_pos h3] at h; cases h
  rw [if_neg h1, if_neg h2, if_neg h3] at h
  cases src <;> cases dst <;> simp only at h
  · cases h
  · split_ifs at h with h4
    exact ⟨by omega, h4, Or.inl ⟨rfl, rfl, (Res.ok.inj h).symm⟩⟩
  · split_ifs at h with h4
    exact ⟨by omega, h4.1, Or.inr ⟨rfl, rfl, (Res.ok.inj h).symm, n / 2, by omega, by omega⟩⟩
  · cases h

/-- **C71 (ranges).**  Whatever the source and destination, the stored ranges of a reconstructed interpolation hold all
its coefficients. -/
theorem C71_ranges (src dst : Source) (n N nEdge : Nat) (node edge : Nat → ℝ) (A : Op)
    (h : reconInterpInit src dst n N nEdge node edge = .ok A) :
    A.rows = (if dst = .interfaces then N + 1 else N) ∧ A.cols = (if src = .interfaces then N + 1 else N) ∧ RangeOk A := by
  obtain ⟨h1, h2, h3⟩ := interp_cases h
  rcases h3 with ⟨rfl, rfl, rfl⟩ | ⟨rfl, rfl, rfl, q, hq, rfl⟩
  · refine ⟨by simp, by simp [h2], fun k hk => ?_⟩
    simp only at hk ⊢
    obtain ⟨a, b⟩ := meanRow_range N k hk
    exact ⟨by omega, fun j _ => b j⟩
  · refine ⟨by simp [h2], by simp, fun k hk => ?_⟩
    simp only at hk ⊢
    obtain ⟨a, b⟩ := reconRow_range q N hq node edge k (by omega)
    exact ⟨a, fun j _ => b j⟩

/-- **C71 (interfaces to levels).**  Each level gets the mean of the interfaces below and above it; each difference the
quotient of the difference of values by the thickness. -/
theorem C71_to_levels (n N nEdge : Nat) (node edge : Nat → ℝ) (A D : Op) (y : Nat → ℝ) (k : Nat) :
    (reconInterpInit .interfaces .levels n N nEdge node edge = .ok A → applyRow A y k = (y k + y (k + 1)) / 2) ∧
    (reconDiffInit .interfaces .levels n N nEdge node edge = .ok D →
      D.rows = N ∧ D.cols = N + 1 ∧ RangeOk D ∧ applyRow D y k = (y (k + 1) - y k) / (edge (k + 1) - edge k)) := by
  constructor
  · intro h
    obtain ⟨-, -, h3⟩ := interp_cases h
    rcases h3 with ⟨-, -, rfl⟩ | ⟨h3, -⟩
    · rw [applyRow]
      simp only [meanRow]
      rw [two_sum]; norm_num; ring
    · cases h3
  · intro h
    unfold reconDiffInit at h
    split_ifs at h with h1 h2 h3 h4 h5
    simp only at h
    rw [← Res.ok.inj h]
    refine ⟨rfl, by simp only; omega, fun k hk => ?_, ?_⟩
    · simp only at hk ⊢
      obtain ⟨a, b⟩ := quotientRow_range edge N k hk
      exact ⟨by omega, fun j _ => b j⟩
    · rw [applyRow]
      simp only [quotientRow]
      rw [two_sum]; ring

/-- **C71 (levels to interfaces).**  An interface inside the column gets the mean of two polynomials at its location: one
through the order less one levels whose middle is the level below it, one through those whose middle is the level above;
stencils end at the ends of the column, and the first and last interface use only one. -/
theorem C71_to_interfaces (q N nEdge : Nat) (node edge : Nat → ℝ) (A : Op)
    (h : reconInterpInit .levels .interfaces (2 * q) N nEdge node edge = .ok A) (hd : DistinctNodes N node) (y : Nat → ℝ) (k : Nat)
    (hk : k ≤ N) (p r : ℝ[X])
    (hp : k ≠ 0 → p.degree < (min (k + q - 1) N - (k - q) : ℕ) ∧ ∀ j < N, k ≤ j + q → j + 1 < k + q → p.eval (node j) = y j)
    (hr : k ≠ N → r.degree < (min (k + q) N - (k + 1 - q) : ℕ) ∧ ∀ j < N, k + 1 ≤ j + q → j < k + q → r.eval (node j) = y j) :
    applyRow A y k = if k = 0 then r.eval (edge k) else if k = N then p.eval (edge k) else (p.eval (edge k) + r.eval (edge k)) / 2 := by
  obtain ⟨h1, h2, h3⟩ := interp_cases h
  rcases h3 with ⟨h3, -⟩ | ⟨-, -, rfl, q', hq', he⟩
  · cases h3
  have hq : 0 < q := by omega
  have hsub : ∀ b e, e ≤ N → DistinctNodes (e - b) (fun i => node (b + i)) := by
    intro b e he i j hi hj hij
    exact hd _ _ (by omega) (by omega) (by omega)
  have hl : k ≠ 0 → _ := fun h0 => lagrange_through (min (k + q - 1) N - (k - q)) (k - q) node y (edge k) p (hp h0).1
    (hsub _ _ (by omega)) (fun i hi => (hp h0).2 _ (by omega) (by omega) (by omega))
  have hr : k ≠ N → _ := fun hN => lagrange_through (min (k + q) N - (k + 1 - q)) (k + 1 - q) node y (edge k) r (hr hN).1
    (hsub _ _ (by omega)) (fun i hi => (hr hN).2 _ (by omega) (by omega) (by omega))
  have key := reconRow_eq q N hq node edge k hk h1 y
  rw [applyRow]
  simp only
  rw [key]
  by_cases h0 : k = 0
  · have hN : k ≠ N := by omega
    rw [if_pos h0, if_neg hN, if_pos h0, if_pos h0, zero_add, one_mul]
    exact hr hN
  · by_cases hN : k = N
    · rw [if_neg h0, if_pos hN, if_pos hN, if_neg h0, if_pos hN, add_zero, one_mul]
      exact hl h0
    · rw [if_neg h0, if_neg hN, if_neg hN, if_neg h0, if_neg h0, if_neg hN, hl h0, hr hN]; ring

/-- **C71 (polynomials kept).**  Polynomials of degree below half the order are kept at every interface, those of degree
below the order less one wherever the stencils do not reach the ends. -/
theorem C71_polynomial (q N nEdge : Nat) (node edge : Nat → ℝ) (A : Op)
    (h : reconInterpInit .levels .interfaces (2 * q) N nEdge node edge = .ok A) (hd : DistinctNodes N node) (p : ℝ[X]) (y : Nat → ℝ)
    (hy : ∀ j < N, y j = p.eval (node j)) (k : Nat) (hk : k ≤ N)
    (hp : (q ≤ N ∧ p.degree < q) ∨ (q ≤ k ∧ k + q ≤ N ∧ p.degree < (2 * q - 1 : ℕ))) :
    applyRow A y k = p.eval (edge k) := by
  have hN : 0 < N := (interp_cases h).1
  have hlt : ∀ c : Nat, (∀ d : Nat, p.degree < d → d ≤ c → p.degree < c) := fun c d h1 h2 =>
    lt_of_lt_of_le h1 (by exact_mod_cast h2)
  rw [C71_to_interfaces q N nEdge node edge A h hd y k hk p p]
  · split_ifs <;> ring
  · intro h0
    refine ⟨?_, fun j hj _ _ => (hy j hj).symm⟩
    rcases hp with ⟨a, b⟩ | ⟨a, a2, b⟩
    · exact hlt _ _ b (by omega)
    · exact hlt _ _ b (by omega)
  · intro h0
    refine ⟨?_, fun j hj _ _ => (hy j hj).symm⟩
    rcases hp with ⟨a, b⟩ | ⟨a, a2, b⟩
    · exact hlt _ _ b (by omega)
    · exact hlt _ _ b (by omega)

/-- A difference from levels to levels interpolates to the interfaces, then takes the quotients. -/
theorem diff_levels {n N nEdge : Nat} {node edge : Nat → ℝ} {D : Op}
    (h : reconDiffInit .levels .levels n N nEdge node edge = .ok D) :
    ∃ A, reconInterpInit .levels .interfaces n N nEdge node edge = .ok A ∧ D.rows = N ∧ D.cols = N ∧ RangeOk D ∧
      ∀ y, ∀ k < N, applyRow D y k = (applyRow A y (k + 1) - applyRow A y k) / (edge (k + 1) - edge k) := by
  unfold reconDiffInit at h
  split_ifs at h with h1 h2 h3 h4 h5
  simp only at h
  cases hA : reconInterpInit .levels .interfaces n N nEdge node edge with
  | exc => rw [hA] at h; simp at h
  | ub => rw [hA] at h; simp at h
  | ok A =>
    rw [hA] at h
    simp only at h
    obtain ⟨i1, i2, i3⟩ := C71_ranges .levels .interfaces n N nEdge node edge A hA
    simp only [reduceCtorEq, if_true, if_false] at i1 i2
    have hQ : RangeOk ⟨N, nEdge, quotientRow edge⟩ := by
      intro k hk
      simp only at hk ⊢
      obtain ⟨a, b⟩ := quotientRow_range edge N k hk
      exact ⟨by omega, fun j _ => b j⟩
    obtain ⟨C, c1, c2, c3, c4, c5, -⟩ := C53_compose ⟨N, nEdge, quotientRow edge⟩ A hQ i3 (by simp only; omega)
      (by simp only; omega) (by omega)
    rw [c1] at h
    simp only at h
    rw [← Res.ok.inj h]
    refine ⟨A, rfl, c2, by rw [c3, i2], c4, fun y k hk => ?_⟩
    rw [c5 y k hk, applyRow]
    simp only [quotientRow]
    rw [two_sum]; ring

/-- **C71 (levels to levels).**  The difference at a level is the difference of the interpolated interface values over the
thickness: for a polynomial of degree below half the order, exactly the mean of its derivative over the layer. -/
theorem C71_diff_levels (q N nEdge : Nat) (node edge : Nat → ℝ) (D : Op)
    (h : reconDiffInit .levels .levels (2 * q) N nEdge node edge = .ok D) :
    D.rows = N ∧ D.cols = N ∧ RangeOk D ∧
    (∃ A, reconInterpInit .levels .interfaces (2 * q) N nEdge node edge = .ok A ∧
      ∀ y, ∀ k < N, applyRow D y k = (applyRow A y (k + 1) - applyRow A y k) / (edge (k + 1) - edge k)) ∧
    (DistinctNodes N node → q ≤ N → ∀ (p : ℝ[X]) (y : Nat → ℝ), p.degree < q → (∀ j < N, y j = p.eval (node j)) →
      ∀ k < N, applyRow D y k = (p.eval (edge (k + 1)) - p.eval (edge k)) / (edge (k + 1) - edge k)) := by
  obtain ⟨A, hA, d1, d2, d3, d4⟩ := diff_levels h
  refine ⟨d1, d2, d3, ⟨A, hA, d4⟩, fun hd hq p y hp hy k hk => ?_⟩
  rw [d4 y k hk, C71_polynomial q N nEdge node edge A hA hd p y hy k (by omega) (Or.inl ⟨hq, hp⟩),
    C71_polynomial q N nEdge node edge A hA hd p y hy (k + 1) (by omega) (Or.inl ⟨hq, hp⟩)]

/-- **C71 (conserved).**  The differences at the levels, each times its thickness, add up to what crosses the ends of the
column: from interfaces the values there, from levels the values interpolated there. -/
theorem C71_conserve (n N nEdge : Nat) (node edge : Nat → ℝ) (hinc : ∀ k < N, edge k < edge (k + 1)) (D E : Op)
    (hD : reconDiffInit .interfaces .levels n N nEdge node edge = .ok D)
    (hE : reconDiffInit .levels .levels n N nEdge node edge = .ok E) (y : Nat → ℝ) :
    ∑ k ∈ range N, (edge (k + 1) - edge k) * applyRow D y k = y N - y 0 ∧
    ∃ A, reconInterpInit .levels .interfaces n N nEdge node edge = .ok A ∧
      ∑ k ∈ range N, (edge (k + 1) - edge k) * applyRow E y k = applyRow A y N - applyRow A y 0 := by
  have key : ∀ (v w : Nat → ℝ), (∀ k < N, w k = (v (k + 1) - v k) / (edge (k + 1) - edge k)) →
      ∑ k ∈ range N, (edge (k + 1) - edge k) * w k = v N - v 0 := by
    intro v w hw
    rw [← sum_range_sub]
    apply sum_congr rfl
    intro k hk
    rw [mem_range] at hk
    rw [hw k hk, mul_div_cancel₀]
    have := hinc k hk
    linarith
  constructor
  · exact key y _ fun k _ => ((C71_to_levels n N nEdge node edge D D y k).2 hD).2.2.2
  · obtain ⟨A, hA, -, -, -, h2⟩ := diff_levels hE
    exact ⟨A, hA, key _ _ fun k hk => h2 y k hk⟩

/-- **C71 (differences at interfaces).**  An interface gets the derivative there of the polynomial through the interfaces
up to half the order away, or through the levels up to half the order on each side, stencils ending at the ends of the
column. -/
theorem C71_diff_interfaces (q N nEdge : Nat) (node edge : Nat → ℝ) (D E : Op)
    (hD : reconDiffInit .interfaces .interfaces (2 * q) N nEdge node edge = .ok D)
    (hE : reconDiffInit .levels .interfaces (2 * q) N nEdge node edge = .ok E) (y : Nat → ℝ) (k : Nat) (hk : k ≤ N) (p : ℝ[X]) :
    RangeOk D ∧ RangeOk E ∧ D.rows = N + 1 ∧ D.cols = N + 1 ∧ E.rows = N + 1 ∧ E.cols = N ∧
    (ApartNodes (N + 1) edge → p.degree < (min (k + q + 1) (N + 1) - (k - q) : ℕ) →
      (∀ j ≤ N, k ≤ j + q → j ≤ k + q → p.eval (edge j) = y j) → applyRow D y k = (derivative p).eval (edge k)) ∧
    (ApartNodes N node → p.degree < (min (k + q) N - (k - q) : ℕ) →
      (∀ j < N, k ≤ j + q → j < k + q → p.eval (node j) = y j) → applyRow E y k = (derivative p).eval (edge k)) := by
  unfold reconDiffInit at hD hE
  split_ifs at hD with h1 h2 h3 h4 h5
  rw [if_neg h1, if_neg h2, if_neg h3, if_neg h4, if_neg h5] at hE
  simp only at hD hE
  rw [← Res.ok.inj hD, ← Res.ok.inj hE]
  have hq : 2 * q / 2 = q := by omega
  have hrange : ∀ (K up : Nat) (x : Nat → ℝ) (j : Nat), (stencilRow (2 * q) K up x edge j).iend ≤ K ∧
      ∀ i < K, (stencilRow (2 * q) K up x edge j).coeff i ≠ 0 →
        (stencilRow (2 * q) K up x edge j).ibegin ≤ i ∧ i < (stencilRow (2 * q) K up x edge j).iend := by
    intro K up x j
    unfold stencilRow
    simp only
    refine ⟨by omega, fun i _ hi => ?_⟩
    have := put_zero _ _ _ hi
    rw [length_diff] at this
    omega
  refine ⟨fun j _ => hrange _ _ _ j, fun j _ => hrange _ _ _ j, by simp only; omega, by simp only; omega, by simp only; omega, rfl, ?_, ?_⟩
  · intro ha hp ht
    rw [applyRow]
    simp only [stencilRow, hq]
    rw [show nEdge = N + 1 by omega, show k + (q + 1) = k + q + 1 by omega,
      rowLoop_put _ _ _ _ le_rfl (by rw [length_diff]; omega)]
    exact diff_through _ _ edge y (edge k) p hp (fun i j hi hj hij => ha _ _ (by omega) (by omega) (by omega))
      fun i hi => ht _ (by omega) (by omega) (by omega)
  · intro ha hp ht
    rw [applyRow]
    simp only [stencilRow, hq]
    rw [rowLoop_put _ _ _ _ le_rfl (by rw [length_diff]; omega)]
    exact diff_through _ _ node y (edge k) p hp (fun i j hi hj hij => ha _ _ (by omega) (by omega) (by omega))
      fun i hi => ht _ (by omega) (by omega) (by omega)

/-- **C71 (refused).**  An odd order, an empty column, an interpolation that does not change between levels and
interfaces, and a difference of order below two are refused. -/
theorem C71_refused (src dst : Source) (n N nEdge : Nat) (node edge : Nat → ℝ) :
    (reconInterpInit src dst n N nEdge node edge = .exc ↔ N = 0 ∨ nEdge = 0 ∨ n % 2 ≠ 0 ∨ src = dst) ∧
    (reconDiffInit src dst n N nEdge node edge = .exc ↔ N = 0 ∨ nEdge = 0 ∨ n < 2 ∨ n % 2 ≠ 0) ∧
    (nEdge = N + 1 → N ≠ 0 → 2 ≤ n → n % 2 = 0 →
      (src ≠ dst → ∃ A, reconInterpInit src dst n N nEdge node edge = .ok A) ∧ ∃ D, reconDiffInit src dst n N nEdge node edge = .ok D) := by
  have hI : ∀ s d, reconInterpInit s d n N nEdge node edge = .exc ↔ N = 0 ∨ nEdge = 0 ∨ n % 2 ≠ 0 ∨ s = d := by
    intro s d
    unfold reconInterpInit
    by_cases h1 : N = 0
    · simp [h1]
    by_cases h2 : nEdge = 0
    · simp [h1, h2]
    by_cases h3 : n % 2 ≠ 0
    · rw [if_neg h1, if_neg h2, if_pos h3]; simp [h3]
    · rw [if_neg h1, if_neg h2, if_neg h3]
      cases s <;> cases d <;> simp only [h1, h2, h3, false_or, reduceCtorEq, iff_false] <;> split_ifs <;> simp
  have hI2 : nEdge = N + 1 → N ≠ 0 → 2 ≤ n → n % 2 = 0 → ∀ s d, s ≠ d → ∃ A, reconInterpInit s d n N nEdge node edge = .ok A := by
    intro h1 h2 h3 h4 s d hsd
    unfold reconInterpInit
    rw [if_neg h2, if_neg (by omega), if_neg (by omega)]
    cases s <;> cases d <;> simp only
    · exact absurd rfl hsd
    · rw [if_pos h1]; exact ⟨_, rfl⟩
    · rw [if_pos ⟨h1, by omega⟩]; exact ⟨_, rfl⟩
    · exact absurd rfl hsd
  have hD2 : nEdge = N + 1 → N ≠ 0 → 2 ≤ n → n % 2 = 0 → ∃ D, reconDiffInit src dst n N nEdge node edge = .ok D := by
    intro h1 h2 h3 h4
    unfold reconDiffInit
    rw [if_neg h2, if_neg (by omega), if_neg (by omega), if_neg (by omega), if_neg (by omega)]
    cases src <;> cases dst <;> simp only
    · exact ⟨_, rfl⟩
    · exact ⟨_, rfl⟩
    · exact ⟨_, rfl⟩
    · obtain ⟨A, hA⟩ := hI2 h1 h2 h3 h4 .levels .interfaces (by decide)
      rw [hA]
      obtain ⟨i1, i2, i3⟩ := C71_ranges .levels .interfaces n N nEdge node edge A hA
      simp only [reduceCtorEq, if_true, if_false] at i1 i2
      simp only
      cases hc : compose ⟨N, nEdge, quotientRow edge⟩ A with
      | some c => exact ⟨c, rfl⟩
      | none =>
        rw [C53_refused] at hc
        simp only at hc
        omega
  refine ⟨hI src dst, ?_, fun h1 h2 h3 h4 => ⟨hI2 h1 h2 h3 h4 src dst, hD2 h1 h2 h3 h4⟩⟩
  by_cases h1 : N = 0
  · simp [reconDiffInit, h1]
  by_cases h2 : nEdge = 0
  · simp [reconDiffInit, h1, h2]
  by_cases h3 : n < 2
  · simp [reconDiffInit, h1, h2, h3]
  by_cases h4 : n % 2 ≠ 0
  · unfold reconDiffInit
    rw [if_neg h1, if_neg h2, if_neg h3, if_pos h4]; simp [h4]
  simp only [h1, h2, h3, h4, or_self, iff_false]
  by_cases h5 : nEdge = N + 1
  · obtain ⟨D, hD⟩ := hD2 h5 h1 (by omega) (by omega)
    rw [hD]; simp
  · unfold reconDiffInit
    rw [if_neg h1, if_neg h2, if_neg h3, if_neg h4, if_pos h5]; simp

/-- The hypotheses are met: order four on six levels. -/
example : DistinctNodes 6 (fun i => (2 * i + 1) / 12) ∧ (∀ k : ℕ, k < 6 → ((k : ℝ)) / 6 < ((k + 1 : ℕ) : ℝ) / 6) ∧
    (∃ A, reconInterpInit .levels .interfaces (2 * 2) 6 7 (fun i => (2 * i + 1) / 12) (fun i => i / 6) = .ok A) ∧
    (∃ D, reconDiffInit .levels .levels (2 * 2) 6 7 (fun i => (2 * i + 1) / 12) (fun i => i / 6) = .ok D) := by
  refine ⟨fun i j _ _ hij h => hij ?_, fun k _ => by push_cast; linarith,
    (C71_refused .levels .interfaces _ _ _ _ _).2.2 rfl (by decide) (by decide) (by decide) |>.1 (by decide),
    (C71_refused .levels .levels _ _ _ _ _).2.2 rfl (by decide) (by decide) (by decide) |>.2⟩
  have : (i : ℝ) = j := by linarith
  exact_mod_cast this

end Verif.Column
