/-
C89: the second derivative of a column from levels to levels.
-/
import Verif.Column.DiffDiff
import Verif.Column.DiffDiffSpec
import Verif.Column.FluxAdjoint

namespace Verif.Column

open Finset Polynomial Verif.Interp Verif.Quad

/-! ### The rows -/

theorem getD_lagrange (n : Nat) (x : Nat → ℝ) (s : ℝ) (j : Nat) (hj : j < n) :
    (lagrangeCoeffs n x s).getD j 0 = lagrangeCoeff n x s j := by
  simp [lagrangeCoeffs, List.getD_eq_getElem?_getD, hj]

theorem ddBasis_eq (n : Nat) (node : Nat → ℝ) (a j : Nat) (hj : j < n) (s : ℝ) :
    ddBasis n node a j s = (lagrangeCoeffs n (fun i => node (a * n + i)) s).getD j 0 := by
  rw [getD_lagrange _ _ _ _ hj, ddBasis, interpolate_eq, sum_eq_single j]
  · simp
  · intro b _ hb; simp [hb]
  · intro h; exact absurd (mem_range.2 hj) h

theorem foldl_sub (f : Nat → ℝ) (s : ℝ) (n : Nat) : (List.range n).foldl (fun s t => s - f t) s = s - ∑ t ∈ range n, f t := by
  induction n with
  | zero => simp
  | succ n ih => rw [List.range_succ, List.foldl_append, ih, sum_range_succ, List.foldl_cons, List.foldl_nil]; ring

/-- The derivative at `s` of the polynomial through the levels of element `b`, as the code computes it. -/
noncomputable def elementSlope (n : Nat) (node : Nat → ℝ) (y : Nat → ℝ) (b : Nat) (s : ℝ) : ℝ :=
  Interp.apply (diffCoeffs n (fun i => node (b * n + i)) s) (fun i => y (b * n + i))

theorem ddInner_sum (n : Nat) (node w : Nat → ℝ) (a j lo hi : Nat) (h1 : lo ≤ a * n) (h2 : (a + 1) * n ≤ hi) (x : Nat → ℝ) :
    ∑ c ∈ Ico lo hi, ddInner n node w a j c * x c =
      -∑ s ∈ range n, (diffCoeffs n (fun i => node (a * n + i)) (node (a * n + s))).getD j 0 *
        elementSlope n node x a (node (a * n + s)) * w s := by
  have e1 : (a + 1) * n = a * n + n := by ring
  have hc : ∀ c, ddInner n node w a j c = -∑ s ∈ range n, (diffCoeffs n (fun i => node (a * n + i)) (node (a * n + s))).getD j 0 *
      w s * put (fun _ => 0) (a * n) (diffCoeffs n (fun i => node (a * n + i)) (node (a * n + s))) c := by
    intro c
    unfold ddInner put
    simp only [length_diff]
    by_cases h : a * n ≤ c ∧ c < a * n + n
    · rw [if_pos h, foldl_sub (fun s => (diffCoeffs n (fun i => node (a * n + i)) (node (a * n + s))).getD j 0 *
        (diffCoeffs n (fun i => node (a * n + i)) (node (a * n + s))).getD (c - a * n) 0 * w s), zero_sub, neg_inj]
      exact sum_congr rfl fun s _ => by rw [if_pos h]; ring
    · rw [if_neg h, sum_eq_zero fun s _ => by rw [if_neg h, mul_zero], neg_zero]
  simp only [hc, neg_mul, sum_mul]
  rw [sum_neg_distrib, sum_comm, neg_inj]
  apply sum_congr rfl
  intro s _
  unfold elementSlope
  rw [← put_sum lo hi (a * n) _ h1 (by rw [length_diff]; omega), mul_sum, sum_mul]
  exact sum_congr rfl fun c _ => by ring

/-- A row applied to a column, times the weight of the level. -/
theorem ddRow_loop (f : ℝ → ℝ) (n m : Nat) (node edge : Nat → ℝ) (gauss : List ℝ × List ℝ) (a j : Nat) (ha : a < m) (hj : j < n)
    (x : Nat → ℝ) :
    rowLoop (ddRow f n m node edge gauss (a * n + j)) 0 x =
      (-∑ s ∈ range n, (diffCoeffs n (fun i => node (a * n + i)) (node (a * n + s))).getD j 0 *
          elementSlope n node x a (node (a * n + s)) * gaussWeight n edge gauss a s +
        (if a ≠ 0 then -(0.5 * ddBasis n node a j (edge (a * n)) *
          (elementSlope n node x a (edge (a * n)) + elementSlope n node x (a - 1) (edge (a * n)))) else 0) +
        (if a ≠ m - 1 then 0.5 * ddBasis n node a j (edge ((a + 1) * n)) *
          (elementSlope n node x a (edge ((a + 1) * n)) + elementSlope n node x (a + 1) (edge ((a + 1) * n))) else 0) +
        (if a ≠ m - 1 then 0.5 * ddBasis n node a j (edge ((a + 1) * n)) * (f 1 / (edge ((a + 1) * n) - edge (a * n))) *
          (elementValue n node x (a + 1) (edge ((a + 1) * n)) - elementValue n node x a (edge ((a + 1) * n))) else 0) +
        (if a ≠ 0 then 0.5 * ddBasis n node a j (edge (a * n)) * (f 1 / (edge ((a + 1) * n) - edge (a * n))) *
          (elementValue n node x (a - 1) (edge (a * n)) - elementValue n node x a (edge (a * n))) else 0)) /
      gaussWeight n edge gauss a j := by
  have hn : 0 < n := by omega
  have hka : (a * n + j) / n = a := by
    rw [Nat.mul_comm, Nat.mul_add_div hn, Nat.div_eq_of_lt hj, Nat.add_zero]
  have hkm : (a * n + j) % n = j := by
    rw [Nat.mul_comm, Nat.mul_add_mod, Nat.mod_eq_of_lt hj]
  have e1 : (a + 1) * n = a * n + n := by ring
  have e2 : (a + 2) * n = a * n + n + n := by ring
  have e3 : a ≠ 0 → (a - 1) * n + n = a * n := fun h => by
    obtain ⟨b, rfl⟩ := Nat.exists_eq_succ_of_ne_zero h
    rw [Nat.succ_eq_add_one, Nat.add_sub_cancel]; ring
  rw [rowLoop_eq, zero_add]
  unfold ddRow
  rw [hka, hkm]
  dsimp only
  obtain ⟨lo, hlo⟩ : ∃ lo, lo = (if a = 0 then 0 else (a - 1) * n) := ⟨_, rfl⟩
  obtain ⟨hi, hhi⟩ : ∃ hi, hi = (if a = m - 1 then (a + 1) * n else (a + 2) * n) := ⟨_, rfl⟩
  rw [← hlo, ← hhi]
  have hsc : ∀ (c : Nat → ℝ) (d : ℝ), ∑ j ∈ Ico lo hi, c j / d * x j = (∑ j ∈ Ico lo hi, c j * x j) / d := by
    intro c d
    rw [div_eq_mul_inv, sum_mul]
    exact sum_congr rfl fun j _ => by ring
  rw [hsc]
  congr 1
  have b1 : lo ≤ a * n := by
    rw [hlo]; split_ifs with h
    · omega
    · have := e3 h; omega
  have b2 : (a + 1) * n ≤ hi := by rw [hhi]; split_ifs <;> omega
  have b3 : a ≠ 0 → lo ≤ (a - 1) * n := fun h => by rw [hlo, if_neg h]
  have b4 : a ≠ m - 1 → (a + 2) * n ≤ hi := fun h => by rw [hhi, if_neg h]
  have hB : ∑ c ∈ Ico lo hi, ddBoundary n m node edge a j (ddInner n node (gaussWeight n edge gauss a) a j) c * x c =
      ∑ c ∈ Ico lo hi, ddInner n node (gaussWeight n edge gauss a) a j c * x c +
        (if a ≠ 0 then -(0.5 * ddBasis n node a j (edge (a * n)) *
          (elementSlope n node x a (edge (a * n)) + elementSlope n node x (a - 1) (edge (a * n)))) else 0) +
        (if a ≠ m - 1 then 0.5 * ddBasis n node a j (edge ((a + 1) * n)) *
          (elementSlope n node x a (edge ((a + 1) * n)) + elementSlope n node x (a + 1) (edge ((a + 1) * n))) else 0) := by
    unfold ddBoundary elementSlope
    by_cases h0 : a ≠ 0
    · have := b3 h0
      have := e3 h0
      simp only [if_pos h0]
      by_cases h1 : a ≠ m - 1
      · have := b4 h1
        simp only [if_pos h1]
        rw [addAt_sum _ _ _ _ _ _ (by omega) (by rw [length_diff]; omega),
          addAt_sum _ _ _ _ _ _ (by omega) (by rw [length_diff]; omega),
          addAt_sum _ _ _ _ _ _ (by omega) (by rw [length_diff]; omega),
          addAt_sum _ _ _ _ _ _ (by omega) (by rw [length_diff]; omega)]
        ring
      · simp only [if_neg h1]
        rw [addAt_sum _ _ _ _ _ _ (by omega) (by rw [length_diff]; omega),
          addAt_sum _ _ _ _ _ _ (by omega) (by rw [length_diff]; omega)]
        ring
    · simp only [if_neg h0]
      by_cases h1 : a ≠ m - 1
      · have := b4 h1
        simp only [if_pos h1]
        rw [addAt_sum _ _ _ _ _ _ (by omega) (by rw [length_diff]; omega),
          addAt_sum _ _ _ _ _ _ (by omega) (by rw [length_diff]; omega)]
        ring
      · simp only [if_neg h1]
        ring
  have hC : ∀ (dc : ℝ) (c0 : Nat → ℝ), ∑ c ∈ Ico lo hi, ddCorrection n m node edge dc a j c0 c * x c =
      ∑ c ∈ Ico lo hi, c0 c * x c +
        (if a ≠ m - 1 then 0.5 * ddBasis n node a j (edge ((a + 1) * n)) * dc *
          (elementValue n node x (a + 1) (edge ((a + 1) * n)) - elementValue n node x a (edge ((a + 1) * n))) else 0) +
        (if a ≠ 0 then 0.5 * ddBasis n node a j (edge (a * n)) * dc *
          (elementValue n node x (a - 1) (edge (a * n)) - elementValue n node x a (edge (a * n))) else 0) := by
    intro dc c0
    unfold ddCorrection elementValue
    by_cases h0 : a ≠ 0
    · have := b3 h0
      have := e3 h0
      simp only [if_pos h0, if_pos (show a > 0 by omega)]
      by_cases h1 : a ≠ m - 1
      · have := b4 h1
        simp only [if_pos h1, if_pos (show a + 1 < m by omega)]
        rw [addAt_sum _ _ _ _ _ _ (by omega) (by rw [length_lagrange]; omega),
          addAt_sum _ _ _ _ _ _ (by omega) (by rw [length_lagrange]; omega),
          addAt_sum _ _ _ _ _ _ (by omega) (by rw [length_lagrange]; omega),
          addAt_sum _ _ _ _ _ _ (by omega) (by rw [length_lagrange]; omega)]
        ring
      · simp only [if_neg h1, if_neg (show ¬ a + 1 < m by omega)]
        rw [addAt_sum _ _ _ _ _ _ (by omega) (by rw [length_lagrange]; omega),
          addAt_sum _ _ _ _ _ _ (by omega) (by rw [length_lagrange]; omega)]
        ring
    · simp only [if_neg h0, if_neg (show ¬ a > 0 by omega)]
      by_cases h1 : a ≠ m - 1
      · have := b4 h1
        simp only [if_pos h1, if_pos (show a + 1 < m by omega)]
        rw [addAt_sum _ _ _ _ _ _ (by omega) (by rw [length_lagrange]; omega),
          addAt_sum _ _ _ _ _ _ (by omega) (by rw [length_lagrange]; omega)]
        ring
      · simp only [if_neg h1, if_neg (show ¬ a + 1 < m by omega)]
        ring
  rw [hC, hB, ddInner_sum n node _ a j lo hi b1 b2]

/-- Nothing is stored outside the range of a row. -/
theorem ddRow_range (f : ℝ → ℝ) (n m : Nat) (node edge : Nat → ℝ) (gauss : List ℝ × List ℝ) (k : Nat) (hn : 0 < n) (hk : k < m * n) :
    (ddRow f n m node edge gauss k).iend ≤ m * n ∧ ∀ j, (ddRow f n m node edge gauss k).coeff j ≠ 0 →
      (ddRow f n m node edge gauss k).ibegin ≤ j ∧ j < (ddRow f n m node edge gauss k).iend := by
  have ha : k / n < m := (Nat.div_lt_iff_lt_mul hn).2 hk
  unfold ddRow
  dsimp only
  generalize k / n = a at *
  generalize k % n = i at *
  have e1 : (a + 1) * n = a * n + n := by ring
  have e2 : (a + 2) * n = a * n + n + n := by ring
  have e3 : a ≠ 0 → (a - 1) * n + n = a * n := fun h => by
    obtain ⟨b, rfl⟩ := Nat.exists_eq_succ_of_ne_zero h
    rw [Nat.succ_eq_add_one, Nat.add_sub_cancel]; ring
  constructor
  · split_ifs with h
    · exact Nat.mul_le_mul_right _ (by omega)
    · exact Nat.mul_le_mul_right _ (by omega)
  · intro j hj
    by_contra hout
    apply hj
    have k0 : ¬ (a * n ≤ j ∧ j < a * n + n) := fun h => hout (by
      constructor
      · split_ifs with h0
        · omega
        · have := e3 h0; omega
      · split_ifs <;> omega)
    have k1 : a ≠ 0 → ¬ ((a - 1) * n ≤ j ∧ j < (a - 1) * n + n) := fun h0 h => by
      have := e3 h0
      refine hout ⟨?_, ?_⟩
      · rw [if_neg h0]; omega
      · split_ifs <;> omega
    have k2 : a ≠ m - 1 → ¬ ((a + 1) * n ≤ j ∧ j < (a + 1) * n + n) := fun h0 h => by
      refine hout ⟨?_, ?_⟩
      · split_ifs with h1
        · omega
        · have := e3 h1; omega
      · rw [if_neg h0]; omega
    have z0 : ∀ w, ddInner n node w a i j = 0 := fun w => by unfold ddInner; rw [if_neg k0]
    have z1 : ∀ c, c j = 0 → ddBoundary n m node edge a i c j = 0 := by
      intro c hc
      unfold ddBoundary
      have hz : (if a ≠ 0 then
          addAt (addAt c (a * n) (-(0.5 * ddBasis n node a i (edge (a * n)))) (diffCoeffs n (fun i => node (a * n + i)) (edge (a * n))))
            ((a - 1) * n) (-(0.5 * ddBasis n node a i (edge (a * n)))) (diffCoeffs n (fun i => node ((a - 1) * n + i)) (edge (a * n)))
          else c) j = 0 := by
        split_ifs with h0
        · exact addAt_zero _ _ _ _ _ (addAt_zero _ _ _ _ _ hc (by rw [length_diff]; exact k0)) (by rw [length_diff]; exact k1 h0)
        · exact hc
      split_ifs with h1 h0
      · rw [if_pos h0] at hz
        exact addAt_zero _ _ _ _ _ (addAt_zero _ _ _ _ _ hz (by rw [length_diff]; exact k0)) (by rw [length_diff]; exact k2 h1)
      · rw [if_neg h0] at hz
        exact addAt_zero _ _ _ _ _ (addAt_zero _ _ _ _ _ hz (by rw [length_diff]; exact k0)) (by rw [length_diff]; exact k2 h1)
      · rw [if_pos (by assumption)] at hz; exact hz
      · exact hc
    have z2 : ∀ dc c, c j = 0 → ddCorrection n m node edge dc a i c j = 0 := by
      intro dc c hc
      unfold ddCorrection
      have hz : (if a + 1 < m then
          addAt (addAt c (a * n) (-(0.5 * ddBasis n node a i (edge ((a + 1) * n)) * dc))
              (lagrangeCoeffs n (fun i => node (a * n + i)) (edge ((a + 1) * n))))
            ((a + 1) * n) (0.5 * ddBasis n node a i (edge ((a + 1) * n)) * dc)
            (lagrangeCoeffs n (fun i => node ((a + 1) * n + i)) (edge ((a + 1) * n)))
          else c) j = 0 := by
        split_ifs with h0
        · exact addAt_zero _ _ _ _ _ (addAt_zero _ _ _ _ _ hc (by rw [length_lagrange]; exact k0))
            (by rw [length_lagrange]; exact k2 (by omega))
        · exact hc
      generalize (if a + 1 < m then
          addAt (addAt c (a * n) (-(0.5 * ddBasis n node a i (edge ((a + 1) * n)) * dc))
              (lagrangeCoeffs n (fun i => node (a * n + i)) (edge ((a + 1) * n))))
            ((a + 1) * n) (0.5 * ddBasis n node a i (edge ((a + 1) * n)) * dc)
            (lagrangeCoeffs n (fun i => node ((a + 1) * n + i)) (edge ((a + 1) * n)))
          else c) = c1 at hz ⊢
      split_ifs with h1
      · exact addAt_zero _ _ _ _ _ (addAt_zero _ _ _ _ _ hz (by rw [length_lagrange]; exact k1 (by omega)))
          (by rw [length_lagrange]; exact k0)
      · exact hz
    rw [z2 _ _ (z1 _ (z0 _)), zero_div]

/-! ### The rule of an element -/

theorem rescaled_weight (lo hi : ℝ) (rule : List ℝ × List ℝ) (i : Nat) :
    (rescale lo hi rule).2.getD i 0 = (hi - lo) / 2 * rule.2.getD i 0 := by
  unfold rescale
  dsimp only
  rw [getD_map_zero _ _ (by ring)]; ring

theorem rescaled_point (lo hi : ℝ) (rule : List ℝ × List ℝ) (i : Nat) (h : i < rule.1.length) :
    (rescale lo hi rule).1.getD i 0 = lo + (hi - lo) * ((rule.1.getD i 0 + 1) / 2) := by
  unfold rescale
  dsimp only
  rw [List.getD_eq_getElem?_getD, List.getElem?_map, List.getD_eq_getElem?_getD, List.getElem?_eq_getElem h]
  simp; ring

/-- The rule of an element is exact. -/
theorem element_rule (n k d : Nat) (edge pt : Nat → ℝ) (rule : List ℝ × List ℝ) (hsz : HasSize rule k)
    (hex : ∀ p : ℝ[X], p.degree < (d : ℕ) → quad rule (fun x => p.eval x) = ∫ x in (-1 : ℝ)..1, p.eval x) (a : Nat)
    (hpt : ∀ i < k, pt i = edge (a * n) + (edge ((a + 1) * n) - edge (a * n)) * ((rule.1.getD i 0 + 1) / 2)) (p : ℝ[X])
    (hp : p.degree < (d : ℕ)) :
    ∑ i ∈ range k, gaussWeight n edge rule a i * p.eval (pt i) = ∫ x in edge (a * n)..edge ((a + 1) * n), p.eval x := by
  rw [← rescale_exact rule d hex _ _ p hp, quad_eq _ k (rescale_size rule k hsz _ _)]
  apply sum_congr rfl
  intro i hi
  rw [mem_range] at hi
  rw [rescaled_point _ _ _ _ (by rw [hsz.1]; exact hi), hpt i hi]
  rfl

theorem levelWeight_eq (n : Nat) (edge : Nat → ℝ) (gauss : List ℝ × List ℝ) (a j : Nat) (hj : j < n) :
    levelWeight n edge gauss (a * n + j) = gaussWeight n edge gauss a j := by
  have hn : 0 < n := by omega
  unfold levelWeight gaussWeight
  have hka : (a * n + j) / n = a := by
    rw [Nat.mul_comm, Nat.mul_add_div hn, Nat.div_eq_of_lt hj, Nat.add_zero]
  rw [rescaled_weight, hka, Nat.mul_comm a n, Nat.mul_add_mod, Nat.mod_eq_of_lt hj]

/-- The weights of a Gauss rule are positive. -/
theorem gauss_positive (n : Nat) (gauss : List ℝ × List ℝ) (h : GaussRule n gauss) (j : Nat) (hj : j < n) : 0 < gauss.2.getD j 0 := by
  let p : ℝ[X] := ∏ k ∈ (range n).erase j, (X - C (gauss.1.getD k 0))
  have hp0 : p ≠ 0 := Finset.prod_ne_zero_iff.2 fun k _ => X_sub_C_ne_zero _
  have hpd : p.natDegree = n - 1 := by
    rw [natDegree_prod _ _ fun k _ => X_sub_C_ne_zero _]
    simp [hj]
  have hroot : ∀ k < n, k ≠ j → p.eval (gauss.1.getD k 0) = 0 := by
    intro k hk hkj
    rw [eval_prod]
    exact prod_eq_zero (i := k) (by simp [hkj, hk]) (by simp)
  have hq := h.2 (p * p) (by
    rw [← natDegree_lt_iff_degree_lt (mul_ne_zero hp0 hp0), natDegree_mul hp0 hp0, hpd]; omega)
  rw [quad_eq _ n h.1, sum_eq_single j (fun k hk hkj => by rw [eval_mul, hroot k (mem_range.1 hk) hkj]; ring)
    (fun hh => absurd (mem_range.2 hj) hh)] at hq
  obtain ⟨c, hc, hcr⟩ : ∃ c ∈ Set.Ioo (-1 : ℝ) 1, p.eval c ≠ 0 := by
    by_contra hno
    push Not at hno
    exact Set.Ioo_infinite (show (-1 : ℝ) < 1 by norm_num) (Set.Finite.subset (p.roots.toFinset.finite_toSet) fun x hx => by
      rw [Finset.mem_coe, Multiset.mem_toFinset, mem_roots hp0]
      exact hno x hx)
  have hpos : 0 < ∫ x in (-1 : ℝ)..1, (p * p).eval x := by
    apply intervalIntegral.integral_pos (by norm_num) (p * p).continuous.continuousOn
    · intro x _
      rw [eval_mul]; exact mul_self_nonneg _
    · exact ⟨c, ⟨hc.1.le, hc.2.le⟩, by rw [eval_mul]; exact mul_self_pos.2 hcr⟩
  rw [← hq, eval_mul] at hpos
  exact pos_of_mul_pos_left hpos (mul_self_nonneg _)

theorem dd_cases {solve : Dgesv} {n N nEdge : Nat} {node edge : Nat → ℝ} {gauss lob : List ℝ × List ℝ} {A : Op}
    (h : diffDiffInit solve .levels n N nEdge node edge gauss lob = .ok A) :
    0 < n ∧ N = N / n * n ∧ 0 < N / n ∧ ∃ f, getDerivatives solve 2 (n + 1) = .ok f ∧
      A = ⟨N, N, ddRow f n (N / n) node edge gauss⟩ := by
  unfold diffDiffInit at h
  by_cases h0 : n = 0
  · rw [if_pos h0] at h; simp at h
  rw [if_neg h0] at h
  dsimp only at h
  by_cases h1 : N = 0
  · rw [if_pos h1] at h; simp at h
  rw [if_neg h1] at h
  by_cases h2 : N % n ≠ 0
  · rw [if_pos h2] at h; simp at h
  rw [if_neg h2] at h
  by_cases h3 : N ≠ 0 ∧ nEdge < N + 1
  · rw [if_pos h3] at h; simp at h
  rw [if_neg h3] at h
  push Not at h2
  have hdiv := (Nat.div_mul_cancel (Nat.dvd_of_mod_eq_zero h2)).symm
  refine ⟨by omega, hdiv, Nat.pos_of_ne_zero fun hz => by rw [hz] at hdiv; omega, ?_⟩
  cases hd : getDerivatives solve 2 (n + 1) with
  | exc => rw [hd] at h; simp at h
  | ub => rw [hd] at h; simp at h
  | ok f =>
    rw [hd] at h
    simp only [Res.ok.injEq] at h
    exact ⟨f, rfl, h.symm⟩

/-- An element of the result tested with a polynomial. -/
theorem dd_tested {solve : Dgesv} {n N nEdge : Nat} {node edge : Nat → ℝ} {gauss lob : List ℝ × List ℝ} {A : Op}
    (h : diffDiffInit solve .levels n N nEdge node edge gauss lob = .ok A) (hs : Solves solve) (hga : GaussRule n gauss)
    (ho : OnGauss n (N / n) node edge gauss) (hx : ∀ b < N / n, ApartNodes n (fun i => node (b * n + i)))
    (x y : Nat → ℝ) (p : Nat → ℝ[X]) (hp : ∀ b < N / n, (p b).degree < (n : ℕ))
    (htp : ∀ b < N / n, Through (p b) node x (b * n) n) (g : ℝ[X]) (hg : IsCorrection 2 (n + 1) g)
    (a : Nat) (ha : a < N / n) (q : ℝ[X]) (hq : q.degree < (n : ℕ)) (htq : Through q node y (a * n) n) :
    ∑ j ∈ range n, levelWeight n edge gauss (a * n + j) * (y (a * n + j) * applyRow A x (a * n + j)) =
      -(∫ s in edge (a * n)..edge ((a + 1) * n), (derivative q * derivative (p a)).eval s) +
      (if a ≠ 0 then -(1 / 2 * q.eval (edge (a * n)) *
        ((derivative (p a)).eval (edge (a * n)) + (derivative (p (a - 1))).eval (edge (a * n)))) else 0) +
      (if a ≠ N / n - 1 then 1 / 2 * q.eval (edge ((a + 1) * n)) *
        ((derivative (p a)).eval (edge ((a + 1) * n)) + (derivative (p (a + 1))).eval (edge ((a + 1) * n))) else 0) +
      (if a ≠ N / n - 1 then 1 / 2 * q.eval (edge ((a + 1) * n)) * ((derivative g).eval 1 / (edge ((a + 1) * n) - edge (a * n))) *
        ((p (a + 1)).eval (edge ((a + 1) * n)) - (p a).eval (edge ((a + 1) * n))) else 0) +
      (if a ≠ 0 then 1 / 2 * q.eval (edge (a * n)) * ((derivative g).eval 1 / (edge ((a + 1) * n) - edge (a * n))) *
        ((p (a - 1)).eval (edge (a * n)) - (p a).eval (edge (a * n))) else 0) := by
  obtain ⟨hn, hN, hm, f, hf, rfl⟩ := dd_cases h
  obtain ⟨-, f', hf', hfg⟩ := C87_correction solve hs 2 (n + 1) (by omega) (by omega)
  rw [hf, Derivs.ok.injEq] at hf'
  subst hf'
  have hf1 := hfg g hg 1
  generalize N / n = m at *
  have hval : ∀ b < m, ∀ s, elementValue n node x b s = (p b).eval s := fun b hb s =>
    lagrange_through n (b * n) node x s (p b) (hp b hb) (apart_distinct (hx b hb)) (htp b hb)
  have hder : ∀ b < m, ∀ s, elementSlope n node x b s = (derivative (p b)).eval s := fun b hb s =>
    diff_through n (b * n) node x s (p b) (hp b hb) (hx b hb) (htp b hb)
  have hqv : ∀ s, ∑ j ∈ range n, y (a * n + j) * ddBasis n node a j s = q.eval s := by
    intro s
    rw [← lagrange_through n (a * n) node y s q hq (apart_distinct (hx a ha)) htq, apply_eq, length_lagrange]
    exact sum_congr rfl fun j hj => by rw [ddBasis_eq n node a j (mem_range.1 hj)]; ring
  have hqd : ∀ s, ∑ j ∈ range n, y (a * n + j) * (diffCoeffs n (fun i => node (a * n + i)) s).getD j 0 = (derivative q).eval s := by
    intro s
    rw [← diff_through n (a * n) node y s q hq (hx a ha) htq, apply_eq, length_diff]
    exact sum_congr rfl fun j _ => by ring
  have hint := element_rule n n (2 * n) edge (fun i => node (a * n + i)) gauss hga.1 hga.2 a (ho a ha).2
    (derivative q * derivative (p a)) (by
      refine lt_of_lt_of_le (mul_degree_lt _ _ n n (2 * n) (lt_of_le_of_lt (degree_derivative_le ..) hq)
        (lt_of_le_of_lt (degree_derivative_le ..) (hp a ha)) (by omega)) le_rfl)
  rw [← hint]
  have hw : ∀ j < n, gaussWeight n edge gauss a j ≠ 0 := by
    intro j hj
    unfold gaussWeight
    rw [rescaled_weight]
    exact mul_ne_zero (by have := (ho a ha).1; intro hz; linarith) (gauss_positive n gauss hga j hj).ne'
  have hterm : ∀ j ∈ range n, levelWeight n edge gauss (a * n + j) * (y (a * n + j) *
      applyRow ⟨N, N, ddRow f n m node edge gauss⟩ x (a * n + j)) =
      y (a * n + j) * (-∑ s ∈ range n, (diffCoeffs n (fun i => node (a * n + i)) (node (a * n + s))).getD j 0 *
          (derivative (p a)).eval (node (a * n + s)) * gaussWeight n edge gauss a s) +
        (y (a * n + j) * ddBasis n node a j (edge (a * n))) * ((if a ≠ 0 then -(1 / 2 *
          ((derivative (p a)).eval (edge (a * n)) + (derivative (p (a - 1))).eval (edge (a * n)))) else 0) +
          (if a ≠ 0 then 1 / 2 * ((derivative g).eval 1 / (edge ((a + 1) * n) - edge (a * n))) *
            ((p (a - 1)).eval (edge (a * n)) - (p a).eval (edge (a * n))) else 0)) +
        (y (a * n + j) * ddBasis n node a j (edge ((a + 1) * n))) * ((if a ≠ m - 1 then 1 / 2 *
          ((derivative (p a)).eval (edge ((a + 1) * n)) + (derivative (p (a + 1))).eval (edge ((a + 1) * n))) else 0) +
          (if a ≠ m - 1 then 1 / 2 * ((derivative g).eval 1 / (edge ((a + 1) * n) - edge (a * n))) *
            ((p (a + 1)).eval (edge ((a + 1) * n)) - (p a).eval (edge ((a + 1) * n))) else 0)) := by
    intro j hj
    rw [mem_range] at hj
    rw [levelWeight_eq n edge gauss a j hj, applyRow]
    dsimp only
    rw [ddRow_loop f n m node edge gauss a j ha hj x, hf1]
    simp only [hder a ha, hval a ha]
    have hwj := hw j hj
    by_cases h0 : a ≠ 0
    · rw [hder (a - 1) (by omega), hval (a - 1) (by omega)]
      simp only [if_pos h0]
      by_cases h1 : a ≠ m - 1
      · rw [hder (a + 1) (by omega), hval (a + 1) (by omega)]
        simp only [if_pos h1]
        rw [mul_left_comm, mul_div_cancel₀ _ hwj]
        ring
      · simp only [if_neg h1]
        rw [mul_left_comm, mul_div_cancel₀ _ hwj]
        ring
    · simp only [if_neg h0]
      by_cases h1 : a ≠ m - 1
      · rw [hder (a + 1) (by omega), hval (a + 1) (by omega)]
        simp only [if_pos h1]
        rw [mul_left_comm, mul_div_cancel₀ _ hwj]
        ring
      · simp only [if_neg h1]
        rw [mul_left_comm, mul_div_cancel₀ _ hwj]
        ring
  rw [sum_congr rfl hterm, sum_add_distrib, sum_add_distrib, ← sum_mul, ← sum_mul, hqv, hqv]
  have hI : ∑ j ∈ range n, y (a * n + j) * (-∑ s ∈ range n, (diffCoeffs n (fun i => node (a * n + i)) (node (a * n + s))).getD j 0 *
      (derivative (p a)).eval (node (a * n + s)) * gaussWeight n edge gauss a s) =
      -∑ s ∈ range n, gaussWeight n edge gauss a s * (derivative q * derivative (p a)).eval (node (a * n + s)) := by
    simp only [mul_neg, sum_neg_distrib, mul_sum]
    rw [sum_comm, neg_inj]
    apply sum_congr rfl
    intro s _
    rw [eval_mul, ← hqd, sum_mul, mul_sum]
    exact sum_congr rfl fun j _ => by ring
  rw [hI]
  by_cases h0 : a ≠ 0 <;> by_cases h1 : a ≠ m - 1 <;> simp only [h0, h1, if_true, if_false, ne_eq, not_false_eq_true] <;> ring

/-- **C89 (weak form).**  The second derivative, tested with any piecewise polynomial, is minus the integral of the gradients,
plus the fluxes over the edges inside the column; nothing enters over its ends. -/
theorem C89_weak (solve : Dgesv) (hs : Solves solve) (n N nEdge : Nat) (node edge : Nat → ℝ) (gauss lob : List ℝ × List ℝ) (A : Op)
    (h : diffDiffInit solve .levels n N nEdge node edge gauss lob = .ok A) (hga : GaussRule n gauss)
    (ho : OnGauss n (N / n) node edge gauss) (hx : ∀ b < N / n, ApartNodes n (fun i => node (b * n + i)))
    (x y : Nat → ℝ) (p q : Nat → ℝ[X]) (hp : ∀ b < N / n, (p b).degree < (n : ℕ)) (hq : ∀ b < N / n, (q b).degree < (n : ℕ))
    (htp : ∀ b < N / n, Through (p b) node x (b * n) n) (htq : ∀ b < N / n, Through (q b) node y (b * n) n)
    (g : ℝ[X]) (hg : IsCorrection 2 (n + 1) g) :
    RangeOk A ∧ ∑ k ∈ range N, levelWeight n edge gauss k * (y k * applyRow A x k) =
      weakSecond n (N / n) edge q p - ∑ a ∈ range (N / n - 1), jump n edge q a * meanSlope n edge p a -
      (derivative g).eval 1 / 2 * ∑ a ∈ range (N / n - 1), jump n edge p a *
        ((q (a + 1)).eval (edge ((a + 1) * n)) / (edge ((a + 2) * n) - edge ((a + 1) * n)) -
          (q a).eval (edge ((a + 1) * n)) / (edge ((a + 1) * n) - edge (a * n))) := by
  obtain ⟨hn, hN, hm, f, hf, hA⟩ := dd_cases h
  constructor
  · intro k hk
    rw [hA] at hk ⊢
    dsimp only at hk ⊢
    obtain ⟨r1, r2⟩ := ddRow_range f n (N / n) node edge gauss k hn (by omega)
    exact ⟨by omega, fun j _ => r2 j⟩
  have hsum : ∑ k ∈ range N, levelWeight n edge gauss k * (y k * applyRow A x k) =
      ∑ a ∈ range (N / n), ∑ j ∈ range n, levelWeight n edge gauss (a * n + j) * (y (a * n + j) * applyRow A x (a * n + j)) := by
    conv_lhs => rw [hN]
    rw [element_sum n (N / n) (fun k => levelWeight n edge gauss k * (y k * applyRow A x k))]
  rw [hsum, sum_congr rfl fun a ha => dd_tested h hs hga ho hx x y p hp htp g hg a (mem_range.1 ha) (q a) (hq a (mem_range.1 ha))
    (htq a (mem_range.1 ha))]
  simp only [sum_add_distrib]
  unfold weakSecond
  obtain ⟨M, hM⟩ : ∃ M, N / n = M + 1 := ⟨N / n - 1, by omega⟩
  rw [hM, Nat.add_sub_cancel]
  have up : ∀ F : Nat → ℝ, ∑ a ∈ range (M + 1), (if a ≠ M then F a else 0) = ∑ a ∈ range M, F a := by
    intro F
    rw [sum_range_succ, if_neg (by simp), add_zero]
    exact sum_congr rfl fun a ha => if_pos (by have := mem_range.1 ha; omega)
  have down : ∀ F : Nat → ℝ, ∑ a ∈ range (M + 1), (if a ≠ 0 then F a else 0) = ∑ a ∈ range M, F (a + 1) := by
    intro F
    rw [sum_range_succ', if_neg (by simp), add_zero]
    exact sum_congr rfl fun a _ => if_pos (by omega)
  rw [up, up, down, down]
  simp only [eval_mul, sum_neg_distrib, Nat.add_sub_cancel, mul_sum]
  generalize (-∑ a ∈ range (M + 1), ∫ s in edge (a * n)..edge ((a + 1) * n), (derivative (q a)).eval s * (derivative (p a)).eval s) = I
  have : ∀ a b c d : ℝ, I - a + b + c + d = I - (a - b) - (-c - d) := fun a b c d => by ring
  rw [← sub_eq_add_neg, this, ← sum_sub_distrib, ← sum_neg_distrib, ← sum_sub_distrib]
  congr 1
  · congr 1
    apply sum_congr rfl
    intro a _
    unfold jump meanSlope
    ring
  · apply sum_congr rfl
    intro a _
    unfold jump
    rw [show a + 1 + 1 = a + 2 from rfl]
    ring

/-- **C89 (exact).**  The second derivative of a polynomial of degree below the order is exact, in the elements at the ends of the
column if its slope vanishes there. -/
theorem C89_exact (solve : Dgesv) (hs : Solves solve) (n N nEdge : Nat) (node edge : Nat → ℝ) (gauss lob : List ℝ × List ℝ) (A : Op)
    (h : diffDiffInit solve .levels n N nEdge node edge gauss lob = .ok A) (hga : GaussRule n gauss)
    (ho : OnGauss n (N / n) node edge gauss) (hx : ∀ b < N / n, ApartNodes n (fun i => node (b * n + i)))
    (r : ℝ[X]) (hr : r.degree < (n : ℕ)) (x : Nat → ℝ) (hxr : ∀ k < N, x k = r.eval (node k)) (k : Nat) (hk : k < N)
    (hbot : k / n = 0 → (derivative r).eval (edge 0) = 0) (htop : k / n = N / n - 1 → (derivative r).eval (edge N) = 0) :
    applyRow A x k = (derivative (derivative r)).eval (node k) := by
  obtain ⟨hn, hN, hm, -⟩ := dd_cases h
  obtain ⟨⟨g, hg, -⟩, -⟩ := C87_correction solve hs 2 (n + 1) (by omega) (by omega)
  obtain ⟨a, j, ha, hj, rfl⟩ : ∃ a j, a < N / n ∧ j < n ∧ k = a * n + j :=
    ⟨k / n, k % n, (Nat.div_lt_iff_lt_mul hn).2 (by omega), Nat.mod_lt _ hn, by rw [Nat.mul_comm]; exact (Nat.div_add_mod k n).symm⟩
  have hka : (a * n + j) / n = a := by
    rw [Nat.mul_comm, Nat.mul_add_div hn, Nat.div_eq_of_lt hj, Nat.add_zero]
  rw [hka] at hbot htop
  have hthr : ∀ b < N / n, Through r node x (b * n) n := fun b hb i hi => (hxr _ (by
    have : (b + 1) * n ≤ N / n * n := Nat.mul_le_mul_right _ hb
    have e : (b + 1) * n = b * n + n := by ring
    omega)).symm
  -- the basis function of the level
  obtain ⟨q, hq, htq⟩ := lagrange_exists n (a * n) node (fun i => if i = a * n + j then 1 else 0) (apart_distinct (hx a ha))
  have key := dd_tested h hs hga ho hx x (fun i => if i = a * n + j then 1 else 0) (fun _ => r) (fun _ _ => hr) hthr g hg a ha q hq htq
  rw [sum_eq_single j (fun b _ hb => by rw [if_neg (by omega)]; ring) (fun hh => absurd (mem_range.2 hj) hh), if_pos rfl, one_mul] at key
  -- integration by parts and the rule
  have hparts : ∫ s in edge (a * n)..edge ((a + 1) * n), (derivative q * derivative r).eval s =
      q.eval (edge ((a + 1) * n)) * (derivative r).eval (edge ((a + 1) * n)) - q.eval (edge (a * n)) * (derivative r).eval (edge (a * n)) -
      ∫ s in edge (a * n)..edge ((a + 1) * n), (q * derivative (derivative r)).eval s := by
    have := poly_ftc (q * derivative r) (edge (a * n)) (edge ((a + 1) * n))
    rw [derivative_mul] at this
    simp only [eval_add] at this
    rw [intervalIntegral.integral_add (cont _ _ _) (cont _ _ _)] at this
    simp only [eval_mul] at this ⊢
    linarith
  have hrule := element_rule n n (2 * n) edge (fun i => node (a * n + i)) gauss hga.1 hga.2 a (ho a ha).2
    (q * derivative (derivative r)) (mul_degree_lt _ _ n n (2 * n) hq
      (lt_of_le_of_lt (degree_derivative_le ..) (lt_of_le_of_lt (degree_derivative_le ..) hr)) (by omega))
  have hqj : q.eval (node (a * n + j)) = 1 := (htq j hj).trans (if_pos rfl)
  rw [sum_eq_single j (fun b hb hbj => by
    have hqb : q.eval (node (a * n + b)) = 0 := (htq b (mem_range.1 hb)).trans (if_neg (by omega))
    rw [eval_mul, hqb]; ring) (fun hh => absurd (mem_range.2 hj) hh), eval_mul, hqj, one_mul] at hrule
  have hw : gaussWeight n edge gauss a j ≠ 0 := by
    unfold gaussWeight
    rw [rescaled_weight]
    exact mul_ne_zero (by have := (ho a ha).1; intro hz; linarith) (gauss_positive n gauss hga j hj).ne'
  apply mul_left_cancel₀ hw
  rw [hrule, ← levelWeight_eq n edge gauss a j hj, key, hparts]
  have hb0 : a = 0 → (derivative r).eval (edge (a * n)) = 0 := fun h0 => by
    have := hbot h0
    rwa [h0, Nat.zero_mul]
  have ht0 : a = N / n - 1 → (derivative r).eval (edge ((a + 1) * n)) = 0 := fun h0 => by
    have := htop h0
    rwa [show (a + 1) * n = N by rw [h0, show N / n - 1 + 1 = N / n by omega]; exact hN.symm]
  by_cases h0 : a = 0
  · rw [if_neg (not_not.2 h0), if_neg (not_not.2 h0), hb0 h0]
    by_cases h1 : a = N / n - 1
    · rw [if_neg (not_not.2 h1), if_neg (not_not.2 h1), ht0 h1]
      ring
    · rw [if_pos h1, if_pos h1]
      ring
  · rw [if_pos h0, if_pos h0]
    by_cases h1 : a = N / n - 1
    · rw [if_neg (not_not.2 h1), if_neg (not_not.2 h1), ht0 h1]
      ring
    · rw [if_pos h1, if_pos h1]
      ring

/-- **C89 (conserves, equal elements).**  The second derivative does not change the integral of the column if the elements have
equal size.  Missing: elements of unequal size, see `C89_conserves_false`. -/
theorem C89_conserves_partial (solve : Dgesv) (hs : Solves solve) (n N nEdge : Nat) (node edge : Nat → ℝ)
    (gauss lob : List ℝ × List ℝ) (A : Op) (h : diffDiffInit solve .levels n N nEdge node edge gauss lob = .ok A)
    (hga : GaussRule n gauss) (ho : OnGauss n (N / n) node edge gauss) (hx : ∀ b < N / n, ApartNodes n (fun i => node (b * n + i)))
    (hsize : ∀ a < N / n, edge ((a + 1) * n) - edge (a * n) = edge n - edge 0) (x : Nat → ℝ) :
    ∑ k ∈ range N, levelWeight n edge gauss k * applyRow A x k = 0 := by
  obtain ⟨hn, hN, hm, -⟩ := dd_cases h
  obtain ⟨⟨g, hg, -⟩, -⟩ := C87_correction solve hs 2 (n + 1) (by omega) (by omega)
  have hex : ∀ b, ∃ p : ℝ[X], b < N / n → p.degree < (n : ℕ) ∧ Through p node x (b * n) n := by
    intro b
    by_cases hb : b < N / n
    · obtain ⟨p, h1, h2⟩ := lagrange_exists n (b * n) node x (apart_distinct (hx b hb))
      exact ⟨p, fun _ => ⟨h1, h2⟩⟩
    · exact ⟨0, fun hh => absurd hh hb⟩
  choose p hp using hex
  have key := (C89_weak solve hs n N nEdge node edge gauss lob A h hga ho hx x (fun _ => 1) p (fun _ => 1) (fun b hb => (hp b hb).1)
    (fun b _ => by rw [degree_one]; exact_mod_cast hn) (fun b hb => (hp b hb).2) (fun b _ i _ => by simp) g hg).2
  simp only [one_mul] at key
  rw [key]
  have hj : ∀ a, jump n edge (fun _ => (1 : ℝ[X])) a = 0 := fun a => sub_self _
  simp only [hj, zero_mul, sum_const_zero, sub_zero]
  unfold weakSecond
  simp only [derivative_one, eval_zero, zero_mul, intervalIntegral.integral_zero, sum_const_zero, neg_zero, zero_sub, neg_eq_zero]
  rw [sum_eq_zero, mul_zero]
  intro a ha
  rw [mem_range] at ha
  have h1 := hsize a (by omega)
  have h2 := hsize (a + 1) (by omega)
  rw [show a + 1 + 1 = a + 2 from rfl] at h2
  rw [h1, h2, sub_self, mul_zero]

/-- The ends of a polynomial of degree below the order are bounded by its square integral. -/
theorem ends_bound (n : Nat) (hn : 0 < n) (lob : List ℝ × List ℝ) (hl : LobattoRule n lob) (g : ℝ[X]) (hg : IsCorrection 2 (n + 1) g)
    (v : ℝ[X]) (hv : v.degree < (n : ℕ)) (lo hi : ℝ) (hlt : lo < hi) :
    (hi - lo) * (v.eval lo ^ 2 + v.eval hi ^ 2) ≤ (derivative g).eval 1 * ∫ s in lo..hi, v.eval s * v.eval s := by
  obtain ⟨l1, l2, -, -⟩ := lumped n hn lob hl g hg
  obtain ⟨hsz, h0, h1, hpos, -, hex⟩ := hl
  have hint := rescale_exact lob (2 * n) hex lo hi (v * v) (mul_degree_lt _ _ n n (2 * n) hv hv (by omega))
  rw [quad_eq _ (n + 1) (rescale_size lob (n + 1) hsz _ _)] at hint
  simp only [eval_mul] at hint
  rw [← hint]
  have hgp : 0 < (derivative g).eval 1 := by
    have := hpos n le_rfl
    by_contra hc
    have : lob.2.getD n 0 / 2 * (derivative g).eval 1 ≤ 0 := mul_nonpos_of_nonneg_of_nonpos (by linarith) (not_lt.1 hc)
    linarith
  have hsplit : ∑ i ∈ range (n + 1), (rescale lo hi lob).2.getD i 0 * (v.eval ((rescale lo hi lob).1.getD i 0) *
      v.eval ((rescale lo hi lob).1.getD i 0)) ≥ (hi - lo) / 2 * lob.2.getD 0 0 * v.eval lo ^ 2 + (hi - lo) / 2 * lob.2.getD n 0 * v.eval hi ^ 2 := by
    rw [sum_range_succ, ← Nat.sub_add_cancel hn, sum_range_succ', Nat.sub_add_cancel hn]
    have hin : 0 ≤ ∑ k ∈ range (n - 1), (rescale lo hi lob).2.getD (k + 1) 0 * (v.eval ((rescale lo hi lob).1.getD (k + 1) 0) *
        v.eval ((rescale lo hi lob).1.getD (k + 1) 0)) := by
      apply sum_nonneg
      intro k hk
      rw [mem_range] at hk
      rw [rescaled_weight]
      have := hpos (k + 1) (by omega)
      exact mul_nonneg (mul_nonneg (by linarith) this.le) (mul_self_nonneg _)
    rw [rescaled_point _ _ _ 0 (by rw [hsz.1]; omega), rescaled_point _ _ _ n (by rw [hsz.1]; omega), rescaled_weight, rescaled_weight, h0, h1]
    have e0 : lo + (hi - lo) * ((-1 + 1) / 2) = lo := by ring
    have e1 : lo + (hi - lo) * ((1 + 1) / 2) = hi := by ring
    rw [e0, e1]
    nlinarith [hin]
  have := mul_le_mul_of_nonneg_left hsplit.le hgp.le
  refine le_trans (le_of_eq ?_) this
  have e1 : (hi - lo) * (lob.2.getD 0 0 / 2 * (derivative g).eval 1) = hi - lo := by rw [l2, mul_one]
  have e2 : (hi - lo) * (lob.2.getD n 0 / 2 * (derivative g).eval 1) = hi - lo := by rw [l1, mul_one]
  calc (hi - lo) * (v.eval lo ^ 2 + v.eval hi ^ 2) = (hi - lo) * (lob.2.getD 0 0 / 2 * (derivative g).eval 1) * v.eval lo ^ 2 +
        (hi - lo) * (lob.2.getD n 0 / 2 * (derivative g).eval 1) * v.eval hi ^ 2 := by rw [e1, e2]; ring
    _ = _ := by ring

/-- **C89 (dissipates, equal elements).**  The second derivative takes energy out of a column of elements of equal size: at least
half the integral of the squared gradient, and more the larger the jumps between elements.  Missing: elements of unequal size. -/
theorem C89_dissipates_partial (solve : Dgesv) (hs : Solves solve) (n N nEdge : Nat) (node edge : Nat → ℝ)
    (gauss lob : List ℝ × List ℝ) (A : Op) (h : diffDiffInit solve .levels n N nEdge node edge gauss lob = .ok A)
    (hga : GaussRule n gauss) (hl : LobattoRule n lob) (ho : OnGauss n (N / n) node edge gauss)
    (hx : ∀ b < N / n, ApartNodes n (fun i => node (b * n + i)))
    (hsize : ∀ a < N / n, edge ((a + 1) * n) - edge (a * n) = edge n - edge 0) (x : Nat → ℝ) (p : Nat → ℝ[X])
    (hp : ∀ b < N / n, (p b).degree < (n : ℕ)) (htp : ∀ b < N / n, Through (p b) node x (b * n) n) :
    ∑ k ∈ range N, levelWeight n edge gauss k * (x k * applyRow A x k) ≤
      1 / 2 * weakSecond n (N / n) edge p p -
        1 / (2 * lob.2.getD n 0 * (edge n - edge 0)) * ∑ a ∈ range (N / n - 1), jump n edge p a ^ 2 ∧
    (∑ k ∈ range N, levelWeight n edge gauss k * (x k * applyRow A x k) = 0 → ∀ k < N, x k = x 0) := by
  obtain ⟨hn, hN, hm, -⟩ := dd_cases h
  obtain ⟨⟨g, hg, -⟩, -⟩ := C87_correction solve hs 2 (n + 1) (by omega) (by omega)
  have key := (C89_weak solve hs n N nEdge node edge gauss lob A h hga ho hx x x p p hp hp htp htp g hg).2
  obtain ⟨l1, -, -, -⟩ := lumped n hn lob hl g hg
  set D := edge n - edge 0 with hDdef
  set G := (derivative g).eval 1 with hG
  have hDpos : 0 < D := by
    have h1 := (ho 0 hm).1
    have := hsize 0 hm
    rw [← this]; linarith
  have hwpos := hl.2.2.2.1 n le_rfl
  have hGpos : 0 < G := by
    by_contra hc
    have : lob.2.getD n 0 / 2 * G ≤ 0 := mul_nonpos_of_nonneg_of_nonpos (by linarith) (not_lt.1 hc)
    linarith
  have hGw : 1 / (2 * lob.2.getD n 0 * D) = G / (4 * D) := by
    rw [div_eq_div_iff (by positivity) (by positivity)]
    linear_combination (-4 * D) * l1
  obtain ⟨M, hM⟩ : ∃ M, N / n = M + 1 := ⟨N / n - 1, by omega⟩
  rw [hGw]
  have hfirst : ∑ k ∈ range N, levelWeight n edge gauss k * (x k * applyRow A x k) ≤
      1 / 2 * weakSecond n (N / n) edge p p - G / (4 * D) * ∑ a ∈ range (N / n - 1), jump n edge p a ^ 2 := by
    rw [key]
    -- the ends of the elements
    have hend : ∀ a ∈ range (N / n), D / G * ((derivative (p a)).eval (edge (a * n)) ^ 2 + (derivative (p a)).eval (edge ((a + 1) * n)) ^ 2) ≤
        ∫ s in edge (a * n)..edge ((a + 1) * n), (derivative (p a)).eval s * (derivative (p a)).eval s := by
      intro a ha
      rw [mem_range] at ha
      have := ends_bound n hn lob hl g hg (derivative (p a)) (lt_of_le_of_lt (degree_derivative_le ..) (hp a ha)) _ _ (ho a ha).1
      rw [hsize a ha] at this
      rw [div_mul_eq_mul_div, div_le_iff₀ hGpos]
      linarith
    have hsum := sum_le_sum hend
    have hsplit : ∑ a ∈ range (N / n - 1), D / G * ((derivative (p a)).eval (edge ((a + 1) * n)) ^ 2 +
        (derivative (p (a + 1))).eval (edge ((a + 1) * n)) ^ 2) ≤
        ∑ a ∈ range (N / n), D / G * ((derivative (p a)).eval (edge (a * n)) ^ 2 + (derivative (p a)).eval (edge ((a + 1) * n)) ^ 2) := by
      rw [hM, Nat.add_sub_cancel]
      simp only [mul_add, sum_add_distrib]
      rw [sum_range_succ' (fun a => D / G * (derivative (p a)).eval (edge (a * n)) ^ 2),
        sum_range_succ (fun a => D / G * (derivative (p a)).eval (edge ((a + 1) * n)) ^ 2)]
      have p1 : 0 ≤ D / G * (derivative (p 0)).eval (edge (0 * n)) ^ 2 := by positivity
      have p2 : 0 ≤ D / G * (derivative (p M)).eval (edge ((M + 1) * n)) ^ 2 := by positivity
      linarith
    have hedges : ∀ a ∈ range (N / n - 1), -(jump n edge p a * meanSlope n edge p a) - G / 2 * (jump n edge p a *
        ((p (a + 1)).eval (edge ((a + 1) * n)) / (edge ((a + 2) * n) - edge ((a + 1) * n)) -
          (p a).eval (edge ((a + 1) * n)) / (edge ((a + 1) * n) - edge (a * n)))) ≤
        1 / 2 * (D / G * ((derivative (p a)).eval (edge ((a + 1) * n)) ^ 2 + (derivative (p (a + 1))).eval (edge ((a + 1) * n)) ^ 2)) -
          G / (4 * D) * jump n edge p a ^ 2 := by
      intro a ha
      rw [mem_range] at ha
      have h1 := hsize a (by omega)
      have h2 := hsize (a + 1) (by omega)
      rw [show a + 1 + 1 = a + 2 from rfl] at h2
      rw [h1, h2]
      unfold meanSlope
      have hj : (p (a + 1)).eval (edge ((a + 1) * n)) / D - (p a).eval (edge ((a + 1) * n)) / D = jump n edge p a / D := by
        unfold jump; ring
      rw [hj]
      generalize jump n edge p a = J
      generalize (derivative (p a)).eval (edge ((a + 1) * n)) = u
      generalize (derivative (p (a + 1))).eval (edge ((a + 1) * n)) = v
      have s1 : 0 ≤ 1 / (2 * D * G) * ((D * u + G * J / 2) ^ 2 + (D * v + G * J / 2) ^ 2) := by positivity
      have e : 1 / 2 * (D / G * (u ^ 2 + v ^ 2)) - G / (4 * D) * J ^ 2 - (-(J * ((u + v) / 2)) - G / 2 * (J * (J / D))) =
          1 / (2 * D * G) * ((D * u + G * J / 2) ^ 2 + (D * v + G * J / 2) ^ 2) := by
        field_simp
        ring
      linarith
    have hE := sum_le_sum hedges
    simp only [sum_sub_distrib, ← mul_sum, sum_neg_distrib] at hE
    simp only [← mul_sum] at hsplit hsum
    have hW : weakSecond n (N / n) edge p p = -∑ a ∈ range (N / n), ∫ s in edge (a * n)..edge ((a + 1) * n),
        (derivative (p a)).eval s * (derivative (p a)).eval s := rfl
    rw [hW]
    linarith
  refine ⟨hfirst, fun hz => ?_⟩
  rw [hz] at hfirst
  have hI : ∀ a ∈ range (N / n), 0 ≤ ∫ s in edge (a * n)..edge ((a + 1) * n), (derivative (p a)).eval s * (derivative (p a)).eval s := by
    intro a ha
    exact intervalIntegral.integral_nonneg (ho a (mem_range.1 ha)).1.le fun s _ => mul_self_nonneg _
  have hS := sum_nonneg hI
  have hJ : 0 ≤ ∑ a ∈ range (N / n - 1), jump n edge p a ^ 2 := sum_nonneg fun a _ => sq_nonneg _
  have hW : weakSecond n (N / n) edge p p = -∑ a ∈ range (N / n), ∫ s in edge (a * n)..edge ((a + 1) * n),
      (derivative (p a)).eval s * (derivative (p a)).eval s := rfl
  rw [hW] at hfirst
  have hGD : 0 < G / (4 * D) := by positivity
  have hJ0 : ∑ a ∈ range (N / n - 1), jump n edge p a ^ 2 = 0 := by
    have := mul_nonneg hGD.le hJ
    have h3 : G / (4 * D) * ∑ a ∈ range (N / n - 1), jump n edge p a ^ 2 = 0 := by linarith
    rcases mul_eq_zero.1 h3 with h4 | h4
    · exact absurd h4 hGD.ne'
    · exact h4
  have hS0 : ∑ a ∈ range (N / n), ∫ s in edge (a * n)..edge ((a + 1) * n), (derivative (p a)).eval s * (derivative (p a)).eval s = 0 := by
    rw [hJ0] at hfirst
    linarith
  have hflat : ∀ a < N / n, derivative (p a) = 0 := by
    intro a ha
    have h0 := (sum_eq_zero_iff_of_nonneg hI).1 hS0 a (mem_range.2 ha)
    by_contra hne
    have hlt := (ho a ha).1
    obtain ⟨c, hc, hcr⟩ : ∃ c ∈ Set.Ioo (edge (a * n)) (edge ((a + 1) * n)), (derivative (p a)).eval c ≠ 0 := by
      by_contra hno
      push Not at hno
      exact Set.Ioo_infinite hlt (Set.Finite.subset ((derivative (p a)).roots.toFinset.finite_toSet) fun x hx => by
        rw [Finset.mem_coe, Multiset.mem_toFinset, mem_roots hne]
        exact hno x hx)
    have hpos : 0 < ∫ s in edge (a * n)..edge ((a + 1) * n), (derivative (p a)).eval s * (derivative (p a)).eval s := by
      apply intervalIntegral.integral_pos hlt ((derivative (p a)).continuous.mul (derivative (p a)).continuous).continuousOn
      · intro x _
        exact mul_self_nonneg _
      · exact ⟨c, ⟨hc.1.le, hc.2.le⟩, mul_self_pos.2 hcr⟩
    linarith
  have hconst : ∀ a < N / n, ∀ s t, (p a).eval s = (p a).eval t := by
    intro a ha s t
    have := natDegree_eq_zero_of_derivative_eq_zero (hflat a ha)
    rw [eq_C_of_natDegree_eq_zero this]
    simp
  have hjz : ∀ a < N / n - 1, jump n edge p a = 0 := fun a ha =>
    pow_eq_zero_iff (two_ne_zero) |>.1 ((sum_eq_zero_iff_of_nonneg fun a _ => sq_nonneg _).1 hJ0 a (mem_range.2 ha))
  have hall : ∀ a < N / n, ∀ s, (p a).eval s = (p 0).eval 0 := by
    intro a
    induction a with
    | zero => intro ha s; exact hconst 0 ha s 0
    | succ a ih =>
      intro ha s
      have h1 := hjz a (by omega)
      unfold jump at h1
      rw [hconst (a + 1) ha s (edge ((a + 1) * n)), ← ih (by omega) (edge ((a + 1) * n))]
      linarith
  have hxv : ∀ k < N, x k = (p 0).eval 0 := by
    intro k hk
    have ha : k / n < N / n := (Nat.div_lt_iff_lt_mul hn).2 (by omega)
    have hkk : k / n * n + k % n = k := by rw [Nat.mul_comm]; exact Nat.div_add_mod k n
    have := htp (k / n) ha (k % n) (Nat.mod_lt _ hn)
    rw [hkk] at this
    rw [← this]
    exact hall _ ha _
  intro k hk
  rw [hxv k hk, hxv 0 (by omega)]

end Verif.Column
