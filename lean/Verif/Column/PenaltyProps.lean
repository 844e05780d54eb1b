/-
The discontinuous penalty conserves, leaves continuous columns alone and takes energy out (C87).
-/
import Verif.Column.Penalty
import Verif.Column.PenaltySpec
import Verif.Column.CorrectionProps
import Verif.Column.FemLemmas
import Verif.Column.VariationalProps

namespace Verif.Column

open Finset Polynomial Verif.Interp Verif.Quad

/-! ### Adding the buffer -/

theorem addInner (c b s : Nat) (hs : 0 < s) (v out : Nat → ℝ) (j : Nat) :
    (List.range c).foldl (fun o i => Function.update o ((b + i) * s) (o ((b + i) * s) + v (b + i))) out j =
      if j % s = 0 ∧ b ≤ j / s ∧ j / s < b + c then out j + v (j / s) else out j := by
  induction c with
  | zero =>
    rw [if_neg (by omega)]; rfl
  | succ c ih =>
    rw [List.range_succ, List.foldl_append, List.foldl_cons, List.foldl_nil]
    by_cases hj : j = (b + c) * s
    · have h1 : j / s = b + c := by rw [hj, Nat.mul_div_cancel _ hs]
      have h2 : j % s = 0 := by rw [hj, Nat.mul_mod_left]
      rw [if_pos ⟨h2, by omega, by omega⟩, h1]
      rw [hj, Function.update_self, ← hj, ih, if_neg (by omega)]
    · rw [Function.update_of_ne hj, ih]
      have h1 : ¬ (j % s = 0 ∧ j / s = b + c) := by
        rintro ⟨h1, h2⟩
        apply hj
        have := Nat.div_add_mod j s
        rw [h1, h2, Nat.mul_comm] at this; omega
      by_cases h2 : j % s = 0 ∧ b ≤ j / s ∧ j / s < b + c
      · rw [if_pos h2, if_pos (by omega)]
      · rw [if_neg h2, if_neg (by omega)]

theorem addBuffer_at (n : Nat) (hn : 0 < n) (a0 c : Nat) (w buf out : Nat → ℝ) (s : Nat) (hs : 0 < s) (j : Nat) :
    addBuffer n (List.range' a0 c) w buf out s j =
      if j % s = 0 ∧ a0 ≤ j / s / n ∧ j / s / n < a0 + c then out j + buf (j / s) * w (j / s / n) else out j := by
  unfold addBuffer
  induction c with
  | zero => rw [if_neg (by omega)]; rfl
  | succ c ih =>
    rw [List.range'_concat, List.foldl_append, List.foldl_cons, List.foldl_nil, Nat.one_mul]
    rw [addInner n ((a0 + c) * n) s hs (fun k => buf k * w (a0 + c)), ih]
    have hd := Nat.div_add_mod (j / s) n
    have hm := Nat.mod_lt (j / s) hn
    have e : ((a0 + c) * n ≤ j / s ∧ j / s < (a0 + c) * n + n) ↔ j / s / n = a0 + c := by
      rw [Nat.div_eq_iff hn]
      constructor
      · rintro ⟨h1, h2⟩; omega
      · rintro ⟨h1, h2⟩; omega
    by_cases h1 : j % s = 0 ∧ j / s / n = a0 + c
    · rw [if_pos ⟨h1.1, e.2 h1.2⟩, if_neg (by omega), if_pos (by omega), h1.2]
    · rw [if_neg (fun h => h1 ⟨h.1, e.1 h.2⟩)]
      by_cases h2 : j % s = 0 ∧ a0 ≤ j / s / n ∧ j / s / n < a0 + c
      · rw [if_pos h2, if_pos (by omega)]
      · rw [if_neg h2, if_neg (by omega)]

theorem range_eq' (c : Nat) : List.range c = List.range' 0 c := by rw [List.range_eq_range']

/-- What `Apply` adds to the cell of level `k`. -/
theorem apply_at (P : Penalty) (hn : 0 < P.n) (hl : P.left.rows = P.m * P.n) (hr : P.right.rows = P.m * P.n) (w x out : Nat → ℝ)
    (sIn sOut : Nat) (hs : 0 < sOut) (k : Nat) (hk : k < P.m * P.n) :
    penaltyApply P w x out sIn sOut (k * sOut) = out (k * sOut) +
      (if k / P.n < P.m - 1 then rowLoop (P.left.row k) 0 (fun l => x (l * sIn)) * w (k / P.n) else 0) +
      (if 1 ≤ k / P.n then rowLoop (P.right.row k) 0 (fun l => x (l * sIn)) * w (k / P.n - 1) else 0) := by
  have hkm : k / P.n < P.m := (Nat.div_lt_iff_lt_mul hn).2 hk
  unfold penaltyApply
  rw [addBuffer_at P.n hn 1 _ _ _ _ sOut hs, range_eq', addBuffer_at P.n hn 0 _ _ _ _ sOut hs,
    Nat.mul_mod_left, Nat.mul_div_cancel _ hs]
  have hb : ∀ (A : Op) (buf : Nat → ℝ), A.rows = P.m * P.n → applyAll A x buf sIn 1 k = rowLoop (A.row k) 0 (fun l => x (l * sIn)) := by
    intro A buf hA
    unfold applyAll
    rw [foldl_update _ 1 one_pos, Nat.mod_one, Nat.div_one, if_pos ⟨rfl, by omega⟩]
  rw [hb _ _ hl, hb _ _ hr]
  have c1 : ((0 : Nat) = 0 ∧ 1 ≤ k / P.n ∧ k / P.n < 1 + (P.m - 1)) ↔ 1 ≤ k / P.n := ⟨fun h => h.2.1, fun h => ⟨rfl, h, by omega⟩⟩
  have c2 : ((0 : Nat) = 0 ∧ 0 ≤ k / P.n ∧ k / P.n < 0 + (P.m - 1)) ↔ k / P.n < P.m - 1 :=
    ⟨fun h => by omega, fun h => ⟨rfl, Nat.zero_le _, by omega⟩⟩
  rw [if_congr c1 rfl rfl, if_congr c2 rfl rfl]
  by_cases h1 : k / P.n < P.m - 1 <;> by_cases h2 : 1 ≤ k / P.n <;> simp only [h1, h2, if_true, if_false, add_zero]

/-- Other cells are not written. -/
theorem apply_other (P : Penalty) (hn : 0 < P.n) (w x out : Nat → ℝ) (sIn sOut : Nat) (hs : 0 < sOut) (j : Nat)
    (hj : ∀ k < P.m * P.n, j ≠ k * sOut) : penaltyApply P w x out sIn sOut j = out j := by
  have hne : ¬ (j % sOut = 0 ∧ j / sOut / P.n < P.m) := by
    rintro ⟨h1, h2⟩
    apply hj (j / sOut) ((Nat.div_lt_iff_lt_mul hn).1 h2)
    have := Nat.div_add_mod j sOut
    rw [h1, Nat.mul_comm] at this; omega
  unfold penaltyApply
  rw [addBuffer_at P.n hn 1 _ _ _ _ sOut hs, range_eq', addBuffer_at P.n hn 0 _ _ _ _ sOut hs, if_neg (by omega),
    if_neg (by omega)]

/-! ### Rows -/

theorem getD_map_zero (l : List ℝ) (f : ℝ → ℝ) (h : f 0 = 0) (i : Nat) : (l.map f).getD i 0 = f (l.getD i 0) := by
  rw [List.getD_eq_getElem?_getD, List.getD_eq_getElem?_getD, List.getElem?_map]
  cases l[i]? with
  | none => simp [h]
  | some v => simp

theorem jumpRow_loop (n : Nat) (node : Nat → ℝ) (b : Nat) (s d : ℝ) (y : Nat → ℝ) :
    rowLoop (jumpRow n node b s d) 0 y =
      0.5 * d * (Interp.apply (lagrangeCoeffs n (fun i => node (b + n + i)) s) (fun i => y (b + n + i)) -
        Interp.apply (lagrangeCoeffs n (fun i => node (b + i)) s) (fun i => y (b + i))) := by
  rw [rowLoop_eq, zero_add, apply_eq, apply_eq, length_lagrange, length_lagrange]
  unfold jumpRow
  dsimp only
  rw [← sum_Ico_consecutive _ (by omega : b ≤ b + n) (by omega : b + n ≤ b + 2 * n), sum_Ico_eq_sum_range, sum_Ico_eq_sum_range,
    Nat.add_sub_cancel_left, show b + 2 * n - (b + n) = n by omega, mul_sub, mul_sum, mul_sum, add_comm, sub_eq_add_neg,
    ← sum_neg_distrib]
  congr 1
  · apply sum_congr rfl
    intro i hi
    rw [mem_range] at hi
    unfold put
    rw [if_pos (by simp [length_lagrange]; omega), Nat.add_sub_cancel_left, getD_map_zero _ _ (by ring)]
    ring
  · apply sum_congr rfl
    intro i hi
    rw [mem_range] at hi
    unfold put
    rw [if_neg (by simp [length_lagrange]; omega), if_pos (by simp [length_lagrange]; omega), Nat.add_sub_cancel_left,
      getD_map_zero _ _ (by ring)]
    ring

/-! ### The Gauss rule -/

/-- The points of a Gauss rule are different. -/
theorem gauss_distinct (n : Nat) (gauss : List ℝ × List ℝ) (h : GaussRule n gauss) (i j : Nat) (hi : i < n) (hj : j < n)
    (hij : i ≠ j) : gauss.1.getD i 0 ≠ gauss.1.getD j 0 := by
  intro he
  let p : ℝ[X] := ∏ k ∈ (range n).erase j, (X - C (gauss.1.getD k 0))
  have hp0 : p ≠ 0 := Finset.prod_ne_zero_iff.2 fun k _ => X_sub_C_ne_zero _
  have hpd : p.natDegree = n - 1 := by
    rw [natDegree_prod _ _ fun k _ => X_sub_C_ne_zero _]
    simp [hj]
  have hroot : ∀ k < n, p.eval (gauss.1.getD k 0) = 0 := by
    intro k hk
    rw [eval_prod]
    by_cases hkj : k = j
    · exact prod_eq_zero (i := i) (by simp [hij, hi]) (by rw [hkj, ← he]; simp)
    · exact prod_eq_zero (i := k) (by simp [hkj, hk]) (by simp)
  have hq := h.2 (p * p) (by
    rw [← natDegree_lt_iff_degree_lt (mul_ne_zero hp0 hp0), natDegree_mul hp0 hp0, hpd]; omega)
  rw [quad_eq _ n h.1, sum_eq_zero (fun k hk => by rw [eval_mul, hroot k (mem_range.1 hk)]; ring)] at hq
  obtain ⟨c, hc, hcr⟩ : ∃ c ∈ Set.Ioo (-1 : ℝ) 1, p.eval c ≠ 0 := by
    by_contra hno
    push Not at hno
    exact Set.Ioo_infinite (show (-1 : ℝ) < 1 by norm_num) (Set.Finite.subset (p.roots.toFinset.finite_toSet) fun x hx => by
      rw [Finset.mem_coe, Multiset.mem_toFinset, mem_roots hp0]
      exact hno x hx)
  have hpos : 0 < ∫ x in (-1 : ℝ)..1, (p * p).eval x := by
    apply intervalIntegral.integral_pos (by norm_num) (p * p).continuous.continuousOn
    · intro x _
      rw [eval_mul]; exact mul_self_nonneg _
    · exact ⟨c, ⟨hc.1.le, hc.2.le⟩, by rw [eval_mul]; exact mul_self_pos.2 hcr⟩
  rw [← hq] at hpos
  exact lt_irrefl _ hpos

theorem gauss_apart (n m : Nat) (node edge : Nat → ℝ) (gauss : List ℝ × List ℝ) (h : GaussRule n gauss)
    (ho : OnGauss n m node edge gauss) (a : Nat) (ha : a < m) : DistinctNodes n (fun i => node (a * n + i)) := by
  intro i j hi hj hij he
  obtain ⟨h1, h2⟩ := ho a ha
  simp only [h2 i hi, h2 j hj] at he
  apply gauss_distinct n gauss h i j hi hj hij
  have hd : edge ((a + 1) * n) - edge (a * n) ≠ 0 := by linarith
  have := mul_left_cancel₀ hd (by linarith : (edge ((a + 1) * n) - edge (a * n)) * ((gauss.1.getD i 0 + 1) / 2) =
    (edge ((a + 1) * n) - edge (a * n)) * ((gauss.1.getD j 0 + 1) / 2))
  linarith

/-- The rule on [0, 1]. -/
theorem gauss_unit (n : Nat) (gauss : List ℝ × List ℝ) (h : GaussRule n gauss) (p : ℝ[X]) (hp : p.degree < (2 * n : ℕ)) :
    ∑ i ∈ range n, gauss.2.getD i 0 / 2 * p.eval ((gauss.1.getD i 0 + 1) / 2) = ∫ x in (0 : ℝ)..1, p.eval x := by
  rw [← rescale_exact gauss (2 * n) h.2 0 1 p hp, quad_eq _ n (rescale_size gauss n h.1 0 1)]
  apply sum_congr rfl
  intro i hi
  rw [mem_range] at hi
  have e1 : (rescale 0 1 gauss).2.getD i 0 = gauss.2.getD i 0 / 2 := by
    unfold rescale
    dsimp only
    rw [getD_map_zero _ _ (by ring)]; ring
  have e2 : (rescale 0 1 gauss).1.getD i 0 = (gauss.1.getD i 0 + 1) / 2 := by
    unfold rescale
    dsimp only
    have hlen : i < gauss.1.length := by rw [h.1.1]; exact hi
    rw [List.getD_eq_getElem?_getD, List.getElem?_map, List.getD_eq_getElem?_getD, List.getElem?_eq_getElem hlen]
    simp; ring
  rw [e1, e2]

theorem derivative_degree_lt (p : ℝ[X]) (n : Nat) (hp : p.degree < (n + 1 : ℕ)) : (derivative p).degree < (n : ℕ) := by
  by_cases hz : derivative p = 0
  · rw [hz, degree_zero]; exact WithBot.bot_lt_coe _
  · have h0 : p ≠ 0 := fun h0 => hz (by rw [h0, derivative_zero])
    have h1 : p.natDegree < n + 1 := (natDegree_lt_iff_degree_lt h0).2 hp
    have hnz : p.natDegree ≠ 0 := fun hc => hz (by rw [eq_C_of_natDegree_eq_zero hc, derivative_C])
    exact (natDegree_lt_iff_degree_lt hz).1 (lt_of_lt_of_le (natDegree_derivative_lt hnz) (by omega))

theorem mul_degree_lt (u v : ℝ[X]) (a b c : Nat) (hu : u.degree < (a : ℕ)) (hv : v.degree < (b : ℕ)) (h : a + b ≤ c + 1) :
    (u * v).degree < (c : ℕ) := by
  by_cases hz : u = 0
  · rw [hz, zero_mul, degree_zero]; exact WithBot.bot_lt_coe _
  by_cases hz2 : v = 0
  · rw [hz2, mul_zero, degree_zero]; exact WithBot.bot_lt_coe _
  have a1 := (natDegree_lt_iff_degree_lt hz).2 hu
  have a2 := (natDegree_lt_iff_degree_lt hz2).2 hv
  rw [← natDegree_lt_iff_degree_lt (mul_ne_zero hz hz2), natDegree_mul hz hz2]
  omega

/-- The derivative of the flux correction picks out the value at the right end. -/
theorem pick_right (n : Nat) (hn : 0 < n) (g r : ℝ[X]) (hg : IsCorrection 2 (n + 1) g) (hr : r.degree < (n : ℕ)) :
    ∫ x in (0 : ℝ)..1, (derivative g * r).eval x = r.eval 1 := by
  have hparts := poly_ftc (g * r) 0 1
  have g0 : g.eval 0 = 0 := by
    obtain ⟨s, hs⟩ := hg.2.2.1
    rw [hs]; simp
  rw [derivative_mul, eval_mul, eval_mul, g0, hg.2.1, zero_mul, sub_zero, one_mul] at hparts
  rw [← hparts]
  simp only [eval_add]
  rw [intervalIntegral.integral_add (cont _ _ _) (cont _ _ _)]
  have := hg.2.2.2 (derivative r) (by
    rw [show n + 1 - 2 = n - 1 by omega]
    exact derivative_degree_lt r (n - 1) (by rwa [show n - 1 + 1 = n by omega]))
  simp only [eval_mul]
  rw [this, add_zero]

/-- The same for the sums the code computes, from below an edge. -/
theorem sum_below (n : Nat) (hn : 0 < n) (gauss : List ℝ × List ℝ) (h : GaussRule n gauss) (g r : ℝ[X])
    (hg : IsCorrection 2 (n + 1) g) (hr : r.degree < (n : ℕ)) :
    ∑ i ∈ range n, gauss.2.getD i 0 / 2 * (r.eval ((gauss.1.getD i 0 + 1) / 2) * (derivative g).eval ((gauss.1.getD i 0 + 1) / 2)) =
      r.eval 1 := by
  have hd : (derivative g).degree < (n + 1 : ℕ) := derivative_degree_lt g (n + 1)
    (lt_of_le_of_lt hg.1 (by exact_mod_cast Nat.lt_succ_self _))
  rw [← pick_right n hn g r hg hr, ← gauss_unit n gauss h _ (mul_degree_lt _ _ (n + 1) n _ hd hr (by omega))]
  exact sum_congr rfl fun i _ => by rw [eval_mul]; ring

/-- And from above an edge. -/
theorem sum_above (n : Nat) (hn : 0 < n) (gauss : List ℝ × List ℝ) (h : GaussRule n gauss) (g r : ℝ[X])
    (hg : IsCorrection 2 (n + 1) g) (hr : r.degree < (n : ℕ)) :
    ∑ i ∈ range n, gauss.2.getD i 0 / 2 *
        (r.eval ((gauss.1.getD i 0 + 1) / 2) * (derivative g).eval (1 - (gauss.1.getD i 0 + 1) / 2)) = r.eval 0 := by
  have hd : (derivative g).degree < (n + 1 : ℕ) := derivative_degree_lt g (n + 1)
    (lt_of_le_of_lt hg.1 (by exact_mod_cast Nat.lt_succ_self _))
  have hl : (C 1 - X : ℝ[X]).natDegree ≤ 1 := by compute_degree
  have h1 := pick_right n hn g (r.comp (C 1 - X)) hg (comp_degree_lt _ _ hl _ hr)
  rw [eval_comp, show (C (1 : ℝ) - X : ℝ[X]).eval 1 = 0 by simp] at h1
  have h2 := gauss_unit n gauss h ((derivative g * r.comp (C 1 - X)).comp (C 1 - X))
    (comp_degree_lt _ _ hl _ (mul_degree_lt _ _ (n + 1) n _ hd (comp_degree_lt _ _ hl _ hr) (by omega)))
  have h3 : ∫ x in (0 : ℝ)..1, ((derivative g * r.comp (C 1 - X)).comp (C 1 - X)).eval x = r.eval 0 := by
    rw [← h1, ← sub_self (1 : ℝ), show (1 : ℝ) - 1 = 1 - 1 by rfl]
    have := intervalIntegral.integral_comp_sub_left (a := (0 : ℝ)) (b := 1)
      (fun x => (derivative g * r.comp (C 1 - X)).eval x) 1
    rw [sub_self, sub_zero] at this
    rw [sub_self, ← this]
    congr 1
    funext x
    rw [eval_comp]
    simp
  rw [← h3, ← h2]
  apply sum_congr rfl
  intro i _
  have e : (C (1 : ℝ) - X : ℝ[X]).eval ((gauss.1.getD i 0 + 1) / 2) = 1 - (gauss.1.getD i 0 + 1) / 2 := by simp
  rw [eval_comp, eval_mul, eval_comp, e, show (C (1 : ℝ) - X : ℝ[X]).eval (1 - (gauss.1.getD i 0 + 1) / 2) =
    (gauss.1.getD i 0 + 1) / 2 by simp]
  ring

/-! ### The identity -/

theorem init_cases {solve : Dgesv} {n N nEdge : Nat} {node edge : Nat → ℝ} {P : Penalty}
    (h : penaltyInit solve n N nEdge node edge = .ok P) (hm : 1 < N / n) :
    0 < n ∧ N = N / n * n ∧ ∃ f, getDerivatives solve 2 (n + 1) = .ok f ∧
      P = ⟨n, N / n, ⟨N, N, penaltyLeftRow f n (N / n) node edge⟩, ⟨N, N, penaltyRightRow f n (N / n) node edge⟩⟩ := by
  unfold penaltyInit at h
  by_cases h0 : n = 0
  · rw [if_pos h0] at h; simp at h
  rw [if_neg h0, if_neg (by omega)] at h
  by_cases h1 : N = 0
  · rw [if_pos h1] at h; simp at h
  rw [if_neg h1] at h
  by_cases h2 : N % n ≠ 0
  · rw [if_pos h2] at h; simp at h
  rw [if_neg h2] at h
  by_cases h3 : nEdge < N + 1
  · rw [if_pos h3] at h; simp at h
  rw [if_neg h3] at h
  push Not at h2
  refine ⟨by omega, (Nat.div_mul_cancel (Nat.dvd_of_mod_eq_zero h2)).symm, ?_⟩
  cases hd : getDerivatives solve 2 (n + 1) with
  | exc => rw [hd] at h; simp at h
  | ub => rw [hd] at h; simp at h
  | ok f =>
    rw [hd] at h
    simp only [PenaltyRes.ok.injEq] at h
    exact ⟨f, rfl, h.symm⟩

/-- What level `i` of element `a` receives. -/
theorem received {solve : Dgesv} {n N nEdge : Nat} {node edge : Nat → ℝ} {P : Penalty}
    (h : penaltyInit solve n N nEdge node edge = .ok P) (hm : 1 < N / n) (hs : Solves solve) (g : ℝ[X])
    (hg : IsCorrection 2 (n + 1) g) (gauss : List ℝ × List ℝ) (hga : GaussRule n gauss) (ho : OnGauss n (N / n) node edge gauss)
    (w x out : Nat → ℝ) (sIn sOut : Nat) (hso : 0 < sOut) (p : Nat → ℝ[X]) (hp : ∀ a < N / n, (p a).degree < (n : ℕ))
    (ht : ∀ a < N / n, Through (p a) node (fun l => x (l * sIn)) (a * n) n) (a i : Nat) (ha : a < N / n) (hi : i < n) :
    penaltyApply P w x out sIn sOut ((a * n + i) * sOut) - out ((a * n + i) * sOut) =
      (if a < N / n - 1 then 1 / 2 * (derivative g).eval ((gauss.1.getD i 0 + 1) / 2) /
        (edge ((a + 1) * n) - edge (a * n)) * jump n edge p a * w a else 0) -
      (if 1 ≤ a then 1 / 2 * (derivative g).eval (1 - (gauss.1.getD i 0 + 1) / 2) /
        (edge ((a + 1) * n) - edge (a * n)) * jump n edge p (a - 1) * w (a - 1) else 0) := by
  obtain ⟨hn, hN, f, hf, rfl⟩ := init_cases h hm
  obtain ⟨-, f', hf', hfg⟩ := C87_correction solve hs 2 (n + 1) (by omega) (by omega)
  obtain rfl : f = f' := by rw [hf] at hf'; simpa using hf'
  have hk : a * n + i < N / n * n := by
    calc a * n + i < a * n + n := by omega
      _ = (a + 1) * n := by ring
      _ ≤ N / n * n := Nat.mul_le_mul_right _ ha
  have hka : (a * n + i) / n = a := by
    rw [Nat.mul_comm, Nat.mul_add_div hn, Nat.div_eq_of_lt hi, Nat.add_zero]
  rw [apply_at _ hn hN hN w x out sIn sOut hso _ hk]
  dsimp only
  rw [hka]
  obtain ⟨hlt, hnode⟩ := ho a ha
  have hD : edge ((a + 1) * n) - edge (a * n) ≠ 0 := by linarith
  have hy : (node (a * n + i) - edge (a * n)) / (edge ((a + 1) * n) - edge (a * n)) = (gauss.1.getD i 0 + 1) / 2 := by
    rw [hnode i hi]; field_simp; ring
  have hint : ∀ c < N / n, ∀ s, Interp.apply (lagrangeCoeffs n (fun i => node (c * n + i)) s)
      (fun i => x ((c * n + i) * sIn)) = (p c).eval s := fun c hc s =>
    lagrange_through n (c * n) node (fun l => x (l * sIn)) s (p c) (hp c hc) (gauss_apart n _ node edge gauss hga ho c hc) (ht c hc)
  rw [add_assoc, add_sub_cancel_left, sub_eq_add_neg]
  congr 1
  · by_cases h1 : a < N / n - 1
    · rw [if_pos h1, if_pos h1]
      unfold penaltyLeftRow
      dsimp only
      rw [hka, if_pos h1, jumpRow_loop, hy, hfg g hg]
      have e1 := hint a ha (edge ((a + 1) * n))
      have e2 := hint (a + 1) (by omega) (edge ((a + 1) * n))
      rw [show (a + 1) * n = a * n + n by ring] at e2 ⊢
      rw [show (a + 1) * n = a * n + n by ring] at e1
      rw [e1, e2, jump, show (a + 1) * n = a * n + n by ring]
      ring
    · rw [if_neg h1, if_neg h1]
  · by_cases h1 : 1 ≤ a
    · rw [if_pos h1, if_pos h1]
      unfold penaltyRightRow
      dsimp only
      rw [hka, if_pos ⟨h1, ha⟩, jumpRow_loop, hy, hfg g hg]
      obtain ⟨c, rfl⟩ : ∃ c, a = c + 1 := ⟨a - 1, by omega⟩
      rw [Nat.add_sub_cancel]
      have e1 := hint c (by omega) (edge ((c + 1) * n))
      have e2 := hint (c + 1) ha (edge ((c + 1) * n))
      rw [show (c + 1) * n = c * n + n by ring] at e2
      rw [show (c + 1) * n = c * n + n by ring] at e1
      rw [jump, show (c + 1) * n = c * n + n by ring, e1, e2, div_neg]
      ring
    · rw [if_neg h1, if_neg h1, neg_zero]

/-- **C87 (energy).**  With the levels at the Gauss points of their elements, the penalty added to a column `x`, weighted with
any column `r` and integrated over the column, is minus half the sum over the inner element edges of the weight of the edge, the
jump of `r` and the jump of `x`. -/
theorem C87_energy (solve : Dgesv) (hs : Solves solve) (n N nEdge : Nat) (node edge : Nat → ℝ) (P : Penalty)
    (h : penaltyInit solve n N nEdge node edge = .ok P) (hm : 1 < N / n) (gauss : List ℝ × List ℝ) (hga : GaussRule n gauss)
    (ho : OnGauss n (N / n) node edge gauss) (w x out r : Nat → ℝ) (sIn sOut : Nat) (hso : 0 < sOut) (p q : Nat → ℝ[X])
    (hp : ∀ a < N / n, (p a).degree < (n : ℕ)) (hq : ∀ a < N / n, (q a).degree < (n : ℕ))
    (htp : ∀ a < N / n, Through (p a) node (fun l => x (l * sIn)) (a * n) n)
    (htq : ∀ a < N / n, Through (q a) node r (a * n) n) :
    ∑ k ∈ range N, levelWeight n edge gauss k * r k *
        (penaltyApply P w x out sIn sOut (k * sOut) - out (k * sOut)) =
      -(1 / 2) * ∑ a ∈ range (N / n - 1), w a * jump n edge q a * jump n edge p a := by
  obtain ⟨hn, hN, -⟩ := init_cases h hm
  obtain ⟨⟨g, hg, -⟩, -⟩ := C87_correction solve hs 2 (n + 1) (by omega) (by omega)
  have hel : ∀ a ∈ range (N / n), ∑ i ∈ range n, levelWeight n edge gauss (a * n + i) * r (a * n + i) *
        (penaltyApply P w x out sIn sOut ((a * n + i) * sOut) - out ((a * n + i) * sOut)) =
      (if a < N / n - 1 then 1 / 2 * w a * jump n edge p a * (q a).eval (edge ((a + 1) * n)) else 0) -
      (if 1 ≤ a then 1 / 2 * w (a - 1) * jump n edge p (a - 1) * (q a).eval (edge (a * n)) else 0) := by
    intro a ha
    rw [mem_range] at ha
    obtain ⟨hlt, hnode⟩ := ho a ha
    set D := edge ((a + 1) * n) - edge (a * n) with hDdef
    have hD : D ≠ 0 := by rw [hDdef]; linarith
    let l : ℝ[X] := C (edge (a * n)) + C D * X
    have hl : l.natDegree ≤ 1 := by unfold l; compute_degree
    have hqd : ((q a).comp l).degree < (n : ℕ) := comp_degree_lt _ _ hl _ (hq a ha)
    have s1 := sum_below n hn gauss hga g _ hg hqd
    have s2 := sum_above n hn gauss hga g _ hg hqd
    rw [eval_comp, show l.eval 1 = edge ((a + 1) * n) by simp [l, hDdef]] at s1
    rw [eval_comp, show l.eval 0 = edge (a * n) by simp [l]] at s2
    rw [← s1, ← s2]
    have ite_mul_sum : ∀ (c : Prop) [Decidable c] (v : ℝ) (F : Nat → ℝ), (if c then v * ∑ i ∈ range n, F i else 0) =
        ∑ i ∈ range n, if c then v * F i else 0 := by
      intro c _ v F
      by_cases hc : c <;> simp [hc, mul_sum]
    rw [ite_mul_sum, ite_mul_sum, ← sum_sub_distrib]
    apply sum_congr rfl
    intro i hi
    rw [mem_range] at hi
    rw [received h hm hs g hg gauss hga ho w x out sIn sOut hso p hp htp a i ha hi]
    have hka : (a * n + i) / n = a := by
      rw [Nat.mul_comm, Nat.mul_add_div hn, Nat.div_eq_of_lt hi, Nat.add_zero]
    have hkm : (a * n + i) % n = i := by
      rw [Nat.mul_comm, Nat.mul_add_mod, Nat.mod_eq_of_lt hi]
    have hr : r (a * n + i) = ((q a).comp l).eval ((gauss.1.getD i 0 + 1) / 2) := by
      rw [← htq a ha i hi, eval_comp, hnode i hi]
      simp [l]
    unfold levelWeight
    rw [hka, hkm, hr, ← hDdef]
    by_cases h1 : a < N / n - 1 <;> by_cases h2 : 1 ≤ a <;>
      simp only [h1, h2, if_true, if_false, sub_zero, zero_sub, mul_zero] <;> field_simp
  have hsum : ∑ k ∈ range N, levelWeight n edge gauss k * r k *
        (penaltyApply P w x out sIn sOut (k * sOut) - out (k * sOut)) =
      ∑ a ∈ range (N / n), ∑ i ∈ range n, levelWeight n edge gauss (a * n + i) * r (a * n + i) *
        (penaltyApply P w x out sIn sOut ((a * n + i) * sOut) - out ((a * n + i) * sOut)) := by
    conv_lhs => rw [hN]
    rw [element_sum n (N / n) (fun k => levelWeight n edge gauss k * r k *
        (penaltyApply P w x out sIn sOut (k * sOut) - out (k * sOut)))]
  rw [hsum, sum_congr rfl hel, sum_sub_distrib]
  obtain ⟨M, hM⟩ : ∃ M, N / n = M + 1 := ⟨N / n - 1, by omega⟩
  rw [hM, Nat.add_sub_cancel, sum_range_succ, if_neg (lt_irrefl _), add_zero,
    sum_range_succ' (fun a => if 1 ≤ a then 1 / 2 * w (a - 1) * jump n edge p (a - 1) * (q a).eval (edge (a * n)) else 0),
    if_neg (by omega), add_zero, ← sum_sub_distrib, mul_sum]
  apply sum_congr rfl
  intro a ha
  rw [mem_range] at ha
  rw [if_pos ha, if_pos (by omega), Nat.add_sub_cancel]
  simp only [jump]
  ring

/-- **C87 (conserves).**  The penalty does not change the integral of the column. -/
theorem C87_conserves (solve : Dgesv) (hs : Solves solve) (n N nEdge : Nat) (node edge : Nat → ℝ) (P : Penalty)
    (h : penaltyInit solve n N nEdge node edge = .ok P) (hm : 1 < N / n) (gauss : List ℝ × List ℝ) (hga : GaussRule n gauss)
    (ho : OnGauss n (N / n) node edge gauss) (w x out : Nat → ℝ) (sIn sOut : Nat) (hso : 0 < sOut) :
    ∑ k ∈ range N, levelWeight n edge gauss k * penaltyApply P w x out sIn sOut (k * sOut) =
      ∑ k ∈ range N, levelWeight n edge gauss k * out (k * sOut) := by
  obtain ⟨hn, -, -⟩ := init_cases h hm
  have hinj : ∀ a < N / n, Set.InjOn (fun i => node (a * n + i)) (range n : Finset ℕ) := by
    intro a ha i hi j hj hij
    by_contra hne
    exact gauss_apart n _ node edge gauss hga ho a ha i j (mem_range.1 (Finset.mem_coe.1 hi)) (mem_range.1 (Finset.mem_coe.1 hj)) hne hij
  have key := C87_energy solve hs n N nEdge node edge P h hm gauss hga ho w x out (fun _ => 1) sIn sOut hso
    (fun a => Lagrange.interpolate (range n) (fun i => node (a * n + i)) (fun i => x ((a * n + i) * sIn))) (fun _ => 1)
    (fun a ha => by
      have := Lagrange.degree_interpolate_lt (s := range n) (v := fun i => node (a * n + i)) (fun i => x ((a * n + i) * sIn)) (hinj a ha)
      rwa [card_range] at this)
    (fun a _ => by rw [degree_one]; exact_mod_cast hn)
    (fun a ha i hi => Lagrange.eval_interpolate_at_node (s := range n) (v := fun i => node (a * n + i))
      (fun i => x ((a * n + i) * sIn)) (hinj a ha) (mem_range.2 hi))
    (fun a _ i _ => by simp)
  rw [sum_eq_zero (s := range (N / n - 1)) (fun a _ => by simp [jump]), mul_zero] at key
  rw [← sub_eq_zero, ← sum_sub_distrib, ← key]
  exact sum_congr rfl fun k _ => by ring

/-- **C87 (dissipates).**  With weights that are not negative the penalty takes energy out of the column it is computed from:
the more, the larger the jumps. -/
theorem C87_dissipates (solve : Dgesv) (hs : Solves solve) (n N nEdge : Nat) (node edge : Nat → ℝ) (P : Penalty)
    (h : penaltyInit solve n N nEdge node edge = .ok P) (hm : 1 < N / n) (gauss : List ℝ × List ℝ) (hga : GaussRule n gauss)
    (ho : OnGauss n (N / n) node edge gauss) (w x out : Nat → ℝ) (sIn sOut : Nat) (hso : 0 < sOut) (p : Nat → ℝ[X])
    (hp : ∀ a < N / n, (p a).degree < (n : ℕ)) (htp : ∀ a < N / n, Through (p a) node (fun l => x (l * sIn)) (a * n) n)
    (hw : ∀ a < N / n - 1, 0 ≤ w a) :
    ∑ k ∈ range N, levelWeight n edge gauss k * x (k * sIn) *
        (penaltyApply P w x out sIn sOut (k * sOut) - out (k * sOut)) =
      -(1 / 2) * ∑ a ∈ range (N / n - 1), w a * jump n edge p a ^ 2 ∧
    ∑ k ∈ range N, levelWeight n edge gauss k * x (k * sIn) *
        (penaltyApply P w x out sIn sOut (k * sOut) - out (k * sOut)) ≤ 0 := by
  have key := C87_energy solve hs n N nEdge node edge P h hm gauss hga ho w x out (fun k => x (k * sIn)) sIn sOut hso p p hp hp htp htp
  have e : ∑ a ∈ range (N / n - 1), w a * jump n edge p a * jump n edge p a =
      ∑ a ∈ range (N / n - 1), w a * jump n edge p a ^ 2 := sum_congr rfl fun a _ => by ring
  rw [e] at key
  refine ⟨key, ?_⟩
  rw [key]
  have : 0 ≤ ∑ a ∈ range (N / n - 1), w a * jump n edge p a ^ 2 :=
    sum_nonneg fun a ha => mul_nonneg (hw a (mem_range.1 ha)) (sq_nonneg _)
  linarith

/-- **C87 (smooth columns).**  A column whose polynomials join at the element edges is not changed, and cells that belong to no
level are never written. -/
theorem C87_continuous (solve : Dgesv) (hs : Solves solve) (n N nEdge : Nat) (node edge : Nat → ℝ) (P : Penalty)
    (h : penaltyInit solve n N nEdge node edge = .ok P) (hm : 1 < N / n) (gauss : List ℝ × List ℝ) (hga : GaussRule n gauss)
    (ho : OnGauss n (N / n) node edge gauss) (w x out : Nat → ℝ) (sIn sOut : Nat) (hso : 0 < sOut) :
    (∀ p : Nat → ℝ[X], (∀ a < N / n, (p a).degree < (n : ℕ)) →
      (∀ a < N / n, Through (p a) node (fun l => x (l * sIn)) (a * n) n) → (∀ a < N / n - 1, jump n edge p a = 0) →
      penaltyApply P w x out sIn sOut = out) ∧
    ∀ j, (∀ k < N, j ≠ k * sOut) → penaltyApply P w x out sIn sOut j = out j := by
  have hcase := init_cases h hm
  obtain ⟨hn, hN, f, hf, hP⟩ := hcase
  have hoth : ∀ j, (∀ k < N, j ≠ k * sOut) → penaltyApply P w x out sIn sOut j = out j := by
    intro j hj
    apply apply_other P (by rw [hP]; exact hn) w x out sIn sOut hso j
    intro k hk
    apply hj
    rw [hP] at hk
    rw [hN]; exact hk
  refine ⟨fun p hp ht hj => ?_, hoth⟩
  obtain ⟨⟨g, hg, -⟩, -⟩ := C87_correction solve hs 2 (n + 1) (by omega) (by omega)
  funext j
  by_cases hjk : ∃ k < N, j = k * sOut
  · obtain ⟨k, hk, rfl⟩ := hjk
    have e : k = k / n * n + k % n := by have := Nat.div_add_mod k n; rw [Nat.mul_comm] at this; omega
    have ha : k / n < N / n := (Nat.div_lt_iff_lt_mul hn).2 (by rw [← hN]; exact hk)
    have hr := received h hm hs g hg gauss hga ho w x out sIn sOut hso p hp ht (k / n) (k % n) ha (Nat.mod_lt _ hn)
    rw [← e] at hr
    rw [← sub_eq_zero, hr]
    by_cases h1 : k / n < N / n - 1 <;> by_cases h2 : 1 ≤ k / n
    · rw [if_pos h1, if_pos h2, hj _ h1, hj _ (by omega)]; ring
    · rw [if_pos h1, if_neg h2, hj _ h1]; ring
    · rw [if_neg h1, if_pos h2, hj _ (by omega)]; ring
    · rw [if_neg h1, if_neg h2]; ring
  · exact hoth j fun k hk he => hjk ⟨k, hk, he⟩

/-- **C87 (refused).**  When setting up fails, and that a column of one element gets no penalty. -/
theorem C87_refused (solve : Dgesv) (n N nEdge : Nat) (node edge : Nat → ℝ) (hn : 0 < n) :
    (penaltyInit solve n N nEdge node edge = .exc ↔ N / n ≠ 1 ∧ (N = 0 ∨ N % n ≠ 0)) ∧
    (∀ P w x out sIn sOut, penaltyInit solve n N nEdge node edge = .ok P → N / n = 1 →
      penaltyApply P w x out sIn sOut = out) := by
  constructor
  · unfold penaltyInit
    rw [if_neg (by omega)]
    by_cases h1 : N / n = 1
    · rw [if_pos h1]; simp [h1]
    rw [if_neg h1]
    by_cases h2 : N = 0
    · rw [if_pos h2]; simp [h2]
    rw [if_neg h2]
    by_cases h3 : N % n ≠ 0
    · rw [if_pos h3]; simp [h1, h3]
    rw [if_neg h3]
    push Not at h3
    have : getDerivatives solve 2 (n + 1) ≠ .exc := by
      rw [Ne, (C87_correction_refused solve 2 (n + 1)).1]; omega
    by_cases h4 : nEdge < N + 1
    · rw [if_pos h4]; simp [h2, h3]
    · rw [if_neg h4]
      cases hd : getDerivatives solve 2 (n + 1) with
      | exc => exact absurd hd this
      | ub => simp [h2, h3]
      | ok f => simp [h2, h3]
  · intro P w x out sIn sOut h h1
    unfold penaltyInit at h
    rw [if_neg (by omega), if_pos h1] at h
    simp only [PenaltyRes.ok.injEq] at h
    rw [← h, h1]
    simp [penaltyApply, addBuffer]

/-! ### The reconstructed operator -/

theorem reconJumpRow_loop (h N : Nat) (hh : 0 < h) (node edge : Nat → ℝ) (sl sr : ℝ) (k : Nat) (hk1 : 1 ≤ k) (hk : k < N) (d : ℝ)
    (y : Nat → ℝ) :
    rowLoop (reconJumpRow (2 * h) N node edge sl sr k d) 0 y =
      (sl * Interp.apply (lagrangeCoeffs (min (k + h - 1) N - (k - h)) (fun i => node (k - h + i)) (edge k)) (fun i => y (k - h + i)) +
        sr * Interp.apply (lagrangeCoeffs (min (k + h) N - (k + 1 - h)) (fun i => node (k + 1 - h + i)) (edge k))
          (fun i => y (k + 1 - h + i))) / d := by
  rw [rowLoop_eq, zero_add, apply_eq, apply_eq, length_lagrange, length_lagrange]
  have eL : leftStencil (2 * h) N k = (k - h, min (k + h - 1) N) := by
    unfold leftStencil
    rw [show (2 * h - 2) / 2 + 1 = h by omega, show k + (2 * h - 2) / 2 = k + h - 1 by omega]
  have eR : rightStencil (2 * h) N k = (k + 1 - h, min (k + h) N) := by
    unfold rightStencil
    rw [show k - (2 * h - 2) / 2 = k + 1 - h by omega, show k + (2 * h - 2) / 2 + 1 = k + h by omega]
  unfold reconJumpRow
  rw [eL, eR]
  dsimp only
  have hL : k - h ≤ min (k + h - 1) N := by omega
  have hR : k + 1 - h ≤ min (k + h) N := by omega
  generalize lagrangeCoeffs (min (k + h - 1) N - (k - h)) (fun i => node (k - h + i)) (edge k) = cl
  generalize lagrangeCoeffs (min (k + h) N - (k + 1 - h)) (fun i => node (k + 1 - h + i)) (edge k) = cr
  have split : ∀ j ∈ Ico (k - h) (min (k + h) N),
      (if k - h ≤ j ∧ j < min (k + h) N then
        (if k + 1 - h ≤ j ∧ j < min (k + h) N then
          (if k - h ≤ j ∧ j < min (k + h - 1) N then 0 + sl * cl.getD (j - (k - h)) 0 else 0) + sr * cr.getD (j - (k + 1 - h)) 0
          else if k - h ≤ j ∧ j < min (k + h - 1) N then 0 + sl * cl.getD (j - (k - h)) 0 else 0) / d
        else if k + 1 - h ≤ j ∧ j < min (k + h) N then
          (if k - h ≤ j ∧ j < min (k + h - 1) N then 0 + sl * cl.getD (j - (k - h)) 0 else 0) + sr * cr.getD (j - (k + 1 - h)) 0
          else if k - h ≤ j ∧ j < min (k + h - 1) N then 0 + sl * cl.getD (j - (k - h)) 0 else 0) * y j =
      (if j < min (k + h - 1) N then sl * cl.getD (j - (k - h)) 0 * y j / d else 0) +
      (if k + 1 - h ≤ j then sr * cr.getD (j - (k + 1 - h)) 0 * y j / d else 0) := by
    intro j hj
    rw [mem_Ico] at hj
    rw [if_pos hj]
    by_cases h1 : j < min (k + h - 1) N <;> by_cases h2 : k + 1 - h ≤ j
    · rw [if_pos ⟨h2, hj.2⟩, if_pos ⟨hj.1, h1⟩, if_pos h1, if_pos h2]; ring
    · rw [if_neg (fun x => h2 x.1), if_pos ⟨hj.1, h1⟩, if_pos h1, if_neg h2]; ring
    · rw [if_pos ⟨h2, hj.2⟩, if_neg (fun x => h1 x.2), if_neg h1, if_pos h2]; ring
    · rw [if_neg (fun x => h2 x.1), if_neg (fun x => h1 x.2), if_neg h1, if_neg h2]; ring
  rw [sum_congr rfl split, sum_add_distrib, ← sum_Ico_consecutive _ hL (by omega : min (k + h - 1) N ≤ min (k + h) N),
    ← sum_Ico_consecutive (fun j => if k + 1 - h ≤ j then sr * cr.getD (j - (k + 1 - h)) 0 * y j / d else 0)
      (by omega : k - h ≤ k + 1 - h) hR]
  have z1 : ∑ j ∈ Ico (min (k + h - 1) N) (min (k + h) N), (if j < min (k + h - 1) N then sl * cl.getD (j - (k - h)) 0 * y j / d else 0) = 0 :=
    sum_eq_zero fun j hj => by rw [mem_Ico] at hj; rw [if_neg (by omega)]
  have z2 : ∑ j ∈ Ico (k - h) (k + 1 - h), (if k + 1 - h ≤ j then sr * cr.getD (j - (k + 1 - h)) 0 * y j / d else 0) = 0 :=
    sum_eq_zero fun j hj => by rw [mem_Ico] at hj; rw [if_neg (by omega)]
  rw [z1, z2, add_zero, zero_add, sum_Ico_eq_sum_range, sum_Ico_eq_sum_range, add_div, mul_sum, mul_sum, div_eq_mul_inv,
    div_eq_mul_inv, sum_mul, sum_mul]
  congr 1
  · apply sum_congr rfl
    intro i hi
    rw [mem_range] at hi
    rw [if_pos (by omega), Nat.add_sub_cancel_left]
    ring
  · apply sum_congr rfl
    intro i hi
    rw [mem_range] at hi
    rw [if_pos (by omega), Nat.add_sub_cancel_left]
    ring

/-- **C87 (finite volumes, energy).**  The reconstructed penalty of even order `2 h` against any column `r`: minus half the sum
over inner interfaces of the weight, the difference of `r` and the difference of the two reconstructions of `x`, from the `h`
levels below and `h - 1` above and the other way round, fewer at the ends of the column. -/
theorem C87_volumes (h N nEdge : Nat) (hh : 0 < h) (node edge : Nat → ℝ) (P : Penalty)
    (hP : penaltyReconInit (2 * h) N nEdge node edge = .ok P) (hN : 2 ≤ N) (hinc : ∀ k < N, edge k < edge (k + 1))
    (hdist : DistinctNodes N node) (w x out r : Nat → ℝ) (sIn sOut : Nat) (hso : 0 < sOut) (below above : Nat → ℝ[X])
    (hb : ∀ k, 1 ≤ k → k < N → (below k).degree < (min (k + h - 1) N - (k - h) : ℕ) ∧
      Through (below k) node (fun l => x (l * sIn)) (k - h) (min (k + h - 1) N - (k - h)))
    (ha : ∀ k, 1 ≤ k → k < N → (above k).degree < (min (k + h) N - (k + 1 - h) : ℕ) ∧
      Through (above k) node (fun l => x (l * sIn)) (k + 1 - h) (min (k + h) N - (k + 1 - h))) :
    ∑ k ∈ range N, (edge (k + 1) - edge k) * r k * (penaltyApply P w x out sIn sOut (k * sOut) - out (k * sOut)) =
      -(1 / 2) * ∑ k ∈ range (N - 1), w k * (r (k + 1) - r k) *
        ((above (k + 1)).eval (edge (k + 1)) - (below (k + 1)).eval (edge (k + 1))) := by
  unfold penaltyReconInit at hP
  rw [if_neg (by omega), if_neg (by omega)] at hP
  by_cases hc : nEdge ≠ N + 1 ∨ 2 * h = 0
  · rw [if_pos hc] at hP; simp at hP
  rw [if_neg hc] at hP
  simp only [PenaltyRes.ok.injEq] at hP
  subst hP
  let J : Nat → ℝ := fun k => (above k).eval (edge k) - (below k).eval (edge k)
  have sub : ∀ b c, b + c ≤ N → DistinctNodes c (fun i => node (b + i)) := fun b c hbc i j hi hj hij =>
    hdist (b + i) (b + j) (by omega) (by omega) (by omega)
  have hval : ∀ k, 1 ≤ k → k < N → ∀ sl sr d, rowLoop (reconJumpRow (2 * h) N node edge sl sr k d) 0 (fun l => x (l * sIn)) =
      (sl * (below k).eval (edge k) + sr * (above k).eval (edge k)) / d := by
    intro k h1 h2 sl sr d
    rw [reconJumpRow_loop h N hh node edge sl sr k h1 h2 d (fun l => x (l * sIn)),
      lagrange_through _ (k - h) node (fun l => x (l * sIn)) (edge k) (below k) (hb k h1 h2).1 (sub _ _ (by omega)) (hb k h1 h2).2,
      lagrange_through _ (k + 1 - h) node (fun l => x (l * sIn)) (edge k) (above k) (ha k h1 h2).1 (sub _ _ (by omega)) (ha k h1 h2).2]
  have hk : ∀ k ∈ range N, (edge (k + 1) - edge k) * r k * (penaltyApply
        ⟨1, N, ⟨N, N, fun k => if k + 1 < N then reconJumpRow (2 * h) N node edge (-0.5) 0.5 (k + 1) (edge (k + 1) - edge k) else blank⟩,
          ⟨N, N, fun k => if 1 ≤ k ∧ k < N then reconJumpRow (2 * h) N node edge 0.5 (-0.5) k (edge (k + 1) - edge k) else blank⟩⟩
        w x out sIn sOut (k * sOut) - out (k * sOut)) =
      (if k + 1 < N then 1 / 2 * w k * r k * J (k + 1) else 0) - (if 1 ≤ k then 1 / 2 * w (k - 1) * r k * J k else 0) := by
    intro k hk
    rw [mem_range] at hk
    have hd : edge (k + 1) - edge k ≠ 0 := by linarith [hinc k hk]
    rw [apply_at _ one_pos (Nat.mul_one N).symm (Nat.mul_one N).symm w x out sIn sOut hso k (by dsimp only; omega)]
    dsimp only
    rw [Nat.div_one]
    by_cases h1 : k + 1 < N <;> by_cases h2 : 1 ≤ k
    · rw [if_pos (by omega), if_pos h2, if_pos h1, if_pos ⟨h2, hk⟩, if_pos h1, if_pos h2, hval (k + 1) (by omega) h1, hval k h2 hk]
      simp only [J]
      field_simp
      ring
    · rw [if_pos (by omega), if_neg h2, if_pos h1, if_pos h1, if_neg h2, hval (k + 1) (by omega) h1]
      simp only [J]
      field_simp
      ring
    · rw [if_neg (by omega), if_pos h2, if_pos ⟨h2, hk⟩, if_neg h1, if_pos h2, hval k h2 hk]
      simp only [J]
      field_simp
      ring
    · omega
  rw [sum_congr rfl hk, sum_sub_distrib]
  obtain ⟨M, rfl⟩ : ∃ M, N = M + 1 := ⟨N - 1, by omega⟩
  rw [Nat.add_sub_cancel, sum_range_succ, if_neg (by omega), add_zero,
    sum_range_succ' (fun k => if 1 ≤ k then 1 / 2 * w (k - 1) * r k * J k else 0), if_neg (by omega), add_zero, ← sum_sub_distrib, mul_sum]
  apply sum_congr rfl
  intro k hk
  rw [mem_range] at hk
  rw [if_pos (by omega), if_pos (by omega), Nat.add_sub_cancel]
  simp only [J]
  ring

/-- **C87 (finite volumes of order two).**  There the penalty conserves the integral of the column and takes energy out of it. -/
theorem C87_volumes_two (N nEdge : Nat) (node edge : Nat → ℝ) (P : Penalty)
    (hP : penaltyReconInit 2 N nEdge node edge = .ok P) (hN : 2 ≤ N) (hinc : ∀ k < N, edge k < edge (k + 1))
    (hdist : DistinctNodes N node) (w x out : Nat → ℝ) (sIn sOut : Nat) (hso : 0 < sOut) :
    ∑ k ∈ range N, (edge (k + 1) - edge k) * x (k * sIn) * (penaltyApply P w x out sIn sOut (k * sOut) - out (k * sOut)) =
      -(1 / 2) * ∑ k ∈ range (N - 1), w k * (x ((k + 1) * sIn) - x (k * sIn)) ^ 2 := by
  have key := C87_volumes 1 N nEdge one_pos node edge P hP hN hinc hdist w x out (fun k => x (k * sIn)) sIn sOut hso
    (fun k => C (x ((k - 1) * sIn))) (fun k => C (x (k * sIn)))
    (fun k h1 h2 => by
      have e : min (k + 1 - 1) N - (k - 1) = 1 := by omega
      rw [e]
      refine ⟨lt_of_le_of_lt degree_C_le (by norm_num), fun i hi => ?_⟩
      obtain rfl : i = 0 := by omega
      simp)
    (fun k h1 h2 => by
      have e : min (k + 1) N - (k + 1 - 1) = 1 := by omega
      rw [e]
      refine ⟨lt_of_le_of_lt degree_C_le (by norm_num), fun i hi => ?_⟩
      obtain rfl : i = 0 := by omega
      simp)
  rw [key]
  congr 1
  apply sum_congr rfl
  intro k _
  rw [eval_C, eval_C, Nat.add_sub_cancel]
  ring

/-- **C87 (finite volumes conserve).**  Whatever the even order, the penalty does not change the integral of the column. -/
theorem C87_volumes_conserve (h N nEdge : Nat) (hh : 0 < h) (node edge : Nat → ℝ) (P : Penalty)
    (hP : penaltyReconInit (2 * h) N nEdge node edge = .ok P) (hN : 2 ≤ N) (hinc : ∀ k < N, edge k < edge (k + 1))
    (hdist : DistinctNodes N node) (w x out : Nat → ℝ) (sIn sOut : Nat) (hso : 0 < sOut) :
    ∑ k ∈ range N, (edge (k + 1) - edge k) * penaltyApply P w x out sIn sOut (k * sOut) =
      ∑ k ∈ range N, (edge (k + 1) - edge k) * out (k * sOut) := by
  have hex : ∀ b c, b + c ≤ N → ∃ p : ℝ[X], p.degree < (c : ℕ) ∧ Through p node (fun l => x (l * sIn)) b c := by
    intro b c hbc
    have hinj : Set.InjOn (fun i => node (b + i)) (range c : Finset ℕ) := by
      intro i hi j hj hij
      by_contra hne
      have hi' := mem_range.1 (Finset.mem_coe.1 hi)
      have hj' := mem_range.1 (Finset.mem_coe.1 hj)
      exact hdist (b + i) (b + j) (by omega) (by omega) (by omega) hij
    refine ⟨Lagrange.interpolate (range c) (fun i => node (b + i)) (fun i => x ((b + i) * sIn)), ?_, ?_⟩
    · have := Lagrange.degree_interpolate_lt (s := range c) (v := fun i => node (b + i)) (fun i => x ((b + i) * sIn)) hinj
      rwa [card_range] at this
    · intro i hi
      exact Lagrange.eval_interpolate_at_node (s := range c) (v := fun i => node (b + i)) (fun i => x ((b + i) * sIn)) hinj
        (mem_range.2 hi)
  have h1 : ∀ k, ∃ p : ℝ[X], k < N → 1 ≤ k → p.degree < (min (k + h - 1) N - (k - h) : ℕ) ∧
      Through p node (fun l => x (l * sIn)) (k - h) (min (k + h - 1) N - (k - h)) := fun k => by
    by_cases hk : k < N ∧ 1 ≤ k
    · obtain ⟨p, hp⟩ := hex (k - h) (min (k + h - 1) N - (k - h)) (by omega)
      exact ⟨p, fun _ _ => hp⟩
    · exact ⟨0, fun a b => absurd ⟨a, b⟩ hk⟩
  have h2 : ∀ k, ∃ p : ℝ[X], k < N → 1 ≤ k → p.degree < (min (k + h) N - (k + 1 - h) : ℕ) ∧
      Through p node (fun l => x (l * sIn)) (k + 1 - h) (min (k + h) N - (k + 1 - h)) := fun k => by
    by_cases hk : k < N ∧ 1 ≤ k
    · obtain ⟨p, hp⟩ := hex (k + 1 - h) (min (k + h) N - (k + 1 - h)) (by omega)
      exact ⟨p, fun _ _ => hp⟩
    · exact ⟨0, fun a b => absurd ⟨a, b⟩ hk⟩
  choose p hp using h1
  choose q hq using h2
  have key := C87_volumes h N nEdge hh node edge P hP hN hinc hdist w x out (fun _ => 1) sIn sOut hso p q
    (fun k a b => hp k b a) (fun k a b => hq k b a)
  simp only [sub_self, mul_zero, zero_mul, sum_const_zero] at key
  rw [← sub_eq_zero, ← sum_sub_distrib, ← key]
  exact sum_congr rfl fun k _ => by ring

/-- The hypotheses are met: three elements of order one with the midpoint rule, and a column that jumps. -/
example : ∃ (solve : Dgesv) (P : Penalty), Solves solve ∧
    penaltyInit solve 1 3 4 (fun i => (i : ℝ) + 1 / 2) (fun i => i) = .ok P ∧ GaussRule 1 ([0], [2]) ∧
    OnGauss 1 (3 / 1) (fun i => (i : ℝ) + 1 / 2) (fun i => i) ([0], [2]) ∧
    (∀ a : Nat, a < 3 / 1 → Through (C ((a : ℝ) ^ 2)) (fun i => (i : ℝ) + 1 / 2) (fun l => ((l * 1 : ℕ) : ℝ) ^ 2) (a * 1) 1) ∧
    jump 1 (fun i => i) (fun a => C ((a : ℝ) ^ 2)) 1 = 3 := by
  obtain ⟨solve, hs⟩ := solver_exists
  obtain ⟨-, f, hf, -⟩ := C87_correction solve hs 2 (1 + 1) (by omega) (by omega)
  refine ⟨solve, ⟨1, 3 / 1, ⟨3, 3, penaltyLeftRow f 1 (3 / 1) (fun i => (i : ℝ) + 1 / 2) (fun i => i)⟩, 
    ⟨3, 3, penaltyRightRow f 1 (3 / 1) (fun i => (i : ℝ) + 1 / 2) (fun i => i)⟩⟩, hs, ?_, ?_, ?_, ?_, ?_⟩
  · rw [penaltyInit, if_neg (by decide), if_neg (by decide), if_neg (by decide), if_neg (by decide), if_neg (by decide), hf]
  · refine ⟨⟨rfl, rfl⟩, fun p hp => ?_⟩
    have hnd : p.natDegree < 2 := by
      by_cases hz : p = 0
      · rw [hz]; simp
      · exact (natDegree_lt_iff_degree_lt hz).2 hp
    have lin : ∀ x, p.eval x = p.coeff 0 + p.coeff 1 * x := by
      intro x
      rw [eval_eq_sum_range' hnd]
      simp [sum_range_succ]
    have h2 := poly_ftc (C (p.coeff 0) * X + C (p.coeff 1 / 2) * X ^ 2) (-1) 1
    have h3 : ∀ x, (derivative (C (p.coeff 0) * X + C (p.coeff 1 / 2) * X ^ 2)).eval x = p.eval x := by
      intro x
      rw [lin]
      simp
      ring
    simp only [h3] at h2
    rw [h2]
    simp [quad, lin]
    ring
  · intro a ha
    refine ⟨by push_cast; linarith, fun i hi => ?_⟩
    obtain rfl : i = 0 := by omega
    push_cast
    norm_num
  · intro a ha i hi
    obtain rfl : i = 0 := by omega
    simp
  · norm_num [jump]

end Verif.Column
