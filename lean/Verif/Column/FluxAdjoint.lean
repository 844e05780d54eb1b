/-
C88, continued: the flux correction derivative is the adjoint of the derivative from interfaces to levels.
-/
import Verif.Column.FluxProps

namespace Verif.Column

open Finset Polynomial Verif.Interp Verif.Quad

/-- A function that reproduces the value at one point of a rule lumps into that point. -/
theorem lump (n : Nat) (Y W : Nat → ℝ) (hY : ∀ i j, i ≤ n → j ≤ n → i ≠ j → Y i ≠ Y j) (hW : ∀ j ≤ n, 0 < W j) (f : ℝ → ℝ)
    (e z : Nat) (he : e ≤ n) (hz : z ≤ n) (hez : e ≠ z) (hfz : f (Y z) = 0)
    (h : ∀ v : ℝ[X], v.degree < (n : ℕ) → ∑ j ∈ range (n + 1), W j * (v.eval (Y j) * f (Y j)) = v.eval (Y e)) :
    W e * f (Y e) = 1 ∧ ∀ j ≤ n, j ≠ e → f (Y j) = 0 := by
  have key : ∀ j ≤ n, j ≠ e → ∃ v : ℝ[X], v.eval (Y e) ≠ 0 ∧ v.eval (Y j) ≠ 0 ∧
      W j * (v.eval (Y j) * f (Y j)) + W e * (v.eval (Y e) * f (Y e)) = v.eval (Y e) := by
    intro j hj hje
    let v : ℝ[X] := ∏ i ∈ ((range (n + 1)).erase e).erase j, (X - C (Y i))
    have hvd : v.natDegree = n - 1 := by
      rw [natDegree_prod _ _ fun k _ => X_sub_C_ne_zero _]
      simp only [natDegree_X_sub_C, sum_const, smul_eq_mul, mul_one]
      rw [card_erase_of_mem (by simp; omega), card_erase_of_mem (by simp; omega), card_range]
      omega
    have hv0 : v ≠ 0 := Finset.prod_ne_zero_iff.2 fun k _ => X_sub_C_ne_zero _
    have hne : ∀ k ≤ n, (k = e ∨ k = j) → v.eval (Y k) ≠ 0 := by
      intro k hk hkk
      rw [eval_prod]
      refine Finset.prod_ne_zero_iff.2 fun i hi => ?_
      simp only [mem_erase, mem_range] at hi
      rw [eval_sub, eval_X, eval_C]
      exact sub_ne_zero.2 (hY k i hk (by omega) (by omega))
    have hzero : ∀ k ≤ n, k ≠ e → k ≠ j → v.eval (Y k) = 0 := by
      intro k hk h1 h2
      rw [eval_prod]
      exact prod_eq_zero (i := k) (by simp only [mem_erase, mem_range]; omega) (by simp)
    have hsum := h v (by rw [← natDegree_lt_iff_degree_lt hv0, hvd]; omega)
    rw [← add_sum_erase _ _ (mem_range.2 (show e < n + 1 by omega)),
      ← add_sum_erase _ _ (mem_erase.2 ⟨hje, mem_range.2 (show j < n + 1 by omega)⟩), sum_eq_zero (fun k hk => by
        simp only [mem_erase, mem_range] at hk
        rw [hzero k (by omega) (by omega) (by omega)]; ring), add_zero] at hsum
    exact ⟨v, hne e he (Or.inl rfl), hne j hj (Or.inr rfl), by linarith⟩
  have h1 : W e * f (Y e) = 1 := by
    obtain ⟨v, v1, v2, v3⟩ := key z hz (Ne.symm hez)
    rw [hfz] at v3
    have : v.eval (Y e) * (W e * f (Y e)) = v.eval (Y e) * 1 := by linarith
    exact mul_left_cancel₀ v1 this
  refine ⟨h1, fun j hj hje => ?_⟩
  obtain ⟨v, v1, v2, v3⟩ := key j hj hje
  have h2 : W j * v.eval (Y j) * f (Y j) = 0 := by
    have : W e * (v.eval (Y e) * f (Y e)) = v.eval (Y e) := by
      rw [show W e * (v.eval (Y e) * f (Y e)) = v.eval (Y e) * (W e * f (Y e)) by ring, h1, mul_one]
    linarith
  rcases mul_eq_zero.1 h2 with h3 | h3
  · rcases mul_eq_zero.1 h3 with h4 | h4
    · exact absurd h4 (hW j hj).ne'
    · exact absurd h4 v2
  · exact h3

/-- A rule on [0, 1]. -/
theorem rule_unit (k d : Nat) (rule : List ℝ × List ℝ) (hsz : HasSize rule k)
    (hex : ∀ p : ℝ[X], p.degree < (d : ℕ) → quad rule (fun x => p.eval x) = ∫ x in (-1 : ℝ)..1, p.eval x) (p : ℝ[X])
    (hp : p.degree < (d : ℕ)) :
    ∑ i ∈ range k, rule.2.getD i 0 / 2 * p.eval ((rule.1.getD i 0 + 1) / 2) = ∫ x in (0 : ℝ)..1, p.eval x := by
  rw [← rescale_exact rule d hex 0 1 p hp, quad_eq _ k (rescale_size rule k hsz 0 1)]
  apply sum_congr rfl
  intro i hi
  rw [mem_range] at hi
  have e1 : (rescale 0 1 rule).2.getD i 0 = rule.2.getD i 0 / 2 := by
    unfold rescale
    dsimp only
    rw [getD_map_zero _ _ (by ring)]; ring
  have e2 : (rescale 0 1 rule).1.getD i 0 = (rule.1.getD i 0 + 1) / 2 := by
    unfold rescale
    dsimp only
    have hlen : i < rule.1.length := by rw [hsz.1]; exact hi
    rw [List.getD_eq_getElem?_getD, List.getElem?_map, List.getD_eq_getElem?_getD, List.getElem?_eq_getElem hlen]
    simp; ring
  rw [e1, e2]

/-- The derivative of the flux correction picks out the value at the left end when turned around. -/
theorem pick_left (n : Nat) (hn : 0 < n) (g r : ℝ[X]) (hg : IsCorrection 2 (n + 1) g) (hr : r.degree < (n : ℕ)) :
    ∫ x in (0 : ℝ)..1, (r * (derivative g).comp (C 1 - X)).eval x = r.eval 0 := by
  have hl : (C 1 - X : ℝ[X]).natDegree ≤ 1 := by compute_degree
  have h1 := pick_right n hn g (r.comp (C 1 - X)) hg (comp_degree_lt _ _ hl _ hr)
  rw [eval_comp, show (C (1 : ℝ) - X : ℝ[X]).eval 1 = 0 by simp] at h1
  rw [← h1]
  have := intervalIntegral.integral_comp_sub_left (a := (0 : ℝ)) (b := 1)
    (fun x => (derivative g * r.comp (C 1 - X)).eval x) 1
  rw [sub_self, sub_zero] at this
  rw [← this]
  congr 1
  funext x
  simp only [eval_mul, eval_comp, eval_sub, eval_C, eval_X, sub_sub_cancel]
  ring

/-- At the points of a Gauss-Lobatto rule, the derivative of the flux correction is lumped into the end. -/
theorem lumped (n : Nat) (hn : 0 < n) (lob : List ℝ × List ℝ) (h : LobattoRule n lob) (g : ℝ[X]) (hg : IsCorrection 2 (n + 1) g) :
    lob.2.getD n 0 / 2 * (derivative g).eval 1 = 1 ∧ lob.2.getD 0 0 / 2 * (derivative g).eval 1 = 1 ∧
    (∀ j < n, (derivative g).eval ((lob.1.getD j 0 + 1) / 2) = 0) ∧
    (∀ j ≤ n, 0 < j → (derivative g).eval (1 - (lob.1.getD j 0 + 1) / 2) = 0) := by
  obtain ⟨hsz, h0, h1, hw, hinc, hex⟩ := h
  have hflat := correction_flat _ g hg
  have hd : (derivative g).degree < (n + 1 : ℕ) := derivative_degree_lt g (n + 1)
    (lt_of_le_of_lt hg.1 (by exact_mod_cast Nat.lt_succ_self _))
  have hl : (C 1 - X : ℝ[X]).natDegree ≤ 1 := by compute_degree
  have hY : ∀ i j, i ≤ n → j ≤ n → i ≠ j → (lob.1.getD i 0 + 1) / 2 ≠ (lob.1.getD j 0 + 1) / 2 := by
    intro i j hi hj hij he
    have he' : lob.1.getD i 0 = lob.1.getD j 0 := by linarith
    rcases Nat.lt_or_gt_of_ne hij with hlt | hlt
    · exact absurd he' (hinc i j hlt hj).ne
    · exact absurd he' (hinc j i hlt hi).ne'
  have hW : ∀ j ≤ n, 0 < lob.2.getD j 0 / 2 := fun j hj => half_pos (hw j hj)
  have r0 : (lob.1.getD 0 0 + 1) / 2 = 0 := by rw [h0]; norm_num
  have r1 : (lob.1.getD n 0 + 1) / 2 = 1 := by rw [h1]; norm_num
  have A := lump n (fun j => (lob.1.getD j 0 + 1) / 2) (fun j => lob.2.getD j 0 / 2) hY hW (fun y => (derivative g).eval y) n 0
    le_rfl (Nat.zero_le _) (by omega) (by rw [r0, hflat]) (by
      intro v hv
      rw [r1, ← pick_right n hn g v hg hv, ← rule_unit (n + 1) (2 * n) lob hsz hex _ (mul_degree_lt _ _ (n + 1) n _ hd hv (by omega))]
      exact sum_congr rfl fun j _ => by rw [eval_mul]; ring)
  have B := lump n (fun j => (lob.1.getD j 0 + 1) / 2) (fun j => lob.2.getD j 0 / 2) hY hW (fun y => (derivative g).eval (1 - y)) 0 n
    (Nat.zero_le _) le_rfl (by omega) (by rw [r1, sub_self, hflat]) (by
      intro v hv
      rw [r0, ← pick_left n hn g v hg hv, ← rule_unit (n + 1) (2 * n) lob hsz hex _
        (mul_degree_lt _ _ n (n + 1) _ hv (comp_degree_lt _ _ hl _ hd) (by omega))]
      apply sum_congr rfl
      intro j _
      rw [eval_mul, eval_comp]
      simp)
  rw [r1] at A
  rw [r0, sub_zero] at B
  exact ⟨A.1, B.1, fun j hj => A.2 j hj.le (by omega), fun j hj h => B.2 j hj (by omega)⟩

/-- **C88 (interfaces).**  With levels and interfaces at the Gauss and Gauss-Lobatto points of their elements and zero
boundaries, the corrections are lumped into the edges: every other interface gets the derivative of its own element. -/
theorem C88_interfaces (solve : Dgesv) (hs : Solves solve) (n N nEdge : Nat) (node edge : Nat → ℝ) (A : Op)
    (h : fluxInit solve .levels n N nEdge node edge (N + 1) edge true = .ok A)
    (hsep : Separated (fun b => edge (b * n)) (N / n)) (hx : ∀ b < N / n, ApartNodes n (fun i => node (b * n + i)))
    (lob : List ℝ × List ℝ) (hl : LobattoRule n lob) (ho : OnLobatto n (N / n) edge lob)
    (hin : ∀ a < N / n, ∀ j, 0 < j → j < n → InElement (fun b => edge (b * n)) (N / n) a (edge (a * n + j)))
    (x : Nat → ℝ) (p : Nat → ℝ[X]) (hp : ∀ b < N / n, (p b).degree < (n : ℕ))
    (ht : ∀ b < N / n, Through (p b) node x (b * n) n) :
    (∀ a < N / n, ∀ j ≤ n, (0 < j ∨ a = 0) → (j < n ∨ a + 1 = N / n) →
      applyRow A x (a * n + j) = (derivative (p a)).eval (edge (a * n + j))) ∧
    (∀ a, a + 1 < N / n → applyRow A x ((a + 1) * n) =
      ((derivative (p a)).eval (edge ((a + 1) * n)) + (derivative (p (a + 1))).eval (edge ((a + 1) * n))) / 2 +
        jump n edge p a / (lob.2.getD n 0 * (edge ((a + 1) * n) - edge (a * n)))) := by
  obtain ⟨hn, hN, hm, -⟩ := flux_cases h
  obtain ⟨⟨g, hg, -⟩, -⟩ := C87_correction solve hs 2 (n + 1) (by omega) (by omega)
  have key := C88_value solve hs .levels n N nEdge node edge (N + 1) edge true A h hsep hx x p hp ht g hg
  obtain ⟨l1, l2, l3, l4⟩ := lumped n hn lob hl g hg
  generalize N / n = m at *
  have e1 : ∀ a : Nat, (a + 1) * n = a * n + n := fun a => by ring
  have he := eps_pos
  constructor
  · intro a ha j hj hj0 hjn
    obtain ⟨o1, o2⟩ := ho a ha
    have hd : edge ((a + 1) * n) - edge (a * n) ≠ 0 := by linarith
    have hmem : InElement (fun b => edge (b * n)) m a (edge (a * n + j)) := by
      by_cases c1 : j = 0
      · have ha0 : a = 0 := by omega
        refine ⟨ha, Or.inl ha0, ?_⟩
        by_cases c2 : a + 1 = m
        · exact Or.inl c2
        · right
          have := hsep a ha
          dsimp only at this ⊢
          rw [c1, Nat.add_zero]
          linarith
      · by_cases c2 : j = n
        · refine ⟨ha, ?_, Or.inl (by omega)⟩
          right
          have := hsep a ha
          dsimp only at this ⊢
          rw [c2, ← e1]
          linarith
        · exact hin a ha j (by omega) (by omega)
    rw [(key (a * n + j) a).2.2.1 hmem]
    have hy : (edge (a * n + j) - edge (a * n)) / (edge ((a + 1) * n) - edge (a * n)) = (lob.1.getD j 0 + 1) / 2 := by
      rw [o2 j hj]; field_simp; ring
    rw [hy]
    have z1 : jumpBelow n m edge true p a * (derivative g).eval (1 - (lob.1.getD j 0 + 1) / 2) = 0 := by
      by_cases c : 0 < j
      · rw [l4 j hj c, mul_zero]
      · unfold jumpBelow
        rw [if_neg (by omega), if_neg (by simp), zero_mul]
    have z2 : jumpAbove n m edge true p a * (derivative g).eval ((lob.1.getD j 0 + 1) / 2) = 0 := by
      by_cases c : j < n
      · rw [l3 j c, mul_zero]
      · unfold jumpAbove
        rw [if_neg (by omega), if_neg (by simp), zero_mul]
    rw [z1, z2, add_zero, zero_div, add_zero]
  · intro a ha
    rw [(key ((a + 1) * n) a).2.2.2 ha rfl]
    have hd : edge ((a + 1) * n) - edge (a * n) ≠ 0 := by
      have := (ho a (by omega)).1
      linarith
    have hw : lob.2.getD n 0 ≠ 0 := (hl.2.2.2.1 n le_rfl).ne'
    have hg1 : (derivative g).eval 1 = 2 / lob.2.getD n 0 := by
      field_simp
      linarith
    rw [hg1]
    generalize edge ((a + 1) * n) - edge (a * n) = d at hd ⊢
    field_simp

theorem interfaceWeight_sum (n m : Nat) (edge : Nat → ℝ) (lob : List ℝ × List ℝ) (F : Nat → ℝ) :
    ∑ k ∈ range (m * n + 1), interfaceWeight n m edge lob k * F k =
      ∑ a ∈ range m, ∑ j ∈ range (n + 1), lob.2.getD j 0 / 2 * (edge ((a + 1) * n) - edge (a * n)) * F (a * n + j) := by
  rw [← area_sum]
  apply sum_congr rfl
  intro k _
  congr 1
  unfold interfaceWeight area
  apply sum_congr rfl
  intro a _
  by_cases c : a * n ≤ k ∧ k ≤ a * n + n
  · rw [if_pos c, if_pos c]; ring
  · rw [if_neg c, if_neg c]

/-- Integration by parts in an element, with the two rules. -/
theorem parts (n : Nat) (hn : 0 < n) (gauss lob : List ℝ × List ℝ) (hga : GaussRule n gauss) (hl : LobattoRule n lob) (lo hi : ℝ)
    (p r : ℝ[X]) (hp : p.degree < (n : ℕ)) (hr : r.degree < (n + 1 : ℕ)) :
    ∑ j ∈ range (n + 1), lob.2.getD j 0 / 2 * (hi - lo) *
        (r.eval (lo + (hi - lo) * ((lob.1.getD j 0 + 1) / 2)) * (derivative p).eval (lo + (hi - lo) * ((lob.1.getD j 0 + 1) / 2))) +
      ∑ i ∈ range n, (hi - lo) / 2 * gauss.2.getD i 0 *
        (p.eval (lo + (hi - lo) * ((gauss.1.getD i 0 + 1) / 2)) *
          (derivative r).eval (lo + (hi - lo) * ((gauss.1.getD i 0 + 1) / 2))) =
      r.eval hi * p.eval hi - r.eval lo * p.eval lo := by
  obtain ⟨hsz, -, -, -, -, hex⟩ := hl
  have hl1 : (C lo + C (hi - lo) * X : ℝ[X]).natDegree ≤ 1 := by compute_degree
  have hpd : (derivative p).degree < (n : ℕ) := lt_of_le_of_lt degree_derivative_le hp
  have hrd : (derivative r).degree < (n : ℕ) := derivative_degree_lt r n hr
  have u1 := rule_unit (n + 1) (2 * n) lob hsz hex ((r * derivative p).comp (C lo + C (hi - lo) * X))
    (comp_degree_lt _ _ hl1 _ (mul_degree_lt _ _ (n + 1) n _ hr hpd (by omega)))
  have u2 := rule_unit n (2 * n) gauss hga.1 hga.2 ((p * derivative r).comp (C lo + C (hi - lo) * X))
    (comp_degree_lt _ _ hl1 _ (mul_degree_lt _ _ n n _ hp hrd (by omega)))
  have e : ∀ y : ℝ, (C lo + C (hi - lo) * X : ℝ[X]).eval y = lo + (hi - lo) * y := fun y => by simp
  have t1 : ∑ j ∈ range (n + 1), lob.2.getD j 0 / 2 * (hi - lo) *
        (r.eval (lo + (hi - lo) * ((lob.1.getD j 0 + 1) / 2)) * (derivative p).eval (lo + (hi - lo) * ((lob.1.getD j 0 + 1) / 2))) =
      (hi - lo) * ∫ x in (0 : ℝ)..1, ((r * derivative p).comp (C lo + C (hi - lo) * X)).eval x := by
    rw [← u1, mul_sum]
    exact sum_congr rfl fun j _ => by rw [eval_comp, e, eval_mul]; ring
  have t2 : ∑ i ∈ range n, (hi - lo) / 2 * gauss.2.getD i 0 *
        (p.eval (lo + (hi - lo) * ((gauss.1.getD i 0 + 1) / 2)) *
          (derivative r).eval (lo + (hi - lo) * ((gauss.1.getD i 0 + 1) / 2))) =
      (hi - lo) * ∫ x in (0 : ℝ)..1, ((p * derivative r).comp (C lo + C (hi - lo) * X)).eval x := by
    rw [← u2, mul_sum]
    exact sum_congr rfl fun j _ => by rw [eval_comp, e, eval_mul]; ring
  rw [t1, t2, ← mul_add, ← intervalIntegral.integral_add (cont _ _ _) (cont _ _ _), ← intervalIntegral.integral_const_mul]
  have hftc := poly_ftc ((r * p).comp (C lo + C (hi - lo) * X)) 0 1
  rw [eval_comp, eval_comp, e, e, eval_mul, eval_mul, mul_zero, add_zero, mul_one, add_sub_cancel] at hftc
  rw [← hftc]
  congr 1
  funext x
  have hdl : derivative (C lo + C (hi - lo) * X : ℝ[X]) = C (hi - lo) := by
    rw [derivative_add, derivative_C, derivative_C_mul, derivative_X, mul_one, zero_add]
  rw [derivative_comp, hdl, derivative_mul]
  simp only [eval_comp, eval_mul, eval_add, eval_C, eval_X]
  ring

/-- **C88 (adjoint).**  Over elements of one size, the derivative to interfaces is minus the adjoint of the derivative from
interfaces to levels, up to the values at the two ends of the column. -/
theorem C88_adjoint_partial (solve : Dgesv) (hs : Solves solve) (n N nEdge : Nat) (node edge : Nat → ℝ) (A : Op)
    (h : fluxInit solve .levels n N nEdge node edge (N + 1) edge true = .ok A)
    (hsep : Separated (fun b => edge (b * n)) (N / n)) (hx : ∀ b < N / n, ApartNodes n (fun i => node (b * n + i)))
    (gauss : List ℝ × List ℝ) (hga : GaussRule n gauss) (hg : OnGauss n (N / n) node edge gauss)
    (lob : List ℝ × List ℝ) (hl : LobattoRule n lob) (ho : OnLobatto n (N / n) edge lob)
    (hin : ∀ a < N / n, ∀ j, 0 < j → j < n → InElement (fun b => edge (b * n)) (N / n) a (edge (a * n + j)))
    (hsize : ∀ a < N / n, edge ((a + 1) * n) - edge (a * n) = edge n - edge 0)
    (x u : Nat → ℝ) (p r : Nat → ℝ[X]) (hp : ∀ b < N / n, (p b).degree < (n : ℕ)) (hr : ∀ b < N / n, (r b).degree < (n + 1 : ℕ))
    (ht : ∀ b < N / n, Through (p b) node x (b * n) n) (htr : ∀ b < N / n, Through (r b) edge u (b * n) (n + 1)) :
    ∑ k ∈ range (N + 1), interfaceWeight n (N / n) edge lob k * (u k * applyRow A x k) +
        ∑ k ∈ range N, levelWeight n edge gauss k * (x k * (derivative (r (k / n))).eval (node k)) =
      u N * (p (N / n - 1)).eval (edge N) - u 0 * (p 0).eval (edge 0) := by
  obtain ⟨hn, hN, hm, -⟩ := flux_cases h
  obtain ⟨v1, v2⟩ := C88_interfaces solve hs n N nEdge node edge A h hsep hx lob hl ho hin x p hp ht
  obtain ⟨⟨g, hgc, -⟩, -⟩ := C87_correction solve hs 2 (n + 1) (by omega) (by omega)
  obtain ⟨l1, l2, -, -⟩ := lumped n hn lob hl g hgc
  generalize hmm : N / n = m at *
  have e1 : ∀ a : Nat, (a + 1) * n = a * n + n := fun a => by ring
  have hw : lob.2.getD n 0 ≠ 0 := (hl.2.2.2.1 n le_rfl).ne'
  have hw0 : lob.2.getD 0 0 = lob.2.getD n 0 := by
    have : (derivative g).eval 1 ≠ 0 := fun hz => by rw [hz, mul_zero] at l1; exact zero_ne_one l1
    have h2 : lob.2.getD 0 0 / 2 * (derivative g).eval 1 = lob.2.getD n 0 / 2 * (derivative g).eval 1 := by rw [l1, l2]
    have := mul_right_cancel₀ this h2
    linarith
  -- the part of an edge that differs from the derivative of the element
  let D := edge n - edge 0
  let T : Nat → ℝ := fun b => u ((b + 1) * n) *
    (((derivative (p b)).eval (edge ((b + 1) * n)) - (derivative (p (b + 1))).eval (edge ((b + 1) * n))) / 2)
  let J : Nat → ℝ := fun b => u ((b + 1) * n) * (jump n edge p b / (lob.2.getD n 0 * D))
  have hD : D ≠ 0 := by
    have := (ho 0 hm).1
    have e := hsize 0 hm
    show edge n - edge 0 ≠ 0
    rw [← e]; linarith
  have hel : ∀ a ∈ range m, ∑ j ∈ range (n + 1), lob.2.getD j 0 / 2 * (edge ((a + 1) * n) - edge (a * n)) *
        (u (a * n + j) * applyRow A x (a * n + j)) =
      ∑ j ∈ range (n + 1), lob.2.getD j 0 / 2 * (edge ((a + 1) * n) - edge (a * n)) *
        (u (a * n + j) * (derivative (p a)).eval (edge (a * n + j))) +
      lob.2.getD n 0 / 2 * D * ((if 1 ≤ a then T (a - 1) + J (a - 1) else 0) + (if a < m - 1 then -T a + J a else 0)) := by
    intro a ha
    rw [mem_range] at ha
    obtain ⟨q, rfl⟩ : ∃ q, n = q + 1 := ⟨n - 1, by omega⟩
    rw [sum_range_succ, sum_range_succ', sum_range_succ _ (q + 1), sum_range_succ' _ q, hsize a ha]
    have mid : ∑ k ∈ range q, lob.2.getD (k + 1) 0 / 2 * (edge (q + 1) - edge 0) *
          (u (a * (q + 1) + (k + 1)) * applyRow A x (a * (q + 1) + (k + 1))) =
        ∑ k ∈ range q, lob.2.getD (k + 1) 0 / 2 * (edge (q + 1) - edge 0) *
          (u (a * (q + 1) + (k + 1)) * (derivative (p a)).eval (edge (a * (q + 1) + (k + 1)))) := by
      apply sum_congr rfl
      intro k hk
      rw [mem_range] at hk
      rw [v1 a ha (k + 1) (by omega) (Or.inl (by omega)) (Or.inl (by omega))]
    rw [mid]
    have low : u (a * (q + 1) + 0) * applyRow A x (a * (q + 1) + 0) = u (a * (q + 1) + 0) * (derivative (p a)).eval (edge (a * (q + 1) + 0)) +
        (if 1 ≤ a then T (a - 1) + J (a - 1) else 0) := by
      by_cases c : 1 ≤ a
      · rw [if_pos c]
        obtain ⟨b, rfl⟩ : ∃ b, a = b + 1 := ⟨a - 1, by omega⟩
        rw [Nat.add_zero, v2 b (by omega), Nat.add_sub_cancel, hsize b (by omega)]
        show _ = _ + (u ((b + 1) * (q + 1)) * _ + u ((b + 1) * (q + 1)) * (jump (q + 1) edge p b / (_ * (edge (q + 1) - edge 0))))
        ring
      · rw [if_neg c, v1 a ha 0 (by omega) (Or.inr (by omega)) (Or.inl (by omega))]
        ring
    have high : u (a * (q + 1) + (q + 1)) * applyRow A x (a * (q + 1) + (q + 1)) =
        u (a * (q + 1) + (q + 1)) * (derivative (p a)).eval (edge (a * (q + 1) + (q + 1))) +
        (if a < m - 1 then -T a + J a else 0) := by
      by_cases c : a < m - 1
      · rw [if_pos c, ← e1, v2 a (by omega), hsize a ha]
        show _ = _ + (-(u ((a + 1) * (q + 1)) * _) + u ((a + 1) * (q + 1)) * (jump (q + 1) edge p a / (_ * (edge (q + 1) - edge 0))))
        ring
      · rw [if_neg c, add_zero, v1 a ha (q + 1) le_rfl (Or.inl (by omega)) (Or.inr (by omega))]
    rw [low, high, hw0]
    show _ = _ + lob.2.getD (q + 1) 0 / 2 * (edge (q + 1) - edge 0) * _
    ring
  have hfirst : ∑ k ∈ range (N + 1), interfaceWeight n m edge lob k * (u k * applyRow A x k) =
      ∑ a ∈ range m, ∑ j ∈ range (n + 1), lob.2.getD j 0 / 2 * (edge ((a + 1) * n) - edge (a * n)) *
        (u (a * n + j) * (derivative (p a)).eval (edge (a * n + j))) +
      ∑ b ∈ range (m - 1), u ((b + 1) * n) * jump n edge p b := by
    conv_lhs => rw [hN]
    rw [interfaceWeight_sum, sum_congr rfl hel, sum_add_distrib, ← mul_sum, sum_add_distrib]
    congr 1
    have s1 : ∑ a ∈ range m, (if 1 ≤ a then T (a - 1) + J (a - 1) else 0) = ∑ b ∈ range (m - 1), (T b + J b) := by
      obtain ⟨m', rfl⟩ : ∃ m', m = m' + 1 := ⟨m - 1, by omega⟩
      rw [sum_range_succ', if_neg (by omega), add_zero, Nat.add_sub_cancel]
      exact sum_congr rfl fun b _ => by rw [if_pos (by omega), Nat.add_sub_cancel]
    have s2 : ∑ a ∈ range m, (if a < m - 1 then -T a + J a else 0) = ∑ b ∈ range (m - 1), (-T b + J b) := by
      obtain ⟨m', rfl⟩ : ∃ m', m = m' + 1 := ⟨m - 1, by omega⟩
      rw [sum_range_succ, if_neg (by omega), add_zero, Nat.add_sub_cancel]
      exact sum_congr rfl fun b hb => by rw [if_pos (mem_range.1 hb)]
    rw [s1, s2, ← sum_add_distrib, mul_sum]
    apply sum_congr rfl
    intro b _
    show lob.2.getD n 0 / 2 * D * (T b + u ((b + 1) * n) * (jump n edge p b / (lob.2.getD n 0 * D)) +
      (-T b + u ((b + 1) * n) * (jump n edge p b / (lob.2.getD n 0 * D)))) = _
    generalize T b = t
    field_simp
    ring
  have hsecond : ∑ k ∈ range N, levelWeight n edge gauss k * (x k * (derivative (r (k / n))).eval (node k)) =
      ∑ a ∈ range m, ∑ i ∈ range n, (edge ((a + 1) * n) - edge (a * n)) / 2 * gauss.2.getD i 0 *
        (x (a * n + i) * (derivative (r a)).eval (node (a * n + i))) := by
    conv_lhs => rw [hN]
    rw [element_sum]
    apply sum_congr rfl
    intro a _
    apply sum_congr rfl
    intro i hi
    rw [mem_range] at hi
    have d1 : (a * n + i) / n = a := by rw [Nat.mul_comm, Nat.mul_add_div hn, Nat.div_eq_of_lt hi, Nat.add_zero]
    have d2 : (a * n + i) % n = i := by rw [Nat.mul_comm, Nat.mul_add_mod, Nat.mod_eq_of_lt hi]
    unfold levelWeight
    rw [d1, d2]
  rw [hfirst, hsecond, add_right_comm, ← sum_add_distrib]
  have hpart : ∀ a ∈ range m, ∑ j ∈ range (n + 1), lob.2.getD j 0 / 2 * (edge ((a + 1) * n) - edge (a * n)) *
        (u (a * n + j) * (derivative (p a)).eval (edge (a * n + j))) +
      ∑ i ∈ range n, (edge ((a + 1) * n) - edge (a * n)) / 2 * gauss.2.getD i 0 *
        (x (a * n + i) * (derivative (r a)).eval (node (a * n + i))) =
      u ((a + 1) * n) * (p a).eval (edge ((a + 1) * n)) - u (a * n) * (p a).eval (edge (a * n)) := by
    intro a ha
    rw [mem_range] at ha
    have P := parts n hn gauss lob hga hl (edge (a * n)) (edge ((a + 1) * n)) (p a) (r a) (hp a ha) (hr a ha)
    have t0 := htr a ha 0 (by omega)
    have tn := htr a ha n (by omega)
    rw [Nat.add_zero] at t0
    rw [← e1] at tn
    rw [t0, tn] at P
    rw [← P]
    congr 1
    · apply sum_congr rfl
      intro j hj
      rw [mem_range] at hj
      rw [← htr a ha j hj, (ho a ha).2 j (by omega)]
    · apply sum_congr rfl
      intro i hi
      rw [mem_range] at hi
      rw [← ht a ha i hi, (hg a ha).2 i hi]
  rw [sum_congr rfl hpart]
  obtain ⟨m', rfl⟩ : ∃ m', m = m' + 1 := ⟨m - 1, by omega⟩
  rw [Nat.add_sub_cancel, hN]
  clear * -
  induction m' with
  | zero => simp
  | succ k ih =>
    rw [sum_range_succ _ (k + 1), sum_range_succ (fun b => u ((b + 1) * n) * jump n edge p b) k]
    have hj : jump n edge p k = (p (k + 1)).eval (edge ((k + 1) * n)) - (p k).eval (edge ((k + 1) * n)) := rfl
    rw [hj]
    linarith

theorem lagrange_exists (n b : Nat) (node x : Nat → ℝ) (hx : DistinctNodes n (fun i => node (b + i))) :
    ∃ p : ℝ[X], p.degree < (n : ℕ) ∧ Through p node x b n := by
  have hinj : Set.InjOn (fun i => node (b + i)) (range n : Finset ℕ) := by
    intro i hi j hj hij
    by_contra hne
    exact hx i j (mem_range.1 (Finset.mem_coe.1 hi)) (mem_range.1 (Finset.mem_coe.1 hj)) hne hij
  refine ⟨Lagrange.interpolate (range n) (fun i => node (b + i)) (fun i => x (b + i)), ?_, ?_⟩
  · have := Lagrange.degree_interpolate_lt (s := range n) (v := fun i => node (b + i)) (fun i => x (b + i)) hinj
    rwa [card_range] at this
  · intro i hi
    exact Lagrange.eval_interpolate_at_node (s := range n) (v := fun i => node (b + i)) (fun i => x (b + i)) hinj (mem_range.2 hi)

/-- **C88 (energy).**  Over elements of one size, what the derivative of a column to interfaces does to a flux that vanishes at
both ends, the derivative of the flux to levels gives back to the column.  (Missing: elements of different size,
`C88_adjoint_false`.) -/
theorem C88_energy_partial (solve : Dgesv) (hs : Solves solve) (n N nEdge : Nat) (node edge : Nat → ℝ) (A B : Op)
    (h : fluxInit solve .levels n N nEdge node edge (N + 1) edge true = .ok A)
    (hB : diffInterfaceInit .interfaces n N nEdge node edge N node false = .ok B)
    (hsep : Separated (fun b => edge (b * n)) (N / n)) (hx : ∀ b < N / n, ApartNodes n (fun i => node (b * n + i)))
    (hxe : ∀ b < N / n, ApartNodes (n + 1) (fun i => edge (b * n + i)))
    (gauss : List ℝ × List ℝ) (hga : GaussRule n gauss) (hg : OnGauss n (N / n) node edge gauss)
    (lob : List ℝ × List ℝ) (hl : LobattoRule n lob) (ho : OnLobatto n (N / n) edge lob)
    (hin : ∀ a < N / n, ∀ j, 0 < j → j < n → InElement (fun b => edge (b * n)) (N / n) a (edge (a * n + j)))
    (hin' : ∀ a < N / n, ∀ i < n, InElement (fun b => edge (b * n)) (N / n) a (node (a * n + i)))
    (hsize : ∀ a < N / n, edge ((a + 1) * n) - edge (a * n) = edge n - edge 0) (x u : Nat → ℝ) (hu0 : u 0 = 0) (huN : u N = 0) :
    ∑ k ∈ range (N + 1), interfaceWeight n (N / n) edge lob k * (u k * applyRow A x k) =
      -∑ k ∈ range N, levelWeight n edge gauss k * (x k * applyRow B u k) := by
  obtain ⟨hn, hN, hm, -⟩ := flux_cases h
  have hp : ∀ b, ∃ p : ℝ[X], b < N / n → p.degree < (n : ℕ) ∧ Through p node x (b * n) n := fun b => by
    by_cases hb : b < N / n
    · obtain ⟨p, h1, h2⟩ := lagrange_exists n (b * n) node x (apart_distinct (hx b hb))
      exact ⟨p, fun _ => ⟨h1, h2⟩⟩
    · exact ⟨0, fun h => absurd h hb⟩
  have hr : ∀ b, ∃ p : ℝ[X], b < N / n → p.degree < (n + 1 : ℕ) ∧ Through p edge u (b * n) (n + 1) := fun b => by
    by_cases hb : b < N / n
    · obtain ⟨p, h1, h2⟩ := lagrange_exists (n + 1) (b * n) edge u (apart_distinct (hxe b hb))
      exact ⟨p, fun _ => ⟨h1, h2⟩⟩
    · exact ⟨0, fun h => absurd h hb⟩
  choose p hp using hp
  choose r hr using hr
  have key := C88_adjoint_partial solve hs n N nEdge node edge A h hsep hx gauss hga hg lob hl ho hin hsize x u p r
    (fun b hb => (hp b hb).1) (fun b hb => (hr b hb).1) (fun b hb => (hp b hb).2) (fun b hb => (hr b hb).2)
  rw [hu0, huN, zero_mul, zero_mul, sub_zero] at key
  rw [eq_neg_iff_add_eq_zero, ← key]
  congr 1
  apply sum_congr rfl
  intro k hk
  rw [mem_range] at hk
  have hk1 := Nat.div_add_mod k n
  rw [Nat.mul_comm] at hk1
  have hk2 := Nat.mod_lt k hn
  have hkm : k / n < N / n := by
    rw [Nat.div_lt_iff_lt_mul hn, ← hN]; exact hk
  have hmem := hin' (k / n) hkm (k % n) hk2
  rw [hk1] at hmem
  rw [(C70_interfaces n N nEdge node edge N node false B hB hsep k (k / n) u).2.2.2.1 hmem (hxe _ hkm) (r (k / n)) (hr _ hkm).1 (hr _ hkm).2]

/-- **C88 (refused).**  An operator is set up exactly where the layout fits and every output location is inside the column;
everything else is refused by an exception. -/
theorem C88_refused (solve : Dgesv) (src : Source) (n N nEdge : Nat) (node edge : Nat → ℝ) (nOut : Nat) (out : Nat → ℝ) (zb : Bool)
    (hn : 0 < n) :
    (fluxInit solve src n N nEdge node edge nOut out zb = .exc ↔
      N = 0 ∨ nEdge ≠ N + 1 ∨ ¬ n ∣ N ∨ ∃ l < nOut, out l < edge 0 ∨ edge N < out l) ∧
    (fluxInit solve src n N nEdge node edge nOut out zb ≠ .exc → ∃ A, fluxInit solve src n N nEdge node edge nOut out zb = .ok A) := by
  have hd : (N % n ≠ 0) ↔ ¬ n ∣ N := not_congr (Nat.dvd_iff_mod_eq_zero ..).symm
  obtain ⟨hg1, hg2⟩ := C87_correction_refused solve 2 (n + 1)
  unfold fluxInit
  rw [if_neg (by omega)]
  by_cases h1 : N = 0
  · rw [if_pos h1]; simp [h1]
  rw [if_neg h1]
  by_cases h2 : nEdge ≠ N + 1
  · rw [if_pos h2]; simp [h2]
  rw [if_neg h2]
  by_cases h3 : N % n ≠ 0
  · rw [if_pos h3]; simp [hd.1 h3]
  rw [if_neg h3]
  by_cases h4 : ∃ l < nOut, out l < edge 0 ∨ edge N < out l
  · rw [if_pos h4]
    exact ⟨⟨fun _ => Or.inr (Or.inr (Or.inr h4)), fun _ => rfl⟩, fun h => absurd rfl h⟩
  rw [if_neg h4]
  cases hf : getDerivatives solve 2 (n + 1) with
  | exc => exact absurd (hg1.1 hf) (by omega)
  | ub => exact absurd (hg2.1 hf) (by omega)
  | ok f =>
    refine ⟨⟨fun h => by simp at h, fun h => ?_⟩, fun _ => ⟨_, rfl⟩⟩
    rcases h with h | h | h | h
    · exact absurd h h1
    · exact absurd h h2
    · exact absurd (hd.2 h) h3
    · exact absurd h h4

theorem linear_integral (p : ℝ[X]) (hp : p.degree < (2 : ℕ)) :
    (∀ x, p.eval x = p.coeff 0 + p.coeff 1 * x) ∧ ∫ x in (-1 : ℝ)..1, p.eval x = 2 * p.coeff 0 := by
  have hnd : p.natDegree < 2 := by
    by_cases hz : p = 0
    · rw [hz]; simp
    · exact (natDegree_lt_iff_degree_lt hz).2 hp
  have lin : ∀ x, p.eval x = p.coeff 0 + p.coeff 1 * x := by
    intro x
    rw [eval_eq_sum_range' hnd]
    simp [sum_range_succ]
  refine ⟨lin, ?_⟩
  have h2 := poly_ftc (C (p.coeff 0) * X + C (p.coeff 1 / 2) * X ^ 2) (-1) 1
  have h3 : ∀ x, (derivative (C (p.coeff 0) * X + C (p.coeff 1 / 2) * X ^ 2)).eval x = p.eval x := by
    intro x
    rw [lin]
    simp
    ring
  simp only [h3] at h2
  rw [h2]
  simp
  ring

theorem midpoint_gauss : GaussRule 1 ([0], [2]) := by
  refine ⟨⟨rfl, rfl⟩, fun p hp => ?_⟩
  obtain ⟨lin, hint⟩ := linear_integral p hp
  rw [hint]
  simp [quad, lin]

theorem trapezoid_lobatto : LobattoRule 1 ([-1, 1], [1, 1]) := by
  refine ⟨⟨rfl, rfl⟩, rfl, rfl, ?_, ?_, fun p hp => ?_⟩
  · intro j hj
    obtain rfl | rfl : j = 0 ∨ j = 1 := by omega
    · simp
    · simp
  · intro i j hi hj
    obtain rfl : i = 0 := by omega
    obtain rfl : j = 1 := by omega
    norm_num
  · obtain ⟨lin, hint⟩ := linear_integral p hp
    rw [hint]
    simp [quad, lin]
    ring

theorem square_correction : IsCorrection 2 (1 + 1) (X ^ 2 : ℝ[X]) := by
  refine ⟨by rw [degree_X_pow], by simp, dvd_rfl, fun p hp => ?_⟩
  have : p = 0 := by
    by_contra h0
    exact absurd hp (not_lt.2 (by rw [show (1 + 1 - 2 : ℕ) = 0 from rfl]; exact zero_le_degree_iff.2 h0))
  rw [this]
  simp

/-- **C88 (false for stretched levels).**  Over an element of length one and one of length two, a flux that vanishes at both
ends does not give back what the derivative takes: the jump is divided by the size of the lower element alone. -/
theorem C88_adjoint_false (solve : Dgesv) (hs : Solves solve) : ∃ (node edge : Nat → ℝ) (A : Op) (x u : Nat → ℝ) (p r : Nat → ℝ[X]),
    fluxInit solve .levels 1 2 3 node edge 3 edge true = .ok A ∧ Separated (fun b => edge (b * 1)) 2 ∧
    OnGauss 1 2 node edge ([0], [2]) ∧ OnLobatto 1 2 edge ([-1, 1], [1, 1]) ∧
    (∀ b < 2, (p b).degree < (1 : ℕ) ∧ Through (p b) node x (b * 1) 1) ∧
    (∀ b < 2, (r b).degree < (1 + 1 : ℕ) ∧ Through (r b) edge u (b * 1) (1 + 1)) ∧ u 0 = 0 ∧ u 2 = 0 ∧
    ∑ k ∈ range (2 + 1), interfaceWeight 1 2 edge ([-1, 1], [1, 1]) k * (u k * applyRow A x k) +
      ∑ k ∈ range 2, levelWeight 1 edge ([0], [2]) k * (x k * (derivative (r (k / 1))).eval (node k)) = 1 / 2 := by
  let edge : Nat → ℝ := fun k => if k = 0 then 0 else if k = 1 then 1 else 3
  let node : Nat → ℝ := fun k => if k = 0 then 1 / 2 else 2
  let x : Nat → ℝ := fun k => if k = 0 then 0 else 1
  let u : Nat → ℝ := fun k => if k = 1 then 1 else 0
  let p : Nat → ℝ[X] := fun k => if k = 0 then 0 else 1
  let r : Nat → ℝ[X] := fun k => if k = 0 then X else C (3 / 2) - C (1 / 2) * X
  have hsep : Separated (fun b => edge (b * 1)) 2 := by
    intro a ha
    obtain rfl | rfl : a = 0 ∨ a = 1 := by omega
    · norm_num [edge, eps]
    · norm_num [edge, eps]
  have hp : ∀ b < 2, (p b).degree < (1 : ℕ) ∧ Through (p b) node x (b * 1) 1 := by
    intro b hb
    obtain rfl | rfl : b = 0 ∨ b = 1 := by omega
    · refine ⟨by simp [p], fun i hi => ?_⟩
      obtain rfl : i = 0 := by omega
      simp [p, x]
    · refine ⟨by simp [p], fun i hi => ?_⟩
      obtain rfl : i = 0 := by omega
      simp [p, x]
  obtain ⟨A, hA⟩ := (C88_refused solve .levels 1 2 3 node edge 3 edge true one_pos).2 (by
    rw [Ne, (C88_refused solve .levels 1 2 3 node edge 3 edge true one_pos).1]
    simp only [not_or, not_exists]
    refine ⟨by omega, by omega, by simp, fun l hl => ?_⟩
    obtain ⟨hl1, hl2⟩ := hl
    obtain rfl | rfl | rfl : l = 0 ∨ l = 1 ∨ l = 2 := by omega
    · norm_num [edge] at hl2
    · norm_num [edge] at hl2
    · norm_num [edge] at hl2)
  refine ⟨node, edge, A, x, u, p, r, hA, hsep, ?_, ?_, hp, ?_, rfl, rfl, ?_⟩
  · intro a ha
    obtain rfl | rfl : a = 0 ∨ a = 1 := by omega
    · refine ⟨by norm_num [edge], fun i hi => ?_⟩
      obtain rfl : i = 0 := by omega
      norm_num [edge, node]
    · refine ⟨by norm_num [edge], fun i hi => ?_⟩
      obtain rfl : i = 0 := by omega
      norm_num [edge, node]
  · intro a ha
    obtain rfl | rfl : a = 0 ∨ a = 1 := by omega
    · refine ⟨by norm_num [edge], fun i hi => ?_⟩
      obtain rfl | rfl : i = 0 ∨ i = 1 := by omega
      · norm_num [edge]
      · norm_num [edge]
    · refine ⟨by norm_num [edge], fun i hi => ?_⟩
      obtain rfl | rfl : i = 0 ∨ i = 1 := by omega
      · norm_num [edge]
      · norm_num [edge]
  · intro b hb
    obtain rfl | rfl : b = 0 ∨ b = 1 := by omega
    · refine ⟨by simp only [r, if_true, degree_X]; norm_num, fun i hi => ?_⟩
      obtain rfl | rfl : i = 0 ∨ i = 1 := by omega
      · norm_num [r, u, edge]
      · norm_num [r, u, edge]
    · refine ⟨?_, fun i hi => ?_⟩
      · have : (r 1).natDegree ≤ 1 := by
          simp only [r, one_ne_zero, if_false]
          compute_degree
        exact lt_of_le_of_lt degree_le_natDegree (by exact_mod_cast Nat.lt_succ_of_le this)
      · obtain rfl | rfl : i = 0 ∨ i = 1 := by omega
        · norm_num [r, u, edge]
        · norm_num [r, u, edge]
  · have hx : ∀ b < 2, ApartNodes 1 (fun i => node (b * 1 + i)) := fun b _ i j hi hj hij => absurd (show i = j by omega) hij
    have key := ((C88_value solve hs .levels 1 2 3 node edge 3 edge true A hA hsep hx x p (fun b hb => (hp b hb).1)
      (fun b hb => (hp b hb).2) (X ^ 2) square_correction 1 0).2.2.2 (by norm_num) rfl)
    have hv : applyRow A x 1 = 1 := by
      rw [key]
      norm_num [p, edge, jump]
    simp only [sum_range_succ, sum_range_zero, hv]
    norm_num [interfaceWeight, levelWeight, u, x, r, edge, node, sum_range_succ]

/-- Two elements of length one with one level each meet the hypotheses of `C88_energy_partial`. -/
example : ∃ (solve : Dgesv) (A B : Op), Solves solve ∧
    fluxInit solve .levels 1 2 3 (fun k => (k : ℝ) + 1 / 2) (fun k => (k : ℝ)) 3 (fun k => (k : ℝ)) true = .ok A ∧
    diffInterfaceInit .interfaces 1 2 3 (fun k => (k : ℝ) + 1 / 2) (fun k => (k : ℝ)) 2 (fun k => (k : ℝ) + 1 / 2) false = .ok B ∧
    Separated (fun b => ((b * 1 : ℕ) : ℝ)) 2 ∧ GaussRule 1 ([0], [2]) ∧ LobattoRule 1 ([-1, 1], [1, 1]) ∧
    OnGauss 1 2 (fun k => (k : ℝ) + 1 / 2) (fun k => (k : ℝ)) ([0], [2]) ∧
    OnLobatto 1 2 (fun k => (k : ℝ)) ([-1, 1], [1, 1]) ∧
    ∀ a < 2, ∀ i < 1, InElement (fun b => ((b * 1 : ℕ) : ℝ)) 2 a (((a * 1 + i : ℕ) : ℝ) + 1 / 2) := by
  obtain ⟨solve, hs⟩ := solver_exists
  have hne : fluxInit solve .levels 1 2 3 (fun k => (k : ℝ) + 1 / 2) (fun k => (k : ℝ)) 3 (fun k => (k : ℝ)) true ≠ .exc := by
    rw [Ne, (C88_refused solve .levels 1 2 3 (fun k => (k : ℝ) + 1 / 2) (fun k => (k : ℝ)) 3 (fun k => (k : ℝ)) true one_pos).1]
    simp only [not_or, not_exists]
    refine ⟨by omega, by omega, by simp, fun l hl => ?_⟩
    obtain ⟨hl1, hl2⟩ := hl
    obtain rfl | rfl | rfl : l = 0 ∨ l = 1 ∨ l = 2 := by omega
    · norm_num at hl2
    · norm_num at hl2
    · norm_num at hl2
  obtain ⟨A, hA⟩ := (C88_refused solve .levels 1 2 3 (fun k => (k : ℝ) + 1 / 2) (fun k => (k : ℝ)) 3 (fun k => (k : ℝ)) true one_pos).2 hne
  have hB : ∃ B, diffInterfaceInit .interfaces 1 2 3 (fun k => (k : ℝ) + 1 / 2) (fun k => (k : ℝ)) 2 (fun k => (k : ℝ) + 1 / 2) false = .ok B := by
    unfold diffInterfaceInit
    rw [if_neg (by decide), if_neg (by decide), if_neg (by decide)]
    exact ⟨_, rfl⟩
  obtain ⟨B, hB⟩ := hB
  refine ⟨solve, A, B, hs, hA, hB, ?_, midpoint_gauss, trapezoid_lobatto, ?_, ?_, ?_⟩
  · intro a _
    dsimp only
    push_cast
    norm_num [eps]
  · intro a ha
    refine ⟨by push_cast; linarith, fun i hi => ?_⟩
    obtain rfl : i = 0 := by omega
    push_cast
    norm_num
  · intro a ha
    refine ⟨by push_cast; linarith, fun i hi => ?_⟩
    obtain rfl | rfl : i = 0 ∨ i = 1 := by omega
    · push_cast
      norm_num
    · push_cast
      norm_num
  · intro a ha i hi
    obtain rfl : i = 0 := by omega
    obtain rfl | rfl : a = 0 ∨ a = 1 := by omega
    · refine ⟨by omega, Or.inl rfl, Or.inr (by norm_num [eps])⟩
    · refine ⟨by omega, Or.inr (by norm_num [eps]), Or.inl rfl⟩

end Verif.Column
