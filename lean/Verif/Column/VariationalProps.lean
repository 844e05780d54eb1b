/-
C72: the variational derivative from levels to interfaces.
-/
import Mathlib.Tactic.NormNum
import Mathlib.Tactic.FieldSimp
import Mathlib.Tactic.IntervalCases
import Mathlib.LinearAlgebra.Lagrange
import Verif.Column.FemLemmas
import Verif.Column.Variational
import Verif.Quad.Props

namespace Verif.Column

open Finset Polynomial Verif.Interp Verif.Quad

/-- What an interface stands for: the area under its basis function, summed over the elements that share it; `w` are the
Gauss-Lobatto weights of [0, 1]. -/
noncomputable def area (n m : Nat) (edge w : Nat → ℝ) (k : Nat) : ℝ :=
  ∑ a ∈ range m, if a * n ≤ k ∧ k ≤ a * n + n then w (k - a * n) * (edge ((a + 1) * n) - edge (a * n)) else 0

theorem shift_sum (n m a : Nat) (ha : a < m) (F : Nat → ℝ) (G : Nat → ℝ)
    (h : ∀ k, F k = if a * n ≤ k ∧ k ≤ a * n + n then G (k - a * n) else 0) :
    ∑ k ∈ range (m * n + 1), F k = ∑ j ∈ range (n + 1), G j := by
  have e1 : (a + 1) * n ≤ m * n := Nat.mul_le_mul_right _ ha
  have e2 : (a + 1) * n = a * n + n := by ring
  rw [sum_congr rfl fun k _ => h k, ← sum_filter]
  apply sum_bij' (fun k _ => k - a * n) (fun j _ => a * n + j)
  · intro k hk; simp only [mem_filter, mem_range] at hk ⊢; omega
  · intro j hj; simp only [mem_filter, mem_range] at hj ⊢; omega
  · intro k hk; simp only [mem_filter, mem_range] at hk; omega
  · intro j hj; omega
  · intro k hk; rfl

/-- Sums over interfaces weighted with their areas are sums over the elements. -/
theorem area_sum (n m : Nat) (edge w F : Nat → ℝ) :
    ∑ k ∈ range (m * n + 1), area n m edge w k * F k =
      ∑ a ∈ range m, ∑ j ∈ range (n + 1), w j * (edge ((a + 1) * n) - edge (a * n)) * F (a * n + j) := by
  simp only [area, sum_mul]
  rw [sum_comm]
  apply sum_congr rfl
  intro a ha
  rw [mem_range] at ha
  apply shift_sum n m a ha
  intro k
  by_cases hk : a * n ≤ k ∧ k ≤ a * n + n
  · rw [if_pos hk, if_pos hk, show a * n + (k - a * n) = k by omega]
  · rw [if_neg hk, if_neg hk, zero_mul]

/-- The code's local weight is the area of the interface. -/
theorem localArea_eq (n m : Nat) (hn : 0 < n) (edge : Nat → ℝ) (lobatto : List ℝ × List ℝ) (a j : Nat) (ha : a < m) (hj : j ≤ n) :
    localArea n m edge lobatto a j = area n m edge (lobattoWeight lobatto) (a * n + j) := by
  have mul_cmp : ∀ b c : Nat, b < c → b * n + n ≤ c * n := fun b c h => by
    have : (b + 1) * n ≤ c * n := Nat.mul_le_mul_right _ h
    have e : (b + 1) * n = b * n + n := by ring
    omega
  have mul_cmp2 : ∀ b c : Nat, b + 1 < c → b * n + n < c * n := fun b c h => by
    have := mul_cmp (b + 1) c h
    have e : (b + 1) * n = b * n + n := by ring
    omega
  unfold area
  have hsplit : ∀ b ∈ range m, (if b * n ≤ a * n + j ∧ a * n + j ≤ b * n + n then
      lobattoWeight lobatto (a * n + j - b * n) * (edge ((b + 1) * n) - edge (b * n)) else 0) =
      (if b = a then lobattoWeight lobatto j * (edge ((a + 1) * n) - edge (a * n)) else 0) +
      (if b + 1 = a then (if j = 0 then lobattoWeight lobatto n * (edge (a * n) - edge ((a - 1) * n)) else 0) else 0) +
      (if b = a + 1 then (if j = n then lobattoWeight lobatto 0 * (edge ((a + 2) * n) - edge ((a + 1) * n)) else 0) else 0) := by
    intro b _
    rcases Nat.lt_trichotomy b a with h | h | h
    · rw [if_neg (show ¬ b = a by omega), if_neg (show ¬ b = a + 1 by omega), zero_add, add_zero]
      have h1 := mul_cmp b a h
      by_cases hb : b + 1 = a
      · rw [if_pos hb]
        have e : a * n = b * n + n := by rw [← hb]; ring
        by_cases hj0 : j = 0
        · rw [if_pos hj0, if_pos (by omega), hb, show a - 1 = b by omega, hj0, show a * n + 0 - b * n = n by omega]
        · rw [if_neg hj0, if_neg (by omega)]
      · have := mul_cmp2 b a (by omega)
        rw [if_neg (by omega), if_neg hb]
    · subst h
      rw [if_pos (show b * n ≤ b * n + j ∧ b * n + j ≤ b * n + n by omega), if_pos rfl,
        if_neg (show ¬ b + 1 = b by omega), if_neg (show ¬ b = b + 1 by omega), add_zero, add_zero, Nat.add_sub_cancel_left]
    · rw [if_neg (show ¬ b = a by omega), if_neg (show ¬ b + 1 = a by omega), zero_add, zero_add]
      have h1 := mul_cmp a b h
      by_cases hb : b = a + 1
      · rw [if_pos hb]
        have e : b * n = a * n + n := by rw [hb]; ring
        by_cases hjn : j = n
        · rw [if_pos hjn, if_pos (by omega), hb, hjn, show a * n + n - (a + 1) * n = 0 by rw [← hb]; omega]
        · rw [if_neg hjn, if_neg (by omega)]
      · have := mul_cmp2 a b (by omega)
        rw [if_neg (by omega), if_neg hb]
  rw [sum_congr rfl hsplit, sum_add_distrib, sum_add_distrib, sum_ite_eq' (range m) a, if_pos (mem_range.2 ha),
    sum_ite_eq' (range m) (a + 1)]
  have h2 : ∀ v : ℝ, ∑ b ∈ range m, (if b + 1 = a then v else 0) = if a ≠ 0 then v else 0 := by
    intro v
    by_cases h0 : a = 0
    · rw [if_neg (by simpa using h0)]
      exact sum_eq_zero fun b _ => if_neg (by omega)
    · rw [if_pos h0, sum_eq_single (a - 1) (fun b _ hb => if_neg (by omega)) (fun hb => absurd (mem_range.2 (by omega)) hb),
        if_pos (by omega)]
  rw [h2]
  unfold localArea
  simp only [mem_range]
  split_ifs <;> first | (exfalso; omega) | ring

theorem varCoeff_at (n m : Nat) (hn : 0 < n) (edge : Nat → ℝ) (gauss lobatto : List ℝ × List ℝ) (jx a i : Nat) (ha : a < m) (hi : i < n) :
    varCoeff n m edge gauss lobatto jx (a * n + i) = if a * n ≤ jx ∧ jx ≤ a * n + n then
      -(diffCoeffs (n + 1) (fun t => edge (a * n + t)) (gaussPoint n edge gauss a i)).getD (jx - a * n) 0 *
        gaussWeight n edge gauss a i / area n m edge (lobattoWeight lobatto) jx else 0 := by
  have h1 : (a * n + i) / n = a := by
    rw [Nat.mul_comm, Nat.mul_add_div hn, Nat.div_eq_of_lt hi, Nat.add_zero]
  have h2 : (a * n + i) % n = i := by
    rw [Nat.mul_comm, Nat.mul_add_mod, Nat.mod_eq_of_lt hi]
  unfold varCoeff
  simp only [h1, h2]
  by_cases h : a * n ≤ jx ∧ jx ≤ a * n + n
  · rw [if_pos ⟨ha, h⟩, if_pos h, localArea_eq n m hn edge lobatto a _ ha (by omega), show a * n + (jx - a * n) = jx by omega]
  · rw [if_neg (fun x => h x.2), if_neg h]

theorem var_cases {n N nEdge : Nat} {edge : Nat → ℝ} {gauss lobatto : List ℝ × List ℝ} {A : Op}
    (h : variationalInit n N nEdge edge gauss lobatto = .ok A) : 0 < n ∧ 0 < N ∧ N / n * n + 1 ≤ nEdge ∧ A = ⟨nEdge, N, fun jx =>
      ⟨varCoeff n (N / n) edge gauss lobatto jx, (varRange n (N / n) jx).1, (varRange n (N / n) jx).2⟩⟩ := by
  unfold variationalInit at h
  split_ifs at h with h1 h2 h3 h4
  exact ⟨by omega, by omega, by omega, (Res.ok.inj h).symm⟩

/-- **C72 (ranges).**  The stored ranges hold all the coefficients. -/
theorem C72_ranges (n N nEdge : Nat) (edge : Nat → ℝ) (gauss lobatto : List ℝ × List ℝ) (A : Op)
    (h : variationalInit n N nEdge edge gauss lobatto = .ok A) : A.rows = nEdge ∧ A.cols = N ∧ RangeOk A := by
  obtain ⟨hn, hN, hE, rfl⟩ := var_cases h
  refine ⟨rfl, rfl, fun k _ => ?_⟩
  simp only
  have hdiv : N / n * n ≤ N := Nat.div_mul_le_self N n
  generalize N / n = m at hdiv
  have mul_lt : ∀ b c : Nat, b < c → b * n + n ≤ c * n := fun b c h => by
    have : (b + 1) * n ≤ c * n := Nat.mul_le_mul_right _ h
    have e : (b + 1) * n = b * n + n := by ring
    omega
  have hk1 := Nat.div_add_mod k n
  rw [Nat.mul_comm] at hk1
  have hk2 := Nat.mod_lt k hn
  have e1 : (k / n + 1) * n = k / n * n + n := by ring
  have e2 : k / n ≠ 0 → (k / n - 1) * n + n = k / n * n := fun h0 => by
    obtain ⟨c, hc⟩ := Nat.exists_eq_succ_of_ne_zero h0
    rw [hc, Nat.succ_eq_add_one, Nat.add_sub_cancel]; ring
  unfold varRange varCoeff
  simp only
  generalize k / n = K at hk1 e1 e2
  generalize k % n = R at hk1 hk2
  constructor
  · split_ifs with c1 c2 c3 c4
    · exact Nat.zero_le _
    · have : K < m := by
        by_contra hge
        have : m * n ≤ K * n := Nat.mul_le_mul_right _ (by omega)
        omega
      have := mul_lt _ _ this
      simp only; omega
    · have := mul_lt 0 m (by omega)
      simp only; omega
    · simp only; rw [c4]; exact hdiv
    · have : K < m := by
        by_contra hge
        have := mul_lt m (K) (by omega)
        omega
      have := mul_lt _ _ this
      simp only; omega
  · intro j hj hc
    have hj1 := Nat.div_add_mod j n
    rw [Nat.mul_comm] at hj1
    have hj2 := Nat.mod_lt j hn
    generalize j / n = J at hj1 hc
    generalize j % n = S at hj1 hj2 hc
    by_cases hcond : J < m ∧ J * n ≤ k ∧ k ≤ J * n + n
    · obtain ⟨g1, g2, g3⟩ := hcond
      have g4 := mul_lt _ _ g1
      -- the element of the level is the element of the interface or the one before
      have hel : J = K ∨ (J + 1 = K ∧ R = 0) := by
        rcases Nat.lt_trichotomy (J) (K) with hlt | heq | hgt
        · by_cases hs : J + 1 = K
          · have := mul_lt _ _ hlt
            exact Or.inr ⟨hs, by omega⟩
          · have := mul_lt (J + 1) (K) (by omega)
            have e : (J + 1) * n = J * n + n := by ring
            omega
        · exact Or.inl heq
        · have := mul_lt _ _ hgt
          omega
      have c1 : ¬ (m * n < k ∨ m = 0) := by omega
      rw [if_neg c1]
      by_cases c2 : R ≠ 0
      · rw [if_pos c2]
        rcases hel with he | he
        · simp only; rw [← he]; rw [← he] at e1; omega
        · exact absurd he.2 c2
      · rw [if_neg c2]
        by_cases c3 : K = 0
        · rw [if_pos c3]
          have hjz : J = 0 := by omega
          rw [hjz] at hj1
          simp only; omega
        · rw [if_neg c3]
          have := e2 c3
          by_cases c4 : K = m
          · rw [if_pos c4]
            rcases hel with he | he
            · omega
            · have e3 : J * n + n = K * n := by rw [← he.1]; ring
              simp only; omega
          · rw [if_neg c4]
            rcases hel with he | he
            · simp only; rw [he] at hj1; omega
            · have e3 : J * n + n = K * n := by rw [← he.1]; ring
              simp only; omega
    · rw [if_neg hcond] at hc
      exact absurd rfl hc

theorem element_sum (n m : Nat) (F : Nat → ℝ) : ∑ k ∈ range (m * n), F k = ∑ a ∈ range m, ∑ i ∈ range n, F (a * n + i) := by
  induction m with
  | zero => simp
  | succ m ih => rw [sum_range_succ, ← ih, Nat.succ_mul, sum_range_add]

/-- **C72 (summation by parts).**  Weighted by the interface areas, the derivative of `f` times any `g` sums to minus the
Gauss sum, over the elements, of `f` times the derivative of the polynomial through the interface values of `g`. -/
theorem C72_adjoint (n N nEdge : Nat) (edge : Nat → ℝ) (gauss lobatto : List ℝ × List ℝ) (A : Op)
    (h : variationalInit n N nEdge edge gauss lobatto = .ok A) (hN : N % n = 0)
    (harea : ∀ k ≤ N, area n (N / n) edge (lobattoWeight lobatto) k ≠ 0) (f g : Nat → ℝ) (p : Nat → ℝ[X])
    (hp : ∀ a < N / n, (p a).degree < (n + 1 : ℕ)) (ht : ∀ a < N / n, Through (p a) edge g (a * n) (n + 1))
    (hx : ∀ a < N / n, ApartNodes (n + 1) (fun i => edge (a * n + i))) :
    ∑ k ∈ range (N + 1), area n (N / n) edge (lobattoWeight lobatto) k * applyRow A f k * g k =
      -∑ a ∈ range (N / n), ∑ i ∈ range n,
        gaussWeight n edge gauss a i * f (a * n + i) * (derivative (p a)).eval (gaussPoint n edge gauss a i) := by
  obtain ⟨r1, r2, r3⟩ := C72_ranges n N nEdge edge gauss lobatto A h
  obtain ⟨hn, hN0, hE, hA⟩ := var_cases h
  have hdiv : N = N / n * n := (Nat.div_mul_cancel (Nat.dvd_of_mod_eq_zero hN)).symm
  have hrow : ∀ k ∈ range (N + 1), area n (N / n) edge (lobattoWeight lobatto) k * applyRow A f k * g k =
      ∑ a ∈ range (N / n), ∑ i ∈ range n, (if a * n ≤ k ∧ k ≤ a * n + n then
        -(diffCoeffs (n + 1) (fun t => edge (a * n + t)) (gaussPoint n edge gauss a i)).getD (k - a * n) 0 *
          gaussWeight n edge gauss a i * f (a * n + i) * g k else 0) := by
    intro k hk
    rw [mem_range] at hk
    rw [(C53_apply A r3 f f 0 k 0 (by omega)).1, act, r2]
    conv_lhs => rw [hdiv]
    rw [element_sum]
    rw [← hdiv, mul_sum, sum_mul]
    apply sum_congr rfl
    intro a ha
    rw [mem_range] at ha
    rw [mul_sum, sum_mul]
    apply sum_congr rfl
    intro i hi
    rw [mem_range] at hi
    rw [hA]
    simp only
    rw [varCoeff_at n (N / n) hn edge gauss lobatto k a i ha hi]
    have := harea k (by omega)
    by_cases hc : a * n ≤ k ∧ k ≤ a * n + n
    · rw [if_pos hc, if_pos hc]; field_simp
    · rw [if_neg hc, if_neg hc]; ring
  rw [sum_congr rfl hrow, sum_comm, ← sum_neg_distrib]
  apply sum_congr rfl
  intro a ha
  rw [mem_range] at ha
  rw [sum_comm, ← sum_neg_distrib]
  apply sum_congr rfl
  intro i hi
  conv_lhs => rw [hdiv]
  rw [shift_sum n (N / n) a ha _ (fun j => -(diffCoeffs (n + 1) (fun t => edge (a * n + t)) (gaussPoint n edge gauss a i)).getD j 0 *
          gaussWeight n edge gauss a i * f (a * n + i) * g (a * n + j))
    (fun k => by
      by_cases hc : a * n ≤ k ∧ k ≤ a * n + n
      · rw [if_pos hc, if_pos hc, show a * n + (k - a * n) = k by omega]
      · rw [if_neg hc, if_neg hc])]
  rw [← diff_through (n + 1) (a * n) edge g _ (p a) (hp a ha) (hx a ha) (ht a ha), apply_eq, length_diff, mul_sum, ← sum_neg_distrib]
  exact sum_congr rfl fun j _ => by ring

/-- **C72 (conserved).**  Weighted by the interface areas, the derivative of any column sums to zero: nothing crosses the
ends. -/
theorem C72_conserve (n N nEdge : Nat) (edge : Nat → ℝ) (gauss lobatto : List ℝ × List ℝ) (A : Op)
    (h : variationalInit n N nEdge edge gauss lobatto = .ok A) (hN : N % n = 0)
    (harea : ∀ k ≤ N, area n (N / n) edge (lobattoWeight lobatto) k ≠ 0) (f : Nat → ℝ)
    (hx : ∀ a < N / n, ApartNodes (n + 1) (fun i => edge (a * n + i))) :
    ∑ k ∈ range (N + 1), area n (N / n) edge (lobattoWeight lobatto) k * applyRow A f k = 0 := by
  have := C72_adjoint n N nEdge edge gauss lobatto A h hN harea f (fun _ => 1) (fun _ => 1)
    (fun a _ => by rw [degree_one]; exact_mod_cast Nat.succ_pos n) (fun a _ i _ => by simp) hx
  simpa using this

theorem quad_eq (r : List ℝ × List ℝ) (n : Nat) (h : HasSize r n) (f : ℝ → ℝ) :
    quad r f = ∑ i ∈ range n, r.2.getD i 0 * f (r.1.getD i 0) := by
  obtain ⟨g, w⟩ := r
  obtain ⟨h1, h2⟩ := h
  simp only at h1 h2
  unfold quad
  simp only
  induction g generalizing w n with
  | nil => subst h1; simp
  | cons x g ih =>
    cases w with
    | nil => rw [← h1] at h2; simp at h2
    | cons v w =>
      obtain ⟨n, rfl⟩ : ∃ n', n = n' + 1 := ⟨g.length, by simpa using h1.symm⟩
      rw [List.zip_cons_cons, List.map_cons, List.sum_cons, ih n w (by simpa using h1) (by simpa using h2), sum_range_succ']
      simp only [List.getD_cons_succ, List.getD_cons_zero]
      ring

theorem rescale_size (r : List ℝ × List ℝ) (n : Nat) (h : HasSize r n) (lo hi : ℝ) : HasSize (rescale lo hi r) n :=
  ⟨by simpa [rescale] using h.1, by simpa [rescale] using h.2⟩

/-- A rule exact on [-1, 1] is exact on every interval. -/
theorem rescale_exact (r : List ℝ × List ℝ) (d : Nat)
    (h : ∀ p : ℝ[X], p.degree < d → quad r (fun x => p.eval x) = ∫ x in (-1 : ℝ)..1, p.eval x) (lo hi : ℝ) (p : ℝ[X])
    (hp : p.degree < d) : quad (rescale lo hi r) (fun x => p.eval x) = ∫ x in lo..hi, p.eval x := by
  obtain ⟨q, hq, -, he⟩ := C41_rescale r lo hi p
  rw [h q (lt_of_le_of_lt hq hp), sub_self, mul_zero, sub_eq_zero] at he
  exact he

theorem poly_ftc (p : ℝ[X]) (lo hi : ℝ) : ∫ x in lo..hi, (derivative p).eval x = p.eval hi - p.eval lo :=
  intervalIntegral.integral_eq_sub_of_hasDerivAt (fun x _ => p.hasDerivAt x) ((derivative p).continuous.intervalIntegrable _ _)

theorem lobatto_scaled (lobatto : List ℝ × List ℝ) (lo hi : ℝ) (j : Nat) :
    (rescale lo hi lobatto).2.getD j 0 = lobattoWeight lobatto j * (hi - lo) := by
  unfold lobattoWeight rescale
  simp only
  rw [List.getD_eq_getElem?_getD, List.getD_eq_getElem?_getD, List.getElem?_map, List.getElem?_map]
  cases lobatto.2[j]? with
  | none => simp
  | some v => simp; ring

/-- **C72 (exact).**  With exact quadrature rules, interfaces at the Gauss-Lobatto points of their elements and levels
at the Gauss points, the derivative of a polynomial of degree below the order is exact at every interface inside the
column; at the two ends it misses the boundary term. -/
theorem C72_exact (n N nEdge : Nat) (edge : Nat → ℝ) (gauss lobatto : List ℝ × List ℝ) (A : Op)
    (h : variationalInit n N nEdge edge gauss lobatto = .ok A) (hN : N % n = 0)
    (harea : ∀ k ≤ N, area n (N / n) edge (lobattoWeight lobatto) k ≠ 0)
    (hx : ∀ a < N / n, ApartNodes (n + 1) (fun i => edge (a * n + i)))
    (hg : HasSize gauss n) (hl : HasSize lobatto (n + 1))
    (hge : ∀ p : ℝ[X], p.degree < (2 * n : ℕ) → quad gauss (fun x => p.eval x) = ∫ x in (-1 : ℝ)..1, p.eval x)
    (hle : ∀ p : ℝ[X], p.degree < (2 * n : ℕ) → quad lobatto (fun x => p.eval x) = ∫ x in (-1 : ℝ)..1, p.eval x)
    (hedge : ∀ a < N / n, ∀ j ≤ n, edge (a * n + j) = (rescale (edge (a * n)) (edge ((a + 1) * n)) lobatto).1.getD j 0)
    (q : ℝ[X]) (hq : q.degree < n) (f : Nat → ℝ)
    (hf : ∀ a < N / n, ∀ i < n, f (a * n + i) = q.eval (gaussPoint n edge gauss a i)) (k : Nat) (hk : k ≤ N) :
    area n (N / n) edge (lobattoWeight lobatto) k * (applyRow A f k - (derivative q).eval (edge k)) =
      (if k = 0 then q.eval (edge 0) else 0) - (if k = N then q.eval (edge N) else 0) := by
  obtain ⟨hn, hN0, hE, -⟩ := var_cases h
  have hdiv : N = N / n * n := (Nat.div_mul_cancel (Nat.dvd_of_mod_eq_zero hN)).symm
  have hq' : (derivative q).degree < n := lt_of_le_of_lt degree_derivative_le hq
  -- the general identity, against any `g`
  have key : ∀ g : Nat → ℝ, ∑ k ∈ range (N + 1), area n (N / n) edge (lobattoWeight lobatto) k * applyRow A f k * g k =
      ∑ k ∈ range (N + 1), area n (N / n) edge (lobattoWeight lobatto) k * ((derivative q).eval (edge k) * g k) -
        (q.eval (edge N) * g N - q.eval (edge 0) * g 0) := by
    intro g
    have hinj : ∀ a < N / n, Set.InjOn (fun i => edge (a * n + i)) (range (n + 1) : Finset ℕ) := by
      intro a ha i hi j hj hij
      by_contra hne
      have hi' := mem_range.1 (Finset.mem_coe.1 hi)
      have hj' := mem_range.1 (Finset.mem_coe.1 hj)
      exact apart_distinct (hx a ha) i j hi' hj' hne hij
    let p : Nat → ℝ[X] := fun a => Lagrange.interpolate (range (n + 1)) (fun i => edge (a * n + i)) (fun i => g (a * n + i))
    have hp : ∀ a < N / n, (p a).degree < (n + 1 : ℕ) := fun a ha => by
      have := Lagrange.degree_interpolate_lt (s := range (n + 1)) (v := fun i => edge (a * n + i)) (fun i => g (a * n + i)) (hinj a ha)
      rwa [card_range] at this
    have ht : ∀ a < N / n, Through (p a) edge g (a * n) (n + 1) := fun a ha i hi =>
      Lagrange.eval_interpolate_at_node (s := range (n + 1)) (v := fun i => edge (a * n + i)) (fun i => g (a * n + i))
        (hinj a ha) (mem_range.2 hi)
    rw [C72_adjoint n N nEdge edge gauss lobatto A h hN harea f g p hp ht hx]
    have hel : ∀ a ∈ range (N / n), ∑ i ∈ range n, gaussWeight n edge gauss a i * f (a * n + i) *
        (derivative (p a)).eval (gaussPoint n edge gauss a i) =
        (q.eval (edge ((a + 1) * n)) * g ((a + 1) * n) - q.eval (edge (a * n)) * g (a * n)) -
          ∑ j ∈ range (n + 1), lobattoWeight lobatto j * (edge ((a + 1) * n) - edge (a * n)) *
            ((derivative q).eval (edge (a * n + j)) * g (a * n + j)) := by
      intro a ha
      rw [mem_range] at ha
      have e1 : (a + 1) * n = a * n + n := by ring
      have g1 : ∑ i ∈ range n, gaussWeight n edge gauss a i * f (a * n + i) * (derivative (p a)).eval (gaussPoint n edge gauss a i) =
          quad (rescale (edge (a * n)) (edge ((a + 1) * n)) gauss) (fun x => (q * derivative (p a)).eval x) := by
        rw [quad_eq _ n (rescale_size gauss n hg _ _)]
        apply sum_congr rfl
        intro i hi
        rw [hf a ha i (mem_range.1 hi), eval_mul]
        unfold gaussWeight gaussPoint
        ring
      have hpd : (derivative (p a)).degree < (n : ℕ) := by
        by_cases hz : derivative (p a) = 0
        · rw [hz, degree_zero]; exact WithBot.bot_lt_coe _
        · have h0 : p a ≠ 0 := fun h0 => hz (by rw [h0, derivative_zero])
          have h1 : (p a).natDegree < n + 1 := (natDegree_lt_iff_degree_lt h0).2 (hp a ha)
          have hnz : (p a).natDegree ≠ 0 := fun hc => hz (by
            rw [eq_C_of_natDegree_eq_zero hc, derivative_C])
          exact (natDegree_lt_iff_degree_lt hz).1 (lt_of_lt_of_le (natDegree_derivative_lt hnz) (by omega))
      have d1 : ∀ u v : ℝ[X], u.degree < (n : ℕ) → v.degree < (n + 1 : ℕ) → (u * v).degree < (2 * n : ℕ) := by
        intro u v hu hv
        by_cases hz : u = 0
        · rw [hz, zero_mul, degree_zero]; exact WithBot.bot_lt_coe _
        by_cases hz2 : v = 0
        · rw [hz2, mul_zero, degree_zero]; exact WithBot.bot_lt_coe _
        have a1 := (natDegree_lt_iff_degree_lt hz).2 hu
        have a2 := (natDegree_lt_iff_degree_lt hz2).2 hv
        rw [← natDegree_lt_iff_degree_lt (mul_ne_zero hz hz2), natDegree_mul hz hz2]
        omega
      have g2 := rescale_exact gauss (2 * n) hge (edge (a * n)) (edge ((a + 1) * n)) (q * derivative (p a))
        (d1 _ _ hq (lt_trans hpd (by exact_mod_cast Nat.lt_succ_self n)))
      have l2 := rescale_exact lobatto (2 * n) hle (edge (a * n)) (edge ((a + 1) * n)) (derivative q * p a) (d1 _ _ hq' (hp a ha))
      have l1 : quad (rescale (edge (a * n)) (edge ((a + 1) * n)) lobatto) (fun x => (derivative q * p a).eval x) =
          ∑ j ∈ range (n + 1), lobattoWeight lobatto j * (edge ((a + 1) * n) - edge (a * n)) *
            ((derivative q).eval (edge (a * n + j)) * g (a * n + j)) := by
        rw [quad_eq _ (n + 1) (rescale_size lobatto (n + 1) hl _ _)]
        apply sum_congr rfl
        intro j hj
        rw [mem_range] at hj
        rw [lobatto_scaled, ← hedge a ha j (by omega), eval_mul, ht a ha j hj]
      rw [g1, g2, ← l1, l2]
      have hparts := poly_ftc (q * p a) (edge (a * n)) (edge ((a + 1) * n))
      rw [derivative_mul, eval_mul, eval_mul] at hparts
      have hend := ht a ha n (by omega)
      have hbeg := ht a ha 0 (by omega)
      rw [Nat.add_zero] at hbeg
      rw [← e1] at hend
      rw [hend, hbeg] at hparts
      have hadd : ∫ x in edge (a * n)..edge ((a + 1) * n), (derivative q * p a + q * derivative (p a)).eval x =
          (∫ x in edge (a * n)..edge ((a + 1) * n), (derivative q * p a).eval x) +
            ∫ x in edge (a * n)..edge ((a + 1) * n), (q * derivative (p a)).eval x := by
        rw [← intervalIntegral.integral_add ((derivative q * p a).continuous.intervalIntegrable _ _)
          ((q * derivative (p a)).continuous.intervalIntegrable _ _)]
        simp only [eval_add]
      rw [hadd] at hparts
      linarith
    rw [sum_congr rfl hel, sum_sub_distrib]
    have htel : ∑ a ∈ range (N / n), (q.eval (edge ((a + 1) * n)) * g ((a + 1) * n) - q.eval (edge (a * n)) * g (a * n)) =
        q.eval (edge N) * g N - q.eval (edge 0) * g 0 := by
      rw [sum_range_sub (fun a => q.eval (edge (a * n)) * g (a * n)), ← hdiv, Nat.zero_mul]
    rw [htel]
    have harea2 := area_sum n (N / n) edge (lobattoWeight lobatto) (fun k => (derivative q).eval (edge k) * g k)
    rw [← hdiv] at harea2
    rw [harea2]
    ring
  have hδ := key (fun j => if j = k then 1 else 0)
  simp only [mul_ite, mul_one, mul_zero] at hδ
  rw [sum_ite_eq', if_pos (mem_range.2 (by omega)), sum_ite_eq', if_pos (mem_range.2 (by omega))] at hδ
  have c1 : (if N = k then q.eval (edge N) else 0) = if k = N then q.eval (edge N) else 0 := by
    by_cases hc : k = N
    · rw [if_pos hc, if_pos hc.symm]
    · rw [if_neg hc, if_neg (fun x => hc x.symm)]
  have c2 : (if 0 = k then q.eval (edge 0) else 0) = if k = 0 then q.eval (edge 0) else 0 := by
    by_cases hc : k = 0
    · rw [if_pos hc, if_pos hc.symm]
    · rw [if_neg hc, if_neg (fun x => hc x.symm)]
  rw [c1, c2] at hδ
  rw [mul_sub, hδ]
  ring

/-- The hypotheses are met: two elements of order one on [0, 1], with the midpoint and the trapezoidal rule. -/
example :
    (∃ A, variationalInit 1 2 3 (fun i => i / 2) ([0], [2]) ([-1, 1], [1, 1]) = .ok A) ∧
    (∀ k ≤ 2, area 1 (2 / 1) (fun i => i / 2) (lobattoWeight ([-1, 1], [1, 1])) k ≠ 0) ∧
    (∀ a < 2 / 1, ApartNodes (1 + 1) (fun i => ((a * 1 + i : ℕ) : ℝ) / 2)) ∧
    (∀ p : ℝ[X], p.degree < (2 * 1 : ℕ) → quad ([0], [2]) (fun x => p.eval x) = ∫ x in (-1 : ℝ)..1, p.eval x) ∧
    (∀ p : ℝ[X], p.degree < (2 * 1 : ℕ) → quad ([-1, 1], [1, 1]) (fun x => p.eval x) = ∫ x in (-1 : ℝ)..1, p.eval x) ∧
    (∀ a < 2 / 1, ∀ j ≤ 1, ((a * 1 + j : ℕ) : ℝ) / 2 =
      (rescale (((a * 1 : ℕ) : ℝ) / 2) ((((a + 1) * 1 : ℕ) : ℝ) / 2) ([-1, 1], [1, 1])).1.getD j 0) := by
  have lin : ∀ p : ℝ[X], p.degree < (2 * 1 : ℕ) → ∀ x, p.eval x = p.coeff 0 + p.coeff 1 * x := by
    intro p hp x
    have : p.natDegree < 2 := by
      by_cases hz : p = 0
      · rw [hz]; simp
      · exact (natDegree_lt_iff_degree_lt hz).2 hp
    rw [eval_eq_sum_range' this]
    simp [sum_range_succ]
  have int : ∀ p : ℝ[X], p.degree < (2 * 1 : ℕ) → ∫ x in (-1 : ℝ)..1, p.eval x = 2 * p.coeff 0 := by
    intro p hp
    have h2 := poly_ftc (C (p.coeff 0) * X + C (p.coeff 1 / 2) * X ^ 2) (-1) 1
    have h3 : ∀ x, (derivative (C (p.coeff 0) * X + C (p.coeff 1 / 2) * X ^ 2)).eval x = p.eval x := by
      intro x
      rw [lin p hp]
      simp
      ring
    simp only [h3] at h2
    rw [h2]
    simp; ring
  refine ⟨⟨_, by rw [variationalInit, if_neg (by decide), if_neg (by decide), if_neg (by decide), if_neg (by decide)]⟩, ?_, ?_, ?_, ?_, ?_⟩
  · intro k hk
    interval_cases k <;> norm_num [area, sum_range_succ, lobattoWeight, rescale]
  · intro a ha i j hi hj hij
    interval_cases a <;> interval_cases i <;> interval_cases j <;>
      first | exact absurd rfl hij | norm_num [abs_of_pos, abs_of_neg]
  · intro p hp
    rw [int p hp]
    simp [quad, lin p hp]
  · intro p hp
    rw [int p hp]
    simp [quad, lin p hp]
    ring
  · intro a ha j hj
    interval_cases a <;> interval_cases j <;> norm_num [rescale]

end Verif.Column
