/-
C89, continued: the second derivative of a column on points that elements share, what the operators refuse, and where they fail.
-/
import Verif.Column.DiffDiffProps

namespace Verif.Column

open Finset Polynomial Verif.Interp Verif.Quad

theorem ddCoeff_eq (n m : Nat) (D : Nat → Nat → List ℝ) (w : Nat → Nat → ℝ) (jx ix : Nat) :
    ddCoeff n m D w jx ix = -∑ a ∈ range m, if (a * n ≤ jx ∧ jx ≤ a * n + n) ∧ a * n ≤ ix ∧ ix ≤ a * n + n then
      ∑ s ∈ range (n + 1), (D a s).getD (jx - a * n) 0 * (D a s).getD (ix - a * n) 0 * w a s / ddLocal n m (w a) a (jx - a * n) else 0 := by
  unfold ddCoeff
  have : ∀ (v : ℝ) (a : Nat), (if (a * n ≤ jx ∧ jx ≤ a * n + n) ∧ a * n ≤ ix ∧ ix ≤ a * n + n then
      (List.range (n + 1)).foldl (fun v s =>
        v - (D a s).getD (jx - a * n) 0 * (D a s).getD (ix - a * n) 0 * w a s / ddLocal n m (w a) a (jx - a * n)) v else v) =
      v - (if (a * n ≤ jx ∧ jx ≤ a * n + n) ∧ a * n ≤ ix ∧ ix ≤ a * n + n then
      ∑ s ∈ range (n + 1), (D a s).getD (jx - a * n) 0 * (D a s).getD (ix - a * n) 0 * w a s / ddLocal n m (w a) a (jx - a * n) else 0) := by
    intro v a
    split_ifs
    · rw [foldl_sub (fun s => (D a s).getD (jx - a * n) 0 * (D a s).getD (ix - a * n) 0 * w a s / ddLocal n m (w a) a (jx - a * n))]
    · rw [sub_zero]
  simp only [this]
  rw [foldl_sub (fun a => if (a * n ≤ jx ∧ jx ≤ a * n + n) ∧ a * n ≤ ix ∧ ix ≤ a * n + n then
      ∑ s ∈ range (n + 1), (D a s).getD (jx - a * n) 0 * (D a s).getD (ix - a * n) 0 * w a s / ddLocal n m (w a) a (jx - a * n) else 0),
    zero_sub]

/-- Nothing is stored outside the range of a row. -/
theorem shared_range (n m : Nat) (hn : 0 < n) (D : Nat → Nat → List ℝ) (w : Nat → Nat → ℝ) (jx : Nat) :
    (ddRange n m jx).2 ≤ m * n + 1 ∧ ∀ ix, ddCoeff n m D w jx ix ≠ 0 → (ddRange n m jx).1 ≤ ix ∧ ix < (ddRange n m jx).2 := by
  have hdm : n * (jx / n) + jx % n = jx := Nat.div_add_mod jx n
  have hlt := Nat.mod_lt jx hn
  have hel : ∀ ix, ddCoeff n m D w jx ix ≠ 0 → ∃ a < m, (a * n ≤ jx ∧ jx ≤ a * n + n) ∧ a * n ≤ ix ∧ ix ≤ a * n + n := by
    intro ix hne
    by_contra hno
    push Not at hno
    apply hne
    rw [ddCoeff_eq, sum_eq_zero, neg_zero]
    intro a ha
    rw [if_neg]
    rintro ⟨h1, h2, h3⟩
    have := hno a (mem_range.1 ha) h1 h2
    omega
  have emul : ∀ a : Nat, (a + 1) * n = a * n + n := fun a => by ring
  have which : ∀ a, a * n ≤ jx ∧ jx ≤ a * n + n → a = jx / n ∨ (a + 1 = jx / n ∧ jx % n = 0) := by
    intro a ⟨h1, h2⟩
    have h3 : a ≤ jx / n := (Nat.le_div_iff_mul_le hn).2 h1
    by_cases h4 : a = jx / n
    · exact Or.inl h4
    · right
      have h5 : (a + 1) * n ≤ jx / n * n := Nat.mul_le_mul_right _ (by omega)
      have h6 : jx / n * n = n * (jx / n) := Nat.mul_comm _ _
      have h7 := emul a
      refine ⟨?_, by omega⟩
      have h8 : jx / n * n = (a + 1) * n := by omega
      exact (Nat.eq_of_mul_eq_mul_right hn h8).symm
  have hjx : jx / n * n + jx % n = jx := by rw [Nat.mul_comm]; exact hdm
  generalize hb : jx / n = b at *
  unfold ddRange
  rw [hb]
  dsimp only
  by_cases c0 : m * n < jx ∨ m = 0
  · rw [if_pos c0]
    refine ⟨by omega, fun ix hne => ?_⟩
    obtain ⟨a, ha, h1, h2⟩ := hel ix hne
    have : (a + 1) * n ≤ m * n := Nat.mul_le_mul_right _ ha
    have := emul a
    omega
  rw [if_neg c0]
  push Not at c0
  have hbm : b ≤ m := by
    have : b * n ≤ m * n := by omega
    exact Nat.le_of_mul_le_mul_right this hn
  by_cases c1 : jx % n ≠ 0
  · rw [if_pos c1]
    have hb' : b < m := by
      by_contra hc
      have : b = m := by omega
      rw [this] at hjx
      omega
    refine ⟨by have : (b + 1) * n ≤ m * n := Nat.mul_le_mul_right _ hb'; dsimp only; omega, fun ix hne => ?_⟩
    obtain ⟨a, ha, h1, h2⟩ := hel ix hne
    rcases which a h1 with rfl | ⟨-, h3⟩
    · have := emul a; dsimp only; omega
    · exact absurd h3 c1
  rw [if_neg c1]
  push Not at c1
  by_cases c2 : b = 0
  · rw [if_pos c2]
    refine ⟨by have : 1 * n ≤ m * n := Nat.mul_le_mul_right _ (by omega); dsimp only; omega, fun ix hne => ?_⟩
    obtain ⟨a, ha, h1, h2⟩ := hel ix hne
    rcases which a h1 with rfl | ⟨h3, -⟩
    · rw [c2] at h2; dsimp only; omega
    · omega
  rw [if_neg c2]
  obtain ⟨e, rfl⟩ := Nat.exists_eq_succ_of_ne_zero c2
  rw [Nat.succ_eq_add_one] at *
  have e1 := emul e
  have e2 := emul (e + 1)
  by_cases c3 : e + 1 = m
  · rw [if_pos c3]
    refine ⟨by rw [← c3], fun ix hne => ?_⟩
    obtain ⟨a, ha, h1, h2⟩ := hel ix hne
    rcases which a h1 with h3 | ⟨h3, -⟩
    · omega
    · obtain rfl : a = e := by omega
      simp only [Nat.add_sub_cancel]; omega
  · rw [if_neg c3]
    refine ⟨by have : (e + 1 + 1) * n ≤ m * n := Nat.mul_le_mul_right _ (by omega); dsimp only; omega, fun ix hne => ?_⟩
    obtain ⟨a, ha, h1, h2⟩ := hel ix hne
    rcases which a h1 with rfl | ⟨h3, -⟩
    · simp only [Nat.add_sub_cancel]; omega
    · obtain rfl : a = e := by omega
      simp only [Nat.add_sub_cancel]; omega

/-- A row applied to a column. -/
theorem shared_loop (n m : Nat) (hn : 0 < n) (D : Nat → Nat → List ℝ) (hD : ∀ a s, (D a s).length = n + 1) (w : Nat → Nat → ℝ) (jx : Nat)
    (x : Nat → ℝ) :
    rowLoop (ddSharedRow n m D w jx) 0 x = -∑ a ∈ range m, if a * n ≤ jx ∧ jx ≤ a * n + n then
      (∑ s ∈ range (n + 1), w a s * ((D a s).getD (jx - a * n) 0 * Interp.apply (D a s) (fun i => x (a * n + i)))) /
        ddLocal n m (w a) a (jx - a * n) else 0 := by
  obtain ⟨r1, r2⟩ := shared_range n m hn D w jx
  rw [rowLoop_full (ddSharedRow n m D w jx) (m * n + 1) r1 (fun j _ => r2 j), zero_add]
  show ∑ j ∈ range (m * n + 1), ddCoeff n m D w jx j * x j = _
  simp only [ddCoeff_eq, neg_mul, sum_mul]
  rw [sum_neg_distrib, sum_comm, neg_inj]
  apply sum_congr rfl
  intro a ha
  by_cases h : a * n ≤ jx ∧ jx ≤ a * n + n
  · rw [if_pos h, shift_sum n m a (mem_range.1 ha) _ (fun j => (∑ s ∈ range (n + 1), (D a s).getD (jx - a * n) 0 *
        (D a s).getD j 0 * w a s / ddLocal n m (w a) a (jx - a * n)) * x (a * n + j))]
    · simp only [apply_eq, hD, sum_mul]
      rw [sum_comm, div_eq_mul_inv, sum_mul]
      apply sum_congr rfl
      intro s _
      rw [mul_sum, mul_sum, sum_mul]
      exact sum_congr rfl fun j _ => by ring
    · intro ix
      by_cases h2 : a * n ≤ ix ∧ ix ≤ a * n + n
      · rw [if_pos ⟨h, h2⟩, if_pos h2, show a * n + (ix - a * n) = ix by omega]
      · rw [if_neg (fun hh => h2 hh.2), if_neg h2, zero_mul]
  · rw [if_neg h, sum_eq_zero]
    intro ix _
    rw [if_neg (fun hh => h hh.1), zero_mul]

/-- Both operators, from interfaces and from levels that are shared, have the same rows. -/
theorem shared_cases {solve : Dgesv} {n N nEdge : Nat} {node edge : Nat → ℝ} {gauss lob : List ℝ × List ℝ} {A : Op} (hl : LobattoRule n lob)
    (ho : OnLobatto n (N / n) edge lob)
    (h : diffDiffInit solve .interfaces n N nEdge node edge gauss lob = .ok A ∨ diffDiffGLLInit (n + 1) (N + 1) edge lob = .ok A) :
    0 < n ∧ N = N / n * n ∧ ∃ (R : Nat) (pt : Nat → Nat → ℝ), (N ≠ 0 → N + 1 ≤ R) ∧ 0 < R ∧
      (∀ a < N / n, ∀ s ≤ n, pt a s = edge (a * n + s)) ∧
      A = ⟨R, R, ddSharedRow n (N / n) (fun a s => diffCoeffs (n + 1) (fun i => edge (a * n + i)) (pt a s)) (gaussWeight n edge lob)⟩ := by
  rcases h with h | h
  · unfold diffDiffInit at h
    by_cases h0 : n = 0
    · rw [if_pos h0] at h; simp at h
    rw [if_neg h0] at h
    dsimp only at h
    by_cases h1 : nEdge = 0
    · rw [if_pos h1] at h; simp at h
    rw [if_neg h1] at h
    by_cases h2 : N % n ≠ 0
    · rw [if_pos h2] at h; simp at h
    rw [if_neg h2] at h
    by_cases h3 : N ≠ 0 ∧ nEdge < N + 1
    · rw [if_pos h3] at h; simp at h
    rw [if_neg h3] at h
    push Not at h2
    simp only [Res.ok.injEq] at h
    exact ⟨by omega, (Nat.div_mul_cancel (Nat.dvd_of_mod_eq_zero h2)).symm, nEdge, fun a s => edge (a * n + s), by omega, by omega,
      fun _ _ _ _ => rfl, h.symm⟩
  · unfold diffDiffGLLInit at h
    by_cases h0 : n + 1 ≤ 1
    · rw [if_pos h0] at h; simp at h
    rw [if_neg h0, if_neg (by omega)] at h
    simp only [Nat.add_sub_cancel] at h
    by_cases h2 : N % n ≠ 0
    · rw [if_pos h2] at h; simp at h
    rw [if_neg h2] at h
    push Not at h2
    simp only [Res.ok.injEq] at h
    refine ⟨by omega, (Nat.div_mul_cancel (Nat.dvd_of_mod_eq_zero h2)).symm, N + 1, gaussPoint n edge lob, fun _ => le_rfl, by omega,
      fun a ha s hs => ?_, h.symm⟩
    unfold gaussPoint
    rw [rescaled_point _ _ _ _ (by rw [hl.1.1]; omega), (ho a ha).2 s hs]

theorem lobatto_ends (n : Nat) (hn : 0 < n) (lob : List ℝ × List ℝ) (hl : LobattoRule n lob) : lob.2.getD 0 0 = lob.2.getD n 0 := by
  obtain ⟨solve, hs⟩ := solver_exists
  obtain ⟨⟨g, hg, -⟩, -⟩ := C87_correction solve hs 2 (n + 1) (by omega) (by omega)
  obtain ⟨l1, l2, -, -⟩ := lumped n hn lob hl g hg
  have : (derivative g).eval 1 ≠ 0 := fun hz => by rw [hz, mul_zero] at l1; exact zero_ne_one l1
  have h2 : lob.2.getD 0 0 / 2 * (derivative g).eval 1 = lob.2.getD n 0 / 2 * (derivative g).eval 1 := by rw [l1, l2]
  have := mul_right_cancel₀ this h2
  linarith

/-- With elements of equal size the weight the code divides by is that of the point in the integral over the column. -/
theorem local_weight (n m : Nat) (hn : 0 < n) (edge : Nat → ℝ) (lob : List ℝ × List ℝ) (hl : LobattoRule n lob)
    (hsize : ∀ a < m, edge ((a + 1) * n) - edge (a * n) = edge n - edge 0) (a j : Nat) (ha : a < m) (hj : j ≤ n) :
    interfaceWeight n m edge lob (a * n + j) = ddLocal n m (gaussWeight n edge lob a) a j := by
  have e1 : ∀ b : Nat, (b + 1) * n = b * n + n := fun b => by ring
  have hw := lobatto_ends n hn lob hl
  have hgw : gaussWeight n edge lob a j = (edge n - edge 0) / 2 * lob.2.getD j 0 := by
    unfold gaussWeight; rw [rescaled_weight, hsize a ha]
  have hmono : ∀ b c : Nat, b ≤ c → b * n ≤ c * n := fun b c h => Nat.mul_le_mul_right _ h
  unfold interfaceWeight ddLocal
  dsimp only
  rw [hgw]
  have hother : ∀ b, b < a → b * n ≤ a * n + j → a * n + j ≤ b * n + n → b + 1 = a ∧ j = 0 := by
    intro b hb h1 h2
    have := hmono (b + 1) a hb
    have := e1 b
    refine ⟨?_, by omega⟩
    by_contra hc
    have h3 := hmono (b + 2) a (by omega)
    have h4 := e1 (b + 1)
    rw [show b + 1 + 1 = b + 2 from rfl] at h4
    omega
  have hother2 : ∀ b, a < b → b * n ≤ a * n + j → b = a + 1 ∧ j = n := by
    intro b hb h1
    have := hmono (a + 1) b hb
    have := e1 a
    refine ⟨?_, by omega⟩
    by_contra hc
    have h3 := hmono (a + 2) b (by omega)
    have h4 := e1 (a + 1)
    rw [show a + 1 + 1 = a + 2 from rfl] at h4
    omega
  by_cases c1 : j = 0 ∧ a ≠ 0
  · obtain ⟨c1, c2⟩ := c1
    subst c1
    rw [if_neg (show ¬ (0 = n ∧ a ≠ m - 1) by omega), if_pos ⟨rfl, c2⟩]
    obtain ⟨b, rfl⟩ := Nat.exists_eq_succ_of_ne_zero c2
    rw [Nat.succ_eq_add_one] at *
    rw [← add_sum_erase _ _ (mem_range.2 ha), ← add_sum_erase _ _ (mem_erase.2 ⟨show b ≠ b + 1 by omega, mem_range.2 (show b < m by omega)⟩),
      sum_eq_zero, if_pos ⟨by omega, by omega⟩, if_pos ⟨by have := e1 b; omega, by have := e1 b; omega⟩, hsize (b + 1) ha,
      hsize b (by omega), show (b + 1) * n + 0 - (b + 1) * n = 0 by omega, show (b + 1) * n + 0 - b * n = n by rw [e1]; omega, hw]
    · ring
    · intro c hc
      simp only [mem_erase, mem_range] at hc
      rw [if_neg]
      rintro ⟨h1, h2⟩
      rcases lt_trichotomy c (b + 1) with h | h | h
      · have := hother c h h1 h2; omega
      · omega
      · have := hother2 c h h1; omega
  · rw [if_neg c1]
    by_cases c2 : j = n ∧ a ≠ m - 1
    · obtain ⟨c2, c3⟩ := c2
      subst c2
      rw [if_pos ⟨rfl, c3⟩]
      rw [← add_sum_erase _ _ (mem_range.2 ha), ← add_sum_erase _ _ (mem_erase.2 ⟨show a + 1 ≠ a by omega, mem_range.2 (show a + 1 < m by omega)⟩),
        sum_eq_zero, if_pos ⟨by omega, by omega⟩, if_pos ⟨by have := e1 a; omega, by have := e1 a; omega⟩, hsize a ha,
        hsize (a + 1) (by omega), show a * j + j - a * j = j by omega, show a * j + j - (a + 1) * j = 0 by rw [e1]; omega, hw]
      · ring
      · intro c hc
        simp only [mem_erase, mem_range] at hc
        rw [if_neg]
        rintro ⟨h1, h2⟩
        rcases lt_trichotomy c a with h | h | h
        · have := hother c h h1 h2; omega
        · omega
        · have := hother2 c h h1; omega
    · rw [if_neg c2, ← add_sum_erase _ _ (mem_range.2 ha), sum_eq_zero, if_pos ⟨by omega, by omega⟩, hsize a ha,
        show a * n + j - a * n = j by omega]
      · ring
      · intro c hc
        simp only [mem_erase, mem_range] at hc
        rw [if_neg]
        rintro ⟨h1, h2⟩
        rcases lt_trichotomy c a with h | h | h
        · have := hother c h h1 h2; omega
        · omega
        · have := hother2 c h h1; omega

/-- **C89 (shared points, equal elements).**  On interfaces, and on levels that elements share, the second derivative tested with
any continuous piecewise polynomial is minus the integral of the gradients.  Missing: elements of unequal size, see
`C89_shared_false`. -/
theorem C89_shared_partial (solve : Dgesv) (n N nEdge : Nat) (node edge : Nat → ℝ) (gauss lob : List ℝ × List ℝ) (A : Op)
    (h : diffDiffInit solve .interfaces n N nEdge node edge gauss lob = .ok A ∨ diffDiffGLLInit (n + 1) (N + 1) edge lob = .ok A)
    (hl : LobattoRule n lob) (ho : OnLobatto n (N / n) edge lob) (hx : ∀ b < N / n, ApartNodes (n + 1) (fun i => edge (b * n + i)))
    (hsize : ∀ a < N / n, edge ((a + 1) * n) - edge (a * n) = edge n - edge 0)
    (x y : Nat → ℝ) (p q : Nat → ℝ[X]) (hp : ∀ b < N / n, (p b).degree < (n + 1 : ℕ)) (hq : ∀ b < N / n, (q b).degree < (n + 1 : ℕ))
    (htp : ∀ b < N / n, Through (p b) edge x (b * n) (n + 1)) (htq : ∀ b < N / n, Through (q b) edge y (b * n) (n + 1)) :
    RangeOk A ∧ ∑ k ∈ range (N + 1), interfaceWeight n (N / n) edge lob k * (y k * applyRow A x k) = weakSecond n (N / n) edge q p := by
  obtain ⟨hn, hN, R, pt, hR, hR0, hpt, hA⟩ := shared_cases hl ho h
  constructor
  · intro k hk
    obtain ⟨r1, r2⟩ := shared_range n (N / n) hn (fun a s => diffCoeffs (n + 1) (fun i => edge (a * n + i)) (pt a s)) (gaussWeight n edge lob) k
    rw [hA]
    refine ⟨?_, fun j _ => r2 j⟩
    show (ddRange n (N / n) k).2 ≤ R
    by_cases h0 : N = 0
    · rw [h0, Nat.zero_div] at r1 ⊢; omega
    · have := hR h0; omega
  have hvalue : ∀ k, applyRow A x k = -∑ a ∈ range (N / n), if a * n ≤ k ∧ k ≤ a * n + n then
      (∑ s ∈ range (n + 1), gaussWeight n edge lob a s * ((diffCoeffs (n + 1) (fun i => edge (a * n + i)) (edge (a * n + s))).getD (k - a * n) 0 *
        (derivative (p a)).eval (edge (a * n + s)))) / ddLocal n (N / n) (gaussWeight n edge lob a) a (k - a * n) else 0 := by
    intro k
    rw [applyRow, hA]
    dsimp only
    rw [shared_loop n (N / n) hn _ (fun a s => length_diff _ _ _), neg_inj]
    apply sum_congr rfl
    intro a ha
    rw [mem_range] at ha
    congr 2
    apply sum_congr rfl
    intro s hs
    have hs : s ≤ n := Nat.lt_succ_iff.1 (mem_range.1 hs)
    rw [hpt a ha s hs, diff_through (n + 1) (a * n) edge x _ (p a) (hp a ha) (hx a ha) (htp a ha)]
  generalize hm : N / n = m at *
  have hsum : ∑ k ∈ range (N + 1), interfaceWeight n m edge lob k * (y k * applyRow A x k) =
      ∑ a ∈ range m, -∑ j ∈ range (n + 1), y (a * n + j) * ∑ s ∈ range (n + 1), gaussWeight n edge lob a s *
        ((diffCoeffs (n + 1) (fun i => edge (a * n + i)) (edge (a * n + s))).getD j 0 * (derivative (p a)).eval (edge (a * n + s))) := by
    simp only [hvalue, mul_neg, mul_sum, sum_neg_distrib]
    rw [sum_comm, neg_inj]
    apply sum_congr rfl
    intro a ha
    rw [mem_range] at ha
    rw [hN, shift_sum n m a ha _ (fun j => y (a * n + j) * ∑ s ∈ range (n + 1), gaussWeight n edge lob a s *
        ((diffCoeffs (n + 1) (fun i => edge (a * n + i)) (edge (a * n + s))).getD j 0 * (derivative (p a)).eval (edge (a * n + s))))]
    · exact sum_congr rfl fun j _ => by rw [mul_sum]
    · intro k
      by_cases hk : a * n ≤ k ∧ k ≤ a * n + n
      · rw [if_pos hk, if_pos hk, show a * n + (k - a * n) = k by omega]
        have hw := local_weight n m hn edge lob hl hsize a (k - a * n) ha (by omega)
        rw [show a * n + (k - a * n) = k by omega] at hw
        rw [hw]
        have hpos : ddLocal n m (gaussWeight n edge lob a) a (k - a * n) ≠ 0 := by
          have hg : 0 < gaussWeight n edge lob a (k - a * n) := by
            unfold gaussWeight; rw [rescaled_weight]
            have := (ho a ha).1
            exact mul_pos (by linarith) (hl.2.2.2.1 _ (by omega))
          unfold ddLocal
          dsimp only
          split_ifs <;> positivity
        rw [mul_left_comm, mul_div_cancel₀ _ hpos]
      · rw [if_neg hk, if_neg hk]; ring
  rw [hsum]
  unfold weakSecond
  rw [← sum_neg_distrib]
  apply sum_congr rfl
  intro a ha
  rw [mem_range] at ha
  rw [neg_inj]
  have hint := element_rule n (n + 1) (2 * n) edge (fun i => edge (a * n + i)) lob hl.1 hl.2.2.2.2.2 a
    (fun i hi => (ho a ha).2 i (Nat.lt_succ_iff.1 hi)) (derivative (q a) * derivative (p a)) (by
      exact mul_degree_lt _ _ n n (2 * n) (derivative_degree_lt _ n (hq a ha)) (derivative_degree_lt _ n (hp a ha)) (by omega))
  simp only [eval_mul] at hint
  rw [← hint]
  simp only [mul_sum]
  rw [sum_comm]
  apply sum_congr rfl
  intro s _
  rw [← diff_through (n + 1) (a * n) edge y _ (q a) (hq a ha) (hx a ha) (htq a ha), apply_eq, length_diff, sum_mul, mul_sum]
  exact sum_congr rfl fun j _ => by ring

/-- **C89 (shared points, equal elements).**  It conserves the integral, is symmetric, and never adds energy. -/
theorem C89_shared_energy_partial (solve : Dgesv) (n N nEdge : Nat) (node edge : Nat → ℝ) (gauss lob : List ℝ × List ℝ) (A : Op)
    (h : diffDiffInit solve .interfaces n N nEdge node edge gauss lob = .ok A ∨ diffDiffGLLInit (n + 1) (N + 1) edge lob = .ok A)
    (hl : LobattoRule n lob) (ho : OnLobatto n (N / n) edge lob) (hx : ∀ b < N / n, ApartNodes (n + 1) (fun i => edge (b * n + i)))
    (hsize : ∀ a < N / n, edge ((a + 1) * n) - edge (a * n) = edge n - edge 0) (x y : Nat → ℝ) :
    ∑ k ∈ range (N + 1), interfaceWeight n (N / n) edge lob k * applyRow A x k = 0 ∧
    ∑ k ∈ range (N + 1), interfaceWeight n (N / n) edge lob k * (y k * applyRow A x k) =
      ∑ k ∈ range (N + 1), interfaceWeight n (N / n) edge lob k * (x k * applyRow A y k) ∧
    ∑ k ∈ range (N + 1), interfaceWeight n (N / n) edge lob k * (x k * applyRow A x k) ≤ 0 := by
  have hex : ∀ (x : Nat → ℝ) b, ∃ p : ℝ[X], b < N / n → p.degree < (n + 1 : ℕ) ∧ Through p edge x (b * n) (n + 1) := by
    intro x b
    by_cases hb : b < N / n
    · obtain ⟨p, h1, h2⟩ := lagrange_exists (n + 1) (b * n) edge x (apart_distinct (hx b hb))
      exact ⟨p, fun _ => ⟨h1, h2⟩⟩
    · exact ⟨0, fun hh => absurd hh hb⟩
  choose p hp using hex
  have key := fun x y => (C89_shared_partial solve n N nEdge node edge gauss lob A h hl ho hx hsize x y (p x) (p y)
    (fun b hb => (hp x b hb).1) (fun b hb => (hp y b hb).1) (fun b hb => (hp x b hb).2) (fun b hb => (hp y b hb).2)).2
  refine ⟨?_, ?_, ?_⟩
  · have := (C89_shared_partial solve n N nEdge node edge gauss lob A h hl ho hx hsize x (fun _ => 1) (p x) (fun _ => 1)
      (fun b hb => (hp x b hb).1) (fun b _ => by rw [degree_one]; exact_mod_cast Nat.succ_pos n) (fun b hb => (hp x b hb).2)
      (fun b _ i _ => by simp)).2
    simp only [one_mul] at this
    rw [this]
    unfold weakSecond
    simp
  · rw [key x y, key y x]
    unfold weakSecond
    simp only [mul_comm]
  · rw [key x x]
    unfold weakSecond
    rw [neg_nonpos]
    exact sum_nonneg fun a ha => intervalIntegral.integral_nonneg (ho a (mem_range.1 ha)).1.le fun s _ => mul_self_nonneg _

/-- **C89 (shared points, exact, equal elements).**  The second derivative of a polynomial of degree at most the order is exact, at
the ends of the column if its slope vanishes there. -/
theorem C89_shared_exact_partial (solve : Dgesv) (n N nEdge : Nat) (node edge : Nat → ℝ) (gauss lob : List ℝ × List ℝ) (A : Op)
    (h : diffDiffInit solve .interfaces n N nEdge node edge gauss lob = .ok A ∨ diffDiffGLLInit (n + 1) (N + 1) edge lob = .ok A)
    (hl : LobattoRule n lob) (ho : OnLobatto n (N / n) edge lob) (hx : ∀ b < N / n, ApartNodes (n + 1) (fun i => edge (b * n + i)))
    (hsize : ∀ a < N / n, edge ((a + 1) * n) - edge (a * n) = edge n - edge 0)
    (r : ℝ[X]) (hr : r.degree < (n + 1 : ℕ)) (x : Nat → ℝ) (hxr : ∀ k ≤ N, x k = r.eval (edge k)) (hN0 : 0 < N) (k : Nat) (hk : k ≤ N)
    (hbot : k = 0 → (derivative r).eval (edge 0) = 0) (htop : k = N → (derivative r).eval (edge N) = 0) :
    applyRow A x k = (derivative (derivative r)).eval (edge k) := by
  obtain ⟨hn, hN, -⟩ := shared_cases hl ho h
  have e1 : ∀ b : Nat, (b + 1) * n = b * n + n := fun b => by ring
  have hle : ∀ b < N / n, (b + 1) * n ≤ N := fun b hb => by
    have : (b + 1) * n ≤ N / n * n := Nat.mul_le_mul_right _ hb
    omega
  let y : Nat → ℝ := fun i => if i = k then 1 else 0
  have hex : ∀ b, ∃ q : ℝ[X], b < N / n → q.degree < (n + 1 : ℕ) ∧ Through q edge y (b * n) (n + 1) := by
    intro b
    by_cases hb : b < N / n
    · obtain ⟨p, h1, h2⟩ := lagrange_exists (n + 1) (b * n) edge y (apart_distinct (hx b hb))
      exact ⟨p, fun _ => ⟨h1, h2⟩⟩
    · exact ⟨0, fun hh => absurd hh hb⟩
  choose q hq using hex
  have key := (C89_shared_partial solve n N nEdge node edge gauss lob A h hl ho hx hsize x y (fun _ => r) q (fun _ _ => hr)
    (fun b hb => (hq b hb).1) (fun b hb i hi => (hxr _ (by have := hle b hb; have := e1 b; omega)).symm) (fun b hb => (hq b hb).2)).2
  have hsingle : ∀ F : Nat → ℝ, ∑ i ∈ range (N + 1), interfaceWeight n (N / n) edge lob i * (y i * F i) = interfaceWeight n (N / n) edge lob k * F k := by
    intro F
    rw [sum_eq_single k (fun b _ hb => by simp [y, hb]) (fun hh => absurd (mem_range.2 (by omega)) hh)]
    simp [y]
  rw [hsingle] at key
  have hW : interfaceWeight n (N / n) edge lob k ≠ 0 := by
    have hpos : ∀ a ∈ range (N / n), 0 ≤ (if a * n ≤ k ∧ k ≤ a * n + n then
        (edge ((a + 1) * n) - edge (a * n)) / 2 * lob.2.getD (k - a * n) 0 else 0) := by
      intro a ha
      have := (ho a (mem_range.1 ha)).1
      split_ifs with hc
      · exact mul_nonneg (by linarith) (hl.2.2.2.1 _ (by omega)).le
      · exact le_rfl
    obtain ⟨a, ha, hc⟩ : ∃ a < N / n, a * n ≤ k ∧ k ≤ a * n + n := by
      by_cases hkN : k = N
      · have hm : 0 < N / n := Nat.pos_of_ne_zero fun hz => by rw [hz] at hN; omega
        refine ⟨N / n - 1, by omega, ?_⟩
        have := e1 (N / n - 1)
        rw [show N / n - 1 + 1 = N / n by omega, ← hN] at this
        omega
      · refine ⟨k / n, (Nat.div_lt_iff_lt_mul hn).2 (by omega), Nat.div_mul_le_self k n, ?_⟩
        have := Nat.div_add_mod k n
        have := Nat.mod_lt k hn
        have : n * (k / n) = k / n * n := Nat.mul_comm _ _
        omega
    have hone : 0 < (if a * n ≤ k ∧ k ≤ a * n + n then (edge ((a + 1) * n) - edge (a * n)) / 2 * lob.2.getD (k - a * n) 0 else 0) := by
      rw [if_pos hc]
      have := (ho a ha).1
      exact mul_pos (by linarith) (hl.2.2.2.1 _ (by omega))
    exact (lt_of_lt_of_le hone (single_le_sum hpos (mem_range.2 ha))).ne'
  apply mul_left_cancel₀ hW
  rw [key, ← hsingle (fun i => (derivative (derivative r)).eval (edge i))]
  have eN : range (N + 1) = range (N / n * n + 1) := by rw [← hN]
  conv_rhs => rw [eN, interfaceWeight_sum n (N / n) edge lob (fun i => y i * (derivative (derivative r)).eval (edge i))]
  unfold weakSecond
  have hel : ∀ a ∈ range (N / n), ∫ s in edge (a * n)..edge ((a + 1) * n), (derivative (q a)).eval s * (derivative r).eval s =
      (y ((a + 1) * n) * (derivative r).eval (edge ((a + 1) * n)) - y (a * n) * (derivative r).eval (edge (a * n))) -
      ∑ j ∈ range (n + 1), lob.2.getD j 0 / 2 * (edge ((a + 1) * n) - edge (a * n)) *
        (y (a * n + j) * (derivative (derivative r)).eval (edge (a * n + j))) := by
    intro a ha
    rw [mem_range] at ha
    obtain ⟨hqd, hqt⟩ := hq a ha
    have hparts := poly_ftc (q a * derivative r) (edge (a * n)) (edge ((a + 1) * n))
    rw [derivative_mul] at hparts
    simp only [eval_add] at hparts
    rw [intervalIntegral.integral_add (cont _ _ _) (cont _ _ _)] at hparts
    have hint := element_rule n (n + 1) (2 * n) edge (fun i => edge (a * n + i)) lob hl.1 hl.2.2.2.2.2 a
      (fun i hi => (ho a ha).2 i (Nat.lt_succ_iff.1 hi)) (q a * derivative (derivative r)) (by
        by_cases hz : derivative (derivative r) = 0
        · rw [hz, mul_zero, degree_zero]; exact WithBot.bot_lt_coe _
        · refine mul_degree_lt _ _ (n + 1) n (2 * n) hqd ?_ (by omega)
          exact lt_of_le_of_lt (degree_derivative_le ..) (derivative_degree_lt _ n hr))
    have hterm : ∀ j ∈ range (n + 1), gaussWeight n edge lob a j * (q a * derivative (derivative r)).eval (edge (a * n + j)) =
        lob.2.getD j 0 / 2 * (edge ((a + 1) * n) - edge (a * n)) * (y (a * n + j) * (derivative (derivative r)).eval (edge (a * n + j))) := by
      intro j hj
      rw [eval_mul, hqt j (mem_range.1 hj)]
      unfold gaussWeight
      rw [rescaled_weight]; ring
    rw [sum_congr rfl hterm] at hint
    rw [hint]
    have t0 := hqt 0 (by omega)
    have t1 := hqt n (by omega)
    rw [Nat.add_zero] at t0
    rw [← e1] at t1
    simp only [eval_mul] at hparts ⊢
    rw [t0, t1] at hparts
    linarith
  rw [sum_congr rfl hel, sum_sub_distrib, sum_range_sub (fun a => y (a * n) * (derivative r).eval (edge (a * n))), ← hN, Nat.zero_mul]
  have b0 : y 0 * (derivative r).eval (edge 0) = 0 := by
    by_cases hk0 : k = 0
    · rw [hbot hk0, mul_zero]
    · rw [show y 0 = 0 from if_neg (Ne.symm hk0), zero_mul]
  have b1 : y N * (derivative r).eval (edge N) = 0 := by
    by_cases hkN : k = N
    · rw [htop hkN, mul_zero]
    · rw [show y N = 0 from if_neg (Ne.symm hkN), zero_mul]
  rw [b0, b1]
  ring

/-- **C89 (refused).**  An order of zero, and order one for levels that elements share, divides by zero; otherwise the operators
refuse an empty column and one that its elements do not fill, and nothing else that has enough interfaces. -/
theorem C89_refused (solve : Dgesv) (hs : Solves solve) (n N nEdge : Nat) (node edge : Nat → ℝ) (gauss lob : List ℝ × List ℝ) :
    (diffDiffInit solve .levels n N nEdge node edge gauss lob = .exc ↔ 0 < n ∧ (N = 0 ∨ ¬ n ∣ N)) ∧
    (diffDiffInit solve .interfaces n N nEdge node edge gauss lob = .exc ↔ 0 < n ∧ (nEdge = 0 ∨ ¬ n ∣ N)) ∧
    (diffDiffGLLInit n N node lob = .exc ↔ 1 < n ∧ (N = 0 ∨ ¬ n - 1 ∣ N - 1)) ∧
    (0 < n → n ∣ N → 0 < N → nEdge = N + 1 → ∃ A B, diffDiffInit solve .levels n N nEdge node edge gauss lob = .ok A ∧
      diffDiffInit solve .interfaces n N nEdge node edge gauss lob = .ok B ∧ A.rows = N ∧ B.rows = N + 1) ∧
    (1 < n → 0 < N → n - 1 ∣ N - 1 → ∃ A, diffDiffGLLInit n N node lob = .ok A ∧ A.rows = N) := by
  obtain ⟨-, f, hf, -⟩ := C87_correction solve hs 2 (n + 1 + 1) (by omega) (by omega)
  have hd : (N % n ≠ 0) ↔ ¬ n ∣ N := not_congr (Nat.dvd_iff_mod_eq_zero ..).symm
  have hd' : ((N - 1) % (n - 1) ≠ 0) ↔ ¬ n - 1 ∣ N - 1 := not_congr (Nat.dvd_iff_mod_eq_zero ..).symm
  have hcorr : 0 < n → ∃ f, getDerivatives solve 2 (n + 1) = .ok f := fun h => by
    obtain ⟨-, f, hf, -⟩ := C87_correction solve hs 2 (n + 1) (by omega) (by omega)
    exact ⟨f, hf⟩
  refine ⟨?_, ?_, ?_, ?_, ?_⟩
  · unfold diffDiffInit
    by_cases h0 : n = 0
    · rw [if_pos h0]; simp; omega
    rw [if_neg h0]
    dsimp only
    by_cases h1 : N = 0
    · rw [if_pos h1]; simp [h1]; omega
    rw [if_neg h1]
    by_cases h2 : N % n ≠ 0
    · rw [if_pos h2]; simp only [true_iff]; exact ⟨by omega, Or.inr (hd.1 h2)⟩
    rw [if_neg h2]
    have h2' : n ∣ N := not_not.1 (fun hc => h2 (hd.2 hc))
    obtain ⟨f, hf⟩ := hcorr (by omega)
    rw [hf]
    by_cases h3 : N ≠ 0 ∧ nEdge < N + 1
    · rw [if_pos h3]; simp [h1, h2']
    · rw [if_neg h3]; simp [h1, h2']
  · unfold diffDiffInit
    by_cases h0 : n = 0
    · rw [if_pos h0]; simp; omega
    rw [if_neg h0]
    dsimp only
    by_cases h1 : nEdge = 0
    · rw [if_pos h1]; simp [h1]; omega
    rw [if_neg h1]
    by_cases h2 : N % n ≠ 0
    · rw [if_pos h2]; simp only [true_iff]; exact ⟨by omega, Or.inr (hd.1 h2)⟩
    rw [if_neg h2]
    have h2' : n ∣ N := not_not.1 (fun hc => h2 (hd.2 hc))
    by_cases h3 : N ≠ 0 ∧ nEdge < N + 1
    · rw [if_pos h3]; simp [h1, h2']
    · rw [if_neg h3]; simp [h1, h2']
  · unfold diffDiffGLLInit
    by_cases h0 : n ≤ 1
    · rw [if_pos h0]; simp; omega
    rw [if_neg h0]
    by_cases h1 : N = 0
    · rw [if_pos h1]; simp [h1]; omega
    rw [if_neg h1]
    by_cases h2 : (N - 1) % (n - 1) ≠ 0
    · rw [if_pos h2]; simp only [true_iff]; exact ⟨by omega, Or.inr (hd'.1 h2)⟩
    rw [if_neg h2]
    have h2' : n - 1 ∣ N - 1 := not_not.1 (fun hc => h2 (hd'.2 hc))
    simp [h1, h2']
  · intro hn hdv hN he
    obtain ⟨f, hf⟩ := hcorr hn
    have h2 : ¬ N % n ≠ 0 := fun hc => hd.1 hc hdv
    refine ⟨⟨N, N, ddRow f n (N / n) node edge gauss⟩, ⟨nEdge, nEdge, ddSharedRow n (N / n)
        (fun a s => diffCoeffs (n + 1) (fun i => edge (a * n + i)) (edge (a * n + s))) (gaussWeight n edge lob)⟩, ?_, ?_, rfl, he⟩
    · unfold diffDiffInit
      rw [if_neg (by omega), if_neg (by dsimp only; omega), if_neg h2, if_neg (by omega)]
      dsimp only
      rw [hf]
    · unfold diffDiffInit
      rw [if_neg (by omega), if_neg (by dsimp only; omega), if_neg h2, if_neg (by omega)]
  · intro hn hN hdv
    unfold diffDiffGLLInit
    rw [if_neg (by omega), if_neg (by omega), if_neg (fun hc => hd'.1 hc hdv)]
    exact ⟨_, rfl, rfl⟩

/-! ### Elements of unequal size -/

/-- Two elements, one twice as long as the other. -/
theorem two_elements (node edge : Nat → ℝ) (hnode : ∀ k, node k = if k = 0 then 1 / 2 else 2)
    (hedge : ∀ k, edge k = if k = 0 then 0 else if k = 1 then 1 else 3) :
    OnGauss 1 2 node edge ([0], [2]) ∧ OnLobatto 1 2 edge ([-1, 1], [1, 1]) ∧ (∀ b < 2, ApartNodes 1 (fun i => node (b * 1 + i))) ∧
    ∀ b < 2, ApartNodes (1 + 1) (fun i => edge (b * 1 + i)) := by
  refine ⟨?_, ?_, fun b _ i j hi hj hij => absurd (show i = j by omega) hij, ?_⟩
  · intro a ha
    obtain rfl | rfl : a = 0 ∨ a = 1 := by omega
    · refine ⟨by norm_num [hedge], fun i hi => ?_⟩
      obtain rfl : i = 0 := by omega
      norm_num [hedge, hnode]
    · refine ⟨by norm_num [hedge], fun i hi => ?_⟩
      obtain rfl : i = 0 := by omega
      norm_num [hedge, hnode]
  · intro a ha
    obtain rfl | rfl : a = 0 ∨ a = 1 := by omega
    · refine ⟨by norm_num [hedge], fun i hi => ?_⟩
      obtain rfl | rfl : i = 0 ∨ i = 1 := by omega
      · norm_num [hedge]
      · norm_num [hedge]
    · refine ⟨by norm_num [hedge], fun i hi => ?_⟩
      obtain rfl | rfl : i = 0 ∨ i = 1 := by omega
      · norm_num [hedge]
      · norm_num [hedge]
  · intro b hb i j hi hj hij
    obtain rfl | rfl : b = 0 ∨ b = 1 := by omega
    · obtain rfl | rfl : i = 0 ∨ i = 1 := by omega
      · obtain rfl : j = 1 := by omega
        norm_num [hedge, abs_of_neg]
      · obtain rfl : j = 0 := by omega
        norm_num [hedge]
    · obtain rfl | rfl : i = 0 ∨ i = 1 := by omega
      · obtain rfl : j = 1 := by omega
        norm_num [hedge, abs_of_neg]
      · obtain rfl : j = 0 := by omega
        norm_num [hedge]

/-- **C89 (does not conserve).**  With elements of unequal size the second derivative on levels changes the integral of the
column. -/
theorem C89_conserves_false (solve : Dgesv) (hs : Solves solve) : ∃ (node edge : Nat → ℝ) (A : Op) (x : Nat → ℝ),
    diffDiffInit solve .levels 1 2 3 node edge ([0], [2]) ([-1, 1], [1, 1]) = .ok A ∧ GaussRule 1 ([0], [2]) ∧
    OnGauss 1 2 node edge ([0], [2]) ∧ ∑ k ∈ range 2, levelWeight 1 edge ([0], [2]) k * applyRow A x k ≠ 0 := by
  let node : Nat → ℝ := fun k => if k = 0 then 1 / 2 else 2
  let edge : Nat → ℝ := fun k => if k = 0 then 0 else if k = 1 then 1 else 3
  let x : Nat → ℝ := fun k => if k = 0 then 0 else 1
  let p : Nat → ℝ[X] := fun k => if k = 0 then 0 else 1
  obtain ⟨A, -, hA, -⟩ := (C89_refused solve hs 1 2 3 node edge ([0], [2]) ([-1, 1], [1, 1])).2.2.2.1 one_pos (one_dvd _) (by omega) rfl
  obtain ⟨h1, -, h3, -⟩ := two_elements node edge (fun _ => rfl) (fun _ => rfl)
  have htp : ∀ b < 2, (p b).degree < (1 : ℕ) ∧ Through (p b) node x (b * 1) 1 := by
    intro b hb
    obtain rfl | rfl : b = 0 ∨ b = 1 := by omega
    · refine ⟨by simp [p], fun i hi => ?_⟩
      obtain rfl : i = 0 := by omega
      simp [p, x]
    · refine ⟨by simp [p], fun i hi => ?_⟩
      obtain rfl : i = 0 := by omega
      simp [p, x]
  refine ⟨node, edge, A, x, hA, midpoint_gauss, h1, ?_⟩
  have key := (C89_weak solve hs 1 2 3 node edge ([0], [2]) ([-1, 1], [1, 1]) A hA midpoint_gauss h1 h3 x (fun _ => 1) p (fun _ => 1)
    (fun b hb => (htp b hb).1) (fun b _ => by simp) (fun b hb => (htp b hb).2) (fun b _ i _ => by simp) (X ^ 2) square_correction).2
  simp only [one_mul] at key
  rw [key]
  norm_num [weakSecond, jump, p, edge, sum_range_succ]

/-- **C89 (not consistent).**  With elements of unequal size the second derivative of a straight line on interfaces is not zero
where the elements meet, and its integral is not the flux over the ends. -/
theorem C89_shared_false (solve : Dgesv) (hs : Solves solve) : ∃ (node edge : Nat → ℝ) (A : Op),
    diffDiffInit solve .interfaces 1 2 3 node edge ([0], [2]) ([-1, 1], [1, 1]) = .ok A ∧ LobattoRule 1 ([-1, 1], [1, 1]) ∧
    OnLobatto 1 2 edge ([-1, 1], [1, 1]) ∧ applyRow A edge 1 = -(1 / 2) := by
  let node : Nat → ℝ := fun k => if k = 0 then 1 / 2 else 2
  let edge : Nat → ℝ := fun k => if k = 0 then 0 else if k = 1 then 1 else 3
  obtain ⟨-, A, -, hA, -⟩ := (C89_refused solve hs 1 2 3 node edge ([0], [2]) ([-1, 1], [1, 1])).2.2.2.1 one_pos (one_dvd _) (by omega) rfl
  obtain ⟨-, h2, -, h4⟩ := two_elements node edge (fun _ => rfl) (fun _ => rfl)
  refine ⟨node, edge, A, hA, trapezoid_lobatto, h2, ?_⟩
  have hrow : A = ⟨3, 3, ddSharedRow 1 (2 / 1) (fun a s => diffCoeffs (1 + 1) (fun i => edge (a * 1 + i)) (edge (a * 1 + s)))
      (gaussWeight 1 edge ([-1, 1], [1, 1]))⟩ := by
    unfold diffDiffInit at hA
    simp at hA
    rw [← hA]
    simp
  have hline : ∀ b < 2, ∀ s, Interp.apply (diffCoeffs (1 + 1) (fun i => edge (b * 1 + i)) s) (fun i => edge (b * 1 + i)) = 1 := by
    intro b hb s
    rw [diff_through (1 + 1) (b * 1) edge edge s X (by rw [degree_X]; norm_num) (h4 b hb) (fun i _ => by simp)]
    simp
  have hb : ∀ b < 2, ∀ j < 2, ∀ s, (diffCoeffs (1 + 1) (fun i => edge (b * 1 + i)) s).getD j 0 =
      (if j = 0 then -1 else 1) / (edge (b + 1) - edge b) := by
    intro b hb j hj s
    have hne : edge (b + 1) - edge b ≠ 0 := by
      obtain rfl | rfl : b = 0 ∨ b = 1 := by omega
      · norm_num [edge]
      · norm_num [edge]
    let l : ℝ[X] := if j = 0 then C (1 / (edge (b + 1) - edge b)) * (C (edge (b + 1)) - X)
      else C (1 / (edge (b + 1) - edge b)) * (X - C (edge b))
    have hdeg : l.degree < (1 + 1 : ℕ) := by
      have : l.natDegree ≤ 1 := by
        unfold l
        split_ifs <;> compute_degree
      exact lt_of_le_of_lt degree_le_natDegree (by exact_mod_cast Nat.lt_succ_of_le this)
    have := diff_through (1 + 1) (b * 1) edge (fun i => if i = b + j then 1 else 0) s l hdeg (h4 b hb) (by
      intro i hi
      obtain rfl | rfl : i = 0 ∨ i = 1 := by omega
      · obtain rfl | rfl : j = 0 ∨ j = 1 := by omega
        · simp [l]; field_simp
        · simp [l]
      · obtain rfl | rfl : j = 0 ∨ j = 1 := by omega
        · simp [l]
        · simp [l]; field_simp)
    rw [apply_eq, length_diff, sum_eq_single j (fun t _ ht => by rw [if_neg (by omega), mul_zero])
      (fun hh => absurd (mem_range.2 hj) hh), if_pos (by omega), mul_one] at this
    rw [this]
    unfold l
    split_ifs
    · simp; ring
    · simp
  rw [applyRow, hrow]
  dsimp only
  rw [shared_loop 1 (2 / 1) one_pos _ (fun a s => length_diff _ _ _)]
  simp only [show (2 : ℕ) / 1 = 2 from rfl, sum_range_succ, sum_range_zero, zero_add]
  rw [hline 0 (by omega), hline 0 (by omega), hline 1 (by omega), hline 1 (by omega), hb 0 (by omega) _ (by omega),
    hb 0 (by omega) _ (by omega), hb 1 (by omega) _ (by omega), hb 1 (by omega) _ (by omega)]
  norm_num [gaussWeight, ddLocal, rescale, edge]

/-- Three equal elements with one level each meet the hypotheses of the theorems on levels and on interfaces. -/
example : ∃ (solve : Dgesv) (A B : Op), Solves solve ∧
    diffDiffInit solve .levels 1 3 4 (fun k => (k : ℝ) + 1 / 2) (fun k => (k : ℝ)) ([0], [2]) ([-1, 1], [1, 1]) = .ok A ∧
    diffDiffInit solve .interfaces 1 3 4 (fun k => (k : ℝ) + 1 / 2) (fun k => (k : ℝ)) ([0], [2]) ([-1, 1], [1, 1]) = .ok B ∧
    GaussRule 1 ([0], [2]) ∧ LobattoRule 1 ([-1, 1], [1, 1]) ∧
    OnGauss 1 3 (fun k => (k : ℝ) + 1 / 2) (fun k => (k : ℝ)) ([0], [2]) ∧ OnLobatto 1 3 (fun k => (k : ℝ)) ([-1, 1], [1, 1]) ∧
    (∀ b < 3, ApartNodes 1 (fun i => ((b * 1 + i : ℕ) : ℝ) + 1 / 2)) ∧ (∀ b < 3, ApartNodes (1 + 1) (fun i => ((b * 1 + i : ℕ) : ℝ))) ∧
    ∀ a < 3, (((a + 1) * 1 : ℕ) : ℝ) - ((a * 1 : ℕ) : ℝ) = ((1 : ℕ) : ℝ) - ((0 : ℕ) : ℝ) := by
  obtain ⟨solve, hs⟩ := solver_exists
  obtain ⟨A, B, hA, hB, -⟩ := (C89_refused solve hs 1 3 4 (fun k => (k : ℝ) + 1 / 2) (fun k => (k : ℝ)) ([0], [2]) ([-1, 1], [1, 1])).2.2.2.1
    one_pos (one_dvd _) (by omega) rfl
  refine ⟨solve, A, B, hs, hA, hB, midpoint_gauss, trapezoid_lobatto, ?_, ?_, ?_, ?_, ?_⟩
  · intro a _
    refine ⟨by push_cast; linarith, fun i hi => ?_⟩
    obtain rfl : i = 0 := by omega
    push_cast
    simp
  · intro a _
    refine ⟨by push_cast; linarith, fun i hi => ?_⟩
    obtain rfl | rfl : i = 0 ∨ i = 1 := by omega
    · push_cast; simp
    · push_cast; norm_num
  · intro b _ i j hi hj hij
    exact absurd (show i = j by omega) hij
  · intro b _ i j hi hj hij
    obtain rfl | rfl : i = 0 ∨ i = 1 := by omega
    · obtain rfl : j = 1 := by omega
      push_cast; norm_num [abs_of_neg]
    · obtain rfl : j = 0 := by omega
      push_cast; norm_num
  · intro a _
    push_cast
    ring

end Verif.Column
