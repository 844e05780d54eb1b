/-
C88: the flux correction derivative from levels to interfaces.
-/
import Mathlib.Tactic.NormNum
import Mathlib.Tactic.FieldSimp
import Verif.Column.Flux
import Verif.Column.FluxSpec
import Verif.Column.PenaltyProps
import Verif.Column.FemProps

namespace Verif.Column

open Finset Polynomial Verif.Interp Verif.Quad

/-! ### The rows -/

theorem addAt_eq (c : Nat → ℝ) (b : Nat) (v : ℝ) (l : List ℝ) (k : Nat) :
    addAt c b v l k = c k + v * put (fun _ => 0) b l k := by
  unfold addAt put
  by_cases h : b ≤ k ∧ k < b + l.length
  · rw [if_pos h, if_pos h]
  · rw [if_neg h, if_neg h]; ring

theorem addAt_sum (c : Nat → ℝ) (b : Nat) (v : ℝ) (l : List ℝ) (lo hi : Nat) (h1 : lo ≤ b) (h2 : b + l.length ≤ hi)
    (y : Nat → ℝ) : ∑ j ∈ Ico lo hi, addAt c b v l j * y j =
      ∑ j ∈ Ico lo hi, c j * y j + v * Interp.apply l (fun i => y (b + i)) := by
  rw [← put_sum lo hi b l h1 h2, mul_sum, ← sum_add_distrib]
  exact sum_congr rfl fun j _ => by rw [addAt_eq]; ring

theorem localDeriv_sum (n : Nat) (node : Nat → ℝ) (a : Nat) (on : Bool) (d s : ℝ) (lo hi : Nat) (h1 : lo ≤ a * n)
    (h2 : (a + 1) * n ≤ hi) (h3 : on = true → (a + 2) * n ≤ hi) (y : Nat → ℝ) :
    ∑ j ∈ Ico lo hi, localDeriv n node a on d s j * y j =
      if on then 0.5 * d * (Interp.apply (diffCoeffs n (fun i => node (a * n + i)) s) (fun i => y (a * n + i)) +
        Interp.apply (diffCoeffs n (fun i => node ((a + 1) * n + i)) s) (fun i => y ((a + 1) * n + i)))
      else d * Interp.apply (diffCoeffs n (fun i => node (a * n + i)) s) (fun i => y (a * n + i)) := by
  have e1 : (a + 1) * n = a * n + n := by ring
  have e2 : (a + 2) * n = a * n + n + n := by ring
  unfold localDeriv
  cases on with
  | false =>
    simp only [Bool.false_eq_true, if_false]
    rw [← put_sum lo hi (a * n) _ h1 (by rw [length_diff]; omega), mul_sum]
    exact sum_congr rfl fun j _ => by ring
  | true =>
    have h3 := h3 rfl
    simp only [if_true]
    rw [← put_sum lo hi (a * n) _ h1 (by rw [length_diff]; omega),
      ← put_sum lo hi ((a + 1) * n) _ (by omega) (by rw [length_diff]; omega), ← sum_add_distrib, mul_sum]
    apply sum_congr rfl
    intro j _
    have : put (put (fun _ => 0) (a * n) (diffCoeffs n (fun i => node (a * n + i)) s)) ((a + 1) * n)
        (diffCoeffs n (fun i => node ((a + 1) * n + i)) s) j =
        put (fun _ => 0) (a * n) (diffCoeffs n (fun i => node (a * n + i)) s) j +
          put (fun _ => 0) ((a + 1) * n) (diffCoeffs n (fun i => node ((a + 1) * n + i)) s) j := by
      unfold put
      simp only [length_diff]
      by_cases c : (a + 1) * n ≤ j ∧ j < (a + 1) * n + n
      · rw [if_pos c, if_neg (by omega), if_pos c, zero_add]
      · rw [if_neg c, if_neg c, add_zero]
    rw [this]; ring

/-- The value at `s` of the polynomial through the levels of element `b`, as the code computes it. -/
noncomputable def elementValue (n : Nat) (node : Nat → ℝ) (y : Nat → ℝ) (b : Nat) (s : ℝ) : ℝ :=
  Interp.apply (lagrangeCoeffs n (fun i => node (b * n + i)) s) (fun i => y (b * n + i))

theorem row_bounds (n m a : Nat) (ha : a < m) :
    (if a ≠ 0 then (a - 1) * n else a * n) ≤ a * n ∧ (a ≠ 0 → (if a ≠ 0 then (a - 1) * n else a * n) = (a - 1) * n) ∧
    (a + 1) * n ≤ (if a ≠ m - 1 then (a + 2) * n else (a + 1) * n) ∧
    (a ≠ m - 1 → (if a ≠ m - 1 then (a + 2) * n else (a + 1) * n) = (a + 2) * n) := by
  have e2 : (a + 2) * n = (a + 1) * n + n := by ring
  have e3 : (a - 1) * n ≤ a * n := Nat.mul_le_mul_right _ (by omega)
  refine ⟨?_, fun h => if_pos h, ?_, fun h => if_pos h⟩
  · split_ifs <;> omega
  · split_ifs <;> omega

theorem lower_sum (n m : Nat) (node edge : Nat → ℝ) (zb : Bool) (a : Nat) (ha : a < m) (on : Bool) (hon : on = true → a + 1 < m)
    (dl : ℝ) (c : Nat → ℝ) (lo hi : Nat) (h1 : lo ≤ a * n) (h1' : a ≠ 0 → lo ≤ (a - 1) * n) (h2 : (a + 1) * n ≤ hi)
    (h3 : a ≠ m - 1 → (a + 2) * n ≤ hi) (y : Nat → ℝ) :
    ∑ j ∈ Ico lo hi, lowerCorrection n m node edge zb a on dl c j * y j = ∑ j ∈ Ico lo hi, c j * y j +
      0.5 * dl * (if a ≠ 0 then (if on then 0 else elementValue n node y (a - 1) (edge (a * n))) - elementValue n node y a (edge (a * n))
        else if zb = false ∧ m ≠ 1 then elementValue n node y a (edge ((a + 1) * n)) - elementValue n node y (a + 1) (edge ((a + 1) * n))
        else 0) := by
  have e1 : (a + 1) * n = a * n + n := by ring
  have e2 : (a + 2) * n = a * n + n + n := by ring
  have e3 : a ≠ 0 → (a - 1) * n + n = a * n := fun h => by
    obtain ⟨b, rfl⟩ := Nat.exists_eq_succ_of_ne_zero h
    rw [Nat.succ_eq_add_one, Nat.add_sub_cancel]; ring
  unfold lowerCorrection elementValue
  by_cases ha0 : a ≠ 0
  · have e3 := e3 ha0
    have h1' := h1' ha0
    rw [if_pos ha0, if_pos ha0, addAt_sum _ _ _ _ _ _ h1 (by rw [length_lagrange]; omega)]
    cases on with
    | true => simp only [if_true]; ring
    | false =>
      simp only [Bool.false_eq_true, if_false]
      rw [addAt_sum _ _ _ _ _ _ h1' (by rw [length_lagrange]; omega)]; ring
  · rw [if_neg ha0, if_neg ha0]
    by_cases hz : zb = false ∧ m ≠ 1
    · have h3 := h3 (by omega)
      rw [if_pos hz, if_pos hz, addAt_sum _ _ _ _ _ _ (by omega) (by rw [length_lagrange]; omega),
        addAt_sum _ _ _ _ _ _ h1 (by rw [length_lagrange]; omega)]
      ring
    · rw [if_neg hz, if_neg hz]; ring

theorem upper_sum (n m : Nat) (node edge : Nat → ℝ) (zb : Bool) (a : Nat) (ha : a < m) (dr : ℝ) (c : Nat → ℝ) (lo hi : Nat)
    (h1 : lo ≤ a * n) (h1' : a ≠ 0 → lo ≤ (a - 1) * n) (h2 : (a + 1) * n ≤ hi) (h3 : a ≠ m - 1 → (a + 2) * n ≤ hi) (y : Nat → ℝ) :
    ∑ j ∈ Ico lo hi, upperCorrection n m node edge zb a dr c j * y j = ∑ j ∈ Ico lo hi, c j * y j +
      0.5 * dr * (if a ≠ m - 1 then elementValue n node y (a + 1) (edge ((a + 1) * n)) - elementValue n node y a (edge ((a + 1) * n))
        else if zb = false ∧ m ≠ 1 then elementValue n node y a (edge (a * n)) - elementValue n node y (a - 1) (edge (a * n))
        else 0) := by
  have e1 : (a + 1) * n = a * n + n := by ring
  have e2 : (a + 2) * n = a * n + n + n := by ring
  have e3 : a ≠ 0 → (a - 1) * n + n = a * n := fun h => by
    obtain ⟨b, rfl⟩ := Nat.exists_eq_succ_of_ne_zero h
    rw [Nat.succ_eq_add_one, Nat.add_sub_cancel]; ring
  unfold upperCorrection elementValue
  by_cases ha0 : a ≠ m - 1
  · have h3 := h3 ha0
    rw [if_pos ha0, if_pos ha0, addAt_sum _ _ _ _ _ _ h1 (by rw [length_lagrange]; omega),
      addAt_sum _ _ _ _ _ _ (by omega) (by rw [length_lagrange]; omega)]
    ring
  · rw [if_neg ha0, if_neg ha0]
    by_cases hz : zb = false ∧ m ≠ 1
    · have e3 := e3 (by omega)
      have h1' := h1' (by omega)
      rw [if_pos hz, if_pos hz, addAt_sum _ _ _ _ _ _ h1' (by rw [length_lagrange]; omega),
        addAt_sum _ _ _ _ _ _ h1 (by rw [length_lagrange]; omega)]
      ring
    · rw [if_neg hz, if_neg hz]; ring

/-- A row applied to a column. -/
theorem fluxRow_loop (f : ℝ → ℝ) (n m : Nat) (node edge : Nat → ℝ) (zb : Bool) (s : ℝ) (a : Nat) (on : Bool)
    (hf : findElement (fun b => edge (b * n)) m s = (a, on)) (ha : a < m) (hon : on = true → a + 1 < m)
    (hd : edge ((a + 1) * n) - edge (a * n) ≠ 0) (x : Nat → ℝ) :
    rowLoop (fluxRow f n m node edge zb s) 0 x =
      (if on then 0.5 * (Interp.apply (diffCoeffs n (fun i => node (a * n + i)) s) (fun i => x (a * n + i)) +
          Interp.apply (diffCoeffs n (fun i => node ((a + 1) * n + i)) s) (fun i => x ((a + 1) * n + i)))
        else Interp.apply (diffCoeffs n (fun i => node (a * n + i)) s) (fun i => x (a * n + i))) +
      (0.5 * (f (1 - (s - edge (a * n)) / (edge ((a + 1) * n) - edge (a * n))) * -1) *
          (if a ≠ 0 then (if on then 0 else elementValue n node x (a - 1) (edge (a * n))) - elementValue n node x a (edge (a * n))
            else if zb = false ∧ m ≠ 1 then elementValue n node x a (edge ((a + 1) * n)) - elementValue n node x (a + 1) (edge ((a + 1) * n))
            else 0) +
        0.5 * f ((s - edge (a * n)) / (edge ((a + 1) * n) - edge (a * n))) *
          (if a ≠ m - 1 then elementValue n node x (a + 1) (edge ((a + 1) * n)) - elementValue n node x a (edge ((a + 1) * n))
            else if zb = false ∧ m ≠ 1 then elementValue n node x a (edge (a * n)) - elementValue n node x (a - 1) (edge (a * n))
            else 0)) / (edge ((a + 1) * n) - edge (a * n)) := by
  rw [rowLoop_eq, zero_add]
  unfold fluxRow
  rw [hf]
  dsimp only
  obtain ⟨b1, b2, b3, b4⟩ := row_bounds n m a ha
  have hsc : ∀ (c : Nat → ℝ) (lo hi : Nat) (d : ℝ), ∑ j ∈ Ico lo hi, c j / d * x j = (∑ j ∈ Ico lo hi, c j * x j) / d := by
    intro c lo hi d
    rw [div_eq_mul_inv, sum_mul]
    exact sum_congr rfl fun j _ => by ring
  rw [hsc, upper_sum n m node edge zb a ha _ _ _ _ b1 (fun h => (b2 h).le) b3 (fun h => (b4 h).ge),
    lower_sum n m node edge zb a ha on hon _ _ _ _ b1 (fun h => (b2 h).le) b3 (fun h => (b4 h).ge),
    localDeriv_sum n node a on _ s _ _ b1 b3 (fun h => (b4 (by have := hon h; omega)).ge)]
  generalize edge ((a + 1) * n) - edge (a * n) = d at hd ⊢
  cases on with
  | true => simp only [if_true]; field_simp; ring
  | false => simp only [Bool.false_eq_true, if_false]; field_simp; ring

theorem addAt_zero (c : Nat → ℝ) (b : Nat) (v : ℝ) (l : List ℝ) (k : Nat) (hc : c k = 0) (h : ¬ (b ≤ k ∧ k < b + l.length)) :
    addAt c b v l k = 0 := by
  unfold addAt; rw [if_neg h, hc]

/-- Nothing is stored outside the range of a row. -/
theorem fluxRow_range (f : ℝ → ℝ) (n m : Nat) (node edge : Nat → ℝ) (zb : Bool) (s : ℝ) (hm : 0 < m) :
    (fluxRow f n m node edge zb s).iend ≤ m * n ∧ ∀ j, (fluxRow f n m node edge zb s).coeff j ≠ 0 →
      (fluxRow f n m node edge zb s).ibegin ≤ j ∧ j < (fluxRow f n m node edge zb s).iend := by
  obtain ⟨a, on, hf⟩ : ∃ a on, findElement (fun b => edge (b * n)) m s = (a, on) := ⟨_, _, rfl⟩
  have hlt := find_bound (fun b => edge (b * n)) m hm s
  rw [hf] at hlt
  obtain ⟨ha, hon⟩ := hlt
  dsimp only at ha hon
  unfold fluxRow
  rw [hf]
  dsimp only
  obtain ⟨b1, b2, b3, b4⟩ := row_bounds n m a ha
  constructor
  · split_ifs with h
    · exact Nat.mul_le_mul_right _ (by omega)
    · exact Nat.mul_le_mul_right _ (by omega)
  · intro j hj
    by_contra hout
    apply hj
    have e1 : (a + 1) * n = a * n + n := by ring
    have e2 : (a + 2) * n = a * n + n + n := by ring
    have e3 : a ≠ 0 → (a - 1) * n + n = a * n := fun h => by
      obtain ⟨b, rfl⟩ := Nat.exists_eq_succ_of_ne_zero h
      rw [Nat.succ_eq_add_one, Nat.add_sub_cancel]; ring
    have k0 : ¬ (a * n ≤ j ∧ j < a * n + n) := fun h => hout ⟨by omega, by omega⟩
    have k1 : a ≠ 0 → ¬ ((a - 1) * n ≤ j ∧ j < (a - 1) * n + n) := fun h0 h => by
      have := b2 h0; have := e3 h0
      exact hout ⟨by omega, by omega⟩
    have k2 : a ≠ m - 1 → ¬ ((a + 1) * n ≤ j ∧ j < (a + 1) * n + n) := fun h0 h => by
      have := b4 h0
      exact hout ⟨by omega, by omega⟩
    have z0 : ∀ d, localDeriv n node a on d s j = 0 := by
      intro d
      unfold localDeriv
      cases on with
      | false => simp only [Bool.false_eq_true, if_false, put, length_diff]; rw [if_neg k0, zero_mul]
      | true =>
        simp only [if_true, put, length_diff]
        rw [if_neg (k2 (by have := hon rfl; omega)), if_neg k0, zero_mul]
    have z1 : ∀ dl c, c j = 0 → lowerCorrection n m node edge zb a on dl c j = 0 := by
      intro dl c hc
      unfold lowerCorrection
      by_cases h0 : a ≠ 0
      · rw [if_pos h0]
        refine addAt_zero _ _ _ _ _ ?_ (by rw [length_lagrange]; exact k0)
        cases on with
        | true => exact hc
        | false => exact addAt_zero _ _ _ _ _ hc (by rw [length_lagrange]; exact k1 h0)
      · rw [if_neg h0]
        split_ifs with h1
        · exact addAt_zero _ _ _ _ _ (addAt_zero _ _ _ _ _ hc (by rw [length_lagrange]; exact k0))
            (by rw [length_lagrange]; exact k2 (by omega))
        · exact hc
    have z2 : ∀ dr c, c j = 0 → upperCorrection n m node edge zb a dr c j = 0 := by
      intro dr c hc
      unfold upperCorrection
      by_cases h0 : a ≠ m - 1
      · rw [if_pos h0]
        exact addAt_zero _ _ _ _ _ (addAt_zero _ _ _ _ _ hc (by rw [length_lagrange]; exact k2 h0))
          (by rw [length_lagrange]; exact k0)
      · rw [if_neg h0]
        split_ifs with h1
        · exact addAt_zero _ _ _ _ _ (addAt_zero _ _ _ _ _ hc (by rw [length_lagrange]; exact k0))
            (by rw [length_lagrange]; exact k1 (by omega))
        · exact hc
    rw [z2 _ _ (z1 _ _ (z0 _)), zero_div]

theorem flux_cases {solve : Dgesv} {src : Source} {n N nEdge : Nat} {node edge : Nat → ℝ} {nOut : Nat} {out : Nat → ℝ} {zb : Bool}
    {A : Op} (h : fluxInit solve src n N nEdge node edge nOut out zb = .ok A) :
    0 < n ∧ N = N / n * n ∧ 0 < N / n ∧ ∃ f, getDerivatives solve 2 (n + 1) = .ok f ∧ A.rows = nOut ∧ N ≤ A.cols ∧
      A.row = fun l => fluxRow f n (N / n) node edge zb (out l) := by
  unfold fluxInit at h
  by_cases h0 : n = 0
  · rw [if_pos h0] at h; simp at h
  rw [if_neg h0] at h
  by_cases h1 : N = 0
  · rw [if_pos h1] at h; simp at h
  rw [if_neg h1] at h
  by_cases h2 : nEdge ≠ N + 1
  · rw [if_pos h2] at h; simp at h
  rw [if_neg h2] at h
  by_cases h3 : N % n ≠ 0
  · rw [if_pos h3] at h; simp at h
  rw [if_neg h3] at h
  by_cases h4 : ∃ l < nOut, out l < edge 0 ∨ edge N < out l
  · rw [if_pos h4] at h; simp at h
  rw [if_neg h4] at h
  push Not at h3
  have hdiv := (Nat.div_mul_cancel (Nat.dvd_of_mod_eq_zero h3)).symm
  refine ⟨by omega, hdiv, Nat.pos_of_ne_zero fun hz => by rw [hz] at hdiv; omega, ?_⟩
  cases hd : getDerivatives solve 2 (n + 1) with
  | exc => rw [hd] at h; simp at h
  | ub => rw [hd] at h; simp at h
  | ok f =>
    rw [hd] at h
    simp only [Res.ok.injEq] at h
    refine ⟨f, rfl, by rw [← h], ?_, by rw [← h]⟩
    rw [← h]
    cases src with
    | interfaces => exact Nat.le_succ N
    | levels => exact le_rfl

theorem correction_flat (n : Nat) (g : ℝ[X]) (hg : IsCorrection 2 n g) : (derivative g).eval 0 = 0 := by
  obtain ⟨s, hs⟩ := hg.2.2.1
  rw [hs, derivative_mul]
  simp

/-- **C88 (value).**  Inside an element the result is the derivative of the polynomial through the levels of the element,
corrected by the flux correction functions of the jumps over its two edges; on an edge of two elements it is the mean of
the two derivatives and the jump. -/
theorem C88_value (solve : Dgesv) (hs : Solves solve) (src : Source) (n N nEdge : Nat) (node edge : Nat → ℝ) (nOut : Nat)
    (out : Nat → ℝ) (zb : Bool) (A : Op) (h : fluxInit solve src n N nEdge node edge nOut out zb = .ok A)
    (hsep : Separated (fun b => edge (b * n)) (N / n)) (hx : ∀ b < N / n, ApartNodes n (fun i => node (b * n + i)))
    (x : Nat → ℝ) (p : Nat → ℝ[X]) (hp : ∀ b < N / n, (p b).degree < (n : ℕ))
    (ht : ∀ b < N / n, Through (p b) node x (b * n) n) (g : ℝ[X]) (hg : IsCorrection 2 (n + 1) g) (l a : Nat) :
    A.rows = nOut ∧ RangeOk A ∧
    (InElement (fun b => edge (b * n)) (N / n) a (out l) →
      applyRow A x l = (derivative (p a)).eval (out l) +
        (jumpBelow n (N / n) edge zb p a *
            (derivative g).eval (1 - (out l - edge (a * n)) / (edge ((a + 1) * n) - edge (a * n))) +
          jumpAbove n (N / n) edge zb p a *
            (derivative g).eval ((out l - edge (a * n)) / (edge ((a + 1) * n) - edge (a * n)))) /
          (2 * (edge ((a + 1) * n) - edge (a * n)))) ∧
    (a + 1 < N / n → out l = edge ((a + 1) * n) →
      applyRow A x l = ((derivative (p a)).eval (out l) + (derivative (p (a + 1))).eval (out l)) / 2 +
        jump n edge p a * (derivative g).eval 1 / (2 * (edge ((a + 1) * n) - edge (a * n)))) := by
  obtain ⟨hn, hN, hm, f, hf, hr, hc, hrow⟩ := flux_cases h
  obtain ⟨-, f', hf', hfg⟩ := C87_correction solve hs 2 (n + 1) (by omega) (by omega)
  rw [hf, Derivs.ok.injEq] at hf'
  subst hf'
  have hfg := hfg g hg
  generalize N / n = m at *
  have hval : ∀ b < m, ∀ s, elementValue n node x b s = (p b).eval s := fun b hb s =>
    lagrange_through n (b * n) node x s (p b) (hp b hb) (apart_distinct (hx b hb)) (ht b hb)
  have hder : ∀ b < m, ∀ s, Interp.apply (diffCoeffs n (fun i => node (b * n + i)) s) (fun i => x (b * n + i)) =
      (derivative (p b)).eval s := fun b hb s => diff_through n (b * n) node x s (p b) (hp b hb) (hx b hb) (ht b hb)
  have hd : ∀ b < m, edge ((b + 1) * n) - edge (b * n) ≠ 0 := fun b hb => by
    have := hsep b hb
    have := eps_pos
    dsimp only at *
    intro hz
    linarith
  refine ⟨hr, ?_, ?_, ?_⟩
  · intro k _
    rw [hrow]
    obtain ⟨r1, r2⟩ := fluxRow_range f n m node edge zb (out k) hm
    dsimp only
    exact ⟨by omega, fun j _ => r2 j⟩
  · intro hin
    have ha := hin.1
    rw [applyRow, hrow]
    dsimp only
    rw [fluxRow_loop f n m node edge zb (out l) a false (find_in hsep hin) ha (by simp) (hd a ha), hfg, hfg]
    simp only [Bool.false_eq_true, if_false]
    rw [hder a ha]
    have hdd := hd a ha
    generalize hD : edge ((a + 1) * n) - edge (a * n) = d at hdd ⊢
    have e1 : (if a ≠ 0 then elementValue n node x (a - 1) (edge (a * n)) - elementValue n node x a (edge (a * n))
        else if zb = false ∧ m ≠ 1 then elementValue n node x a (edge ((a + 1) * n)) - elementValue n node x (a + 1) (edge ((a + 1) * n))
        else 0) = -jumpBelow n m edge zb p a := by
      unfold jumpBelow jump
      by_cases h0 : a ≠ 0
      · rw [if_pos h0, if_pos (show 1 ≤ a by omega), hval _ (by omega), hval _ ha, show a - 1 + 1 = a by omega]; ring
      · rw [if_neg h0, if_neg (show ¬ 1 ≤ a by omega)]
        by_cases h1 : zb = false ∧ m ≠ 1
        · rw [if_pos h1, if_pos ⟨h1.1, by omega⟩, hval _ ha, hval _ (by omega)]
          push Not at h0
          rw [h0]; ring
        · rw [if_neg h1, if_neg (fun hh => h1 ⟨hh.1, by omega⟩), neg_zero]
    have e2 : (if a ≠ m - 1 then elementValue n node x (a + 1) (edge ((a + 1) * n)) - elementValue n node x a (edge ((a + 1) * n))
        else if zb = false ∧ m ≠ 1 then elementValue n node x a (edge (a * n)) - elementValue n node x (a - 1) (edge (a * n))
        else 0) = jumpAbove n m edge zb p a := by
      unfold jumpAbove jump
      by_cases h0 : a ≠ m - 1
      · rw [if_pos h0, if_pos (show a + 1 < m by omega), hval _ (by omega), hval _ ha]
      · rw [if_neg h0, if_neg (show ¬ a + 1 < m by omega)]
        by_cases h1 : zb = false ∧ m ≠ 1
        · rw [if_pos h1, if_pos ⟨h1.1, by omega⟩, hval _ ha, hval _ (by omega), show a - 1 + 1 = a by omega]
        · rw [if_neg h1, if_neg (fun hh => h1 ⟨hh.1, by omega⟩)]
    rw [e1, e2]
    field_simp
    ring
  · intro ha1 hout
    have ha : a < m := by omega
    have hon : OnEdge (fun b => edge (b * n)) m a (out l) := by
      have := eps_pos
      refine ⟨ha1, ?_, ?_⟩ <;> dsimp only <;> rw [hout] <;> linarith
    rw [applyRow, hrow]
    dsimp only
    rw [fluxRow_loop f n m node edge zb (out l) a true (find_on hsep hon) ha (fun _ => ha1) (hd a ha), hfg, hfg]
    simp only [if_true]
    rw [hder a ha, hder (a + 1) ha1, if_pos (show a ≠ m - 1 by omega), hval (a + 1) ha1, hval a ha (edge ((a + 1) * n))]
    have hdd := hd a ha
    rw [hout, div_self hdd, sub_self, correction_flat _ g hg, zero_mul, mul_zero, zero_mul, zero_add]
    unfold jump
    generalize edge ((a + 1) * n) - edge (a * n) = d at hdd ⊢
    field_simp
    ring

/-- **C88 (exact).**  The derivative of a polynomial of degree below the order is exact, inside elements and on edges. -/
theorem C88_exact (solve : Dgesv) (hs : Solves solve) (src : Source) (n N nEdge : Nat) (node edge : Nat → ℝ) (nOut : Nat)
    (out : Nat → ℝ) (zb : Bool) (A : Op) (h : fluxInit solve src n N nEdge node edge nOut out zb = .ok A)
    (hsep : Separated (fun b => edge (b * n)) (N / n)) (hx : ∀ b < N / n, ApartNodes n (fun i => node (b * n + i)))
    (q : ℝ[X]) (hq : q.degree < (n : ℕ)) (x : Nat → ℝ) (hxq : ∀ k < N, x k = q.eval (node k)) (l : Nat)
    (hl : (∃ a, InElement (fun b => edge (b * n)) (N / n) a (out l)) ∨ ∃ a, a + 1 < N / n ∧ out l = edge ((a + 1) * n)) :
    applyRow A x l = (derivative q).eval (out l) := by
  obtain ⟨hn, hN, hm, -⟩ := flux_cases h
  obtain ⟨⟨g, hg, -⟩, -⟩ := C87_correction solve hs 2 (n + 1) (by omega) (by omega)
  have key := C88_value solve hs src n N nEdge node edge nOut out zb A h hsep hx x (fun _ => q) (fun _ _ => hq)
    (fun b hb i hi => (hxq _ (by
      have : (b + 1) * n ≤ N / n * n := Nat.mul_le_mul_right _ hb
      have e : (b + 1) * n = b * n + n := by ring
      omega)).symm) g hg l
  have hj : ∀ a, jump n edge (fun _ => q) a = 0 := fun a => sub_self _
  rcases hl with ⟨a, ha⟩ | ⟨a, ha, hout⟩
  · rw [(key a).2.2.1 ha]
    unfold jumpBelow jumpAbove
    simp only [hj, ite_self, zero_mul, add_zero, zero_div]
  · rw [(key a).2.2.2 ha hout, hj]
    ring

end Verif.Column
