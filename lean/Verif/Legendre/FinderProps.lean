/-
C111: the root finders behind the quadrature rules.
-/
import Verif.Legendre.FinderLemmas
import Verif.Quad.Props

namespace Verif.Legendre

open Polynomial

/-- **C111 (refused degrees).**  A negative degree is refused, and no other degree is. -/
theorem C111_refused (n : Int) : (allRoots n = .error .invalidDegree ↔ n < 0) ∧
    (allDerivativeRoots n = .error .invalidDegree ↔ n < 0) := by
  have hf : ∀ o, finish o ≠ .error .invalidDegree := by
    intro o
    rcases o with - | ⟨b, l⟩ <;> simp [finish]
  constructor
  · unfold allRoots
    split_ifs with h1 h2
    · simp; omega
    · simp [h2]
    · exact ⟨fun h => absurd h (hf _), fun h => absurd h h2⟩
  · unfold allDerivativeRoots
    split_ifs with h1 h2
    · simp; omega
    · simp [h2]
    · exact ⟨fun h => absurd h (hf _), fun h => absurd h h2⟩

theorem finish_ok (o : Option (Bool × List ℝ)) (b : Bool) (l : List ℝ) (h : finish o = .ok (b, l)) :
    ∃ r, o = some (b, r) ∧ l = sorted r := by
  rcases o with - | ⟨b', r⟩
  · exact absurd h (by simp [finish])
  · simp only [finish, Except.ok.injEq, Prod.mk.injEq] at h
    exact ⟨r, by rw [h.1], h.2.symm⟩

/-- Where the points of a call come from: the iteration from the first estimates, sorted. -/
theorem allRoots_ok (n : Nat) (b : Bool) (l : List ℝ) (h : allRoots n = .ok (b, l)) :
    (n = 0 ∧ l = []) ∨ ∃ r, iterate (refineRoot n) (n + 10) (guess n) = some (b, r) ∧ l = sorted r := by
  unfold allRoots at h
  split_ifs at h with h1 h2
  · simp only [Except.ok.injEq, Prod.mk.injEq] at h
    exact .inl ⟨by omega, h.2.symm⟩
  · exact .inr (finish_ok _ _ _ (by simpa using h))

theorem allDerivativeRoots_ok (n : Nat) (b : Bool) (l : List ℝ) (h : allDerivativeRoots n = .ok (b, l)) :
    (n ≤ 1 ∧ l = []) ∨ ∃ r, iterate (refineDerivative n) (n + 10) (guess (n - 1)) = some (b, r) ∧ l = sorted r := by
  unfold allDerivativeRoots at h
  split_ifs at h with h1 h2
  · simp only [Except.ok.injEq, Prod.mk.injEq] at h
    exact .inl ⟨by omega, h.2.symm⟩
  · exact .inr (finish_ok _ _ _ (by simpa using h))

/-- **C111 (points).**  For every degree, when a call returns at all, it returns as many values as the polynomial has
roots, in increasing order, and mirror images of each other about zero. -/
theorem C111_roots (n : Nat) (found : Bool) (l : List ℝ) (h : allRoots n = .ok (found, l)) :
    l.length = n ∧ l.Pairwise (· ≤ ·) ∧ l.reverse = l.map (fun x => -x) := by
  rcases allRoots_ok n found l h with ⟨h1, h2⟩ | ⟨r, hr, hl⟩
  · subst h1 h2; simp
  · have := iterate_keeps _ (root_commutes n) _ _ (guess_mirrored n) _ _ hr
    subst hl
    refine ⟨?_, sorted_le r, (mirrored_iff _).1 (sorted_mirrored r this.1)⟩
    rw [(sorted_perm r).length_eq, this.2, guess_length]

/-- **C111 (points of the derivative).**  The same for the roots of the derivative, of which there is one less. -/
theorem C111_derivative (n : Nat) (found : Bool) (l : List ℝ) (h : allDerivativeRoots n = .ok (found, l)) :
    l.length = n - 1 ∧ l.Pairwise (· ≤ ·) ∧ l.reverse = l.map (fun x => -x) := by
  rcases allDerivativeRoots_ok n found l h with ⟨h1, h2⟩ | ⟨r, hr, hl⟩
  · subst h2; simp; omega
  · have := iterate_keeps _ (derivative_commutes n) _ _ (guess_mirrored (n - 1)) _ _ hr
    subst hl
    refine ⟨?_, sorted_le r, (mirrored_iff _).1 (sorted_mirrored r this.1)⟩
    rw [(sorted_perm r).length_eq, this.2, guess_length]

/-- **C111 (residuals), when the iteration ends early.**  If the iteration stopped because it found all roots, the
polynomial is below the tolerance at every value returned.

What is missing: that the iteration does end early, that the values are different, and how far they are from the
roots. -/
theorem C111_found_partial (n : Nat) (l : List ℝ) :
    (allRoots n = .ok (true, l) → ∀ x ∈ l, |(legendre n).eval x| < 1 / 10 ^ 14) ∧
    (allDerivativeRoots n = .ok (true, l) → ∀ x ∈ l, |(derivative (legendre n)).eval x| < 1 / 10 ^ 14) := by
  constructor
  · intro h
    rcases allRoots_ok n true l h with ⟨h1, h2⟩ | ⟨r, hr, hl⟩
    · subst h2; simp
    · subst hl
      intro x hx
      refine iterate_found (refineRoot n) (fun x => |(legendre n).eval x| < 1 / 10 ^ 14) ?_ _ _ _ hr x
        ((sorted_perm r).mem_iff.1 hx)
      intro r k x e
      unfold refineRoot at e
      simp only [C40_evaluate] at e
      split_ifs at e with ht
      · simp only [Option.some.injEq, Prod.mk.injEq, true_and] at e
        rw [← e]; exact ht
      · exfalso
        cases h1 : crowd r k with
        | none => rw [h1] at e; simp at e
        | some m =>
          rw [h1, Option.bind_some, Option.bind_eq_some_iff] at e
          obtain ⟨q, -, e⟩ := e
          rw [Option.map_eq_some_iff] at e
          obtain ⟨y, -, e⟩ := e
          exact absurd (congrArg Prod.fst e) (by simp)
  · intro h
    rcases allDerivativeRoots_ok n true l h with ⟨h1, h2⟩ | ⟨r, hr, hl⟩
    · subst h2; simp
    · subst hl
      intro x hx
      refine iterate_found (refineDerivative n) (fun x => |(derivative (legendre n)).eval x| < 1 / 10 ^ 14) ?_ _ _ _ hr x
        ((sorted_perm r).mem_iff.1 hx)
      intro r k x e
      unfold refineDerivative at e
      simp only [C40_evaluate] at e
      split_ifs at e with ht
      · simp only [Option.some.injEq, Prod.mk.injEq, true_and] at e
        rw [← e]; exact ht
      · exfalso
        cases h1 : crowd r k with
        | none => rw [h1] at e; simp at e
        | some m =>
          rw [h1, Option.bind_some, Option.bind_eq_some_iff] at e
          obtain ⟨_, -, e⟩ := e
          rw [Option.bind_eq_some_iff] at e
          obtain ⟨q, -, e⟩ := e
          rw [Option.map_eq_some_iff] at e
          obtain ⟨y, -, e⟩ := e
          exact absurd (congrArg Prod.fst e) (by simp)

/-- **C111 (correction).**  When all estimates but one are the exact, different roots, whatever the remaining estimate,
one refinement replaces it by the missing root; unless the polynomial is below the tolerance there already, and then it
is kept. -/
theorem C111_correct_root (n : Nat) (z : List ℝ) (hn : z.length = n) (hz : z.Nodup)
    (h0 : ∀ y ∈ z, (legendre n).eval y = 0) (k : Nat) (hk : k < z.length) (x : ℝ) :
    refineRoot n (z.set k x) k =
      if |(legendre n).eval x| < 1 / 10 ^ 14 then some (true, x) else some (false, z[k]) := by
  have hx0 : (z.set k x).getD k 0 = x := by rw [getD_get _ _ (by simpa using hk)]; simp
  unfold refineRoot
  simp only [hx0, C40_evaluate, tolerance]
  by_cases ht : |(legendre n).eval x| < 1 / 10 ^ 14
  · rw [if_pos ht, if_pos ht]
  · rw [if_neg ht, if_neg ht]
    have hx : (legendre n).eval x ≠ 0 := by intro h; rw [h] at ht; norm_num at ht
    have hne : ∀ y ∈ z, x ≠ y := by intro y hy e; rw [e] at hx; exact hx (h0 y hy)
    rw [crowd_among z k hk x hne, Option.bind_some]
    have hq : quotient ((derivative (legendre n)).eval x) ((legendre n).eval x) =
        some ((z.map fun y => 1 / (x - y)).sum) := by
      rw [quotient, if_neg hx, log_derivative (legendre n) z (Quad.legendre_ne_zero n)
        (by rw [Quad.legendre_natDegree, hn]) hz h0 x hx]
    rw [hq, Option.bind_some, update_exact _ _ _ (hne _ (List.getElem_mem hk))]
    rfl

theorem derivative_natDegree (n : Nat) : (derivative (legendre n)).natDegree = n - 1 := by
  rw [natDegree_derivative, Quad.legendre_natDegree]

/-- **C111 (correction of a root of the derivative).**  The same for roots of the derivative, away from the ends of the
interval. -/
theorem C111_correct_derivative (n : Nat) (z : List ℝ) (hn : z.length = n - 1) (hz : z.Nodup)
    (h0 : ∀ y ∈ z, (derivative (legendre n)).eval y = 0) (k : Nat) (hk : k < z.length) (x : ℝ) (hx1 : x * x ≠ 1) :
    refineDerivative n (z.set k x) k =
      if |(derivative (legendre n)).eval x| < 1 / 10 ^ 14 then some (true, x) else some (false, z[k]) := by
  have hx0 : (z.set k x).getD k 0 = x := by rw [getD_get _ _ (by simpa using hk)]; simp
  unfold refineDerivative
  simp only [hx0, C40_evaluate, tolerance]
  by_cases ht : |(derivative (legendre n)).eval x| < 1 / 10 ^ 14
  · rw [if_pos ht, if_pos ht]
  · rw [if_neg ht, if_neg ht]
    have hx : (derivative (legendre n)).eval x ≠ 0 := by intro h; rw [h] at ht; norm_num at ht
    have hne : ∀ y ∈ z, x ≠ y := by intro y hy e; rw [e] at hx; exact hx (h0 y hy)
    have hx2 : 1 - x * x ≠ 0 := fun h => hx1 (by linarith)
    rw [crowd_among z k hk x hne, Option.bind_some, quotient, if_neg hx2, Option.bind_some, C40_second n x hx2]
    have hp : derivative (legendre n) ≠ 0 := by intro h; rw [h] at hx; simp at hx
    have hq : quotient ((derivative (derivative (legendre n))).eval x) ((derivative (legendre n)).eval x) =
        some ((z.map fun y => 1 / (x - y)).sum) := by
      rw [quotient, if_neg hx, log_derivative (derivative (legendre n)) z hp
        (by rw [derivative_natDegree n, hn]) hz h0 x hx]
    rw [hq, Option.bind_some, update_exact _ _ _ (hne _ (List.getElem_mem hk))]
    rfl

/-! ### The rules -/

/-- A rule that treats both halves of the interval alike: as many weights as points, points mirrored about zero and
equal weights at mirrored points. -/
def Even (r : List ℝ × List ℝ) : Prop :=
  r.2.length = r.1.length ∧ r.1.reverse = r.1.map (fun x => -x) ∧ r.2.reverse = r.2

/-- The same for a table. -/
def evenTable (r : List ℚ × List ℚ) : Bool :=
  decide (r.2.length = r.1.length) && decide (r.1.reverse = r.1.map fun x => -x) && decide (r.2.reverse = r.2)

theorem even_cast (r : List ℚ × List ℚ) (h : evenTable r = true) :
    Even (r.1.map (fun q : ℚ => (q : ℝ)), r.2.map (fun q : ℚ => (q : ℝ))) := by
  simp only [evenTable, Bool.and_eq_true, decide_eq_true_eq] at h
  obtain ⟨⟨h1, h2⟩, h3⟩ := h
  refine ⟨by simpa using h1, ?_, ?_⟩
  · simp only [← List.map_reverse, h2, List.map_map]
    exact List.map_congr_left fun x _ => by simp
  · simp only [← List.map_reverse, h3]

theorem even_formula (g : List ℝ) (w : ℝ → ℝ) (hg : g.reverse = g.map (fun x => -x)) (hw : ∀ x, w (-x) = w x) :
    Even (g, g.map w) := by
  refine ⟨by simp, hg, ?_⟩
  simp only [← List.map_reverse, hg, List.map_map]
  exact List.map_congr_left fun x _ => hw x

/-- **C111 (Gauss rules).**  The Gauss rule of any number of points treats both halves of the interval alike: the
tabulated ones, and those with more than ten points made from what the root finder returns. -/
theorem C111_gauss_rule (roots : Nat → List ℝ) (n : Nat) (r : List ℝ × List ℝ)
    (hok : 10 < n → ∃ found, allRoots n = .ok (found, roots n)) (h : Quad.gaussPoints roots n = some r) : Even r := by
  unfold Quad.gaussPoints at h
  split_ifs at h with h1
  simp only [Int.toNat_natCast] at h
  by_cases h10 : 10 < n
  · rw [Quad.gaussTable_none n h10] at h
    simp only [Option.some.injEq] at h
    rw [← h]
    obtain ⟨found, hr⟩ := hok h10
    refine even_formula _ _ (C111_roots n found _ hr).2.2 fun x => ?_
    have e : Quad.evalDerivative n (-x) = (-1) ^ (n + 1) * Quad.evalDerivative n x := by
      unfold Quad.evalDerivative
      rw [evaluate_val, evaluate_val]; exact der_neg n x
    have s : ((-1 : ℝ) ^ (n + 1)) * (-1) ^ (n + 1) = 1 := Quad.sq_neg_one_pow (n + 1)
    rw [e]
    congr 1
    linear_combination ((1 - x * x) * Quad.evalDerivative n x * Quad.evalDerivative n x) * s
  · have h0 : 1 ≤ n := by omega
    have : ∃ t, Quad.gaussTable n = some t ∧ evenTable t = true := by
      have : n = 1 ∨ n = 2 ∨ n = 3 ∨ n = 4 ∨ n = 5 ∨ n = 6 ∨ n = 7 ∨ n = 8 ∨ n = 9 ∨ n = 10 := by omega
      rcases this with h | h | h | h | h | h | h | h | h | h <;> subst h <;> exact ⟨_, rfl, by decide +kernel⟩
    obtain ⟨t, ht, he⟩ := this
    rw [ht] at h
    simp only [Option.some.injEq] at h
    rw [← h]; exact even_cast t he

/-- **C111 (Gauss-Lobatto rules).**  The Gauss-Lobatto rule of any number of points treats both halves of the interval
alike. -/
theorem C111_lobatto_rule (roots : Nat → List ℝ) (n : Nat) (r : List ℝ × List ℝ)
    (hok : 10 < n → ∃ found, allDerivativeRoots (n - 1 : ℕ) = .ok (found, roots (n - 1)))
    (h : Quad.lobattoPoints roots n = some r) : Even r := by
  unfold Quad.lobattoPoints at h
  split_ifs at h with h1
  simp only [Int.toNat_natCast] at h
  by_cases h10 : 10 < n
  · rw [Quad.lobattoTable_none n h10] at h
    simp only [Option.some.injEq] at h
    rw [← h]
    obtain ⟨found, hr⟩ := hok h10
    obtain ⟨hl, -, hm⟩ := C111_derivative (n - 1) found _ hr
    refine even_formula _ _ ?_ fun x => ?_
    · rw [List.take_of_length_le (by omega)]
      simp [hm]
    · have e : Quad.evalValue (n - 1) (-x) = (-1) ^ (n - 1) * Quad.evalValue (n - 1) x := by
        unfold Quad.evalValue
        rw [evaluate_val, evaluate_val]; exact val_neg (n - 1) x
      have s : ((-1 : ℝ) ^ (n - 1)) * (-1) ^ (n - 1) = 1 := Quad.sq_neg_one_pow (n - 1)
      rw [e]
      congr 1
      linear_combination ((n : ℝ) * (n - 1) * Quad.evalValue (n - 1) x * Quad.evalValue (n - 1) x) * s
  · have h0 : 2 ≤ n := by omega
    have : ∃ t, Quad.lobattoTable n = some t ∧ evenTable t = true := by
      have : n = 2 ∨ n = 3 ∨ n = 4 ∨ n = 5 ∨ n = 6 ∨ n = 7 ∨ n = 8 ∨ n = 9 ∨ n = 10 := by omega
      rcases this with h | h | h | h | h | h | h | h | h <;> subst h <;> exact ⟨_, rfl, by decide +kernel⟩
    obtain ⟨t, ht, he⟩ := this
    rw [ht] at h
    simp only [Option.some.injEq] at h
    rw [← h]; exact even_cast t he

/-- One pass for two points `-a` and `a`. -/
theorem two_points (a : ℝ) (ha : 0 < a) (passes : Nat) :
    iterate (refineRoot 2) (passes + 1) [-a, a] =
      if |1.5 * a * a - 0.5| < tolerance then some (true, [-a, a])
      else iterate (refineRoot 2) passes [-(3 * a * (a * a + 1) / (9 * a * a + 1)), 3 * a * (a * a + 1) / (9 * a * a + 1)] := by
  have h0 : a - -a ≠ 0 := by linarith
  have hv : ∀ x : ℝ, evaluate (2 : ℕ) x = some (1.5 * x * x - 0.5, 3.0 * x) := fun x => by simp [evaluate]
  have hm : Mirrored [-a, a] := by
    intro k hk
    have : k = 0 ∨ k = 1 := by simp at hk; omega
    rcases this with h | h <;> subst h <;> simp
  have hc : crowd [-a, a] 1 = some (1 / (2 * a)) := by
    have : fill 2 (fun l => if l = 1 then some 0 else quotient 1 ([-a, a].getD 1 0 - [-a, a].getD l 0)) =
        some [1 / (2 * a), 0] := by
      rw [fill_iff]
      refine ⟨rfl, fun k hk => ?_⟩
      have : k = 0 ∨ k = 1 := by omega
      rcases this with h | h <;> subst h
      · have : quotient 1 (a - -a) = some (1 / (2 * a)) := by rw [quotient, if_neg h0]; congr 2; ring
        simpa using this
      · simp
    unfold crowd
    change Option.map List.sum (fill 2 _) = _
    rw [this]; simp
  have h1 : refineRoot 2 [-a, a] 1 = if |1.5 * a * a - 0.5| < tolerance then some (true, a)
      else some (false, 3 * a * (a * a + 1) / (9 * a * a + 1)) := by
    unfold refineRoot
    simp only [List.getD_cons_succ, List.getD_cons_zero, hv]
    split_ifs with ht
    · rfl
    · have hx : 1.5 * a * a - 0.5 ≠ 0 := by
        intro h; rw [h] at ht; norm_num [tolerance] at ht
      have hx' : 3 * a * a - 1 ≠ 0 := by intro h; apply hx; norm_num; linarith
      have hp : (9 * a * a + 1) ≠ 0 := by positivity
      have e : 3.0 * a / (1.5 * a * a - 0.5) - 1 / (2 * a) = (9 * a * a + 1) / (2 * a * (3 * a * a - 1)) := by
        rw [show (1.5 * a * a - 0.5 : ℝ) = (3 * a * a - 1) / 2 by norm_num; ring, show (3.0 : ℝ) = 3 by norm_num]
        have ha' : (2 * a) ≠ 0 := by positivity
        rw [div_sub_div _ _ (div_ne_zero hx' two_ne_zero) ha', div_eq_div_iff
          (mul_ne_zero (div_ne_zero hx' two_ne_zero) ha') (mul_ne_zero ha' hx')]
        ring
      have hne : (9 * a * a + 1) / (2 * a * (3 * a * a - 1)) ≠ 0 := by
        apply div_ne_zero hp
        exact mul_ne_zero (by linarith) hx'
      rw [hc, Option.bind_some, quotient, if_neg hx, Option.bind_some, update, quotient, e, if_neg hne]
      simp only [Option.map_some, Option.some.injEq, Prod.mk.injEq, true_and]
      field_simp
      ring
  have h2 := root_commutes 2 _ hm 1 (by simp)
  simp only [List.length_cons, List.length_nil, Nat.zero_add, Nat.reduceAdd, Nat.add_one_sub_one, Nat.sub_self] at h2
  rw [iterate]
  have hf : fill ([-a, a] : List ℝ).length (refineRoot 2 [-a, a]) = some (
      if |1.5 * a * a - 0.5| < tolerance then [(true, -a), (true, a)]
      else [(false, -(3 * a * (a * a + 1) / (9 * a * a + 1))), (false, 3 * a * (a * a + 1) / (9 * a * a + 1))]) := by
    rw [fill_iff]
    refine ⟨by split_ifs <;> rfl, fun k hk => ?_⟩
    have : k = 0 ∨ k = 1 := by simp at hk; omega
    rcases this with h | h <;> subst h
    · rw [h2, h1]; split_ifs <;> rfl
    · rw [h1]; split_ifs <;> rfl
  rw [hf]
  split_ifs with ht <;> simp

/-- For two points the iteration stops early, after four passes. -/
example : ∃ l, allRoots 2 = .ok (true, l) ∧ l.length = 2 := by
  have hg : guess 2 = [-(1 / 2), 1 / 2] := by
    simp [guess, List.range_succ]; norm_num
  have : ∃ r, iterate (refineRoot 2) (2 + 10) (guess 2) = some (true, r) := by
    rw [hg, two_points _ (by norm_num), if_neg (by norm_num [tolerance, abs_lt]), two_points _ (by norm_num),
      if_neg (by norm_num [tolerance, abs_lt]), two_points _ (by norm_num),
      if_neg (by norm_num [tolerance, abs_lt]), two_points _ (by norm_num),
      if_pos (by norm_num [tolerance, abs_lt])]
    exact ⟨_, rfl⟩
  obtain ⟨r, hr⟩ := this
  have h : allRoots 2 = .ok (true, sorted r) := by
    unfold allRoots
    rw [if_neg (by norm_num), if_neg (by norm_num)]
    change finish (iterate (refineRoot 2) (2 + 10) (guess 2)) = _
    rw [hr]; rfl
  exact ⟨sorted r, h, (C111_roots 2 true _ (by exact_mod_cast h)).1⟩

/-- Estimates as the corrections ask for exist for every degree. -/
example (n : Nat) : ∃ z : List ℝ, z.length = n ∧ z.Nodup ∧ ∀ y ∈ z, (legendre n).eval y = 0 := by
  obtain ⟨x, -, h2, h3⟩ := Quad.legendre_roots n
  refine ⟨(List.range n).map x, by simp, ?_, ?_⟩
  · rw [List.nodup_map_iff_inj_on List.nodup_range]
    intro i hi j hj e
    rw [List.mem_range] at hi hj
    rcases lt_trichotomy i j with h | h | h
    · exact absurd e (h3 i j h hj).ne
    · exact h
    · exact absurd e (h3 j i h hi).ne'
  · intro y hy
    obtain ⟨i, hi, rfl⟩ := List.mem_map.1 hy
    exact h2 i (List.mem_range.1 hi)

end Verif.Legendre
