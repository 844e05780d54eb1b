/-
C51: levels and interfaces of the vertical coordinate.
-/
import Mathlib.Tactic.NormNum
import Verif.Vert.Lemmas
import Verif.Vert.Rules
import Verif.Vert.PropsStretch

namespace Verif.Vert

open Finset Polynomial Verif.Legendre

/-- The stretching used: the function given, or none. -/
def StretchOk (F : Option (ℝ → ℝ)) : Prop := ∀ f, F = some f → Stretching f

/-- **C51 (LEV, LOR and CPH staggering).**  If the order divides the number of levels, for any stretching: the levels
increase inside (0, 1), the interfaces increase from 0 to 1, each level lies between the interfaces at the ends of its
element, the weights are positive and those of the levels add up to what the weights of one element do, those of the
interfaces likewise. -/
theorem C51_levels (gauss lobatto : Nat → (Nat → ℝ) × (Nat → ℝ)) (fv : Bool) (order levels n : Nat)
    (hn : n = if fv then 1 else order) (h0 : 0 < levels) (hdvd : n ∣ levels) (F : Option (ℝ → ℝ)) (hF : StretchOk F)
    (hG : OpenRule n (gauss n).1 (gauss n).2) (hL : ClosedRule n (lobatto (n + 1)).1 (lobatto (n + 1)).2) (init : Nat → ℝ) :
    ∃ lev ifc, initVertical gauss lobatto fv false order levels F init = .ok lev (some ifc) ∧
      (∀ i j, i < j → j < levels → lev.eta i < lev.eta j) ∧ (∀ i < levels, 0 < lev.eta i ∧ lev.eta i < 1) ∧
      (∀ i j, i < j → j ≤ levels → ifc.eta i < ifc.eta j) ∧ ifc.eta 0 = 0 ∧ ifc.eta levels = 1 ∧
      (∀ a k, (a + 1) * n ≤ levels → k < n →
        ifc.eta (a * n) < lev.eta (a * n + k) ∧ lev.eta (a * n + k) < ifc.eta ((a + 1) * n)) ∧
      (∀ i < levels, 0 < lev.area i) ∧ (∀ i ≤ levels, 0 < ifc.area i) ∧
      ∑ i ∈ range levels, lev.area i = ∑ k ∈ range n, (gauss n).2 k ∧
      ∑ i ∈ range (levels + 1), ifc.area i = ∑ k ∈ range (n + 1), (lobatto (n + 1)).2 k := by
  obtain ⟨m, rfl⟩ := hdvd
  have hn0 : 0 < n := Nat.pos_of_mul_pos_right h0
  have hm0 : 0 < m := Nat.pos_of_mul_pos_left h0
  have fin : ∀ (f : ℝ → ℝ) (hf : Stretching f) (lev ifc : Column)
      (h1 : IsOpen (bound f m) m n (gauss n).1 (gauss n).2 lev)
      (h2 : IsClosed (bound f m) m n (lobatto (n + 1)).1 (lobatto (n + 1)).2 ifc)
      (h3 : initVertical gauss lobatto fv false order (n * m) F init = .ok lev (some ifc)),
      ∃ lev ifc, initVertical gauss lobatto fv false order (n * m) F init = .ok lev (some ifc) ∧
      (∀ i j, i < j → j < n * m → lev.eta i < lev.eta j) ∧ (∀ i < n * m, 0 < lev.eta i ∧ lev.eta i < 1) ∧
      (∀ i j, i < j → j ≤ n * m → ifc.eta i < ifc.eta j) ∧ ifc.eta 0 = 0 ∧ ifc.eta (n * m) = 1 ∧
      (∀ a k, (a + 1) * n ≤ n * m → k < n →
        ifc.eta (a * n) < lev.eta (a * n + k) ∧ lev.eta (a * n + k) < ifc.eta ((a + 1) * n)) ∧
      (∀ i < n * m, 0 < lev.area i) ∧ (∀ i ≤ n * m, 0 < ifc.area i) ∧
      ∑ i ∈ range (n * m), lev.area i = ∑ k ∈ range n, (gauss n).2 k ∧
      ∑ i ∈ range (n * m + 1), ifc.area i = ∑ k ∈ range (n + 1), (lobatto (n + 1)).2 k := by
    intro f hf lev ifc h1 h2 h3
    obtain ⟨e0, e1, e2⟩ := bound_ok f hf m hm0
    obtain ⟨a1, a2, a3, a4, a5⟩ := open_facts _ m n hn0 e0 e1 e2 _ _ hG lev h1
    obtain ⟨b1, b2, b3, b4, b5, b6⟩ := closed_facts _ m n hn0 hm0 e0 e1 e2 _ _ hL ifc h2
    rw [Nat.mul_comm m n] at a1 a2 a3 a4 b1 b3 b4 b5
    refine ⟨lev, ifc, h3, a1, a2, b1, b2, b3, ?_, a3, b4, a4, b5⟩
    intro a k ha hk
    rw [Nat.mul_comm n m] at ha
    have ha' : a + 1 ≤ m := Nat.le_of_mul_le_mul_right ha hn0
    rw [b6 a (by omega), b6 (a + 1) ha']
    exact a5 a (by omega) k hk
  have hdiv : n * m / n = m := Nat.mul_div_cancel_left m hn0
  cases F with
  | none =>
    refine fin (fun x => x) stretching_id _ _ (uniform_open m n _ _) (uniform_closed m n hm0 hn0 _ _ hL) ?_
    unfold initVertical
    simp only [← hn, Bool.false_eq_true, if_false, hn0.ne', Nat.mul_mod_right, ne_eq, not_true_eq_false, hdiv]
    rfl
  | some f =>
    have hf := hF f rfl
    refine fin f hf _ _ (stretched_open f hf.zero m n _ _ init) (stretched_closed f hf.zero m n hn0 _ _ hL init) ?_
    unfold initVertical
    simp only [← hn, Bool.false_eq_true, if_false, hn0.ne', Nat.mul_mod_right, ne_eq, not_true_eq_false, hdiv]
    rfl

/-- **C51 (INT staggering).**  If the order less one divides the number of levels less one, the levels increase from 0
to 1, with positive weights adding up to what those of one element do. -/
theorem C51_interface_levels (gauss lobatto : Nat → (Nat → ℝ) × (Nat → ℝ)) (order levels : Nat) (ho : 2 ≤ order)
    (h0 : 2 ≤ levels) (hdvd : order - 1 ∣ levels - 1) (F : Option (ℝ → ℝ)) (hF : StretchOk F)
    (hL : ClosedRule (order - 1) (lobatto order).1 (lobatto order).2) (init : Nat → ℝ) :
    ∃ lev, initVertical gauss lobatto false true order levels F init = .ok lev none ∧
      (∀ i j, i < j → j < levels → lev.eta i < lev.eta j) ∧ lev.eta 0 = 0 ∧ lev.eta (levels - 1) = 1 ∧
      (∀ i < levels, 0 < lev.area i) ∧
      ∑ i ∈ range levels, lev.area i = ∑ k ∈ range order, (lobatto order).2 k := by
  obtain ⟨p, rfl⟩ : ∃ p, order = p + 1 := ⟨order - 1, by omega⟩
  obtain ⟨N, rfl⟩ : ∃ N, levels = N + 1 := ⟨levels - 1, by omega⟩
  rw [Nat.add_sub_cancel] at hdvd hL ⊢
  rw [Nat.add_sub_cancel] at hdvd
  obtain ⟨m, rfl⟩ := hdvd
  have hp0 : 0 < p := by omega
  have hm0 : 0 < m := Nat.pos_of_mul_pos_left (show 0 < p * m by omega)
  have hdiv : p * m / p = m := Nat.mul_div_cancel_left m hp0
  have fin : ∀ (f : ℝ → ℝ) (hf : Stretching f) (lev : Column)
      (h2 : IsClosed (bound f m) m p (lobatto (p + 1)).1 (lobatto (p + 1)).2 lev)
      (h3 : initVertical gauss lobatto false true (p + 1) (p * m + 1) F init = .ok lev none),
      ∃ lev, initVertical gauss lobatto false true (p + 1) (p * m + 1) F init = .ok lev none ∧
      (∀ i j, i < j → j < p * m + 1 → lev.eta i < lev.eta j) ∧ lev.eta 0 = 0 ∧ lev.eta (p * m) = 1 ∧
      (∀ i < p * m + 1, 0 < lev.area i) ∧
      ∑ i ∈ range (p * m + 1), lev.area i = ∑ k ∈ range (p + 1), (lobatto (p + 1)).2 k := by
    intro f hf lev h2 h3
    obtain ⟨e0, e1, e2⟩ := bound_ok f hf m hm0
    obtain ⟨b1, b2, b3, b4, b5, b6⟩ := closed_facts _ m p hp0 hm0 e0 e1 e2 _ _ hL lev h2
    rw [Nat.mul_comm m p] at b1 b3 b4 b5
    exact ⟨lev, h3, fun i j hij hj => b1 i j hij (by omega), b2, b3, fun i hi => b4 i (by omega), b5⟩
  cases F with
  | none =>
    refine fin (fun x => x) stretching_id _ (uniform_closed m p hm0 hp0 _ _ hL) ?_
    unfold initVertical
    simp only [Bool.false_eq_true, if_false, if_true, show ¬ p + 1 = 1 by omega, Nat.add_eq_zero_iff, one_ne_zero,
      and_false, Nat.add_sub_cancel, Nat.mul_mod_right, ne_eq, not_true_eq_false, hdiv, uniformLevelsInt]
  | some f =>
    have hf := hF f rfl
    refine fin f hf _ (stretched_closed f hf.zero m p hp0 _ _ hL init) ?_
    unfold initVertical
    simp only [Bool.false_eq_true, if_false, if_true, show ¬ p + 1 = 1 by omega, Nat.add_eq_zero_iff, one_ne_zero,
      and_false, Nat.add_sub_cancel, Nat.mul_mod_right, ne_eq, not_true_eq_false, hdiv, stretchedLevelsInt]

/-- **C51 (refused).**  With a positive order, other numbers of levels are refused; finite volumes together with INT
staggering divide by zero. -/
theorem C51_refused (gauss lobatto : Nat → (Nat → ℝ) × (Nat → ℝ)) (order levels : Nat) (F : Option (ℝ → ℝ)) (init : Nat → ℝ) :
    (1 ≤ order → (initVertical gauss lobatto false false order levels F init = .exc ↔ ¬ order ∣ levels)) ∧
    (2 ≤ order → (initVertical gauss lobatto false true order levels F init = .exc ↔ ¬ order - 1 ∣ levels - 1)) ∧
    initVertical gauss lobatto true true order levels F init = .ub := by
  refine ⟨?_, ?_, ?_⟩
  · intro h
    unfold initVertical
    simp only [Bool.false_eq_true, if_false, show ¬ order = 0 by omega, Nat.dvd_iff_mod_eq_zero]
    by_cases h2 : levels % order = 0
    · simp only [h2, ne_eq, not_true_eq_false, if_false, iff_false]
      cases F <;> simp
    · simp only [ne_eq, h2, not_false_eq_true, if_true]
  · intro h
    unfold initVertical
    simp only [Bool.false_eq_true, if_false, if_true, show ¬ order = 0 by omega, show ¬ order = 1 by omega,
      Nat.dvd_iff_mod_eq_zero]
    by_cases h2 : (levels - 1) % (order - 1) = 0
    · simp only [h2, ne_eq, not_true_eq_false, if_false, iff_false]
      cases F <;> simp
    · simp only [ne_eq, h2, not_false_eq_true, if_true]
  · unfold initVertical
    simp

/-- **C51 (Gauss points).**  The Gauss points of every order but 9 are as `C51_levels` asks, with weights adding up to 1:
from the tables up to 3e-16, above order 10 exactly if the roots are exact. -/
theorem C51_gauss_rule (roots : Nat → List ℝ) (n : Nat) (h1 : 1 ≤ n) (h9 : n ≠ 9)
    (hr : 10 < n → (roots n).length = n ∧ (roots n).Pairwise (· < ·) ∧
      ∀ x ∈ roots n, (legendre n).eval x = 0 ∧ -1 < x ∧ x < 1) :
    OpenRule n (gaussRule roots n).1 (gaussRule roots n).2 ∧
    |∑ k ∈ range n, (gaussRule roots n).2 k - 1| ≤ 3 / 10 ^ 16 ∧
    (10 < n → ∑ k ∈ range n, (gaussRule roots n).2 k = 1) := by
  rcases Nat.lt_or_ge 10 n with h10 | h10
  · obtain ⟨hlen, hinc, hroot⟩ := hr h10
    have hnd : (roots n).Nodup := hinc.imp (fun h => h.ne)
    obtain ⟨r, e1, e2, e3, e4⟩ := Quad.C41_gauss_formula roots n h10 hlen hnd (fun x hx => (hroot x hx).1)
    have hsum : r.2.sum = 2 := by
      rw [← quad_one r n e2, e4 1 ?_, integral_one]
      rw [degree_one]; exact_mod_cast (by omega : 0 < 2 * n)
    have hone : ∑ k ∈ range n, (gaussRule roots n).2 k = 1 := by
      unfold gaussRule
      simp only [e1, Option.getD_some]
      rw [sum_rescale r n e2.2, hsum]; norm_num
    refine ⟨?_, ?_, fun _ => hone⟩
    · have hr2 : ∀ x ∈ r.2, 0 < x := by
        have hcard : (roots n).toFinset.card = n := by rw [List.toFinset_card_of_nodup hnd, hlen]
        obtain ⟨_, hw⟩ := Quad.gauss n (roots n).toFinset hcard (fun x hx => (hroot x (List.mem_toFinset.1 hx)).1)
        have e : r = (roots n, (roots n).map fun x => 2 / ((1 - x * x) * Quad.evalDerivative n x * Quad.evalDerivative n x)) := by
          have : Quad.gaussPoints roots n = some (roots n, (roots n).map fun x =>
              2 / ((1 - x * x) * Quad.evalDerivative n x * Quad.evalDerivative n x)) := by
            unfold Quad.gaussPoints
            rw [if_neg (by omega)]
            simp only [Int.toNat_natCast, Quad.gaussTable_none n h10]
          rw [e1] at this
          exact Option.some.inj this
        intro y hy
        rw [e] at hy
        obtain ⟨x, hx, rfl⟩ := List.mem_map.1 hy
        have hev : Quad.evalDerivative n x = (derivative (legendre n)).eval x := by
          unfold Quad.evalDerivative; rw [C40_evaluate]; rfl
        rw [hev]
        have h2 := (hw x (List.mem_toFinset.2 hx)).1
        obtain ⟨_, hx1, hx2⟩ := hroot x hx
        have h3 : (derivative (legendre n)).eval x ≠ 0 := by
          intro h; rw [h] at h2; norm_num at h2
        have h4 : 0 < 1 - x * x := by nlinarith
        have := mul_self_pos.2 h3
        rw [mul_assoc]
        positivity
      unfold gaussRule
      simp only [e1, Option.getD_some]
      refine rule_open r n e2 ?_ ?_ hr2
      · rw [e3]; exact fun x hx => (hroot x hx).2
      · rw [e3]; exact hinc
    · rw [hone]; norm_num
  · obtain ⟨r, e1, e2⟩ := openTable_ok n h1 h10 h9
    simp only [openTable, Bool.and_eq_true, beq_iff_eq, List.all_eq_true, decide_eq_true_eq] at e2
    obtain ⟨⟨⟨⟨⟨l1, l2⟩, l3⟩, l4⟩, l5⟩, l6⟩ := e2
    have e : Quad.gaussPoints roots n = some (r.1.map (fun q : ℚ => (q : ℝ)), r.2.map (fun q : ℚ => (q : ℝ))) := by
      unfold Quad.gaussPoints
      rw [if_neg (by omega)]
      simp only [Int.toNat_natCast, e1]
    unfold gaussRule
    simp only [e, Option.getD_some]
    refine ⟨rule_open _ n ⟨by simpa using l1, by simpa using l2⟩ ?_ ?_ ?_, ?_, fun h => absurd h (by omega)⟩
    · intro x hx
      obtain ⟨q, hq, rfl⟩ := List.mem_map.1 hx
      have := l3 q hq
      exact ⟨by exact_mod_cast this.1, by exact_mod_cast this.2⟩
    · rw [List.pairwise_map]
      exact l4.imp (fun h => by exact_mod_cast h)
    · intro x hx
      obtain ⟨q, hq, rfl⟩ := List.mem_map.1 hx
      exact_mod_cast l5 q hq
    · rw [sum_rescale _ n (by simpa using l2)]
      simp only
      rw [cast_sum]
      generalize r.2.sum = S at l6 ⊢
      have h2 : ((|S - 2| : ℚ) : ℝ) ≤ ((6 / 10 ^ 16 : ℚ) : ℝ) := by exact_mod_cast l6
      push_cast at h2
      rw [abs_le] at h2 ⊢
      constructor <;> linarith [h2.1, h2.2]

/-- **C51 (Gauss-Lobatto points).**  The same for the Gauss-Lobatto points of every order. -/
theorem C51_lobatto_rule (roots : Nat → List ℝ) (n : Nat) (h1 : 1 ≤ n)
    (hr : 10 < n + 1 → (roots n).length = n - 1 ∧ (roots n).Pairwise (· < ·) ∧
      ∀ x ∈ roots n, (derivative (legendre n)).eval x = 0 ∧ -1 < x ∧ x < 1) :
    ClosedRule n (lobattoRule roots (n + 1)).1 (lobattoRule roots (n + 1)).2 ∧
    |∑ k ∈ range (n + 1), (lobattoRule roots (n + 1)).2 k - 1| ≤ 3 / 10 ^ 15 ∧
    (10 < n + 1 → ∑ k ∈ range (n + 1), (lobattoRule roots (n + 1)).2 k = 1) := by
  rcases Nat.lt_or_ge 10 (n + 1) with h10 | h10
  · obtain ⟨hlen, hinc, hroot⟩ := hr h10
    have hnd : (roots n).Nodup := hinc.imp (fun h => h.ne)
    obtain ⟨r, e1, e2, e3, e4⟩ := Quad.C41_lobatto_formula roots (n + 1) h10
      (by rw [Nat.add_sub_cancel, hlen]; omega) (by rw [Nat.add_sub_cancel]; exact hnd)
      (by rw [Nat.add_sub_cancel]; exact fun x hx => (hroot x hx).1)
    rw [Nat.add_sub_cancel] at e3
    have hsum : r.2.sum = 2 := by
      rw [← quad_one r _ e2, e4 1 ?_, integral_one]
      rw [degree_one]; exact_mod_cast (by omega : 0 < 2 * (n + 1) - 2)
    have hone : ∑ k ∈ range (n + 1), (lobattoRule roots (n + 1)).2 k = 1 := by
      unfold lobattoRule
      simp only [e1, Option.getD_some]
      rw [sum_rescale r _ e2.2, hsum]; norm_num
    refine ⟨?_, ?_, fun _ => hone⟩
    · have e : r = (r.1, r.1.map fun x => 2 / (((n + 1 : ℕ) : ℝ) * (((n + 1 : ℕ) : ℝ) - 1) * Quad.evalValue n x *
          Quad.evalValue n x)) := by
        have : Quad.lobattoPoints roots (n + 1 : ℕ) = some (r.1, r.1.map fun x =>
            2 / (((n + 1 : ℕ) : ℝ) * (((n + 1 : ℕ) : ℝ) - 1) * Quad.evalValue n x * Quad.evalValue n x)) := by
          unfold Quad.lobattoPoints
          rw [if_neg (by omega)]
          simp only [Int.toNat_natCast, Quad.lobattoTable_none (n + 1) h10, Nat.add_sub_cancel]
          rw [List.take_of_length_le (by omega), ← e3]
        rw [e1] at this
        exact Option.some.inj this
      have hval : ∀ x ∈ r.1, (legendre n).eval x ≠ 0 ∧ Quad.evalValue n x = (legendre n).eval x := by
        intro x hx
        refine ⟨?_, by unfold Quad.evalValue; rw [C40_evaluate]; rfl⟩
        rw [e3, List.cons_append, List.mem_cons, List.mem_append, List.mem_singleton] at hx
        intro h0
        rcases hx with h | h | h
        · rw [h, Quad.eval_neg_one_legendre] at h0
          have := Quad.sq_neg_one_pow n
          rw [h0] at this; norm_num at this
        · exact no_common_root n x h0 (hroot x h).1
        · rw [h, Quad.eval_one_legendre] at h0; norm_num at h0
      have hn : (0 : ℝ) < n := by exact_mod_cast h1
      have hpos : ∀ y ∈ r.2, 0 < y := by
        intro y hy
        rw [e] at hy
        obtain ⟨x, hx, rfl⟩ := List.mem_map.1 hy
        obtain ⟨v1, v2⟩ := hval x hx
        rw [v2]
        have := mul_self_pos.2 v1
        rw [mul_assoc]
        push_cast
        rw [add_sub_cancel_right]
        positivity
      have hlen1 : r.1.length = n + 1 := e2.1
      have g0 : r.1[0]? = some (-1 : ℝ) := by rw [e3]; rfl
      have gn : r.1[n]? = some (1 : ℝ) := by
        rw [e3, List.getElem?_append_right (by simp [hlen]; omega)]
        simp [hlen, show n - (n - 1 + 1) = 0 by omega]
      unfold lobattoRule
      simp only [e1, Option.getD_some]
      refine rule_closed r n e2 g0 gn ?_ hpos ?_
      · rw [e3, List.cons_append, List.pairwise_cons, List.pairwise_append]
        refine ⟨?_, hinc, by simp, ?_⟩
        · intro y hy
          rw [List.mem_append, List.mem_singleton] at hy
          rcases hy with h | h
          · exact (hroot y h).2.1
          · rw [h]; norm_num
        · intro y hy z hz
          rw [List.mem_singleton] at hz
          rw [hz]; exact (hroot y hy).2.2
      · have v : Quad.evalValue n (-1) * Quad.evalValue n (-1) = 1 ∧ Quad.evalValue n 1 * Quad.evalValue n 1 = 1 := by
          have q : ∀ x, Quad.evalValue n x = (legendre n).eval x := fun x => by
            unfold Quad.evalValue; rw [C40_evaluate]; rfl
          rw [q, q, Quad.eval_neg_one_legendre, Quad.eval_one_legendre]
          exact ⟨Quad.sq_neg_one_pow n, by norm_num⟩
        rw [e]
        simp only [List.getElem?_map, g0, gn, Option.map_some]
        rw [mul_assoc _ (Quad.evalValue n (-1)), mul_assoc _ (Quad.evalValue n 1), v.1, v.2]
    · rw [hone]; norm_num
  · obtain ⟨r, e1, e2⟩ := closedTable_ok n h1 (by omega)
    simp only [closedTable, Bool.and_eq_true, beq_iff_eq, List.all_eq_true, decide_eq_true_eq] at e2
    obtain ⟨⟨⟨⟨⟨⟨⟨l1, l2⟩, l3⟩, l4⟩, l5⟩, l6⟩, l7⟩, l8⟩ := e2
    have e : Quad.lobattoPoints roots (n + 1 : ℕ) =
        some (r.1.map (fun q : ℚ => (q : ℝ)), r.2.map (fun q : ℚ => (q : ℝ))) := by
      unfold Quad.lobattoPoints
      rw [if_neg (by omega)]
      simp only [Int.toNat_natCast, e1]
    unfold lobattoRule
    simp only [e, Option.getD_some]
    refine ⟨rule_closed _ n ⟨by simpa using l1, by simpa using l2⟩ ?_ ?_ ?_ ?_ ?_, ?_, fun h => absurd h (by omega)⟩
    · simp only [List.getElem?_map, l3]; simp
    · simp only [List.getElem?_map, l4]; simp
    · rw [List.pairwise_map]
      exact l5.imp (fun h => by exact_mod_cast h)
    · intro x hx
      obtain ⟨q, hq, rfl⟩ := List.mem_map.1 hx
      exact_mod_cast l6 q hq
    · simp only [List.getElem?_map, l7]
    · rw [sum_rescale _ (n + 1) (by simpa using l2)]
      simp only
      rw [cast_sum]
      generalize r.2.sum = S at l8 ⊢
      have h2 : ((|S - 2| : ℚ) : ℝ) ≤ ((6 / 10 ^ 15 : ℚ) : ℝ) := by exact_mod_cast l8
      push_cast at h2
      rw [abs_le] at h2 ⊢
      constructor <;> linarith [h2.1, h2.2]

/-- **C51 is false for order 9.**  With the points tabulated for order 9, the last level of an element and the first of
the next are the same. -/
theorem C51_false (roots : Nat → List ℝ) (lobatto : Nat → (Nat → ℝ) × (Nat → ℝ)) (m : Nat) (init : Nat → ℝ) (_hm : 2 ≤ m) :
    ∃ lev ifc, initVertical (gaussRule roots) lobatto false false 9 (9 * m) none init = .ok lev ifc ∧
      lev.eta 8 = lev.eta 9 := by
  refine ⟨uniformLevels 9 m (gaussRule roots 9).1 (gaussRule roots 9).2, some (uniformInterfaces 9 m (lobatto 10).1 (lobatto 10).2), ?_, ?_⟩
  · unfold initVertical
    simp
  · have e : Quad.gaussPoints roots 9 = some ((([-1.0, -0.899757995411460, -0.677186279510738, -0.363117463826178, 0.0,
        0.363117463826178, 0.677186279510738, 0.899757995411460, 1.0] : List ℚ).map (fun q : ℚ => (q : ℝ))),
        (([0.0812743883615744, 0.1806481606948574, 0.2606106964029354, 0.3123470770400029, 0.3302393550012598,
        0.3123470770400029, 0.2606106964029354, 0.1806481606948574, 0.0812743883615744] : List ℚ).map
          (fun q : ℚ => (q : ℝ)))) := by
      unfold Quad.gaussPoints
      rw [if_neg (by omega)]
      rfl
    simp only [uniformLevels, uniformColumn, gaussRule, Nat.cast_ofNat, e, Option.getD_some, Quad.rescale]
    norm_num

/-- Six levels of order 3 with the cubic stretching: the hypotheses hold. -/
example : ∃ lev ifc, initVertical (gaussRule fun _ => []) (lobattoRule fun _ => []) false false 3 6
    (some fun x => (stretchCubic x).1) (fun _ => 0) = .ok lev (some ifc) ∧ lev.eta 2 < lev.eta 3 ∧ ifc.eta 6 = 1 := by
  obtain ⟨lev, ifc, h1, h2, -, -, -, h6, -⟩ := C51_levels (gaussRule fun _ => []) (lobattoRule fun _ => []) false 3 6 3 rfl
    (by norm_num) ⟨2, rfl⟩ (some fun x => (stretchCubic x).1) (fun f hf => by cases hf; exact C50_stretching.2.1)
    (C51_gauss_rule _ 3 (by norm_num) (by norm_num) (by norm_num)).1
    (C51_lobatto_rule _ 3 (by norm_num) (by norm_num)).1 (fun _ => 0)
  exact ⟨lev, ifc, h1, h2 2 3 (by norm_num) (by norm_num), h6⟩

/-- Seven levels of order 4 with INT staggering. -/
example : ∃ lev, initVertical (gaussRule fun _ => []) (lobattoRule fun _ => []) false true 4 7 none (fun _ => 0) =
    .ok lev none ∧ lev.eta 3 < lev.eta 4 ∧ lev.eta 6 = 1 := by
  obtain ⟨lev, h1, h2, -, h6, -⟩ := C51_interface_levels (gaussRule fun _ => []) (lobattoRule fun _ => []) 4 7
    (by norm_num) (by norm_num) ⟨2, rfl⟩ none (fun f hf => by cases hf)
    (C51_lobatto_rule _ 3 (by norm_num) (by norm_num)).1 (fun _ => 0)
  exact ⟨lev, h1, h2 3 4 (by norm_num) (by norm_num), h6⟩

end Verif.Vert
