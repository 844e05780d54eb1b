/-
The quadrature rules on [0, 1] are increasing with positive weights.
-/
import Verif.Quad.Props
import Verif.Vert.Model
import Verif.Vert.Spec

namespace Verif.Vert

open Verif.Quad Verif.Legendre Polynomial

/-- Table check: inside, increasing, positive, size, and the sum of the weights close to 2. -/
def openTable (r : List ℚ × List ℚ) (n : Nat) : Bool :=
  r.1.length == n && r.2.length == n && r.1.all (fun x => decide (-1 < x) && decide (x < 1)) &&
    decide (r.1.Pairwise (· < ·)) && r.2.all (fun w => decide (0 < w)) && decide (|r.2.sum - 2| ≤ 6 / 10 ^ 16)

def closedTable (r : List ℚ × List ℚ) (n : Nat) : Bool :=
  r.1.length == n + 1 && r.2.length == n + 1 && decide (r.1[0]? = some (-1 : ℚ)) && decide (r.1[n]? = some (1 : ℚ)) &&
    decide (r.1.Pairwise (· < ·)) && r.2.all (fun w => decide (0 < w)) && decide (r.2[0]? = r.2[n]?) &&
    decide (|r.2.sum - 2| ≤ 6 / 10 ^ 15)

theorem openTable_ok (n : Nat) (h1 : 1 ≤ n) (h10 : n ≤ 10) (h9 : n ≠ 9) :
    ∃ r, gaussTable n = some r ∧ openTable r n = true := by
  interval_cases n
  · exact ⟨_, rfl, by decide +kernel⟩
  · exact ⟨_, rfl, by decide +kernel⟩
  · exact ⟨_, rfl, by decide +kernel⟩
  · exact ⟨_, rfl, by decide +kernel⟩
  · exact ⟨_, rfl, by decide +kernel⟩
  · exact ⟨_, rfl, by decide +kernel⟩
  · exact ⟨_, rfl, by decide +kernel⟩
  · exact ⟨_, rfl, by decide +kernel⟩
  · exact absurd rfl h9
  · exact ⟨_, rfl, by decide +kernel⟩

theorem closedTable_ok (n : Nat) (h1 : 1 ≤ n) (h10 : n ≤ 9) :
    ∃ r, lobattoTable (n + 1) = some r ∧ closedTable r n = true := by
  interval_cases n
  · exact ⟨_, rfl, by decide +kernel⟩
  · exact ⟨_, rfl, by decide +kernel⟩
  · exact ⟨_, rfl, by decide +kernel⟩
  · exact ⟨_, rfl, by decide +kernel⟩
  · exact ⟨_, rfl, by decide +kernel⟩
  · exact ⟨_, rfl, by decide +kernel⟩
  · exact ⟨_, rfl, by decide +kernel⟩
  · exact ⟨_, rfl, by decide +kernel⟩
  · exact ⟨_, rfl, by decide +kernel⟩

/-- A list of points and weights of the right size. -/
theorem getD_map (l : List ℝ) (f : ℝ → ℝ) (k : Nat) (h : k < l.length) : (l.map f).getD k 0 = f (l[k]) := by
  rw [List.getD_eq_getElem?_getD, List.getElem?_map, List.getElem?_eq_getElem h]; rfl

theorem rule_open (r : List ℝ × List ℝ) (n : Nat) (hs : HasSize r n) (hin : ∀ x ∈ r.1, -1 < x ∧ x < 1)
    (hinc : r.1.Pairwise (· < ·)) (hw : ∀ x ∈ r.2, 0 < x) :
    OpenRule n (fun k => (rescale 0 1 r).1.getD k 0) (fun k => (rescale 0 1 r).2.getD k 0) := by
  obtain ⟨h1, h2⟩ := hs
  constructor
  · intro k hk
    simp only [rescale]
    rw [getD_map _ _ _ (by omega)]
    have := hin _ (List.getElem_mem (by omega : k < r.1.length))
    norm_num
    constructor <;> linarith
  · intro i j hij hj
    simp only [rescale]
    rw [getD_map _ _ _ (by omega), getD_map _ _ _ (by omega)]
    have := List.pairwise_iff_getElem.1 hinc i j (by omega) (by omega) hij
    norm_num
    linarith
  · intro k hk
    simp only [rescale]
    rw [getD_map _ _ _ (by omega)]
    have := hw _ (List.getElem_mem (by omega : k < r.2.length))
    norm_num
    linarith

theorem rule_closed (r : List ℝ × List ℝ) (n : Nat) (hs : HasSize r (n + 1)) (h0 : r.1[0]? = some (-1 : ℝ))
    (h1 : r.1[n]? = some (1 : ℝ)) (hinc : r.1.Pairwise (· < ·)) (hw : ∀ x ∈ r.2, 0 < x) (hsym : r.2[0]? = r.2[n]?) :
    ClosedRule n (fun k => (rescale 0 1 r).1.getD k 0) (fun k => (rescale 0 1 r).2.getD k 0) := by
  obtain ⟨h2, h3⟩ := hs
  constructor
  · simp only [rescale]
    rw [List.getD_eq_getElem?_getD, List.getElem?_map, h0]; norm_num
  · simp only [rescale]
    rw [List.getD_eq_getElem?_getD, List.getElem?_map, h1]; norm_num
  · intro i j hij hj
    simp only [rescale]
    rw [getD_map _ _ _ (by omega), getD_map _ _ _ (by omega)]
    have := List.pairwise_iff_getElem.1 hinc i j (by omega) (by omega) hij
    norm_num
    linarith
  · intro k hk
    simp only [rescale]
    rw [getD_map _ _ _ (by omega)]
    have := hw _ (List.getElem_mem (by omega : k < r.2.length))
    norm_num
    linarith
  · simp only [rescale]
    rw [List.getD_eq_getElem?_getD, List.getD_eq_getElem?_getD, List.getElem?_map, List.getElem?_map, hsym]

theorem sum_getD (l : List ℝ) (n : Nat) (h : l.length = n) (f : ℝ → ℝ) :
    ∑ k ∈ Finset.range n, (l.map f).getD k 0 = (l.map f).sum := by
  subst h
  induction l with
  | nil => simp
  | cons a l ih =>
    rw [List.length_cons, Finset.sum_range_succ', List.map_cons, List.sum_cons, ← ih, add_comm]
    rfl

theorem sum_rescale (r : List ℝ × List ℝ) (n : Nat) (h : r.2.length = n) :
    ∑ k ∈ Finset.range n, (rescale 0 1 r).2.getD k 0 = r.2.sum / 2 := by
  simp only [rescale]
  rw [sum_getD _ _ h, List.sum_map_mul_left, List.map_id']
  norm_num; ring

theorem quad_one (r : List ℝ × List ℝ) (n : Nat) (hs : HasSize r n) : quad r (fun x => (1 : ℝ[X]).eval x) = r.2.sum := by
  obtain ⟨h1, h2⟩ := hs
  unfold quad
  simp only [eval_one, mul_one]
  congr 1
  exact List.map_snd_zip (by omega)

theorem integral_one : ∫ x in (-1 : ℝ)..1, (1 : ℝ[X]).eval x = 2 := by
  simp only [eval_one]
  rw [intervalIntegral.integral_const]; norm_num

theorem cast_sum (l : List ℚ) : (l.map (fun q : ℚ => (q : ℝ))).sum = (l.sum : ℝ) := by
  induction l with
  | nil => simp
  | cons a l ih => rw [List.map_cons, List.sum_cons, List.sum_cons, ih]; push_cast; rfl

/-- A Legendre polynomial and its derivative have no common root. -/
theorem no_common_root (n : Nat) (x : ℝ) (h : (legendre n).eval x = 0) : (derivative (legendre n)).eval x ≠ 0 := by
  have step : ∀ n, ¬ (val n x = 0 ∧ val (n + 1) x = 0) := by
    intro n
    induction n with
    | zero => rintro ⟨h, -⟩; rw [val_zero] at h; norm_num at h
    | succ n ih =>
      rintro ⟨h1, h2⟩
      apply ih
      have := val_succ n x
      rw [h1, h2] at this
      have hn : (n : ℝ) + 1 ≠ 0 := by positivity
      exact ⟨(mul_eq_zero.1 (by linarith : ((n : ℝ) + 1) * val n x = 0)).resolve_left hn, h1⟩
  cases n with
  | zero =>
    exfalso
    have : val 0 x = 0 := h
    rw [val_zero] at this; norm_num at this
  | succ n =>
    intro hd
    have h1 := (der_identities n x).1
    rw [show der (n + 1) x = 0 from hd, show val (n + 1) x = 0 from h] at h1
    have hn : (n : ℝ) + 1 ≠ 0 := by positivity
    have h2 : val n x = 0 := (mul_eq_zero.1 (by linarith : ((n : ℝ) + 1) * val n x = 0)).resolve_left hn
    exact step n ⟨h2, h⟩

end Verif.Vert
