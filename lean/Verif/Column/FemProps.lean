/-
C69: finite element interpolation in the column.  C70: finite element differentiation in the column.
-/
import Mathlib.Tactic.NormNum
import Mathlib.Tactic.FieldSimp
import Mathlib.Tactic.Positivity
import Mathlib.Tactic.IntervalCases
import Verif.Column.FemLemmas

namespace Verif.Column

open Finset Polynomial Verif.Interp

/-! ### What the initialisation leaves -/

theorem fill_ok {nIn nOut lo hi : Nat} {f : Nat → Option Row} {A : Op} (h : fill nIn nOut lo hi f = .ok A) :
    A.rows = nOut ∧ A.cols = nIn ∧ (∀ l < nOut, lo ≤ l → l < hi → ∃ r, f l = some r ∧ A.row l = r) ∧
    ∀ l, ¬ (lo ≤ l ∧ l < hi) → A.row l = blank := by
  unfold fill at h
  split_ifs at h with h1
  have := Res.ok.inj h
  subst this
  refine ⟨rfl, rfl, fun l hl h2 h3 => ?_, fun l hl => if_neg hl⟩
  have := List.all_eq_true.1 h1 l (List.mem_range.2 hl)
  have h4 : (f l).isSome := (of_decide_eq_true this) ⟨h2, h3⟩
  obtain ⟨r, hr⟩ := Option.isSome_iff_exists.1 h4
  refine ⟨r, hr, ?_⟩
  simp only
  rw [if_pos ⟨h2, h3⟩, hr]
  rfl

theorem fill_of {nIn nOut lo hi : Nat} {f : Nat → Option Row} (h : ∀ l < nOut, lo ≤ l → l < hi → (f l).isSome) :
    ∃ A, fill nIn nOut lo hi f = .ok A := by
  unfold fill
  rw [if_pos]
  · exact ⟨_, rfl⟩
  · rw [List.all_eq_true]
    intro l hl
    exact decide_eq_true fun h2 => h l (List.mem_range.1 hl) h2.1 h2.2

theorem blank_apply (y : Nat → ℝ) : rowLoop blank 0 y = 0 := by simp [rowLoop, blank]

open Classical in
/-- The rows filled are those not held at zero. -/
theorem zeroed_iff (zb : Bool) (nOut : Nat) (out : Nat → ℝ) (l : Nat) (hl : l < nOut) :
    Zeroed zb nOut out l ↔ ¬ ((if zb = true ∧ |out 0| < eps then 1 else 0) ≤ l ∧
      l < (if zb = true ∧ |out (nOut - 1) - 1| < eps then nOut - 1 else nOut)) := by
  unfold Zeroed
  cases zb
  · simp [hl]
  · by_cases h1 : |out 0| < eps <;> by_cases h2 : |out (nOut - 1) - 1| < eps <;>
      simp only [h1, h2, and_true, and_false, or_false, false_or, if_true, if_false, true_and] <;> first | omega | simp [hl]

/-- A row of the operator: blank if held at zero, otherwise what the source gives. -/
theorem interp_rows {src : Source} {n N nEdge : Nat} {node edge : Nat → ℝ} {nOut : Nat} {out : Nat → ℝ} {zb : Bool} {A : Op}
    (h : interpInit src n N nEdge node edge nOut out zb = .ok A) :
    0 < N ∧ 0 < n ∧ nEdge = N + 1 ∧ N = N / n * n ∧ 0 < N / n ∧ A.rows = nOut ∧
    A.cols = (if src = .interfaces then N + 1 else N) ∧
    (∀ l < nOut, Zeroed zb nOut out l → A.row l = blank) ∧
    ∀ l < nOut, ¬ Zeroed zb nOut out l →
      match src with
      | .interfaces => A.row l = interfaceRow n edge (N / n) (out l)
      | .levels => levelRow n N node edge (N / n) nOut l (out l) = some (A.row l) := by
  unfold interpInit at h
  by_cases h1 : N = 0
  · rw [if_pos h1] at h; cases h
  by_cases h2 : nEdge ≠ N + 1
  · rw [if_neg h1, if_pos h2] at h; cases h
  by_cases h3 : N % n ≠ 0
  · rw [if_neg h1, if_neg h2, if_pos h3] at h; cases h
  rw [if_neg h1, if_neg h2, if_neg h3] at h
  have hn : 0 < n := by
    rcases Nat.eq_zero_or_pos n with hn | hn
    · rw [hn, Nat.mod_zero] at h3; omega
    · exact hn
  have h3' : N % n = 0 := by omega
  have hdiv : N = N / n * n := (Nat.div_mul_cancel (Nat.dvd_of_mod_eq_zero h3')).symm
  have hm : 0 < N / n := Nat.pos_of_ne_zero fun hz => by rw [hz] at hdiv; omega
  refine ⟨by omega, hn, by omega, hdiv, hm, ?_⟩
  cases src
  · obtain ⟨e1, e2, e3, e4⟩ := fill_ok h
    refine ⟨e1, by simpa using e2, fun l hl hz => e4 l ((zeroed_iff zb nOut out l hl).1 hz), fun l hl hz => ?_⟩
    rw [zeroed_iff zb nOut out l hl, not_not] at hz
    obtain ⟨r, hr, hr2⟩ := e3 l hl hz.1 hz.2
    simp only
    rw [hr2]
    exact (Option.some.inj hr).symm
  · obtain ⟨e1, e2, e3, e4⟩ := fill_ok h
    refine ⟨e1, by simpa using e2, fun l hl hz => e4 l ((zeroed_iff zb nOut out l hl).1 hz), fun l hl hz => ?_⟩
    rw [zeroed_iff zb nOut out l hl, not_not] at hz
    obtain ⟨r, hr, hr2⟩ := e3 l hl hz.1 hz.2
    simp only
    rw [hr2]
    exact hr

theorem levelBase_range {n N : Nat} {node : Nat → ℝ} {nOut l a m : Nat} {s : ℝ} {r : Row} (hN : N = m * n) (ha : a < m)
    (h : levelBase n N node nOut l a s = some r) :
    r.iend ≤ N ∧ r.ibegin ≤ r.iend ∧ ∀ j, r.coeff j ≠ 0 → r.ibegin ≤ j ∧ j < r.iend := by
  have h3 : (a + 1) * n ≤ m * n := Nat.mul_le_mul_right _ ha
  have h4 : (a + 1) * n = a * n + n := by ring
  unfold levelBase at h
  split_ifs at h with h1 h2 h5 h6
  · rw [← Option.some.inj h]
    obtain ⟨rfl, -⟩ := h1
    simp only
    refine ⟨by omega, by omega, fun j hj => ?_⟩
    have := put_zero _ _ _ hj
    rw [length_lagrange] at this
    omega
  · rw [← Option.some.inj h]
    obtain ⟨rfl, -⟩ := h5
    simp only
    refine ⟨by omega, by omega, fun j hj => ?_⟩
    have := put_zero _ _ _ hj
    rw [length_lagrange] at this
    omega
  · rw [← Option.some.inj h]
    simp only
    refine ⟨by omega, by omega, fun j hj => ?_⟩
    have := put_zero _ _ _ hj
    rw [length_lagrange] at this
    omega

theorem levelRow_range {n N : Nat} {node edge : Nat → ℝ} {m nOut l : Nat} {s : ℝ} {r : Row} (hN : N = m * n) (hm : 0 < m)
    (h : levelRow n N node edge m nOut l s = some r) :
    r.iend ≤ N ∧ ∀ j, r.coeff j ≠ 0 → r.ibegin ≤ j ∧ j < r.iend := by
  obtain ⟨h1, -⟩ := find_bound (fun b => edge (b * n)) m hm s
  unfold levelRow at h
  generalize findElement (fun b => edge (b * n)) m s = f at h1 h
  obtain ⟨a, on⟩ := f
  simp only at h1 h
  obtain ⟨r0, hr0, h⟩ := Option.bind_eq_some_iff.1 h
  obtain ⟨k1, k2, k3⟩ := levelBase_range hN h1 hr0
  cases on
  · simp only [Bool.false_eq_true, if_false] at h
    rw [← Option.some.inj h]
    exact ⟨k1, k3⟩
  · simp only [if_true] at h
    split_ifs at h with h5
    rw [← Option.some.inj h]
    refine ⟨h5, fun j hj => ?_⟩
    simp only at hj ⊢
    by_contra hne
    apply hj
    rw [if_neg (by omega), if_neg (by omega)]
    have hz : r0.coeff j = 0 := by
      by_contra hz
      have := k3 j hz
      omega
    unfold put
    rw [if_neg (by rw [length_lagrange]; omega)]
    exact hz

/-- **C69 (ranges).**  The operator has one row per output location and one column per source value, and the stored
ranges hold all its coefficients: nothing is lost when it is applied. -/
theorem C69_ranges (src : Source) (n N nEdge : Nat) (node edge : Nat → ℝ) (nOut : Nat) (out : Nat → ℝ) (zb : Bool) (A : Op)
    (h : interpInit src n N nEdge node edge nOut out zb = .ok A) :
    A.rows = nOut ∧ A.cols = (if src = .interfaces then N + 1 else N) ∧ RangeOk A := by
  obtain ⟨h1, h2, h3, h4, h5, h6, h7, h8, h9⟩ := interp_rows h
  refine ⟨h6, h7, fun k hk => ?_⟩
  rw [h6] at hk
  by_cases hz : Zeroed zb nOut out k
  · rw [h8 k hk hz]
    exact ⟨by simp [blank], fun j _ hj => by simp [blank] at hj⟩
  · have h10 := h9 k hk hz
    cases src
    · simp only [if_true] at h7
      simp only at h10
      obtain ⟨r1, r2⟩ := interfaceRow_range n edge (N / n) h5 (out k)
      rw [h10, h7]
      exact ⟨by omega, fun j _ => r2 j⟩
    · simp only [reduceCtorEq, if_false] at h7
      simp only at h10
      obtain ⟨r1, r2⟩ := levelRow_range h4 h5 h10
      rw [h7]
      exact ⟨r1, fun j _ => r2 j⟩

/-- **C69 (every location served).**  Every location is in some element or on the edge of two. -/
theorem C69_located (bnd : Nat → ℝ) (m : Nat) (hm : 0 < m) (s : ℝ) : ∃ a, InElement bnd m a s ∨ OnEdge bnd m a s := located hm s

/-- **C69 (held at zero).**  Rows held at zero give zero. -/
theorem C69_zero (src : Source) (n N nEdge : Nat) (node edge : Nat → ℝ) (nOut : Nat) (out : Nat → ℝ) (zb : Bool) (A : Op)
    (h : interpInit src n N nEdge node edge nOut out zb = .ok A) (l : Nat) (hl : l < nOut) (hz : Zeroed zb nOut out l)
    (y : Nat → ℝ) : applyRow A y l = 0 := by
  obtain ⟨h1, h2, h3, h4, h5, h6, h7, h8, h9⟩ := interp_rows h
  rw [applyRow, h8 l hl hz, blank_apply]

/-- **C69 (from interfaces).**  A location inside an element gets the value there of the polynomial through the
interface values of the element; a location on the edge of two elements gets the interface value at that edge. -/
theorem C69_interfaces (n N nEdge : Nat) (node edge : Nat → ℝ) (nOut : Nat) (out : Nat → ℝ) (zb : Bool) (A : Op)
    (h : interpInit .interfaces n N nEdge node edge nOut out zb = .ok A)
    (hsep : Separated (fun b => edge (b * n)) (N / n)) (l : Nat) (hl : l < nOut) (hz : ¬ Zeroed zb nOut out l) (a : Nat)
    (y : Nat → ℝ) :
    (InElement (fun b => edge (b * n)) (N / n) a (out l) → DistinctNodes (n + 1) (fun i => edge (a * n + i)) →
      ∀ p : ℝ[X], p.degree < (n + 1 : ℕ) → Through p edge y (a * n) (n + 1) → applyRow A y l = p.eval (out l)) ∧
    (OnEdge (fun b => edge (b * n)) (N / n) a (out l) → applyRow A y l = y ((a + 1) * n)) := by
  obtain ⟨h1, h2, h3, h4, h5, h6, h7, h8, h9⟩ := interp_rows h
  have h10 := h9 l hl hz
  simp only at h10
  constructor
  · intro hs hd p hp ht
    rw [applyRow, h10, interfaceRow_in n edge (N / n) a (out l) hsep hs]
    exact lagrange_through (n + 1) (a * n) edge y (out l) p hp hd ht
  · intro hs
    rw [applyRow, h10, interfaceRow_on n edge (N / n) a (out l) hsep hs]

theorem weights_sum {bnd : Nat → ℝ} {m a : Nat} (h : Separated bnd m) (ha : a + 1 < m) (k : Nat) :
    0 < (edgeWeights bnd k a).1 ∧ 0 < (edgeWeights bnd k a).2 ∧ (edgeWeights bnd k a).1 + (edgeWeights bnd k a).2 = 1 := by
  have h1 := h a (by omega)
  have h2 := h (a + 1) ha
  have h3 := eps_pos
  unfold edgeWeights
  simp only
  have e1 : 0 < (bnd (a + 1) - bnd a) ^ k := pow_pos (by linarith) k
  have e2 : 0 < (bnd (a + 2) - bnd (a + 1)) ^ k := pow_pos (by rw [show a + 2 = a + 1 + 1 by omega]; linarith) k
  refine ⟨by positivity, by positivity, ?_⟩
  rw [← add_div, add_comm, div_self (by positivity)]

/-- **C69 (from levels).**  A location inside an element gets the value there of the polynomial through the level values
of the element.  A location on the edge of two elements gets a mean of the two elements' polynomials with positive
weights adding to one, each side weighted by the other's thickness to the order. -/
theorem C69_levels (n N nEdge : Nat) (node edge : Nat → ℝ) (nOut : Nat) (out : Nat → ℝ) (zb : Bool) (A : Op)
    (h : interpInit .levels n N nEdge node edge nOut out zb = .ok A)
    (hsep : Separated (fun b => edge (b * n)) (N / n)) (l : Nat) (hl : l < nOut) (hz : ¬ Zeroed zb nOut out l)
    (hr : n ≠ 1 ∨ (l ≠ 0 ∧ l ≠ nOut - 1)) (a : Nat) (y : Nat → ℝ) :
    (InElement (fun b => edge (b * n)) (N / n) a (out l) → DistinctNodes n (fun i => node (a * n + i)) →
      ∀ p : ℝ[X], p.degree < n → Through p node y (a * n) n → applyRow A y l = p.eval (out l)) ∧
    (OnEdge (fun b => edge (b * n)) (N / n) a (out l) → DistinctNodes n (fun i => node (a * n + i)) →
      DistinctNodes n (fun i => node ((a + 1) * n + i)) → ∀ p q : ℝ[X], p.degree < n → q.degree < n →
      Through p node y (a * n) n → Through q node y ((a + 1) * n) n → ∃ wl wr : ℝ, 0 < wl ∧ 0 < wr ∧ wl + wr = 1 ∧
        wl * (edge ((a + 1) * n) - edge (a * n)) ^ n = wr * (edge ((a + 2) * n) - edge ((a + 1) * n)) ^ n ∧
        applyRow A y l = wl * p.eval (out l) + wr * q.eval (out l)) := by
  obtain ⟨h1, h2, h3, h4, h5, h6, h7, h8, h9⟩ := interp_rows h
  have h10 := h9 l hl hz
  simp only at h10
  constructor
  · intro hs hd p hp ht
    obtain ⟨r, e1, e2⟩ := levelRow_in n N node edge (N / n) nOut l a (out l) hr hsep hs
    rw [h10] at e1
    rw [applyRow, Option.some.inj e1, e2]
    exact lagrange_through n (a * n) node y (out l) p hp hd ht
  · intro hs hd hd' p q hp hq ht ht'
    obtain ⟨r, e1, e2⟩ := levelRow_on n N node edge (N / n) nOut l a (out l) hr h4 hsep hs
    rw [h10] at e1
    obtain ⟨w1, w2, w3⟩ := weights_sum hsep hs.1 n
    refine ⟨_, _, w1, w2, w3, ?_, ?_⟩
    · unfold edgeWeights
      simp only
      ring
    · rw [applyRow, Option.some.inj e1, e2, lagrange_through n (a * n) node y (out l) p hp hd ht,
        lagrange_through n ((a + 1) * n) node y (out l) q hq hd' ht']

/-- **C69 (first and last row, order one).**  With one level per element the first row uses the level of its element and
the next, the last row that of its element and the one before: the value of the line through the two. -/
theorem C69_order_one (N nEdge : Nat) (node edge : Nat → ℝ) (nOut : Nat) (out : Nat → ℝ) (zb : Bool) (A : Op)
    (h : interpInit .levels 1 N nEdge node edge nOut out zb = .ok A) (hsep : Separated edge N) (a : Nat) (y : Nat → ℝ) (p : ℝ[X])
    (hp : p.degree < (2 : ℕ)) :
    (∀ l, l < nOut → l = 0 → ¬ Zeroed zb nOut out l → InElement edge N a (out l) → node a ≠ node (a + 1) →
      Through p node y a 2 → applyRow A y l = p.eval (out l)) ∧
    (∀ l, l < nOut → l = nOut - 1 → l ≠ 0 → ¬ Zeroed zb nOut out l → InElement edge N (a + 1) (out l) → node a ≠ node (a + 1) →
      Through p node y a 2 → applyRow A y l = p.eval (out l)) := by
  obtain ⟨h1, h2, h3, h4, h5, h6, h7, h8, h9⟩ := interp_rows h
  have hdist : node a ≠ node (a + 1) → DistinctNodes 2 (fun i => node (a + i)) := by
    intro hne i j hi hj hij
    interval_cases i <;> interval_cases j
    · exact absurd rfl hij
    · exact hne
    · exact fun h => hne h.symm
    · exact absurd rfl hij
  have hsep' : Separated (fun b => edge (b * 1)) (N / 1) := by simpa using hsep
  constructor
  · intro l hl hl0 hz hs hne ht
    have h10 := h9 l hl hz
    have hs' : InElement (fun b => edge (b * 1)) (N / 1) a (out l) := by simpa using hs
    simp only [levelRow, find_in hsep' hs'] at h10
    unfold levelBase at h10
    rw [if_pos ⟨rfl, hl0⟩] at h10
    by_cases hN : a + 2 ≤ N
    · rw [if_pos hN] at h10
      simp only [Option.bind_some, Bool.false_eq_true, if_false] at h10
      rw [applyRow, ← Option.some.inj h10, rowLoop_put _ _ _ _ le_rfl (by rw [length_lagrange]; omega)]
      have := lagrange_through 2 a node y (out l) p hp (hdist hne) ht
      simpa using this
    · rw [if_neg hN] at h10
      simp at h10
  · intro l hl hl0 hl1 hz hs hne ht
    have h10 := h9 l hl hz
    have hs' : InElement (fun b => edge (b * 1)) (N / 1) (a + 1) (out l) := by simpa using hs
    simp only [levelRow, find_in hsep' hs'] at h10
    unfold levelBase at h10
    rw [if_neg (fun x => hl1 x.2), if_pos ⟨rfl, hl0⟩, if_pos (by omega)] at h10
    simp only [Option.bind_some, Bool.false_eq_true, if_false] at h10
    rw [applyRow, ← Option.some.inj h10, rowLoop_put _ _ _ _ le_rfl (by rw [length_lagrange]; omega)]
    have := lagrange_through 2 a node y (out l) p hp (hdist hne) ht
    simpa using this

/-- **C69 (polynomials kept).**  If all the level values are those of one polynomial of degree below the order, every
regular row gives the polynomial at its location, on edges too; likewise from interfaces, one degree more, where a
location on an edge is exactly there. -/
theorem C69_polynomial (n N nEdge : Nat) (node edge : Nat → ℝ) (nOut : Nat) (out : Nat → ℝ) (zb : Bool) (A : Op) (src : Source)
    (h : interpInit src n N nEdge node edge nOut out zb = .ok A)
    (hsep : Separated (fun b => edge (b * n)) (N / n)) (l : Nat) (hl : l < nOut) (hz : ¬ Zeroed zb nOut out l) (p : ℝ[X])
    (y : Nat → ℝ) :
    (src = .levels → (n ≠ 1 ∨ (l ≠ 0 ∧ l ≠ nOut - 1)) → (∀ a < N / n, DistinctNodes n (fun i => node (a * n + i))) →
      p.degree < n → (∀ j < N, y j = p.eval (node j)) → applyRow A y l = p.eval (out l)) ∧
    (src = .interfaces → (∀ a < N / n, DistinctNodes (n + 1) (fun i => edge (a * n + i))) →
      (∀ a, OnEdge (fun b => edge (b * n)) (N / n) a (out l) → out l = edge ((a + 1) * n)) →
      p.degree < (n + 1 : ℕ) → (∀ j ≤ N, y j = p.eval (edge j)) → applyRow A y l = p.eval (out l)) := by
  obtain ⟨h1, h2, h3, h4, h5, h6, h7, h8, h9⟩ := interp_rows h
  have hin : ∀ a < N / n, ∀ i ≤ n, a * n + i ≤ N := by
    intro a ha i hi
    have : (a + 1) * n ≤ N / n * n := Nat.mul_le_mul_right _ ha
    have e : (a + 1) * n = a * n + n := by ring
    omega
  have hin' : ∀ a < N / n, ∀ i < n, a * n + i < N := by
    intro a ha i hi
    have : (a + 1) * n ≤ N / n * n := Nat.mul_le_mul_right _ ha
    have e : (a + 1) * n = a * n + n := by ring
    omega
  obtain ⟨a, hs⟩ := located (bnd := fun b => edge (b * n)) h5 (out l)
  constructor
  · intro he hr hd hp hy
    subst he
    have ht : ∀ a < N / n, Through p node y (a * n) n := fun a ha i hi => (hy _ (hin' a ha i hi)).symm
    obtain ⟨k1, k2⟩ := C69_levels n N nEdge node edge nOut out zb A h hsep l hl hz hr a y
    rcases hs with hs | hs
    · exact k1 hs (hd a hs.1) p hp (ht a hs.1)
    · have ha1 : a < N / n := by have := hs.1; omega
      obtain ⟨wl, wr, -, -, w, -, e⟩ := k2 hs (hd a ha1) (hd (a + 1) hs.1) p p hp hp (ht a ha1) (ht (a + 1) hs.1)
      rw [e, ← add_mul, w, one_mul]
  · intro he hd hedge hp hy
    subst he
    obtain ⟨k1, k2⟩ := C69_interfaces n N nEdge node edge nOut out zb A h hsep l hl hz a y
    rcases hs with hs | hs
    · exact k1 hs (hd a hs.1) p hp fun i hi => (hy _ (hin a hs.1 i (by omega))).symm
    · rw [k2 hs, hedge a hs, hy]
      have := hin a (by have := hs.1; omega) n le_rfl
      have e : (a + 1) * n = a * n + n := by ring
      omega

/-- **C69 (refused).**  Initialising is refused exactly when there are no levels, the interfaces are not one more than the
levels, or the levels are not a whole number of elements; from interfaces, and from levels above order one, it then
always succeeds. -/
theorem C69_refused (src : Source) (n N nEdge : Nat) (node edge : Nat → ℝ) (nOut : Nat) (out : Nat → ℝ) (zb : Bool) :
    (interpInit src n N nEdge node edge nOut out zb = .exc ↔ N = 0 ∨ nEdge ≠ N + 1 ∨ N % n ≠ 0) ∧
    (N ≠ 0 → nEdge = N + 1 → N % n = 0 → (src = .interfaces ∨ n ≠ 1) →
      ∃ A, interpInit src n N nEdge node edge nOut out zb = .ok A) := by
  constructor
  · unfold interpInit
    by_cases h1 : N = 0
    · simp [h1]
    by_cases h2 : nEdge ≠ N + 1
    · simp [h1, h2]
    by_cases h3 : N % n ≠ 0
    · rw [if_neg h1, if_neg h2, if_pos h3]; simp [h3]
    · rw [if_neg h1, if_neg h2, if_neg h3]
      simp only [h1, h2, h3, or_self, iff_false]
      cases src <;> simp only <;> unfold fill <;> split_ifs <;> simp
  · intro h1 h2 h3 h4
    unfold interpInit
    rw [if_neg h1, if_neg (by omega), if_neg (by omega)]
    have hn : 0 < n := by
      rcases Nat.eq_zero_or_pos n with hn | hn
      · rw [hn, Nat.mod_zero] at h3; omega
      · exact hn
    have hdiv : N = N / n * n := (Nat.div_mul_cancel (Nat.dvd_of_mod_eq_zero h3)).symm
    have hm : 0 < N / n := Nat.pos_of_ne_zero fun hz => by rw [hz] at hdiv; omega
    cases src
    · exact fill_of fun l _ _ _ => rfl
    · rcases h4 with h4 | h4
      · cases h4
      apply fill_of
      intro l _ _ _
      obtain ⟨f1, f2⟩ := find_bound (fun b => edge (b * n)) (N / n) hm (out l)
      unfold levelRow
      generalize findElement (fun b => edge (b * n)) (N / n) (out l) = f at f1 f2
      obtain ⟨a, on⟩ := f
      simp only at f1 f2 ⊢
      rw [levelBase_regular n N node nOut l a (out l) (Or.inl h4), Option.bind_some]
      cases on
      · rfl
      · simp only [if_true]
        have : (a + 2) * n ≤ N / n * n := Nat.mul_le_mul_right _ (f2 rfl)
        have e : (a + 2) * n = (a + 1) * n + n := by ring
        rw [if_pos (by omega)]
        rfl

/-! ### C70 -/

/-- **C70 (from interfaces).**  The row of a location inside an element gives the derivative there of the polynomial
through the interface values of the element; on the edge of two elements, a mean of the two derivatives with positive
weights adding to one. -/
theorem C70_interfaces (n N nEdge : Nat) (node edge : Nat → ℝ) (nOut : Nat) (out : Nat → ℝ) (zb : Bool) (A : Op)
    (h : diffInterfaceInit .interfaces n N nEdge node edge nOut out zb = .ok A)
    (hsep : Separated (fun b => edge (b * n)) (N / n)) (l a : Nat) (y : Nat → ℝ) :
    A.rows = nOut ∧ A.cols = N + 1 ∧ RangeOk A ∧
    (InElement (fun b => edge (b * n)) (N / n) a (out l) → ApartNodes (n + 1) (fun i => edge (a * n + i)) →
      ∀ p : ℝ[X], p.degree < (n + 1 : ℕ) → Through p edge y (a * n) (n + 1) →
        applyRow A y l = (derivative p).eval (out l)) ∧
    (OnEdge (fun b => edge (b * n)) (N / n) a (out l) → ApartNodes (n + 1) (fun i => edge (a * n + i)) →
      ApartNodes (n + 1) (fun i => edge ((a + 1) * n + i)) → ∀ p q : ℝ[X], p.degree < (n + 1 : ℕ) → q.degree < (n + 1 : ℕ) →
      Through p edge y (a * n) (n + 1) → Through q edge y ((a + 1) * n) (n + 1) → ∃ wl wr : ℝ, 0 < wl ∧ 0 < wr ∧
        wl + wr = 1 ∧ wl * (edge ((a + 1) * n) - edge (a * n)) ^ n = wr * (edge ((a + 2) * n) - edge ((a + 1) * n)) ^ n ∧
        applyRow A y l = wl * (derivative p).eval (out l) + wr * (derivative q).eval (out l)) := by
  unfold diffInterfaceInit at h
  split_ifs at h with h1 h2 h3
  have hn : 0 < n := by
    rcases Nat.eq_zero_or_pos n with hn | hn
    · rw [hn, Nat.mod_zero] at h3; omega
    · exact hn
  have h3' : N % n = 0 := by omega
  have hdiv : N = N / n * n := (Nat.div_mul_cancel (Nat.dvd_of_mod_eq_zero h3')).symm
  have hm : 0 < N / n := Nat.pos_of_ne_zero fun hz => by rw [hz] at hdiv; omega
  simp only at h
  rw [← Res.ok.inj h]
  refine ⟨rfl, rfl, fun k _ => ?_, ?_, ?_⟩
  · obtain ⟨r1, r2⟩ := diffRow_range n edge (N / n) hm (out k)
    exact ⟨by simp only; omega, fun j _ => r2 j⟩
  · intro hs hd p hp ht
    rw [applyRow]
    simp only
    rw [diffRow_in n edge (N / n) a (out l) hsep hs]
    exact diff_through (n + 1) (a * n) edge y (out l) p hp hd ht
  · intro hs hd hd' p q hp hq ht ht'
    obtain ⟨w1, w2, w3⟩ := weights_sum hsep hs.1 n
    refine ⟨_, _, w1, w2, w3, ?_, ?_⟩
    · unfold edgeWeights
      simp only
      ring
    · rw [applyRow]
      simp only
      rw [diffRow_on n edge (N / n) a (out l) hsep hs, diff_through (n + 1) (a * n) edge y (out l) p hp hd ht,
        diff_through (n + 1) ((a + 1) * n) edge y (out l) q hq hd' ht']

/-- **C70 (Gauss-Lobatto levels).**  The same from levels that share their element edges. -/
theorem C70_lobatto (n N : Nat) (hn : 2 ≤ n) (node : Nat → ℝ) (nOut : Nat) (out : Nat → ℝ) (A : Op) (hN : 2 ≤ N)
    (h : diffGLLInit n N node nOut out = .ok A)
    (hsep : Separated (fun b => node (b * (n - 1))) ((N - 1) / (n - 1))) (l a : Nat) (y : Nat → ℝ) :
    A.rows = nOut ∧ A.cols = N ∧ RangeOk A ∧
    (InElement (fun b => node (b * (n - 1))) ((N - 1) / (n - 1)) a (out l) → ApartNodes n (fun i => node (a * (n - 1) + i)) →
      ∀ p : ℝ[X], p.degree < n → Through p node y (a * (n - 1)) n → applyRow A y l = (derivative p).eval (out l)) ∧
    (OnEdge (fun b => node (b * (n - 1))) ((N - 1) / (n - 1)) a (out l) → ApartNodes n (fun i => node (a * (n - 1) + i)) →
      ApartNodes n (fun i => node ((a + 1) * (n - 1) + i)) → ∀ p q : ℝ[X], p.degree < n → q.degree < n →
      Through p node y (a * (n - 1)) n → Through q node y ((a + 1) * (n - 1)) n → ∃ wl wr : ℝ, 0 < wl ∧ 0 < wr ∧
        wl + wr = 1 ∧ wl * (node ((a + 1) * (n - 1)) - node (a * (n - 1))) ^ (n - 1) =
          wr * (node ((a + 2) * (n - 1)) - node ((a + 1) * (n - 1))) ^ (n - 1) ∧
        applyRow A y l = wl * (derivative p).eval (out l) + wr * (derivative q).eval (out l)) := by
  unfold diffGLLInit at h
  split_ifs at h with h1 h3
  obtain ⟨p', rfl⟩ : ∃ p', n = p' + 1 := ⟨n - 1, by omega⟩
  simp only [Nat.add_sub_cancel] at *
  have h3' : (N - 1) % p' = 0 := by omega
  have hdiv : N - 1 = (N - 1) / p' * p' := (Nat.div_mul_cancel (Nat.dvd_of_mod_eq_zero h3')).symm
  have hm : 0 < (N - 1) / p' := Nat.pos_of_ne_zero fun hz => by rw [hz] at hdiv; omega
  rw [← Res.ok.inj h]
  refine ⟨rfl, rfl, fun k _ => ?_, ?_, ?_⟩
  · obtain ⟨r1, r2⟩ := diffRow_range p' node ((N - 1) / p') hm (out k)
    exact ⟨by simp only; omega, fun j _ => r2 j⟩
  · intro hs hd p hp ht
    rw [applyRow]
    simp only
    rw [diffRow_in p' node ((N - 1) / p') a (out l) hsep hs]
    exact diff_through (p' + 1) (a * p') node y (out l) p hp hd ht
  · intro hs hd hd' p q hp hq ht ht'
    obtain ⟨w1, w2, w3⟩ := weights_sum hsep hs.1 p'
    refine ⟨_, _, w1, w2, w3, ?_, ?_⟩
    · unfold edgeWeights
      simp only
      ring
    · rw [applyRow]
      simp only
      rw [diffRow_on p' node ((N - 1) / p') a (out l) hsep hs, diff_through (p' + 1) (a * p') node y (out l) p hp hd ht,
        diff_through (p' + 1) ((a + 1) * p') node y (out l) q hq hd' ht']

/-- **C70 (from levels).**  From levels the operator first interpolates to the interfaces and then differentiates. -/
theorem C70_levels (n N nEdge : Nat) (node edge : Nat → ℝ) (nOut : Nat) (hOut : 0 < nOut) (out : Nat → ℝ) (zb : Bool) (A : Op)
    (h : diffInterfaceInit .levels n N nEdge node edge nOut out zb = .ok A) :
    ∃ D I, diffInterfaceInit .interfaces n N nEdge node edge nOut out zb = .ok D ∧
      interpInit .levels n N nEdge node edge nEdge edge zb = .ok I ∧ A.rows = nOut ∧ A.cols = N ∧ RangeOk A ∧
      ∀ y, ∀ l < nOut, applyRow A y l = applyRow D (applyRow I y) l := by
  unfold diffInterfaceInit at h
  split_ifs at h with h1 h2 h3
  simp only at h
  obtain ⟨I, hI⟩ : ∃ I, interpInit .levels n N nEdge node edge nEdge edge zb = .ok I := by
    cases hi : interpInit .levels n N nEdge node edge nEdge edge zb with
    | ok I => exact ⟨I, rfl⟩
    | exc => rw [hi] at h; simp at h
    | ub => rw [hi] at h; simp at h
  rw [hI] at h
  simp only at h
  have hn : 0 < n := by
    rcases Nat.eq_zero_or_pos n with hn | hn
    · rw [hn, Nat.mod_zero] at h3; omega
    · exact hn
  have h3' : N % n = 0 := by omega
  have hdiv : N = N / n * n := (Nat.div_mul_cancel (Nat.dvd_of_mod_eq_zero h3')).symm
  have hm : 0 < N / n := Nat.pos_of_ne_zero fun hz => by rw [hz] at hdiv; omega
  obtain ⟨i1, i2, i3⟩ := C69_ranges .levels n N nEdge node edge nEdge edge zb I hI
  simp only [reduceCtorEq, if_false] at i2
  have hD : RangeOk ⟨nOut, N + 1, fun l => diffRow n edge (N / n) (out l)⟩ := by
    intro k _
    obtain ⟨r1, r2⟩ := diffRow_range n edge (N / n) hm (out k)
    exact ⟨by simp only; omega, fun j _ => r2 j⟩
  obtain ⟨C, c1, c2, c3, c4, c5, -⟩ := C53_compose ⟨nOut, N + 1, fun l => diffRow n edge (N / n) (out l)⟩ I hD i3
    (by simp only; omega) hOut (by omega)
  rw [c1] at h
  simp only at h
  rw [← Res.ok.inj h]
  refine ⟨⟨nOut, N + 1, fun l => diffRow n edge (N / n) (out l)⟩, I, ?_, hI, c2, by rw [c3, i2], c4, c5⟩
  unfold diffInterfaceInit
  rw [if_neg h1, if_neg h2, if_neg h3]

/-- **C70 (polynomials).**  Above order one and with no rows held at zero, the derivative of a polynomial of degree below
the order sampled at the levels is exact everywhere. -/
theorem C70_polynomial (n N nEdge : Nat) (hn : n ≠ 1) (node edge : Nat → ℝ) (nOut : Nat) (hOut : 0 < nOut) (out : Nat → ℝ)
    (A : Op) (h : diffInterfaceInit .levels n N nEdge node edge nOut out false = .ok A)
    (hsep : Separated (fun b => edge (b * n)) (N / n)) (hd : ∀ a < N / n, DistinctNodes n (fun i => node (a * n + i)))
    (he : ∀ a < N / n, ApartNodes (n + 1) (fun i => edge (a * n + i))) (p : ℝ[X]) (hp : p.degree < n) (y : Nat → ℝ)
    (hy : ∀ j < N, y j = p.eval (node j)) (l : Nat) (hl : l < nOut) : applyRow A y l = (derivative p).eval (out l) := by
  obtain ⟨D, I, hD, hI, -, -, -, hA⟩ := C70_levels n N nEdge node edge nOut hOut out false A h
  obtain ⟨h1, h2, h3, h4, h5, h6, h7, h8, h9⟩ := interp_rows hI
  rw [hA y l hl]
  have hmid : ∀ j ≤ N, applyRow I y j = p.eval (edge j) := fun j hj =>
    (C69_polynomial n N nEdge node edge nEdge edge false I .levels hI hsep j (by omega) (by simp [Zeroed]) p y).1 rfl
      (Or.inl hn) hd hp hy
  have hp' : p.degree < (n + 1 : ℕ) := lt_trans hp (by exact_mod_cast Nat.lt_succ_self n)
  have hin : ∀ a < N / n, ∀ i ≤ n, a * n + i ≤ N := by
    intro a ha i hi
    have : (a + 1) * n ≤ N / n * n := Nat.mul_le_mul_right _ ha
    have e : (a + 1) * n = a * n + n := by ring
    omega
  have ht : ∀ a < N / n, Through p edge (applyRow I y) (a * n) (n + 1) := fun a ha i hi => (hmid _ (hin a ha i (by omega))).symm
  obtain ⟨a, hs⟩ := located (bnd := fun b => edge (b * n)) h5 (out l)
  obtain ⟨-, -, -, k1, k2⟩ := C70_interfaces n N nEdge node edge nOut out false D hD hsep l a (applyRow I y)
  rcases hs with hs | hs
  · exact k1 hs (he a hs.1) p hp' (ht a hs.1)
  · have ha1 : a < N / n := by have := hs.1; omega
    obtain ⟨wl, wr, -, -, w, -, e⟩ := k2 hs (he a ha1) (he (a + 1) hs.1) p p hp' hp' (ht a ha1) (ht (a + 1) hs.1)
    rw [e, ← add_mul, w, one_mul]

/-! ### The hypotheses are met -/

/-- Two elements of two levels each on equally spaced interfaces: separated, a location inside each element, one on the
edge, and the initialisations succeed. -/
example : Separated (fun b => ((b * 2 : ℕ) : ℝ) / 4) (4 / 2) ∧ InElement (fun b => ((b * 2 : ℕ) : ℝ) / 4) (4 / 2) 0 (1 / 8) ∧
    InElement (fun b => ((b * 2 : ℕ) : ℝ) / 4) (4 / 2) 1 (7 / 8) ∧ OnEdge (fun b => ((b * 2 : ℕ) : ℝ) / 4) (4 / 2) 0 (1 / 2) := by
  refine ⟨fun a ha => ?_, ⟨by norm_num, Or.inl rfl, Or.inr ?_⟩, ⟨by norm_num, Or.inr ?_, Or.inl rfl⟩, by norm_num, ?_, ?_⟩ <;>
    simp only [eps] <;> push_cast <;> first | (norm_num; done) | linarith

example : DistinctNodes 2 (fun i => ((2 * (1 * 2 + i) + 1 : ℕ) : ℝ) / 8) ∧ ApartNodes 3 (fun i => ((1 * 2 + i : ℕ) : ℝ) / 4) := by
  constructor
  · intro i j hi hj hij
    interval_cases i <;> interval_cases j <;> first | exact absurd rfl hij | norm_num
  · intro i j hi hj hij
    interval_cases i <;> interval_cases j <;> first | exact absurd rfl hij | norm_num [abs_of_pos, abs_of_neg]

example : (∃ A, interpInit .interfaces 2 4 5 (fun i => (2 * i + 1) / 8) (fun i => i / 4) 3 (fun i => (i + 1) / 4) false = .ok A) ∧
    (∃ A, interpInit .levels 2 4 5 (fun i => (2 * i + 1) / 8) (fun i => i / 4) 3 (fun i => (i + 1) / 4) false = .ok A) ∧
    interpInit .levels 3 4 5 (fun i => (2 * i + 1) / 8) (fun i => i / 4) 3 (fun i => (i + 1) / 4) false = .exc :=
  ⟨(C69_refused _ _ _ _ _ _ _ _ _).2 (by decide) (by decide) (by decide) (Or.inl rfl),
    (C69_refused _ _ _ _ _ _ _ _ _).2 (by decide) (by decide) (by decide) (Or.inr (by decide)),
    (C69_refused _ _ _ _ _ _ _ _ _).1.2 (Or.inr (Or.inr (by decide)))⟩

example : (∃ A, diffGLLInit 3 5 (fun i => i / 4) 3 (fun i => (i + 1) / 4) = .ok A) := ⟨_, rfl⟩

end Verif.Column
