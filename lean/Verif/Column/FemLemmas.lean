/-
Lemmas on the rows of the finite element column operators.
-/
import Verif.Column.Props
import Verif.Column.FemSpec
import Verif.Interp.Props

namespace Verif.Column

open Finset Polynomial Verif.Interp

theorem apply_eq (l : List ℝ) (y : Nat → ℝ) : Interp.apply l y = ∑ t ∈ range l.length, l.getD t 0 * y t := by
  unfold Interp.apply
  suffices h : ∀ (l : List ℝ) (k : Nat), ((l.zipIdx k).map fun ci => ci.1 * y ci.2).sum =
      ∑ t ∈ range l.length, l.getD t 0 * y (k + t) by
    have := h l 0
    simpa using this
  intro l
  induction l with
  | nil => simp
  | cons a l ih =>
    intro k
    rw [List.zipIdx_cons, List.map_cons, List.sum_cons, ih, List.length_cons, sum_range_succ']
    simp only [List.getD_cons_succ, List.getD_cons_zero, Nat.add_zero]
    rw [add_comm]
    congr 1
    exact sum_congr rfl fun t _ => by rw [show k + (t + 1) = k + 1 + t by omega]

/-- A list of coefficients written from `c` on, seen from a range that holds it. -/
theorem put_sum (b e c : Nat) (l : List ℝ) (hb : b ≤ c) (he : c + l.length ≤ e) (y : Nat → ℝ) :
    ∑ j ∈ Ico b e, put (fun _ => 0) c l j * y j = Interp.apply l (fun i => y (c + i)) := by
  rw [apply_eq, ← sum_Ico_consecutive _ hb (by omega : c ≤ e),
    ← sum_Ico_consecutive _ (by omega : c ≤ c + l.length) he]
  have h1 : ∑ j ∈ Ico b c, put (fun _ => 0) c l j * y j = 0 := by
    apply sum_eq_zero
    intro j hj
    rw [mem_Ico] at hj
    unfold put
    rw [if_neg (by omega), zero_mul]
  have h2 : ∑ j ∈ Ico (c + l.length) e, put (fun _ => 0) c l j * y j = 0 := by
    apply sum_eq_zero
    intro j hj
    rw [mem_Ico] at hj
    unfold put
    rw [if_neg (by omega), zero_mul]
  rw [h1, h2, zero_add, add_zero, sum_Ico_eq_sum_range, Nat.add_sub_cancel_left]
  apply sum_congr rfl
  intro t ht
  rw [mem_range] at ht
  unfold put
  rw [if_pos (by omega), Nat.add_sub_cancel_left]

theorem put_zero (c : Nat) (l : List ℝ) (j : Nat) (h : put (fun _ => 0) c l j ≠ 0) : c ≤ j ∧ j < c + l.length := by
  by_contra h2
  exact h (by unfold put; rw [if_neg h2])

theorem length_lagrange (n : Nat) (x : Nat → ℝ) (s : ℝ) : (lagrangeCoeffs n x s).length = n := by simp [lagrangeCoeffs]
theorem length_diff (n : Nat) (x : Nat → ℝ) (s : ℝ) : (diffCoeffs n x s).length = n := by simp [diffCoeffs]

/-! ### The search -/

theorem eps_pos : 0 < eps := by unfold eps; positivity

theorem findFrom_skip (bnd : Nat → ℝ) (s : ℝ) (r a b : Nat) (hab : a ≤ b) (hr : b ≤ a + r)
    (h : ∀ c, a ≤ c → c < b → bnd (c + 1) + eps ≤ s) : findFrom bnd s r a = findFrom bnd s (a + r - b) b := by
  induction r generalizing a with
  | zero => rw [show b = a by omega, show a + 0 - a = 0 by omega]
  | succ r ih =>
    rcases Nat.eq_or_lt_of_le hab with h1 | h1
    · rw [h1, show b + (r + 1) - b = r + 1 by omega]
    · have h2 := h a le_rfl h1
      have := eps_pos
      rw [findFrom]
      rw [if_neg (by linarith), if_neg (by linarith), ih (a + 1) (by omega) (by omega) (fun c hc hcb => h c (by omega) hcb),
        show a + 1 + r - b = a + (r + 1) - b by omega]

theorem bnd_mono {bnd : Nat → ℝ} {m : Nat} (h : Separated bnd m) (a b : Nat) (hab : a ≤ b) (hb : b ≤ m) : bnd a ≤ bnd b := by
  induction b with
  | zero => rw [show a = 0 by omega]
  | succ b ih =>
    rcases Nat.eq_or_lt_of_le hab with h1 | h1
    · rw [h1]
    · have := ih (by omega) (by omega)
      have := h b (by omega)
      have := eps_pos
      linarith

theorem find_in {bnd : Nat → ℝ} {m a : Nat} {s : ℝ} (h : Separated bnd m) (hs : InElement bnd m a s) :
    findElement bnd m s = (a, false) := by
  obtain ⟨h1, h2, h3⟩ := hs
  unfold findElement
  rw [findFrom_skip bnd s (m - 1) 0 a (by omega) (by omega) ?_]
  · rcases h3 with h3 | h3
    · rw [show 0 + (m - 1) - a = 0 by omega]; rfl
    · by_cases h4 : a + 1 = m
      · rw [show 0 + (m - 1) - a = 0 by omega]; rfl
      · rw [show 0 + (m - 1) - a = (m - 2 - a) + 1 by omega, findFrom]
        rw [if_pos h3]
  · intro c _ hc
    rcases h2 with h2 | h2
    · omega
    · have := bnd_mono h (c + 1) a (by omega) (by omega)
      linarith

theorem find_on {bnd : Nat → ℝ} {m a : Nat} {s : ℝ} (h : Separated bnd m) (hs : OnEdge bnd m a s) :
    findElement bnd m s = (a, true) := by
  obtain ⟨h1, h2, h3⟩ := hs
  unfold findElement
  have he := eps_pos
  rw [findFrom_skip bnd s (m - 1) 0 a (by omega) (by omega) ?_]
  · rw [show 0 + (m - 1) - a = (m - 2 - a) + 1 by omega, findFrom]
    rw [if_neg (by linarith), if_pos (by linarith)]
  · intro c _ hc
    have := bnd_mono h (c + 1) a (by omega) (by omega)
    have := h a (by omega)
    linarith

/-- Every location is in an element or on an edge. -/
theorem located {bnd : Nat → ℝ} {m : Nat} (hm : 0 < m) (s : ℝ) : ∃ a, InElement bnd m a s ∨ OnEdge bnd m a s := by
  have key : ∀ r a, a + r + 1 = m → (a = 0 ∨ bnd a + eps ≤ s) → ∃ a, InElement bnd m a s ∨ OnEdge bnd m a s := by
    intro r
    induction r with
    | zero => intro a ha h; exact ⟨a, Or.inl ⟨by omega, h, Or.inl (by omega)⟩⟩
    | succ r ih =>
      intro a ha h
      by_cases h1 : s < bnd (a + 1) - eps
      · exact ⟨a, Or.inl ⟨by omega, h, Or.inr h1⟩⟩
      · by_cases h2 : s < bnd (a + 1) + eps
        · exact ⟨a, Or.inr ⟨by omega, not_lt.1 h1, h2⟩⟩
        · exact ih (a + 1) (by omega) (Or.inr (not_lt.1 h2))
  exact key (m - 1) 0 (by omega) (Or.inl rfl)

/-- The element found is one of the elements, and not the last if on an edge. -/
theorem find_bound (bnd : Nat → ℝ) (m : Nat) (hm : 0 < m) (s : ℝ) :
    (findElement bnd m s).1 < m ∧ ((findElement bnd m s).2 = true → (findElement bnd m s).1 + 1 < m) := by
  have key : ∀ r a, (findFrom bnd s r a).1 ≤ a + r ∧ ((findFrom bnd s r a).2 = true → (findFrom bnd s r a).1 < a + r) := by
    intro r
    induction r with
    | zero => intro a; exact ⟨le_rfl, fun h => by simp [findFrom] at h⟩
    | succ r ih =>
      intro a
      rw [findFrom]
      split_ifs
      · exact ⟨by simp, fun h => by simp at h⟩
      · exact ⟨by simp, fun _ => by simp⟩
      · have := ih (a + 1)
        exact ⟨by omega, fun h => by have := this.2 h; omega⟩
  have := key (m - 1) 0
  unfold findElement
  exact ⟨by omega, fun h => by have := this.2 h; omega⟩

/-! ### Values of rows -/

theorem rowLoop_put (b e c : Nat) (l : List ℝ) (hb : b ≤ c) (he : c + l.length ≤ e) (y : Nat → ℝ) :
    rowLoop ⟨put (fun _ => 0) c l, b, e⟩ 0 y = Interp.apply l (fun i => y (c + i)) := by
  rw [rowLoop_eq, zero_add]
  exact put_sum b e c l hb he y

theorem lagrange_through (n b : Nat) (x y : Nat → ℝ) (s : ℝ) (p : ℝ[X]) (hp : p.degree < n)
    (hx : DistinctNodes n (fun i => x (b + i))) (ht : Through p x y b n) :
    Interp.apply (lagrangeCoeffs n (fun i => x (b + i)) s) (fun i => y (b + i)) = p.eval s := by
  rw [← C38_exact n (fun i => x (b + i)) hx s p hp, apply_eq, apply_eq, length_lagrange]
  exact sum_congr rfl fun t ht' => by rw [mem_range] at ht'; simp only [ht t ht']

theorem diff_through (n b : Nat) (x y : Nat → ℝ) (s : ℝ) (p : ℝ[X]) (hp : p.degree < n)
    (hx : ApartNodes n (fun i => x (b + i))) (ht : Through p x y b n) :
    Interp.apply (diffCoeffs n (fun i => x (b + i)) s) (fun i => y (b + i)) = (derivative p).eval s := by
  rw [← C39_first n (fun i => x (b + i)) hx s p hp, apply_eq, apply_eq, length_diff]
  exact sum_congr rfl fun t ht' => by rw [mem_range] at ht'; simp only [ht t ht']

theorem interfaceRow_in (n : Nat) (edge : Nat → ℝ) (m a : Nat) (s : ℝ) (h : Separated (fun b => edge (b * n)) m)
    (hs : InElement (fun b => edge (b * n)) m a s) (y : Nat → ℝ) :
    rowLoop (interfaceRow n edge m s) 0 y =
      Interp.apply (lagrangeCoeffs (n + 1) (fun i => edge (a * n + i)) s) (fun i => y (a * n + i)) := by
  unfold interfaceRow
  rw [find_in h hs]
  simp only [Bool.false_eq_true, if_false]
  exact rowLoop_put _ _ _ _ le_rfl (by rw [length_lagrange]; ring_nf; omega) y

theorem interfaceRow_on (n : Nat) (edge : Nat → ℝ) (m a : Nat) (s : ℝ) (h : Separated (fun b => edge (b * n)) m)
    (hs : OnEdge (fun b => edge (b * n)) m a s) (y : Nat → ℝ) :
    rowLoop (interfaceRow n edge m s) 0 y = y ((a + 1) * n) := by
  unfold interfaceRow
  rw [find_on h hs]
  simp only [if_true]
  rw [rowLoop_put _ _ _ _ le_rfl (by simp)]
  simp [Interp.apply]

theorem interfaceRow_range (n : Nat) (edge : Nat → ℝ) (m : Nat) (hm : 0 < m) (s : ℝ) :
    (interfaceRow n edge m s).iend ≤ m * n + 1 ∧
    ∀ j, (interfaceRow n edge m s).coeff j ≠ 0 → (interfaceRow n edge m s).ibegin ≤ j ∧ j < (interfaceRow n edge m s).iend := by
  obtain ⟨h1, h2⟩ := find_bound (fun b => edge (b * n)) m hm s
  unfold interfaceRow
  generalize findElement (fun b => edge (b * n)) m s = f at h1 h2
  obtain ⟨a, on⟩ := f
  simp only at h1 h2 ⊢
  have h3 : (a + 1) * n ≤ m * n := Nat.mul_le_mul_right _ h1
  have h4 : (a + 1) * n = a * n + n := by ring
  cases on
  · simp only [Bool.false_eq_true, if_false]
    refine ⟨by omega, fun j hj => ?_⟩
    have := put_zero _ _ _ hj
    rw [length_lagrange] at this
    omega
  · simp only [if_true]
    refine ⟨by omega, fun j hj => ?_⟩
    have := put_zero _ _ _ hj
    simp at this
    omega

/-- Two lists side by side, weighted. -/
theorem pair_sum (b n1 n2 : Nat) (l r : List ℝ) (hl : l.length = n1) (hr : r.length = n2) (wl wr : ℝ) (y : Nat → ℝ) :
    rowLoop ⟨fun k => if b ≤ k ∧ k < b + n1 then put (put (fun _ => 0) b l) (b + n1) r k * wl
        else if b + n1 ≤ k ∧ k < b + n1 + n2 then put (put (fun _ => 0) b l) (b + n1) r k * wr
        else put (put (fun _ => 0) b l) (b + n1) r k, b, b + n1 + n2⟩ 0 y =
      wl * Interp.apply l (fun i => y (b + i)) + wr * Interp.apply r (fun i => y (b + n1 + i)) := by
  rw [rowLoop_eq, zero_add]
  simp only
  rw [← sum_Ico_consecutive _ (by omega : b ≤ b + n1) (by omega : b + n1 ≤ b + n1 + n2),
    ← put_sum b (b + n1) b l le_rfl (by omega), ← put_sum (b + n1) (b + n1 + n2) (b + n1) r le_rfl (by omega), mul_sum, mul_sum]
  congr 1
  · apply sum_congr rfl
    intro j hj
    rw [mem_Ico] at hj
    rw [if_pos hj]
    have : put (put (fun _ => 0) b l) (b + n1) r j = put (fun _ => 0) b l j := by
      conv_lhs => rw [put]
      rw [if_neg (by omega)]
    rw [this]; ring
  · apply sum_congr rfl
    intro j hj
    rw [mem_Ico] at hj
    rw [if_neg (by omega), if_pos hj]
    have : put (put (fun _ => 0) b l) (b + n1) r j = put (fun _ => 0) (b + n1) r j := by
      unfold put
      rw [if_pos (by omega), if_pos (by omega)]
    rw [this]; ring

/-- The rows that use one element on each side. -/
def Regular (n nOut l : Nat) : Prop := n ≠ 1 ∨ (l ≠ 0 ∧ l ≠ nOut - 1)

theorem levelBase_regular (n N : Nat) (node : Nat → ℝ) (nOut l a : Nat) (s : ℝ) (h : Regular n nOut l) :
    levelBase n N node nOut l a s =
      some ⟨put (fun _ => 0) (a * n) (lagrangeCoeffs n (fun i => node (a * n + i)) s), a * n, (a + 1) * n⟩ := by
  unfold levelBase
  rcases h with h | ⟨h1, h2⟩
  · rw [if_neg (fun x => h x.1), if_neg (fun x => h x.1)]
  · rw [if_neg (fun x => h1 x.2), if_neg (fun x => h2 x.2)]

theorem levelRow_in (n N : Nat) (node edge : Nat → ℝ) (m nOut l a : Nat) (s : ℝ) (hr : Regular n nOut l)
    (h : Separated (fun b => edge (b * n)) m) (hs : InElement (fun b => edge (b * n)) m a s) :
    ∃ r, levelRow n N node edge m nOut l s = some r ∧ ∀ y, rowLoop r 0 y =
      Interp.apply (lagrangeCoeffs n (fun i => node (a * n + i)) s) (fun i => y (a * n + i)) := by
  refine ⟨⟨put (fun _ => 0) (a * n) (lagrangeCoeffs n (fun i => node (a * n + i)) s), a * n, (a + 1) * n⟩, ?_, ?_⟩
  · unfold levelRow
    rw [find_in h hs]
    simp only [levelBase_regular n N node nOut l a s hr, Option.bind_some, Bool.false_eq_true, if_false]
  · intro y
    exact rowLoop_put _ _ _ _ le_rfl (by rw [length_lagrange]; ring_nf; omega) y

theorem levelRow_on (n N : Nat) (node edge : Nat → ℝ) (m nOut l a : Nat) (s : ℝ) (hr : Regular n nOut l) (hN : N = m * n)
    (h : Separated (fun b => edge (b * n)) m) (hs : OnEdge (fun b => edge (b * n)) m a s) :
    ∃ r, levelRow n N node edge m nOut l s = some r ∧ ∀ y, rowLoop r 0 y =
      (edgeWeights (fun b => edge (b * n)) n a).1 *
        Interp.apply (lagrangeCoeffs n (fun i => node (a * n + i)) s) (fun i => y (a * n + i)) +
      (edgeWeights (fun b => edge (b * n)) n a).2 *
        Interp.apply (lagrangeCoeffs n (fun i => node ((a + 1) * n + i)) s) (fun i => y ((a + 1) * n + i)) := by
  have e1 : (a + 1) * n = a * n + n := by ring
  have e2 : (a + 2) * n ≤ m * n := Nat.mul_le_mul_right _ (by have := hs.1; omega)
  have e3 : (a + 2) * n = a * n + n + n := by ring
  have key := pair_sum (a * n) n n (lagrangeCoeffs n (fun i => node (a * n + i)) s)
      (lagrangeCoeffs n (fun i => node ((a + 1) * n + i)) s) (length_lagrange ..) (length_lagrange ..)
      (edgeWeights (fun b => edge (b * n)) n a).1 (edgeWeights (fun b => edge (b * n)) n a).2
  obtain ⟨r, hrow⟩ : ∃ r, levelRow n N node edge m nOut l s = some r := by
    unfold levelRow
    rw [find_on h hs]
    simp only [levelBase_regular n N node nOut l a s hr, Option.bind_some, if_true]
    rw [if_pos (by omega)]
    exact ⟨_, rfl⟩
  refine ⟨r, hrow, fun y => ?_⟩
  unfold levelRow at hrow
  rw [find_on h hs] at hrow
  simp only [levelBase_regular n N node nOut l a s hr, Option.bind_some, if_true] at hrow
  rw [if_pos (by omega)] at hrow
  have := key y
  rw [← Option.some.inj hrow]
  simp only [e1, e3] at this ⊢
  exact this

theorem diffRow_in (p : Nat) (x : Nat → ℝ) (m a : Nat) (s : ℝ) (h : Separated (fun b => x (b * p)) m)
    (hs : InElement (fun b => x (b * p)) m a s) (y : Nat → ℝ) :
    rowLoop (diffRow p x m s) 0 y =
      Interp.apply (diffCoeffs (p + 1) (fun i => x (a * p + i)) s) (fun i => y (a * p + i)) := by
  unfold diffRow
  rw [find_in h hs]
  simp only [Bool.false_eq_true, if_false]
  exact rowLoop_put _ _ _ _ le_rfl (by rw [length_diff]; ring_nf; omega) y

/-- The coefficients on an edge are the weighted sum of those of the two sides. -/
theorem edge_coeff (a p : Nat) (l r : List ℝ) (hl : l.length = p + 1) (hr : r.length = p + 1) (wl wr : ℝ) (j : Nat) :
    (if (a + 1) * p ≤ j ∧ j ≤ (a + 1) * p + p then
      (if a * p ≤ j ∧ j ≤ a * p + p then put (fun _ => 0) (a * p) l j * wl else put (fun _ => 0) (a * p) l j) +
        wr * r.getD (j - (a + 1) * p) 0
      else (if a * p ≤ j ∧ j ≤ a * p + p then put (fun _ => 0) (a * p) l j * wl else put (fun _ => 0) (a * p) l j)) =
    wl * put (fun _ => 0) (a * p) l j + wr * put (fun _ => 0) ((a + 1) * p) r j := by
  have h1 : (if a * p ≤ j ∧ j ≤ a * p + p then put (fun _ => 0) (a * p) l j * wl else put (fun _ => 0) (a * p) l j) =
      wl * put (fun _ => 0) (a * p) l j := by
    by_cases h : a * p ≤ j ∧ j ≤ a * p + p
    · rw [if_pos h]; ring
    · rw [if_neg h]
      have : put (fun _ => 0) (a * p) l j = 0 := by unfold put; rw [if_neg (by omega)]
      rw [this, mul_zero]
  rw [h1]
  by_cases h : (a + 1) * p ≤ j ∧ j ≤ (a + 1) * p + p
  · rw [if_pos h]
    congr 2
    unfold put
    rw [if_pos (by omega)]
  · rw [if_neg h]
    have : put (fun _ => 0) ((a + 1) * p) r j = 0 := by unfold put; rw [if_neg (by omega)]
    rw [this, mul_zero, add_zero]

theorem diffRow_on (p : Nat) (x : Nat → ℝ) (m a : Nat) (s : ℝ) (h : Separated (fun b => x (b * p)) m)
    (hs : OnEdge (fun b => x (b * p)) m a s) (y : Nat → ℝ) :
    rowLoop (diffRow p x m s) 0 y =
      (edgeWeights (fun b => x (b * p)) p a).1 *
        Interp.apply (diffCoeffs (p + 1) (fun i => x (a * p + i)) s) (fun i => y (a * p + i)) +
      (edgeWeights (fun b => x (b * p)) p a).2 *
        Interp.apply (diffCoeffs (p + 1) (fun i => x ((a + 1) * p + i)) s) (fun i => y ((a + 1) * p + i)) := by
  have e1 : (a + 1) * p = a * p + p := by ring
  have e3 : (a + 2) * p = a * p + p + p := by ring
  unfold diffRow
  rw [find_on h hs]
  simp only [if_true]
  rw [rowLoop_eq, zero_add]
  simp only
  rw [← put_sum (a * p) ((a + 2) * p + 1) (a * p) _ le_rfl (by rw [length_diff]; omega),
    ← put_sum (a * p) ((a + 2) * p + 1) ((a + 1) * p) _ (by omega) (by rw [length_diff]; omega), mul_sum, mul_sum,
    ← sum_add_distrib]
  apply sum_congr rfl
  intro j _
  rw [edge_coeff a p _ _ (length_diff ..) (length_diff ..)]
  ring

theorem diffRow_range (p : Nat) (x : Nat → ℝ) (m : Nat) (hm : 0 < m) (s : ℝ) :
    (diffRow p x m s).iend ≤ m * p + 1 ∧
    ∀ j, (diffRow p x m s).coeff j ≠ 0 → (diffRow p x m s).ibegin ≤ j ∧ j < (diffRow p x m s).iend := by
  obtain ⟨h1, h2⟩ := find_bound (fun b => x (b * p)) m hm s
  unfold diffRow
  generalize findElement (fun b => x (b * p)) m s = f at h1 h2
  obtain ⟨a, on⟩ := f
  simp only at h1 h2 ⊢
  have h3 : (a + 1) * p ≤ m * p := Nat.mul_le_mul_right _ h1
  have h4 : (a + 1) * p = a * p + p := by ring
  cases on
  · simp only [Bool.false_eq_true, if_false]
    refine ⟨by omega, fun j hj => ?_⟩
    have := put_zero _ _ _ hj
    rw [length_diff] at this
    omega
  · simp only [if_true]
    have h5 : (a + 2) * p ≤ m * p := Nat.mul_le_mul_right _ (by have := h2 rfl; omega)
    have h6 : (a + 2) * p = a * p + p + p := by ring
    refine ⟨by omega, fun j hj => ?_⟩
    rw [edge_coeff a p _ _ (length_diff ..) (length_diff ..)] at hj
    by_contra hne
    apply hj
    have z1 : put (fun _ => 0) (a * p) (diffCoeffs (p + 1) (fun i => x (a * p + i)) s) j = 0 := by
      by_contra h
      have := put_zero _ _ _ h
      rw [length_diff] at this
      omega
    have z2 : put (fun _ => 0) ((a + 1) * p) (diffCoeffs (p + 1) (fun i => x ((a + 1) * p + i)) s) j = 0 := by
      by_contra h
      have := put_zero _ _ _ h
      rw [length_diff] at this
      omega
    rw [z1, z2]; ring

end Verif.Column
