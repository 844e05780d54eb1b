/-
Lemmas: where the statements that build the Jacobian put something, and what is read back from the array.
-/
import Verif.Schur.Model
import Verif.Schur.Spec
import Verif.Vdyn.ImplicitProps
import Verif.Column.ReconProps

namespace Verif.Schur

open Verif.Column Verif.Vdyn Verif.Interp Finset

section Ranges
variable {S : Setup} {node edge : Nat → ℝ}

theorem order_half (V : Volumes S node edge) : 0 < half S ∧ S.order = 2 * half S ∧ 0 < S.levels := by
  obtain ⟨h1, -, h3⟩ := interp_cases V.toInterfaces
  rcases h3 with ⟨h, -⟩ | ⟨-, -, -, q, hq, hn⟩
  · cases h
  · unfold half
    omega

theorem interp_row (V : Volumes S node edge) (k : Nat) (hk : k ≤ S.levels) :
    k ≤ (S.interpNE.row k).ibegin + half S ∧ (S.interpNE.row k).iend ≤ k + half S ∧ (S.interpNE.row k).iend ≤ S.levels := by
  obtain ⟨hh, ho, hN⟩ := order_half V
  obtain ⟨-, -, h3⟩ := interp_cases V.toInterfaces
  rcases h3 with ⟨h, -⟩ | ⟨-, -, hA, -⟩
  · cases h
  · rw [hA]
    simp only [reconRow]
    split_ifs <;> omega

theorem gradient_row (V : Volumes S node edge) (k : Nat) :
    k ≤ (S.diffNE.row k).ibegin + half S ∧ (S.diffNE.row k).iend ≤ k + half S ∧ (S.diffNE.row k).iend ≤ S.levels := by
  obtain ⟨hh, ho, hN⟩ := order_half V
  have h := V.gradient
  unfold reconDiffInit at h
  rw [if_neg (by omega), if_neg (by omega), if_neg (by omega), if_neg (by omega), if_neg (by omega)] at h
  simp only at h
  rw [← Res.ok.inj h]
  simp only [stencilRow]
  omega

theorem divergence_eq (V : Volumes S node edge) : S.diffEN = ⟨S.levels, S.levels + 1, quotientRow edge⟩ := by
  obtain ⟨hh, ho, hN⟩ := order_half V
  have h := V.divergence
  unfold reconDiffInit at h
  rw [if_neg (by omega), if_neg (by omega), if_neg (by omega), if_neg (by omega), if_neg (by omega)] at h
  simp only at h
  exact (Res.ok.inj h).symm

theorem divergence_row (V : Volumes S node edge) (k : Nat) : (S.diffEN.row k).ibegin = k ∧ (S.diffEN.row k).iend = k + 2 := by
  rw [divergence_eq V]
  exact ⟨rfl, rfl⟩

theorem penalty_eq (V : Volumes S node edge) (h2 : 2 ≤ S.levels) : S.penalty = ⟨1, S.levels,
    ⟨S.levels, S.levels, fun k => if k + 1 < S.levels then
      reconJumpRow S.order S.levels node edge (-0.5) 0.5 (k + 1) (edge (k + 1) - edge k) else blank⟩,
    ⟨S.levels, S.levels, fun k => if 1 ≤ k ∧ k < S.levels then
      reconJumpRow S.order S.levels node edge 0.5 (-0.5) k (edge (k + 1) - edge k) else blank⟩⟩ := by
  obtain ⟨hh, ho, hN⟩ := order_half V
  have h := V.jumps
  unfold penaltyReconInit at h
  rw [if_neg (by omega), if_neg (by omega), if_neg (by omega)] at h
  exact (PenaltyRes.ok.inj h).symm

theorem penalty_row (V : Volumes S node edge) (h2 : 2 ≤ S.levels) (k : Nat) :
    (k + 1 < S.levels → k + 1 ≤ (S.penalty.left.row k).ibegin + half S ∧ (S.penalty.left.row k).iend ≤ k + 1 + half S ∧
      (S.penalty.left.row k).iend ≤ S.levels) ∧
    (1 ≤ k → k < S.levels → k ≤ (S.penalty.right.row k).ibegin + half S ∧ (S.penalty.right.row k).iend ≤ k + half S ∧
      (S.penalty.right.row k).iend ≤ S.levels) := by
  obtain ⟨hh, ho, hN⟩ := order_half V
  rw [penalty_eq V h2]
  dsimp only
  constructor
  · intro h
    rw [if_pos h]
    simp only [reconJumpRow, leftStencil, rightStencil]
    omega
  · intro h h'
    rw [if_pos ⟨h, h'⟩]
    simp only [reconJumpRow, leftStencil, rightStencil]
    omega

/-- Where a statement about something else than the time derivative puts something. -/
def Placed (N h : Nat) (u : Update) : Prop :=
  (∃ c k m, (c = 0 ∨ c = 2) ∧ k < N ∧ 1 ≤ m ∧ m < N ∧ (m = k ∨ m = k + 1) ∧ u.row = 3 * k + c ∧ u.col = 3 * m + 1) ∨
  (∃ c k n, (c = 0 ∨ c = 2) ∧ k < N ∧ n < N ∧ n ≤ k + h ∧ k ≤ n + h ∧ u.row = 3 * k + c ∧ u.col = 3 * n + c) ∨
  (∃ c k n, (c = 0 ∨ c = 2) ∧ 1 ≤ k ∧ k < N ∧ n < N ∧ k ≤ n + h ∧ n < k + h ∧ u.row = 3 * k + 1 ∧ u.col = 3 * n + c)

variable (G : Metric) (M : Memory) (x : Nat → ℝ)

/-- The statements but for the time derivative. -/
noncomputable def space (S : Setup) (G : Metric) (M : Memory) (x : Nat → ℝ) : List Update :=
  (List.range S.levels).flatMap (fluxUpdates S G M x) ++
  (List.range' 1 (S.levels - 1)).flatMap (pressureUpdates S G M x) ++
  upwindUpdates S G M x 2 ++ upwindUpdates S G M x 4

theorem flux_placed (V : Volumes S node edge) (k : Nat) (hk : k < S.levels) :
    ∀ u ∈ fluxUpdates S G M x k, Placed S.levels (half S) u := by
  intro u hu
  unfold fluxUpdates at hu
  rw [List.mem_flatMap] at hu
  obtain ⟨m, hm, hu⟩ := hu
  rw [mem_stencil] at hm
  obtain ⟨d1, d2⟩ := divergence_row V k
  rw [List.mem_append] at hu
  rcases hu with hu | hu
  · split_ifs at hu with h
    · simp only [List.mem_cons, List.not_mem_nil, or_false] at hu
      rcases hu with rfl | rfl
      · exact Or.inl ⟨0, k, m, Or.inl rfl, hk, by omega, by omega, by omega, rfl, rfl⟩
      · exact Or.inl ⟨2, k, m, Or.inr rfl, hk, by omega, by omega, by omega, rfl, rfl⟩
    · simp at hu
  · rw [List.mem_flatMap] at hu
    obtain ⟨n, hn, hu⟩ := hu
    rw [mem_stencil] at hn
    obtain ⟨i1, i2, i3⟩ := interp_row V m (by omega)
    simp only [List.mem_cons, List.not_mem_nil, or_false] at hu
    rcases hu with rfl | rfl
    · exact Or.inr (Or.inl ⟨2, k, n, Or.inr rfl, hk, by omega, by omega, by omega, rfl, rfl⟩)
    · exact Or.inr (Or.inl ⟨0, k, n, Or.inl rfl, hk, by omega, by omega, by omega, rfl, rfl⟩)

theorem pressure_placed (V : Volumes S node edge) (k : Nat) (h1 : 1 ≤ k) (hk : k < S.levels) :
    ∀ u ∈ pressureUpdates S G M x k, Placed S.levels (half S) u := by
  intro u hu
  unfold pressureUpdates at hu
  simp only [List.mem_append, List.mem_map, List.mem_flatMap, mem_stencil, List.mem_cons, List.not_mem_nil, or_false] at hu
  obtain ⟨g1, g2, g3⟩ := gradient_row V k
  obtain ⟨i1, i2, i3⟩ := interp_row V k (by omega)
  rcases hu with ⟨n, hn, rfl⟩ | ⟨n, hn, rfl | rfl⟩
  · exact Or.inr (Or.inr ⟨0, k, n, Or.inl rfl, h1, hk, by omega, by omega, by omega, rfl, rfl⟩)
  · exact Or.inr (Or.inr ⟨0, k, n, Or.inl rfl, h1, hk, by omega, by omega, by omega, rfl, rfl⟩)
  · exact Or.inr (Or.inr ⟨2, k, n, Or.inr rfl, h1, hk, by omega, by omega, by omega, rfl, rfl⟩)

theorem volume_elements (V : Volumes S node edge) : perElement S = 1 ∧ nElements S = S.levels := by
  simp [perElement, nElements, V.volumes]

theorem upwind_placed (V : Volumes S node edge) (c : Nat) (hc : c = 2 ∨ c = 4) :
    ∀ u ∈ upwindUpdates S G M x c, Placed S.levels (half S) u := by
  intro u hu
  have hc' : c - 2 = 0 ∨ c - 2 = 2 := by omega
  obtain ⟨e1, e2⟩ := volume_elements V
  unfold upwindUpdates upwindLevelUpdates at hu
  rw [e1, e2] at hu
  simp only [List.mem_flatMap, List.mem_append, List.mem_map, List.mem_range'_1, mem_stencil, mul_one] at hu
  obtain ⟨a, ha, hu⟩ := hu
  rcases hu with ((⟨k, hk, n, hn, rfl⟩ | ⟨k, hk, n, hn, rfl⟩) | ⟨k, hk, n, hn, rfl⟩) | ⟨k, hk, n, hn, rfl⟩
  · refine Or.inl ⟨c - 2, k, a, hc', ?_, ?_, ?_, ?_, rfl, rfl⟩ <;> omega
  · refine Or.inl ⟨c - 2, k, a, hc', ?_, ?_, ?_, ?_, rfl, rfl⟩ <;> omega
  · have hN2 : 2 ≤ S.levels := by omega
    have hk1 : k + 1 < S.levels := by omega
    obtain ⟨p1, p2, p3⟩ := (penalty_row V hN2 k).1 hk1
    refine Or.inr (Or.inl ⟨c - 2, k, n, hc', ?_, ?_, ?_, ?_, rfl, rfl⟩) <;> omega
  · have hN2 : 2 ≤ S.levels := by omega
    have hk1 : 1 ≤ k := by omega
    have hk2 : k < S.levels := by omega
    obtain ⟨p1, p2, p3⟩ := (penalty_row V hN2 k).2 hk1 hk2
    refine Or.inr (Or.inl ⟨c - 2, k, n, hc', ?_, ?_, ?_, ?_, rfl, rfl⟩) <;> omega

theorem space_placed (V : Volumes S node edge) : ∀ u ∈ space S G M x, Placed S.levels (half S) u := by
  intro u hu
  unfold space at hu
  simp only [List.mem_append] at hu
  rcases hu with ((hu | hu) | hu) | hu
  · rw [List.mem_flatMap] at hu
    obtain ⟨k, hk, hu⟩ := hu
    exact flux_placed G M x V k (List.mem_range.1 hk) u hu
  · rw [List.mem_flatMap] at hu
    obtain ⟨k, hk, hu⟩ := hu
    rw [List.mem_range'_1] at hk
    exact pressure_placed G M x V k (by omega) (by omega) u hu
  · exact upwind_placed G M x V 2 (Or.inl rfl) u hu
  · exact upwind_placed G M x V 4 (Or.inr rfl) u hu

end Ranges

/-! ### Totals -/

theorem total_append (us vs : List Update) (i j : Nat) : total (us ++ vs) i j = total us i j + total vs i j := by
  simp [total]

theorem total_none (us : List Update) (i j : Nat) (h : ∀ u ∈ us, ¬ (u.row = i ∧ u.col = j)) : total us i j = 0 := by
  unfold total
  apply List.sum_eq_zero
  intro v hv
  rw [List.mem_map] at hv
  obtain ⟨u, hu, rfl⟩ := hv
  exact if_neg (h u hu)

theorem total_indicator (us : List Update) (i j : Nat) : total us i j = Vdyn.product us (fun c => if c = j then 1 else 0) i := by
  unfold total Vdyn.product
  congr 1
  apply List.map_congr_left
  intro u _
  by_cases h1 : u.row = i <;> by_cases h2 : u.col = j <;> simp [h1, h2]

theorem time_eq (S : Setup) : timeUpdates S = Vdyn.timeUpdates S := rfl

theorem total_time (S : Setup) (i j : Nat) (hi : i < 3 * (S.levels + 1)) :
    total (timeUpdates S) i j = if i = j then 1 / S.dt else 0 := by
  rw [total_indicator, time_eq, time_row S _ i hi]
  split_ifs <;> simp

/-- The shape of the matrix of a column. -/
structure Shape (N h : Nat) (dt : ℝ) (A : Nat → Nat → ℝ) : Prop where
  toW : ∀ c k m, (c = 0 ∨ c = 2) → k < N → A (3 * k + c) (3 * m + 1) ≠ 0 → 1 ≤ m ∧ m < N ∧ (m = k ∨ m = k + 1)
  toLevels : ∀ c k c' n, (c = 0 ∨ c = 2) → (c' = 0 ∨ c' = 2) → k < N → A (3 * k + c) (3 * n + c') ≠ 0 →
    n < N ∧ n ≤ k + h ∧ k ≤ n + h
  fromW : ∀ c k n, (c = 0 ∨ c = 2) → k ≤ N → A (3 * k + 1) (3 * n + c) ≠ 0 → 1 ≤ k ∧ k < N ∧ n < N ∧ k ≤ n + h ∧ n < k + h
  onW : ∀ k m, k ≤ N → A (3 * k + 1) (3 * m + 1) = if k = m then 1 / dt else 0

theorem jacobian_shape {S : Setup} {node edge : Nat → ℝ} (G : Metric) (M : Memory) (x : Nat → ℝ) (V : Volumes S node edge) :
    Shape S.levels (half S) S.dt (total (jacobianUpdates S G M x)) ∧
    ∀ c k c' n, (c = 0 ∨ c = 2) → (c' = 0 ∨ c' = 2) → k < S.levels →
      total (jacobianUpdates S G M x) (3 * k + c) (3 * n + c') ≠ 0 → c = c' := by
  have hp := space_placed G M x V
  have e : ∀ i j, i < 3 * (S.levels + 1) → total (jacobianUpdates S G M x) i j =
      total (space S G M x) i j + if i = j then 1 / S.dt else 0 := by
    intro i j hi
    rw [← total_time S i j hi]
    exact total_append _ _ _ _
  have hz : ∀ i j, ¬ (∃ u : Update, Placed S.levels (half S) u ∧ u.row = i ∧ u.col = j) → total (space S G M x) i j = 0 :=
    fun i j h => total_none _ _ _ fun u hu hc => h ⟨u, hp u hu, hc⟩
  refine ⟨⟨?_, ?_, ?_, ?_⟩, ?_⟩
  · intro c k m hc hk h
    rw [e _ _ (by omega), if_neg (by omega), add_zero] at h
    by_contra hne
    refine h (hz _ _ ?_)
    rintro ⟨u, ⟨c', k', m', h1, h2, h3, h4, h5, h6, h7⟩ | ⟨c', k', m', h1, h2, h3, h4, h5, h6, h7⟩ |
      ⟨c', k', m', h1, h2, h3, h4, h5, h6, h7, h8⟩, hr, hcol⟩ <;> omega
  · intro c k c' n hc hc' hk h
    rw [e _ _ (by omega)] at h
    by_contra hne
    rw [if_neg (by omega), add_zero] at h
    refine h (hz _ _ ?_)
    rintro ⟨u, ⟨c', k', m', h1, h2, h3, h4, h5, h6, h7⟩ | ⟨c', k', m', h1, h2, h3, h4, h5, h6, h7⟩ |
      ⟨c', k', m', h1, h2, h3, h4, h5, h6, h7, h8⟩, hr, hcol⟩ <;> omega
  · intro c k n hc hk h
    rw [e _ _ (by omega), if_neg (by omega), add_zero] at h
    by_contra hne
    refine h (hz _ _ ?_)
    rintro ⟨u, ⟨c', k', m', h1, h2, h3, h4, h5, h6, h7⟩ | ⟨c', k', m', h1, h2, h3, h4, h5, h6, h7⟩ |
      ⟨c', k', m', h1, h2, h3, h4, h5, h6, h7, h8⟩, hr, hcol⟩ <;> omega
  · intro k m hk
    rw [e _ _ (by omega), hz _ _ ?_, zero_add]
    · by_cases hkm : k = m
      · rw [if_pos (by omega), if_pos hkm]
      · rw [if_neg (by omega), if_neg hkm]
    · rintro ⟨u, ⟨c', k', m', h1, h2, h3, h4, h5, h6, h7⟩ | ⟨c', k', m', h1, h2, h3, h4, h5, h6, h7⟩ |
        ⟨c', k', m', h1, h2, h3, h4, h5, h6, h7, h8⟩, hr, hcol⟩ <;> omega
  · intro c k c' n hc hc' hk h
    rw [e _ _ (by omega)] at h
    by_contra hne
    rw [if_neg (by omega), add_zero] at h
    refine h (hz _ _ ?_)
    rintro ⟨u, ⟨c', k', m', h1, h2, h3, h4, h5, h6, h7⟩ | ⟨c', k', m', h1, h2, h3, h4, h5, h6, h7⟩ |
      ⟨c', k', m', h1, h2, h3, h4, h5, h6, h7, h8⟩, hr, hcol⟩ <;> omega

/-! ### The array of the Jacobian -/

theorem store_at (o : Nat) (us : List Update) (a : Int) :
    store o us a = (us.map fun u => if address o u.row u.col = a then u.value else 0).sum := by
  have key : ∀ (us : List Update) (m : Int → ℝ),
      us.foldl (fun m u => Function.update m (address o u.row u.col) (m (address o u.row u.col) + u.value)) m a =
      m a + (us.map fun u => if address o u.row u.col = a then u.value else 0).sum := by
    intro us
    induction us with
    | nil => simp
    | cons u us ih =>
      intro m
      rw [List.foldl_cons, ih, List.map_cons, List.sum_cons]
      by_cases h : address o u.row u.col = a
      · rw [h, Function.update_self, if_pos rfl]
        ring
      · rw [Function.update_of_ne (Ne.symm h), if_neg h]
        ring
  rw [store, key, zero_add]

theorem address_eq (o row col i j : Nat) (h1 : row ≤ col + o) (h2 : col ≤ row + o) (hi : i ≤ j + o) (hj : j ≤ i + o) :
    address o row col = address o i j ↔ row = i ∧ col = j := by
  unfold address
  constructor
  · intro h
    have hcol : col = j := by
      rcases Nat.lt_trichotomy col j with hlt | heq | hgt
      · exfalso
        have h3 : ((2 : Int) * o + 1) * (col + 1) ≤ (2 * o + 1) * j := by
          apply mul_le_mul_of_nonneg_left <;> omega
        have e : ((2 : Int) * o + 1) * (col + 1) = (2 * o + 1) * col + (2 * o + 1) := by ring
        omega
      · exact heq
      · exfalso
        have h3 : ((2 : Int) * o + 1) * (j + 1) ≤ (2 * o + 1) * col := by
          apply mul_le_mul_of_nonneg_left <;> omega
        have e : ((2 : Int) * o + 1) * (j + 1) = (2 * o + 1) * j + (2 * o + 1) := by ring
        omega
    subst hcol
    exact ⟨by omega, rfl⟩
  · rintro ⟨rfl, rfl⟩
    rfl

/-- What is read inside the band is what was put there. -/
theorem store_band (o : Nat) (us : List Update) (h : ∀ u ∈ us, u.row ≤ u.col + o ∧ u.col ≤ u.row + o) (i j : Nat)
    (hi : i ≤ j + o) (hj : j ≤ i + o) : store o us (address o i j) = total us i j := by
  rw [store_at, total]
  congr 1
  apply List.map_congr_left
  intro u hu
  simp only [address_eq o u.row u.col i j (h u hu).1 (h u hu).2 hi hj]

/-- One row below the band the array continues with the next column. -/
theorem store_below (o : Nat) (us : List Update) (h : ∀ u ∈ us, u.row ≤ u.col + o ∧ u.col ≤ u.row + o) (j : Nat) :
    store o us (address o (j + o + 1) j) = if o ≤ j + 1 then total us (j + 1 - o) (j + 1) else 0 := by
  split_ifs with hj
  · rw [← store_band o us h (j + 1 - o) (j + 1) (by omega) (by omega)]
    congr 1
    unfold address
    rw [Nat.cast_sub hj]
    push_cast
    ring
  · rw [store_at]
    apply List.sum_eq_zero
    intro v hv
    rw [List.mem_map] at hv
    obtain ⟨u, hu, rfl⟩ := hv
    apply if_neg
    intro ha
    obtain ⟨h1, h2⟩ := h u hu
    have e : address o (j + o + 1) j = (2 * o + 1) * (j + 1 : Int) := by
      unfold address
      push_cast
      ring
    rw [e] at ha
    unfold address at ha
    have hcol : u.col = j + 1 := by
      rcases Nat.lt_trichotomy u.col (j + 1) with hlt | heq | hgt
      · exfalso
        have h3 : ((2 : Int) * o + 1) * (u.col + 1) ≤ (2 * o + 1) * (j + 1) := by
          apply mul_le_mul_of_nonneg_left <;> omega
        have e : ((2 : Int) * o + 1) * (u.col + 1) = (2 * o + 1) * u.col + (2 * o + 1) := by ring
        omega
      · exact heq
      · exfalso
        have h3 : ((2 : Int) * o + 1) * (j + 2) ≤ (2 * o + 1) * u.col := by
          apply mul_le_mul_of_nonneg_left <;> omega
        have e : ((2 : Int) * o + 1) * (j + 2) = (2 * o + 1) * (j + 1) + (2 * o + 1) := by ring
        omega
    rw [hcol] at ha h2
    push_cast at ha
    omega

/-- One row above the band is the last of the column before. -/
theorem store_above (o : Nat) (us : List Update) (h : ∀ u ∈ us, u.row ≤ u.col + o ∧ u.col ≤ u.row + o) (i : Nat) :
    store o us (address o i (i + o + 1)) = total us (i + o + o) (i + o) := by
  rw [← store_band o us h (i + o + o) (i + o) (by omega) (by omega)]
  congr 1
  unfold address
  push_cast
  ring

end Verif.Schur
