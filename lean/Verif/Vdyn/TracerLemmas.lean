/-
Lemmas about the update of tracers: the matrix times a vector, its storage, and the right hand side.
-/
import Verif.Vdyn.ImplicitProps
import Verif.Vdyn.Tracer

namespace Verif.Vdyn

open Verif.Column Verif.Interp Finset

/-- Groups of statements for one row each. -/
theorem product_rows (l : List Nat) (hl : l.Nodup) (f : Nat → List Update) (hf : ∀ k, ∀ u ∈ f k, u.row = k) (y : Nat → ℝ) (i : Nat) :
    product (l.flatMap f) y i = if i ∈ l then product (f i) y i else 0 := by
  have hz : ∀ k, k ≠ i → product (f k) y i = 0 := by
    intro k hk
    unfold product
    apply List.sum_eq_zero
    intro v hv
    obtain ⟨u, hu, rfl⟩ := List.mem_map.1 hv
    rw [if_neg (by rw [hf k u hu]; exact hk)]
  rw [product_flatMap]
  induction l with
  | nil => simp
  | cons a l ih =>
    rw [List.nodup_cons] at hl
    rw [List.map_cons, List.sum_cons, ih hl.2]
    by_cases ha : a = i
    · subst ha
      rw [if_neg hl.1, if_pos (by simp), add_zero]
    · rw [hz a ha, zero_add]
      have : (i ∈ a :: l) ↔ i ∈ l := by
        rw [List.mem_cons]
        constructor
        · rintro (h | h)
          · exact absurd h.symm ha
          · exact h
        · exact Or.inr
      simp only [this]

/-- The two sides of element edges that touch level `k`. -/
theorem sides_sum (n m k : Nat) (hn : 0 < n) (hk : k < m * n) (L R v : Nat → ℝ) :
    ((List.range' 1 (m - 1)).map fun a => (if (a - 1) * n ≤ k ∧ k < a * n then L (a - 1) else 0) +
      (if a * n ≤ k ∧ k < (a + 1) * n then R (a - 1) else 0)).sum =
    (if k / n < m - 1 then L (k / n) else 0) + (if 1 ≤ k / n then R (k / n - 1) else 0) := by
  have hkn : k / n < m := (Nat.div_lt_iff_lt_mul hn).2 hk
  have hbelow : ∀ a, (a * n ≤ k ∧ k < (a + 1) * n) ↔ a = k / n := by
    intro a
    rw [← Nat.le_div_iff_mul_le hn, ← Nat.div_lt_iff_lt_mul hn]
    omega
  rw [sum_range']
  simp only [show ∀ a, 1 + a = a + 1 from fun a => by omega, Nat.add_sub_cancel, hbelow]
  rw [sum_add_distrib]
  congr 1
  · rw [Finset.sum_ite_eq']
    simp only [mem_range]
  · by_cases h : 1 ≤ k / n
    · rw [if_pos h, ← sum_ite_eq' (range (m - 1)) (k / n - 1) R |>.trans (if_pos (by rw [mem_range]; omega))]
      exact sum_congr rfl fun a _ => by simp only [show a + 1 = k / n ↔ a = k / n - 1 by omega]
    · rw [if_neg h]
      exact sum_eq_zero fun a _ => if_neg (by omega)

theorem tracerFlux_row (S : Setup) (G : Metric) (xi y : Nat → ℝ) (k : Nat) (hk : k < S.levels) :
    product ((List.range S.levels).flatMap (tracerFluxUpdates S G xi)) y k =
      applyRow S.diffEN (fun m => G.jacEdge m * (applyRow S.interpNE y m * xi m)) k / G.jac k := by
  rw [product_rows _ List.nodup_range]
  · rw [if_pos (List.mem_range.2 hk)]
    unfold tracerFluxUpdates
    rw [product_flatMap, sum_stencil, applyRow_eq, sum_div]
    apply sum_congr rfl
    intro m _
    rw [product_map, sum_stencil, applyRow_eq, sum_mul, mul_sum, mul_sum, sum_div]
    apply sum_congr rfl
    intro n _
    dsimp only
    rw [if_pos rfl]
    ring
  · intro k u hu
    unfold tracerFluxUpdates at hu
    simp only [List.mem_flatMap, List.mem_map] at hu
    obtain ⟨m, -, n, -, rfl⟩ := hu
    rfl

theorem tracerTime_row (S : Setup) (y : Nat → ℝ) (k : Nat) (hk : k < S.levels) : product (tracerTimeUpdates S) y k = y k / S.dt := by
  unfold tracerTimeUpdates
  rw [product_map, sum_range, sum_eq_single k]
  · rw [if_pos rfl]
    dsimp only
    ring
  · intro j _ hj
    exact if_neg hj
  · intro h
    exact absurd (mem_range.2 hk) h

section
variable {S : Setup} {node edge sNode sEdge : Nat → ℝ} {gauss lob : List ℝ × List ℝ}

/-- The penalty on a level, for any number of elements. -/
theorem penalty_sides (E : Elements S node edge gauss lob) (v z : Nat → ℝ) (k : Nat) (hk : k < S.levels) :
    penaltyApply S.penalty v z (fun _ => 0) 1 1 k =
      ((List.range' 1 (nElements S - 1)).map fun a =>
        (if (a - 1) * perElement S ≤ k ∧ k < a * perElement S then applyRow S.penalty.left z k * v (a - 1) else 0) +
        (if a * perElement S ≤ k ∧ k < (a + 1) * perElement S then applyRow S.penalty.right z k * v (a - 1) else 0)).sum := by
  obtain ⟨hn, hN, hm, hone, -⟩ := penalty_facts E
  have hper : perElement S = S.order := by simp [perElement, E.elements]
  have hne : nElements S = S.levels / S.order := by simp [nElements, E.elements]
  rw [hper, hne, sides_sum S.order (S.levels / S.order) k hn (by rw [← hN]; exact hk) (fun a => applyRow S.penalty.left z k * v a)
    (fun a => applyRow S.penalty.right z k * v a) v]
  by_cases h1 : S.levels / S.order = 1
  · rw [hone h1]
    have : k / S.order < 1 := by rw [← h1]; exact (Nat.div_lt_iff_lt_mul hn).2 (by rw [← hN]; exact hk)
    rw [if_neg (by rw [h1]; exact Nat.not_lt_zero _), if_neg (by omega), add_zero]
  · exact penalty_form E (by omega) v z k hk

theorem side_product (A : Op) (b n : Nat) (w : ℝ) (y : Nat → ℝ) (k : Nat) :
    product ((List.range' b n).flatMap fun k => (stencil A k).map fun l => ⟨k, l, -(w * (A.row k).coeff l)⟩) y k =
      if b ≤ k ∧ k < b + n then -(applyRow A y k * w) else 0 := by
  rw [product_rows _ List.nodup_range']
  · simp only [List.mem_range'_1]
    by_cases h : b ≤ k ∧ k < b + n
    · rw [if_pos h, if_pos h, product_map, sum_stencil, applyRow_eq, sum_mul, ← sum_neg_distrib]
      apply sum_congr rfl
      intro l _
      rw [if_pos rfl]
      ring
    · rw [if_neg h, if_neg h]
  · intro k u hu
    obtain ⟨l, -, rfl⟩ := List.mem_map.1 hu
    rfl

theorem tracerUpwind_row (E : Elements S node edge gauss lob) (xi y : Nat → ℝ) (k : Nat) (hk : k < S.levels) :
    product ((List.range' 1 (nElements S - 1)).flatMap (tracerUpwindUpdates S xi)) y k =
      -penaltyApply S.penalty (fun a => |xi ((a + 1) * S.order)|) y (fun _ => 0) 1 1 k := by
  have hper : perElement S = S.order := by simp [perElement, E.elements]
  rw [penalty_sides E _ _ k hk, product_flatMap, sum_range', sum_range', ← sum_neg_distrib]
  apply sum_congr rfl
  intro a _
  unfold tracerUpwindUpdates
  dsimp only
  rw [product_append, side_product, side_product]
  simp only [show 1 + a - 1 = a by omega]
  rw [show a * perElement S + perElement S = (1 + a) * perElement S by ring,
    show (1 + a) * perElement S + perElement S = (1 + a + 1) * perElement S by ring, hper, show 1 + a = a + 1 by omega]
  split_ifs <;> ring

theorem correction_eq (E : Elements S node edge gauss lob) (G : Metric) (M : Memory) (w q : Nat → ℝ) (k : Nat) (hk : k < S.levels) :
    tracerCorrection S G M w q k =
      penaltyApply S.penalty (fun a => tracerJump S G M w ((a + 1) * S.order)) q (fun _ => 0) 1 1 k := by
  have hper : perElement S = S.order := by simp [perElement, E.elements]
  rw [penalty_sides E _ _ k hk]
  unfold tracerCorrection
  dsimp only
  rw [sum_range', sum_range']
  apply sum_congr rfl
  intro a _
  simp only [show 1 + a - 1 = a by omega]
  rw [sum_stencil, sum_stencil, applyRow_eq, applyRow_eq, sum_mul, sum_mul, hper, show a + 1 = 1 + a by omega]

theorem initialWind_eq (hL : Lorenz S) (G : Metric) (D : Data) (M : Memory) (k : Nat) :
    initialWind S G (setupColumn S D M) k = verticalWind S G (asColumn D (unknowns D.node D.edge)) k := by
  unfold initialWind tracerWind verticalWind
  obtain ⟨l1, l2, l3⟩ := hL
  by_cases h : 1 ≤ k ∧ k < S.levels
  · rw [if_pos h, if_neg (show ¬ (k = 0 ∨ S.levels ≤ k) by omega)]
    have hst := state_w ⟨l1, l2, l3⟩ D M k
    have hu : unknowns D.node D.edge (3 * k + 1) = D.edge 3 k := by
      unfold unknowns
      rw [if_neg (by omega), if_pos (by omega), show (3 * k + 1) / 3 = k by omega]
    simp only [l1, if_true, vec, hst, asColumn, hu]
    simp [setupColumn, l1]
  · rw [if_neg h, if_pos (show k = 0 ∨ S.levels ≤ k by omega)]

theorem updatedWind_eq (hL : Lorenz S) (G : Metric) (D : Data) (M : Memory) (V : State) (k : Nat) :
    tracerWind S G (setupColumn S D M) (V.node 3) (V.edge 3) k = verticalWind S G (asColumn D (unknowns V.node V.edge)) k := by
  unfold tracerWind verticalWind
  obtain ⟨l1, l2, l3⟩ := hL
  by_cases h : 1 ≤ k ∧ k < S.levels
  · rw [if_pos h, if_neg (show ¬ (k = 0 ∨ S.levels ≤ k) by omega)]
    have hu : unknowns V.node V.edge (3 * k + 1) = V.edge 3 k := by
      unfold unknowns
      rw [if_neg (by omega), if_pos (by omega), show (3 * k + 1) / 3 = k by omega]
    simp only [l1, if_true, asColumn, hu]
    simp [setupColumn, l1]
  · rw [if_neg h, if_pos (show k = 0 ∨ S.levels ≤ k by omega)]

theorem tracerJump_eq (hL : Lorenz S) (G : Metric) (D : Data) (M : Memory) (V : State) (k : Nat) (h0 : 0 < k) (hk : k < S.levels) :
    tracerJump S G (setupColumn S D M) (V.edge 3) k =
      sgn (verticalWind S G (asColumn D (unknowns D.node D.edge)) k) *
        (verticalWind S G (asColumn D (unknowns V.node V.edge)) k - verticalWind S G (asColumn D (unknowns D.node D.edge)) k) := by
  unfold tracerJump
  have hst := state_w hL D M k
  have hu : ∀ node edge : Nat → Nat → ℝ, unknowns node edge (3 * k + 1) = edge 3 k := fun node edge => by
    unfold unknowns
    rw [if_neg (by omega), if_pos (by omega), show (3 * k + 1) / 3 = k by omega]
  have hdiff : verticalWind S G (asColumn D (unknowns V.node V.edge)) k - verticalWind S G (asColumn D (unknowns D.node D.edge)) k =
      G.conXiEdge k 2 * (V.edge 3 k - D.edge 3 k) := by
    unfold verticalWind
    rw [if_neg (by omega), if_neg (by omega)]
    simp only [asColumn, hu]
    ring
  rw [hdiff, initialWind_eq hL]
  unfold sgn
  simp only [vec, hst]
  split_ifs <;> ring

/-! ### Storage -/

theorem tracerStore_from (us : List Update) (m : Int → ℝ) (a : Int) :
    us.foldl (fun m u => Function.update m (tracerAddress S u.row u.col) (m (tracerAddress S u.row u.col) + u.value)) m a =
      m a + (us.map fun u => if tracerAddress S u.row u.col = a then u.value else 0).sum := by
  induction us generalizing m with
  | nil => simp
  | cons u us ih =>
    rw [List.foldl_cons, ih, List.map_cons, List.sum_cons]
    by_cases h : tracerAddress S u.row u.col = a
    · rw [h, Function.update_self, if_pos rfl]
      ring
    · rw [Function.update_of_ne (Ne.symm h), if_neg h]
      ring

theorem tracerAddress_inj (hn : 0 < S.order) (hN : 6 * S.order ≤ S.levels + 2) (row col i j : Nat)
    (h1 : row ≤ col + (2 * S.order - 1)) (h2 : col ≤ row + (2 * S.order - 1)) (hi : i ≤ j + (2 * S.order - 1)) (hj : j ≤ i + (2 * S.order - 1)) :
    tracerAddress S row col = (2 * ((2 * S.order - 1 : ℕ) : Int) + i - j) + S.levels * j ↔ row = i ∧ col = j := by
  unfold tracerAddress
  have hc : ((2 * S.order - 1 : ℕ) : Int) = 2 * (S.order : Int) - 1 := by omega
  rw [hc]
  constructor
  · intro h
    have hcol : col = j := by
      rcases Nat.lt_trichotomy col j with hlt | heq | hgt
      · exfalso
        have h3 : (S.levels : Int) * (col + 1) ≤ S.levels * j := by
          apply mul_le_mul_of_nonneg_left <;> omega
        have e : (S.levels : Int) * (col + 1) = S.levels * col + S.levels := by ring
        omega
      · exact heq
      · exfalso
        have h3 : (S.levels : Int) * (j + 1) ≤ S.levels * col := by
          apply mul_le_mul_of_nonneg_left <;> omega
        have e : (S.levels : Int) * (j + 1) = S.levels * j + S.levels := by ring
        omega
    subst hcol
    exact ⟨by omega, rfl⟩
  · rintro ⟨rfl, rfl⟩
    rfl

/-- Every statement is in the matrix and in its band. -/
theorem tracer_in_band (E : Elements S node edge gauss lob) (T : Stencils S node edge sNode sEdge gauss lob) (G : Metric) (M : Memory)
    (e : Bool) : ∀ u ∈ tracerUpdates S G M e, u.row < S.levels ∧ u.col < S.levels ∧ u.row ≤ u.col + (2 * S.order - 1) ∧
      u.col ≤ u.row + (2 * S.order - 1) := by
  obtain ⟨hn, hN, hm, -⟩ := penalty_facts E
  have hper : perElement S = S.order := by simp [perElement, E.elements]
  have hne : nElements S = S.levels / S.order := by simp [nElements, E.elements]
  have hblock : ∀ k, k / S.order * S.order ≤ k ∧ k < k / S.order * S.order + S.order := fun k => by
    have h1 := Nat.div_add_mod k S.order
    have h2 := Nat.mod_lt k hn
    rw [mul_comm] at h1
    omega
  have hlast : ∀ k < S.levels, k / S.order < S.levels / S.order ∧ k / S.order * S.order + S.order ≤ S.levels := fun k hk => by
    have h1 : k / S.order < S.levels / S.order := (Nat.div_lt_iff_lt_mul hn).2 (by rw [← hN]; exact hk)
    have h2 := Nat.mul_le_mul_right S.order (show k / S.order + 1 ≤ S.levels / S.order by omega)
    rw [Nat.add_mul, one_mul] at h2
    omega
  have hdiv : ∀ a i, i < S.order → (a * S.order + i) / S.order = a := fun a i hi => by
    rw [mul_comm, Nat.mul_add_div hn, Nat.div_eq_of_lt hi, add_zero]
  intro u hu
  unfold tracerUpdates at hu
  rw [List.mem_append] at hu
  rcases hu with hu | hu
  · cases e with
    | true => simp at hu
    | false =>
      simp only [Bool.false_eq_true, if_false, List.mem_append] at hu
      rcases hu with hu | hu
      · unfold tracerFluxUpdates at hu
        simp only [List.mem_flatMap, List.mem_map, List.mem_range, mem_stencil] at hu
        obtain ⟨k, hk, m, ⟨hm1, hm2⟩, n, ⟨hn1, hn2⟩, rfl⟩ := hu
        obtain ⟨r1, r2⟩ := diffEN_range E k hk
        rw [r1] at hm1
        rw [r2] at hm2
        obtain ⟨b1, b2⟩ := hblock k
        obtain ⟨c1, c2⟩ := hlast k hk
        obtain ⟨t1, -, t3⟩ := toInterfaces_range T hn hN hm m (by omega)
        obtain ⟨t4, t5⟩ := t1 (k / S.order) c1 hm1 (by omega)
        dsimp only
        generalize k / S.order * S.order = q at *
        omega
      · unfold tracerUpwindUpdates at hu
        simp only [List.mem_flatMap, List.mem_append, List.mem_map, List.mem_range'_1, mem_stencil, hper, hne] at hu
        obtain ⟨a, ⟨ha1, ha2⟩, ⟨k, ⟨k1, k2⟩, l, ⟨l1, l2⟩, rfl⟩ | ⟨k, ⟨k1, k2⟩, l, ⟨l1, l2⟩, rfl⟩⟩ := hu
        · have hka : k / S.order = a - 1 := by
            have := hdiv (a - 1) (k - (a - 1) * S.order) (by omega)
            rwa [show (a - 1) * S.order + (k - (a - 1) * S.order) = k by omega] at this
          have hmul : (a - 1 + 2) * S.order ≤ S.levels / S.order * S.order := Nat.mul_le_mul_right _ (by omega)
          rw [Nat.add_mul, ← hN] at hmul
          obtain ⟨r1, r2⟩ := (penalty_range E (by omega) k (by omega)).1 (by omega)
          rw [r1] at l1
          rw [r2] at l2
          rw [hka] at l1 l2
          dsimp only
          generalize (a - 1) * S.order = q at *
          omega
        · have hka : k / S.order = a := by
            have := hdiv a (k - a * S.order) (by omega)
            rwa [show a * S.order + (k - a * S.order) = k by omega] at this
          have hmul : (a + 1) * S.order ≤ S.levels / S.order * S.order := Nat.mul_le_mul_right _ (by omega)
          rw [Nat.add_mul, ← hN] at hmul
          obtain ⟨r1, r2⟩ := (penalty_range E (by omega) k (by omega)).2 (by omega)
          rw [r2] at l2
          rw [hka] at r1 l2
          dsimp only
          generalize a * S.order = q at *
          omega
  · unfold tracerTimeUpdates at hu
    simp only [List.mem_map, List.mem_range] at hu
    obtain ⟨k, hk, rfl⟩ := hu
    dsimp only
    omega

/-- The writes leave the array if and only if there are at most `4 p - 2` levels. -/
theorem tracer_outside (E : Elements S node edge gauss lob) (T : Stencils S node edge sNode sEdge gauss lob) (G : Metric) (M : Memory)
    (e : Bool) : (tracerUpdates S G M e).any (tracerOutside S) = true ↔ S.levels + 2 ≤ 4 * S.order := by
  obtain ⟨hn, hN, hm, -⟩ := penalty_facts E
  have hpos : 0 < S.levels := by rw [hN]; exact Nat.mul_pos hm hn
  rw [List.any_eq_true]
  constructor
  · rintro ⟨u, hu, ho⟩
    obtain ⟨h1, h2, h3, h4⟩ := tracer_in_band E T G M e u hu
    unfold tracerOutside tracerAddress at ho
    rw [decide_eq_true_iff] at ho
    have hmul : (S.levels : Int) * (u.col + 1) ≤ S.levels * S.levels := by
      apply mul_le_mul_of_nonneg_left <;> omega
    have hmul0 : (0 : Int) ≤ S.levels * u.col := by positivity
    have e1 : (S.levels : Int) * (u.col + 1) = S.levels * u.col + S.levels := by ring
    have hrow : (u.row : Int) + (S.levels - 1) * u.col ≤ (S.levels - 1) + (S.levels - 1) * (S.levels - 1) := by
      have : ((S.levels : Int) - 1) * u.col ≤ (S.levels - 1) * (S.levels - 1) := by
        apply mul_le_mul_of_nonneg_left <;> omega
      omega
    have e2 : ((S.levels : Int) - 1) * u.col = S.levels * u.col - u.col := by ring
    have e3 : ((S.levels : Int) - 1) * (S.levels - 1) = S.levels * S.levels - 2 * S.levels + 1 := by ring
    generalize (S.levels : Int) * u.col = q at *
    generalize (S.levels : Int) * S.levels = r at *
    omega
  · intro h
    refine ⟨⟨S.levels - 1, S.levels - 1, 1 / S.dt⟩, ?_, ?_⟩
    · unfold tracerUpdates
      refine List.mem_append_right _ ?_
      unfold tracerTimeUpdates
      exact List.mem_map.2 ⟨S.levels - 1, List.mem_range.2 (by omega), rfl⟩
    · unfold tracerOutside tracerAddress
      rw [decide_eq_true_iff]
      right
      dsimp only
      have e1 : (S.levels : Int) * ((S.levels - 1 : ℕ) : Int) = S.levels * S.levels - S.levels := by
        rw [Nat.cast_sub (by omega)]
        push_cast
        ring
      rw [e1]
      omega

/-- The matrix that the solver reads, times a vector. -/
theorem tracer_stored (E : Elements S node edge gauss lob) (T : Stencils S node edge sNode sEdge gauss lob) (G : Metric) (M : Memory)
    (e : Bool) (hlev : 6 * S.order ≤ S.levels + 2) (y : Nat → ℝ) (i : Nat) :
    ∑ j ∈ range S.levels, bandEntry S.levels (2 * S.order - 1) (tracerStore S (tracerUpdates S G M e)) i j * y j =
      product (tracerUpdates S G M e) y i := by
  obtain ⟨hn, -⟩ := penalty_facts E
  have hb := tracer_in_band E T G M e
  rw [← total_product _ S.levels (fun u hu _ => (hb u hu).2.1) y i]
  apply sum_congr rfl
  intro j _
  unfold bandEntry total
  by_cases hin : i ≤ j + (2 * S.order - 1) ∧ j ≤ i + (2 * S.order - 1)
  · rw [if_pos hin]
    unfold tracerStore
    rw [tracerStore_from, zero_add]
    congr 2
    apply List.map_congr_left
    intro u hu
    obtain ⟨-, -, h3, h4⟩ := hb u hu
    have := tracerAddress_inj hn hlev u.row u.col i j h3 h4 hin.1 hin.2
    by_cases hc : u.row = i ∧ u.col = j
    · rw [if_pos hc, if_pos (this.2 hc)]
    · rw [if_neg hc, if_neg (fun hh => hc (this.1 hh))]
  · rw [if_neg hin, List.sum_eq_zero]
    intro v hv
    obtain ⟨u, hu, rfl⟩ := List.mem_map.1 hv
    rw [if_neg]
    rintro ⟨rfl, rfl⟩
    exact hin (hb u hu).2.2

end

end Verif.Vdyn
