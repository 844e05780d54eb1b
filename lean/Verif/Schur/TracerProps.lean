/-
C133: the update of the tracers of a column after a step by a Schur complement.
-/
import Verif.Schur.TracerSpec
import Verif.Schur.Props
import Verif.Vdyn.TracerProps

namespace Verif.Schur

open Verif.Column Verif.Vdyn Verif.Interp Finset

section
variable {S : Setup} {node edge : Nat → ℝ}

theorem address_other (P : Site) (S : Setup) (m : Nat) : P.data (P.address S m P.iA P.iB) = P.other S m := by
  unfold Site.address Site.other
  congr 1
  ring

/-! ### Linearity -/

theorem carried_lin (S : Setup) (G : Metric) (v xi : Nat → ℝ) (a b : ℝ) (f g : Nat → ℝ) (k : Nat) :
    carried S G v xi (fun j => a * f j + b * g j) k = a * carried S G v xi f k + b * carried S G v xi g k := by
  unfold carried
  simp only [applyRow_lin S.interpNE]
  rw [show (fun m => v m * ((a * applyRow S.interpNE f m + b * applyRow S.interpNE g m) * xi m)) =
    fun m => a * (v m * (applyRow S.interpNE f m * xi m)) + b * (v m * (applyRow S.interpNE g m * xi m)) from
    funext fun m => by ring, applyRow_lin]
  ring

theorem jumps_lin (V : Volumes S node edge) (h2 : 2 ≤ S.levels) (v : Nat → ℝ) (a b : ℝ) (f g : Nat → ℝ) (k : Nat) (hk : k < S.levels) :
    jumps S v (fun j => a * f j + b * g j) k = a * jumps S v f k + b * jumps S v g k := by
  unfold jumps
  rw [penalty_volumes V h2 _ _ k hk, penalty_volumes V h2 _ _ k hk, penalty_volumes V h2 _ _ k hk, applyRow_lin, applyRow_lin]
  split_ifs <;> ring

theorem carried_congr (V : Volumes S node edge) (G : Metric) (v v' xi xi' f g : Nat → ℝ)
    (hx : ∀ j ≤ S.levels, v j * xi j = v' j * xi' j) (h : ∀ j < S.levels, f j = g j) (k : Nat) (hk : k < S.levels) :
    carried S G v xi f k = carried S G v' xi' g k := by
  unfold carried
  rw [divergence_levels V _ (fun m => v' m * (applyRow S.interpNE g m * xi' m)) (fun j hj => ?_) k hk]
  rw [interp_levels V f g h j hj]
  linear_combination applyRow S.interpNE g j * hx j hj

theorem jumps_congr (V : Volumes S node edge) (h2 : 2 ≤ S.levels) (v f g : Nat → ℝ) (h : ∀ j < S.levels, f j = g j) (k : Nat)
    (hk : k < S.levels) : jumps S v f k = jumps S v g k :=
  penalty_congr_volumes V h2 _ _ f g (fun _ _ => rfl) h k hk

/-! ### The wind -/

theorem wind_at (G : Metric) (C : Column) (k : Nat) : wind S G C k =
    if 1 ≤ k ∧ k < S.levels then G.conXiEdge k 0 * applyRow S.interpNE C.u k + G.conXiEdge k 1 * applyRow S.interpNE C.v k +
      G.conXiEdge k 2 * G.derivREdge k * C.w k else 0 := by
  unfold wind verticalWind
  by_cases h : 1 ≤ k ∧ k < S.levels
  · rw [if_pos h, if_neg (show ¬ (k = 0 ∨ S.levels ≤ k) by omega)]
    simp [physical]
  · rw [if_neg h, if_pos (show k = 0 ∨ S.levels ≤ k by omega)]

theorem tracerWind_eq (hL : Lorenz S) (G : Metric) (D : Data) (M : Memory) (a w : Nat → ℝ) (k : Nat) :
    tracerWind S G (setupColumn S D M) a w k = windAfter S G D w k := by
  unfold windAfter
  rw [wind_at]
  unfold tracerWind
  dsimp only
  by_cases h : 1 ≤ k ∧ k < S.levels
  · rw [if_pos h, if_pos h, if_pos hL.1]
    simp [setupColumn, hL.1, column]
    ring
  · rw [if_neg h, if_neg h]

theorem initialWind_eq (hL : Lorenz S) (G : Metric) (D : Data) (M : Memory) (k : Nat) :
    initialWind S G (setupColumn S D M) k = wind S G (column D) k := by
  unfold initialWind
  rw [tracerWind_eq hL]
  unfold windAfter
  rw [wind_at, wind_at]
  split_ifs with h
  · have := state_w hL D M k
    simp only [vec, this, column]
  · rfl

/-! ### The matrix and the right hand side -/

theorem sides (V : Volumes S node edge) (h2 : 2 ≤ S.levels) (v z : Nat → ℝ) (k : Nat) (hk : k < S.levels) :
    penaltyApply S.penalty v z (fun _ => 0) 1 1 k =
      ((List.range' 1 (nElements S - 1)).map fun a =>
        (if (a - 1) * perElement S ≤ k ∧ k < a * perElement S then applyRow S.penalty.left z k * v (a - 1) else 0) +
        (if a * perElement S ≤ k ∧ k < (a + 1) * perElement S then applyRow S.penalty.right z k * v (a - 1) else 0)).sum := by
  obtain ⟨e1, e2⟩ := volume_elements V
  rw [e1, e2, sides_sum 1 S.levels k one_pos (by omega) (fun a => applyRow S.penalty.left z k * v a)
    (fun a => applyRow S.penalty.right z k * v a) v, penalty_volumes V h2 v z k hk]
  simp only [Nat.div_one, show k < S.levels - 1 ↔ k + 1 < S.levels by omega]

theorem flux_part (G : Metric) (P : Site) (xi y : Nat → ℝ) (k : Nat) (hk : k < S.levels) :
    Vdyn.product ((List.range S.levels).flatMap (tracerFluxUpdates S G P xi)) y k = carried S G (P.other S) xi y k := by
  rw [product_rows _ List.nodup_range]
  · rw [if_pos (List.mem_range.2 hk)]
    unfold tracerFluxUpdates carried
    rw [product_flatMap, sum_stencil, applyRow_eq, sum_div]
    apply sum_congr rfl
    intro m _
    rw [product_map, sum_stencil, applyRow_eq, sum_mul, mul_sum, mul_sum, sum_div]
    apply sum_congr rfl
    intro n _
    dsimp only
    rw [if_pos rfl, address_other]
    ring
  · intro k u hu
    unfold tracerFluxUpdates at hu
    simp only [List.mem_flatMap, List.mem_map] at hu
    obtain ⟨m, -, n, -, rfl⟩ := hu
    rfl

theorem upwind_part (V : Volumes S node edge) (h2 : 2 ≤ S.levels) (xi y : Nat → ℝ) (k : Nat) (hk : k < S.levels) :
    Vdyn.product ((List.range' 1 (nElements S - 1)).flatMap (tracerUpwindUpdates S xi)) y k = -jumps S (fun m => |xi m|) y k := by
  obtain ⟨e1, e2⟩ := volume_elements V
  unfold jumps
  rw [sides V h2 _ _ k hk, product_flatMap, sum_range', sum_range', ← sum_neg_distrib]
  apply sum_congr rfl
  intro a _
  unfold tracerUpwindUpdates
  dsimp only
  rw [product_append, side_product, side_product, e1]
  simp only [show (1 + a - 1 : ℕ) = a by omega, mul_one, show (1 + a : ℕ) = a + 1 by omega, show (a + 1 - 1 : ℕ) = a by omega]
  split_ifs <;> ring

theorem matrix_part (V : Volumes S node edge) (h2 : 2 ≤ S.levels) (hL : Lorenz S) (G : Metric) (P : Site) (D : Data) (M : Memory)
    (y : Nat → ℝ) (k : Nat) (hk : k < S.levels) : Vdyn.product (tracerUpdates S G P (setupColumn S D M)) y k =
      y k / S.dt + carried S G (P.other S) (wind S G (column D)) y k - jumps S (fun m => |wind S G (column D) m|) y k := by
  unfold tracerUpdates
  rw [product_append, product_append, tracerTime_row S y k hk, flux_part G P _ y k hk, upwind_part V h2 _ y k hk,
    show initialWind S G (setupColumn S D M) = wind S G (column D) from funext (initialWind_eq hL G D M)]
  ring

theorem jump_part (hL : Lorenz S) (G : Metric) (D : Data) (M : Memory) (w : Nat → ℝ) (k : Nat) :
    tracerJump S G (setupColumn S D M) w k = sgn (wind S G (column D) k) * (w k - D.edge 3 k) / G.derivREdge k := by
  unfold tracerJump
  have hst := state_w hL D M k
  rw [initialWind_eq hL]
  unfold sgn
  simp only [vec, hst]

theorem correction_part (V : Volumes S node edge) (h2 : 2 ≤ S.levels) (hL : Lorenz S) (G : Metric) (D : Data) (M : Memory) (w q : Nat → ℝ)
    (k : Nat) (hk : k < S.levels) : tracerCorrection S G (setupColumn S D M) w q k =
      jumps S (fun m => sgn (wind S G (column D) m) * (w m - D.edge 3 m) / G.derivREdge m) q k := by
  obtain ⟨e1, e2⟩ := volume_elements V
  unfold jumps
  rw [sides V h2 _ _ k hk]
  unfold tracerCorrection
  dsimp only
  rw [sum_range', sum_range']
  apply sum_congr rfl
  intro a _
  simp only [show 1 + a - 1 = a by omega]
  rw [sum_stencil, sum_stencil, applyRow_eq, applyRow_eq, sum_mul, sum_mul, e1]
  simp only [jump_part hL G D M, mul_one, show (1 + a : ℕ) = a + 1 by omega, show (a + 1 - 1 : ℕ) = a by omega]

theorem wind_ends (G : Metric) (C : Column) (k : Nat) (h : ¬ (1 ≤ k ∧ k < S.levels)) : wind S G C k = 0 := by
  rw [wind_at, if_neg h]

theorem rhs_part (V : Volumes S node edge) (h2 : 2 ≤ S.levels) (hL : Lorenz S) (hu : S.uniform = false) (G : Metric) (D : Data)
    (M : Memory) (W : State) (q ref : Nat → ℝ) (k : Nat) (hk : k < S.levels) :
    tracerRhs S G (setupColumn S D M) (tracerWind S G (setupColumn S D M) (W.node 3) (W.edge 3)) (W.edge 3) q ref k =
      carried S G G.jacEdge (windAfter S G D (W.edge 3)) q k - jumps S (fun m => |wind S G (column D) m|) q k -
        jumps S (fun m => sgn (wind S G (column D) m) * (W.edge 3 m - D.edge 3 m) / G.derivREdge m) q k := by
  obtain ⟨e1, e2⟩ := volume_elements V
  unfold tracerRhs
  rw [correction_part V h2 hL G D M _ q k hk, show initialWind S G (setupColumn S D M) = wind S G (column D) from
    funext (initialWind_eq hL G D M), e1,
    show tracerWind S G (setupColumn S D M) (W.node 3) (W.edge 3) = windAfter S G D (W.edge 3) from funext (tracerWind_eq hL G D M _ _)]
  have hf : tracerFlux S G (setupColumn S D M) (windAfter S G D (W.edge 3)) q ref =
      fun m => G.jacEdge m * (applyRow S.interpNE q m * windAfter S G D (W.edge 3) m) := by
    funext m
    unfold tracerFlux
    by_cases h : 1 ≤ m ∧ m < S.levels
    · rw [if_pos h, hu]
      simp only [Bool.false_eq_true, if_false]
      ring
    · rw [if_neg h, show windAfter S G D (W.edge 3) m = 0 from wind_ends G _ m h]
      ring
  rw [hf]
  unfold carried jumps
  simp only [mul_one]

/-! ### Storage -/

theorem tracer_band (V : Volumes S node edge) (h2 : 2 ≤ S.levels) (G : Metric) (P : Site) (M : Memory) :
    ∀ u ∈ tracerUpdates S G P M, u.row < S.levels ∧ u.col < S.levels ∧ u.row ≤ u.col + (2 * S.order - 1) ∧
      u.col ≤ u.row + (2 * S.order - 1) := by
  obtain ⟨hh, ho, hN⟩ := order_half V
  obtain ⟨e1, e2⟩ := volume_elements V
  intro u hu
  unfold tracerUpdates at hu
  rw [List.mem_append, List.mem_append] at hu
  rcases hu with (hu | hu) | hu
  · unfold tracerFluxUpdates at hu
    simp only [List.mem_flatMap, List.mem_map, List.mem_range, mem_stencil] at hu
    obtain ⟨k, hk, m, hm, n, hn, rfl⟩ := hu
    obtain ⟨d1, d2⟩ := divergence_row V k
    obtain ⟨i1, i2, i3⟩ := interp_row V m (by omega)
    dsimp only
    omega
  · unfold tracerUpwindUpdates at hu
    simp only [List.mem_flatMap, List.mem_append, List.mem_map, List.mem_range'_1, mem_stencil, e1, e2, mul_one] at hu
    obtain ⟨a, ha, ⟨k, hk, l, hl, rfl⟩ | ⟨k, hk, l, hl, rfl⟩⟩ := hu
    · obtain ⟨p1, p2, p3⟩ := (penalty_row V h2 k).1 (by omega)
      dsimp only
      omega
    · obtain ⟨p1, p2, p3⟩ := (penalty_row V h2 k).2 (by omega) (by omega)
      dsimp only
      omega
  · unfold tracerTimeUpdates at hu
    simp only [List.mem_map, List.mem_range] at hu
    obtain ⟨k, hk, rfl⟩ := hu
    dsimp only
    omega

theorem tracer_leaves (V : Volumes S node edge) (h2 : 2 ≤ S.levels) (G : Metric) (P : Site) (M : Memory) :
    (tracerUpdates S G P M).any (tracerOutside S) = true ↔ S.levels + 2 ≤ 4 * S.order := by
  obtain ⟨hh, ho, hpos⟩ := order_half V
  rw [List.any_eq_true]
  constructor
  · rintro ⟨u, hu, ho⟩
    obtain ⟨h1, h2, h3, h4⟩ := tracer_band V h2 G P M u hu
    unfold tracerOutside tracerAddress at ho
    rw [decide_eq_true_iff] at ho
    have hmul : (S.levels : Int) * (u.col + 1) ≤ S.levels * S.levels := by
      apply mul_le_mul_of_nonneg_left <;> omega
    have hmul0 : (0 : Int) ≤ S.levels * u.col := by positivity
    have e1 : (S.levels : Int) * (u.col + 1) = S.levels * u.col + S.levels := by ring
    have hrow : (u.row : Int) + (S.levels - 1) * u.col ≤ (S.levels - 1) + (S.levels - 1) * (S.levels - 1) := by
      have : ((S.levels : Int) - 1) * u.col ≤ (S.levels - 1) * (S.levels - 1) := by
        apply mul_le_mul_of_nonneg_left <;> omega
      omega
    have e2 : ((S.levels : Int) - 1) * u.col = S.levels * u.col - u.col := by ring
    have e3 : ((S.levels : Int) - 1) * (S.levels - 1) = S.levels * S.levels - 2 * S.levels + 1 := by ring
    generalize (S.levels : Int) * u.col = q at *
    generalize (S.levels : Int) * S.levels = r at *
    omega
  · intro h
    refine ⟨⟨S.levels - 1, S.levels - 1, 1 / S.dt⟩, ?_, ?_⟩
    · unfold tracerUpdates
      refine List.mem_append_right _ ?_
      unfold tracerTimeUpdates
      exact List.mem_map.2 ⟨S.levels - 1, List.mem_range.2 (by omega), rfl⟩
    · unfold tracerOutside tracerAddress
      rw [decide_eq_true_iff]
      right
      dsimp only
      have e1 : (S.levels : Int) * ((S.levels - 1 : ℕ) : Int) = S.levels * S.levels - S.levels := by
        rw [Nat.cast_sub (by omega)]
        push_cast
        ring
      rw [e1]
      omega

theorem interp_nonempty (V : Volumes S node edge) : ∃ n, n ∈ stencil S.interpNE S.levels := by
  obtain ⟨hh, ho, hN⟩ := order_half V
  obtain ⟨-, -, h3⟩ := interp_cases V.toInterfaces
  rcases h3 with ⟨h, -⟩ | ⟨-, -, hA, -⟩
  · cases h
  · refine ⟨S.levels - 1, ?_⟩
    rw [mem_stencil, hA]
    simp only [reconRow]
    split_ifs <;> omega

theorem tracer_beyond (V : Volumes S node edge) (P : Site) : tracerBeyond S P = true ↔ P.Beyond S := by
  obtain ⟨hh, ho, hN⟩ := order_half V
  have e : ∀ m, P.address S m P.iA P.iB = (m * P.b + P.iA) * (S.levels + 1) + P.iB := fun m => by
    unfold Site.address
    ring
  unfold tracerBeyond Site.Beyond
  simp only [List.any_eq_true, List.mem_range, decide_eq_true_iff, e]
  constructor
  · rintro ⟨k, hk, m, hm, n, hn, h⟩
    rw [mem_stencil] at hm
    obtain ⟨d1, d2⟩ := divergence_row V k
    refine h.trans ?_
    have : m ≤ S.levels := by omega
    gcongr
  · intro h
    obtain ⟨n, hn⟩ := interp_nonempty V
    obtain ⟨d1, d2⟩ := divergence_row V (S.levels - 1)
    exact ⟨S.levels - 1, by omega, S.levels, by rw [mem_stencil]; omega, n, hn, h⟩

theorem tracer_read (V : Volumes S node edge) (h2 : 2 ≤ S.levels) (G : Metric) (P : Site) (M : Memory)
    (hlev : 6 * S.order ≤ S.levels + 2) (y : Nat → ℝ) (i : Nat) :
    ∑ j ∈ range S.levels, bandEntry S.levels (2 * S.order - 1) (tracerStore S (tracerUpdates S G P M)) i j * y j =
      Vdyn.product (tracerUpdates S G P M) y i := by
  obtain ⟨hh, ho, hN⟩ := order_half V
  have hb := tracer_band V h2 G P M
  rw [← total_product _ S.levels (fun u hu _ => (hb u hu).2.1) y i]
  apply sum_congr rfl
  intro j _
  unfold bandEntry total
  by_cases hin : i ≤ j + (2 * S.order - 1) ∧ j ≤ i + (2 * S.order - 1)
  · rw [if_pos hin]
    unfold tracerStore
    rw [tracerStore_from, zero_add]
    congr 2
    apply List.map_congr_left
    intro u hu
    obtain ⟨-, -, h3, h4⟩ := hb u hu
    have := tracerAddress_inj (by omega) hlev u.row u.col i j h3 h4 hin.1 hin.2
    by_cases hc : u.row = i ∧ u.col = j
    · rw [if_pos hc, if_pos (this.2 hc)]
    · rw [if_neg hc, if_neg (fun hh => hc (this.1 hh))]
  · rw [if_neg hin, List.sum_eq_zero]
    intro v hv
    obtain ⟨u, hu, rfl⟩ := List.mem_map.1 hv
    rw [if_neg]
    rintro ⟨rfl, rfl⟩
    exact hin (hb u hu).2.2

theorem tracer_singular (V : Volumes S node edge) (h2 : 2 ≤ S.levels) (hL : Lorenz S) (G : Metric) (P : Site) (D : Data) (M : Memory)
    (hlev : 6 * S.order ≤ S.levels + 2) :
    Vdyn.Regular S.levels S.levels (2 * S.order - 1) (tracerStore S (tracerUpdates S G P (setupColumn S D M))) ↔
      ¬ SingularTracers S G D (P.other S) := by
  unfold Vdyn.Regular SingularTracers
  simp only [tracer_read V h2 G P _ hlev]
  push Not
  constructor
  · intro h y hy
    exact h y fun k hk => by rw [matrix_part V h2 hL G P D M y k hk]; exact hy k hk
  · intro h y hy
    exact h y fun k hk => by rw [← matrix_part V h2 hL G P D M y k hk]; exact hy k hk

/-- What an update ends in. -/
theorem tracer_ends (V : Volumes S node edge) (h2 : 2 ≤ S.levels) (hL : Lorenz S) (solve : BandSolver) (hs : Lapack solve) (G : Metric)
    (P : Site) (D : Data) (M : Memory) (W : State) (count : Nat) (hc : count ≠ 0) (q ref U : Nat → Nat → ℝ) :
    (S.uniform = true → updateTracers S G P (setupColumn S D M) solve W count q ref U = .exc) ∧
    (S.uniform = false →
      (S.levels + 2 ≤ 4 * S.order ∨ P.Beyond S → updateTracers S G P (setupColumn S D M) solve W count q ref U = .ub) ∧
      (4 * S.order < S.levels + 2 → ¬ P.Beyond S → S.levels + 2 < 6 * S.order ∨ SingularTracers S G D (P.other S) →
        updateTracers S G P (setupColumn S D M) solve W count q ref U = .exc) ∧
      (6 * S.order ≤ S.levels + 2 → ¬ P.Beyond S → ¬ SingularTracers S G D (P.other S) →
        ∃ s : Nat → Nat → ℝ, updateTracers S G P (setupColumn S D M) solve W count q ref U =
            .ok (fun c k => if c < count ∧ k < S.levels then U c k - s c k else U c k) ∧
          ∀ c < count, ∀ k < S.levels, Vdyn.product (tracerUpdates S G P (setupColumn S D M)) (s c) k =
            tracerRhs S G (setupColumn S D M) (tracerWind S G (setupColumn S D M) (W.node 3) (W.edge 3)) (W.edge 3) (q c) (ref c) k)) := by
  obtain ⟨hh, ho, hN⟩ := order_half V
  have hout := tracer_leaves V h2 G P (setupColumn S D M)
  have hbey := tracer_beyond V P
  constructor
  · intro h
    unfold updateTracers
    rw [if_neg hc, if_pos h]
  intro hu
  have hu' : ¬ S.uniform = true := by simp [hu]
  have hno : 4 * S.order < S.levels + 2 → ¬ P.Beyond S →
      ¬ (((tracerUpdates S G P (setupColumn S D M)).any (tracerOutside S) || tracerBeyond S P) = true) := by
    intro a b h
    rw [Bool.or_eq_true, hout, hbey] at h
    rcases h with h | h
    · omega
    · exact b h
  refine ⟨fun h => ?_, fun h hb h' => ?_, fun h hb hreg => ?_⟩
  · unfold updateTracers
    rw [if_neg hc, if_neg hu']
    dsimp only
    rw [if_pos (by rw [Bool.or_eq_true, hout, hbey]; exact h)]
  · unfold updateTracers
    rw [if_neg hc, if_neg hu']
    dsimp only
    rw [if_neg (hno h hb), if_neg]
    intro hall
    rw [List.all_eq_true] at hall
    have := hall 0 (List.mem_range.2 (by omega))
    obtain ⟨l1, l2, l3⟩ := hs S.levels (2 * S.order - 1) S.levels (tracerStore S (tracerUpdates S G P (setupColumn S D M)))
      (tracerRhs S G (setupColumn S D M) (tracerWind S G (setupColumn S D M) (W.node 3) (W.edge 3)) (W.edge 3) (q 0) (ref 0))
    by_cases h6 : S.levels + 2 < 6 * S.order
    · rw [l3 (by omega)] at this
      simp at this
    · rw [l2 (by omega) (fun hr => (tracer_singular V h2 hL G P D M (by omega)).1 hr (h'.resolve_left h6))] at this
      simp at this
  · have hsol : ∀ c, ∃ s : Nat → ℝ, solve S.levels (2 * S.order - 1) S.levels (tracerStore S (tracerUpdates S G P (setupColumn S D M)))
        (tracerRhs S G (setupColumn S D M) (tracerWind S G (setupColumn S D M) (W.node 3) (W.edge 3)) (W.edge 3) (q c) (ref c)) = some s ∧
        ∀ k < S.levels, Vdyn.product (tracerUpdates S G P (setupColumn S D M)) s k =
          tracerRhs S G (setupColumn S D M) (tracerWind S G (setupColumn S D M) (W.node 3) (W.edge 3)) (W.edge 3) (q c) (ref c) k := by
      intro c
      obtain ⟨s, h1, h3⟩ := (hs S.levels (2 * S.order - 1) S.levels (tracerStore S (tracerUpdates S G P (setupColumn S D M)))
        (tracerRhs S G (setupColumn S D M) (tracerWind S G (setupColumn S D M) (W.node 3) (W.edge 3)) (W.edge 3) (q c) (ref c))).1
          (by omega) ((tracer_singular V h2 hL G P D M h).2 hreg)
      refine ⟨s, h1, fun k hk => ?_⟩
      rw [← h3 k hk, tracer_read V h2 G P _ h]
    choose s h1 h3 using hsol
    refine ⟨s, ?_, fun c _ k hk => h3 c k hk⟩
    unfold updateTracers
    rw [if_neg hc, if_neg hu']
    dsimp only
    rw [if_neg (hno (by omega) hb)]
    simp only [h1, Option.isSome_some, Option.getD_some, List.all_eq_true, implies_true, if_true]

/-- **C133 (refused).**  With tracers, the update of a column throws with uniform diffusion.  Otherwise an access is outside an array if
and only if the column has at most `4 p - 2` levels for order `p` or the volume element that is read for the top is behind the end of
its array, and it throws if there are fewer than `6 p - 2` levels or the matrix is singular.  In all other cases it succeeds. -/
theorem C133_refused (V : Volumes S node edge) (h2 : 2 ≤ S.levels) (hL : Lorenz S) (solve : BandSolver) (hs : Lapack solve) (G : Metric)
    (P : Site) (D : Data) (M : Memory) (W : State) (count : Nat) (q ref U : Nat → Nat → ℝ) :
    (updateTracers S G P (setupColumn S D M) solve W count q ref U = .ub ↔
      count ≠ 0 ∧ S.uniform = false ∧ (S.levels + 2 ≤ 4 * S.order ∨ P.Beyond S)) ∧
    (updateTracers S G P (setupColumn S D M) solve W count q ref U = .exc ↔
      count ≠ 0 ∧ (S.uniform = true ∨ (¬ (S.levels + 2 ≤ 4 * S.order ∨ P.Beyond S) ∧
        (S.levels + 2 < 6 * S.order ∨ SingularTracers S G D (P.other S))))) ∧
    (count = 0 → updateTracers S G P (setupColumn S D M) solve W count q ref U = .ok U) := by
  by_cases hc : count = 0
  · have : updateTracers S G P (setupColumn S D M) solve W count q ref U = .ok U := by
      unfold updateTracers
      rw [if_pos hc]
    rw [this]
    simp [hc]
  obtain ⟨c1, c2⟩ := tracer_ends V h2 hL solve hs G P D M W count hc q ref U
  by_cases hx : S.uniform = true
  · rw [c1 hx]
    simp [hc, hx]
  have hx' : S.uniform = false := by simpa using hx
  obtain ⟨d1, d2, d3⟩ := c2 hx'
  by_cases h4 : S.levels + 2 ≤ 4 * S.order ∨ P.Beyond S
  · rw [d1 h4]
    simp [hc, hx', h4]
  have h4' := h4
  push Not at h4'
  by_cases h6 : S.levels + 2 < 6 * S.order ∨ SingularTracers S G D (P.other S)
  · rw [d2 h4'.1 h4'.2 h6]
    simp [hc, hx', h4, h6]
  · have h6' := h6
    push Not at h6'
    obtain ⟨s, h, -⟩ := d3 h6'.1 h4'.2 h6'.2
    rw [h]
    simp [hc, hx', h4, h6]

/-- **C133 (outside).**  Without uniform diffusion, the update of tracers reads behind the end of the array of volume elements in every
column of a patch that has at most as many columns in the first direction as levels. -/
theorem C133_outside (V : Volumes S node edge) (h2 : 2 ≤ S.levels) (hL : Lorenz S) (solve : BandSolver) (hs : Lapack solve)
    (hu : S.uniform = false) (G : Metric) (P : Site) (hP : P.a ≤ S.levels) (D : Data) (M : Memory) (W : State) (count : Nat)
    (hc : 0 < count) (q ref U : Nat → Nat → ℝ) : updateTracers S G P (setupColumn S D M) solve W count q ref U = .ub := by
  refine (C133_refused V h2 hL solve hs G P D M W count q ref U).1.2 ⟨by omega, hu, Or.inr ?_⟩
  unfold Site.Beyond
  calc P.a * P.b * (S.levels + 1) ≤ S.levels * P.b * (S.levels + 1) := by gcongr
    _ ≤ (S.levels * P.b + P.iA) * (S.levels + 1) := by gcongr; omega
    _ ≤ _ := Nat.le_add_right _ _

/-- What an update that succeeds has met. -/
theorem succeeds (V : Volumes S node edge) (h2 : 2 ≤ S.levels) (hL : Lorenz S) (solve : BandSolver) (hs : Lapack solve) (G : Metric)
    (P : Site) (D : Data) (M : Memory) (W : State) (count : Nat) (hc : count ≠ 0) (q ref U t : Nat → Nat → ℝ)
    (ht : updateTracers S G P (setupColumn S D M) solve W count q ref U = .ok t) :
    S.uniform = false ∧ 6 * S.order ≤ S.levels + 2 ∧ ¬ P.Beyond S ∧ ¬ SingularTracers S G D (P.other S) := by
  obtain ⟨r1, r2, -⟩ := C133_refused V h2 hL solve hs G P D M W count q ref U
  have n1 : ¬ (updateTracers S G P (setupColumn S D M) solve W count q ref U = .ub) := by simp [ht]
  have n2 : ¬ (updateTracers S G P (setupColumn S D M) solve W count q ref U = .exc) := by simp [ht]
  rw [r1] at n1
  rw [r2] at n2
  have hu : S.uniform = false := by
    by_contra h
    exact n2 ⟨hc, Or.inl (by simpa using h)⟩
  have h4 : ¬ (S.levels + 2 ≤ 4 * S.order ∨ P.Beyond S) := fun h => n1 ⟨hc, hu, h⟩
  have h6 : ¬ (S.levels + 2 < 6 * S.order ∨ SingularTracers S G D (P.other S)) := fun h => n2 ⟨hc, Or.inr ⟨h4, h⟩⟩
  push Not at h4 h6
  exact ⟨hu, by omega, h4.2, h6.2⟩

/-- **C133 (the step).**  An update that succeeds changes every tracer by the one and only solution of the equations of `TracerStep`, in
which the change is carried with volume elements from other columns. -/
theorem C133_step (V : Volumes S node edge) (h2 : 2 ≤ S.levels) (hL : Lorenz S) (solve : BandSolver) (hs : Lapack solve) (G : Metric)
    (P : Site) (D : Data) (M : Memory) (W : State) (count : Nat) (q ref U t : Nat → Nat → ℝ)
    (ht : updateTracers S G P (setupColumn S D M) solve W count q ref U = .ok t) (c : Nat) (hc : c < count) (dq : Nat → ℝ) :
    (∀ k < S.levels, TracerStep S G D (P.other S) (W.edge 3) (q c) dq k) ↔ ∀ k < S.levels, t c k = U c k + dq k := by
  obtain ⟨hu, h6, hb, hreg⟩ := succeeds V h2 hL solve hs G P D M W count (by omega) q ref U t ht
  obtain ⟨-, c2⟩ := tracer_ends V h2 hL solve hs G P D M W count (by omega) q ref U
  obtain ⟨s, h1, h3⟩ := (c2 hu).2.2 h6 hb hreg
  rw [h1] at ht
  obtain rfl := TracerRes.ok.inj ht
  have hk : ∀ k < S.levels, s c k / S.dt + carried S G (P.other S) (wind S G (column D)) (s c) k -
      jumps S (fun m => |wind S G (column D) m|) (s c) k =
        carried S G G.jacEdge (windAfter S G D (W.edge 3)) (q c) k - jumps S (fun m => |wind S G (column D) m|) (q c) k -
        jumps S (fun m => sgn (wind S G (column D) m) * (W.edge 3 m - D.edge 3 m) / G.derivREdge m) (q c) k := by
    intro k hk
    rw [← matrix_part V h2 hL G P D M (s c) k hk, ← rhs_part V h2 hL hu G D M W (q c) (ref c) k hk]
    exact h3 c hc k hk
  constructor
  · intro h
    unfold SingularTracers at hreg
    push Not at hreg
    have hz := hreg (fun j => 1 * s c j + 1 * dq j) fun k hk' => by
      have a1 := hk k hk'
      have a2 := h k hk'
      unfold TracerStep at a2
      rw [carried_lin, jumps_lin V h2 _ _ _ _ _ k hk']
      linear_combination a1 + a2
    intro k hk'
    have := hz k hk'
    show (if c < count ∧ k < S.levels then U c k - s c k else U c k) = _
    rw [if_pos ⟨hc, hk'⟩]
    linarith
  · intro h k hk'
    have hd : ∀ j < S.levels, dq j = -1 * s c j + 0 * s c j := by
      intro j hj
      have : (if c < count ∧ j < S.levels then U c j - s c j else U c j) = U c j + dq j := h j hj
      rw [if_pos ⟨hc, hj⟩] at this
      linarith
    unfold TracerStep
    rw [carried_congr V G _ _ _ _ dq _ (fun _ _ => rfl) hd k hk', jumps_congr V h2 _ dq _ hd k hk', hd k hk', carried_lin,
      jumps_lin V h2 _ _ _ _ _ k hk']
    have := hk k hk'
    linear_combination -this

/-- **C133 (untouched).**  The update leaves what is not a tracer, or above the top, as it was. -/
theorem C133_untouched (solve : BandSolver) (G : Metric) (P : Site) (M : Memory) (W : State) (count : Nat)
    (q ref U t : Nat → Nat → ℝ) (ht : updateTracers S G P M solve W count q ref U = .ok t) (c k : Nat)
    (h : count ≤ c ∨ S.levels ≤ k) : t c k = U c k := by
  unfold updateTracers at ht
  dsimp only at ht
  split_ifs at ht
  · rw [TracerRes.ok.inj ht]
  all_goals
    rw [← TracerRes.ok.inj ht]
    exact if_neg (by omega)

theorem amount_lin (G : Metric) (a b : ℝ) (f g : Nat → ℝ) :
    amount S G edge (fun k => a * f k + b * g k) = a * amount S G edge f + b * amount S G edge g := by
  unfold amount
  rw [mul_sum, mul_sum, ← sum_add_distrib]
  exact sum_congr rfl fun k _ => by ring

/-- **C133 (mass; partial).**  Where the volume element is the same on all levels of a column, the update keeps the mass of every
tracer, although the volume elements of other columns are used.  Missing: volume elements that change with height. -/
theorem C133_mass_partial (V : Volumes S node edge) (h2 : 2 ≤ S.levels) (hL : Lorenz S) (solve : BandSolver) (hs : Lapack solve)
    (hdt : S.dt ≠ 0) (G : Metric) (j : ℝ) (hj : j ≠ 0) (hJ : ∀ k < S.levels, G.jac k = j)
    (P : Site) (D : Data) (M : Memory) (W : State) (count : Nat) (q ref U t : Nat → Nat → ℝ)
    (ht : updateTracers S G P (setupColumn S D M) solve W count q ref U = .ok t) (c : Nat) :
    amount S G edge (t c) = amount S G edge (U c) := by
  by_cases hc : c < count
  swap
  · unfold amount
    exact sum_congr rfl fun k hk => by rw [C133_untouched solve G P _ W count q ref U t ht c k (Or.inl (by omega))]
  obtain ⟨hh, ho, hN⟩ := order_half V
  obtain ⟨E, hE⟩ := ((C71_refused .levels .levels S.order S.levels (S.levels + 1) node edge).2.2 rfl (by omega) (by omega) (by omega)).2
  have hP := V.jumps
  rw [ho] at hP
  have hpen := fun v z => C87_volumes_conserve (half S) S.levels (S.levels + 1) hh node edge S.penalty hP h2 V.increasing V.distinct v z
    (fun _ => 0) 1 1 one_pos
  simp only [mul_one, mul_zero, sum_const_zero] at hpen
  have hjump : ∀ v z : Nat → ℝ, amount S G edge (jumps S v z) = 0 := by
    intro v z
    unfold amount jumps
    rw [sum_congr rfl (fun k hk => by
      rw [hJ k (mem_range.1 hk), mul_comm (edge (k + 1) - edge k) j, mul_assoc]), ← mul_sum, hpen, mul_zero]
  have hcar : ∀ v (C : Column) z, amount S G edge (carried S G v (wind S G C) z) = 0 := by
    intro v C z
    have hdiv := (C71_conserve S.order S.levels (S.levels + 1) node edge V.increasing S.diffEN E V.divergence hE
      (fun m => v m * (applyRow S.interpNE z m * wind S G C m))).1
    unfold amount carried
    rw [sum_congr rfl (fun k hk => by
      rw [show (edge (k + 1) - edge k) * G.jac k * (applyRow S.diffEN (fun m => v m * (applyRow S.interpNE z m * wind S G C m)) k / G.jac k) =
        (edge (k + 1) - edge k) * applyRow S.diffEN (fun m => v m * (applyRow S.interpNE z m * wind S G C m)) k by
          rw [hJ k (mem_range.1 hk)]
          field_simp]), hdiv, wind_ends G C 0 (by omega), wind_ends G C S.levels (by omega)]
    ring
  have heq := (C133_step V h2 hL solve hs G P D M W count q ref U t ht c hc (fun k => t c k - U c k)).2 fun k _ => by ring
  have key : amount S G edge (fun k => t c k - U c k) = 0 := by
    have e : amount S G edge (fun k => t c k - U c k) =
        S.dt * (amount S G edge (jumps S (fun m => |wind S G (column D) m|) (q c)) +
          amount S G edge (jumps S (fun m => |wind S G (column D) m|) (fun k => t c k - U c k)) +
          amount S G edge (jumps S (fun m => sgn (wind S G (column D) m) * (W.edge 3 m - D.edge 3 m) / G.derivREdge m) (q c)) -
          amount S G edge (carried S G G.jacEdge (windAfter S G D (W.edge 3)) (q c)) -
          amount S G edge (carried S G (P.other S) (wind S G (column D)) (fun k => t c k - U c k))) := by
      unfold amount
      rw [← sum_add_distrib, ← sum_add_distrib, ← sum_sub_distrib, ← sum_sub_distrib, mul_sum]
      apply sum_congr rfl
      intro k hk
      have := heq k (mem_range.1 hk)
      unfold TracerStep at this
      dsimp only at this
      field_simp at this
      linear_combination (edge (k + 1) - edge k) * G.jac k * this
    rw [e, hjump, hjump, hjump, hcar]
    unfold windAfter
    rw [hcar]
    ring
  have := amount_lin (S := S) (edge := edge) G 1 (-1) (t c) (U c)
  rw [show (fun k => 1 * t c k + -1 * U c k) = fun k => t c k - U c k from funext fun k => by ring, key] at this
  linarith

/-- **C133 (consistency; partial).**  After a step of the column, a tracer that was a multiple of density is the same multiple of the new
density, if the volume elements that are read are those of the column wherever there is wind, and the factors that do not belong
to the equation for density vanish, as they do at fourth and sixth order.  Missing: see `C133_consistent_false`. -/
theorem C133_consistent_partial (V : Volumes S node edge) (h2 : 2 ≤ S.levels) (hL : Lorenz S) (solve : BandSolver) (hs : Lapack solve)
    (hdt : S.dt ≠ 0) (href : S.useRef = true) (G : Metric) (P : Site) (D : Data) (M M' : Memory) (U0 W : State)
    (hW : implicitColumn S G M' solve D U0 = some W) (count : Nat) (q ref t : Nat → Nat → ℝ)
    (ht : updateTracers S G P (setupColumn S D M) solve W count q ref q = .ok t)
    (hsame : ∀ m ≤ S.levels, wind S G (column D) m ≠ 0 → P.other S m = G.jacEdge m)
    (hstray : ∀ k < S.levels, strayFactor S G (column D) k = 0)
    (c : Nat) (hc : c < count) (r : ℝ) (hq : ∀ k < S.levels, q c k = r * D.node 4 k) (k : Nat) (hk : k < S.levels) :
    t c k = r * W.node 4 k := by
  obtain ⟨hu, -⟩ := succeeds V h2 hL solve hs G P D M W count (by omega) q ref q t ht
  obtain ⟨hn, -, -⟩ := step_solves V hL solve hs hdt href (by simp [hu]) G D M' U0 W hW
  have key : ∀ k < S.levels, TracerStep S G D (P.other S) (W.edge 3) (q c) (fun j => r * W.node 4 j + -r * D.node 4 j) k := by
    intro k hk
    have h := (hn.1 k hk).2
    rw [hstray k hk, zero_mul, add_zero] at h
    change levelSide S G (column D) (D.node 4) (fun k => D.edge 3 k - W.edge 3 k) (fun k => D.node 4 k - W.node 4 k) k =
      levelTend S G (column D) (D.node 4) k at h
    have hq' : ∀ j < S.levels, q c j = r * D.node 4 j + 0 * D.node 4 j := fun j hj => by rw [hq j hj]; ring
    have hother : ∀ j ≤ S.levels, P.other S j * wind S G (column D) j = G.jacEdge j * wind S G (column D) j := by
      intro j hj
      by_cases hw : wind S G (column D) j = 0
      · rw [hw, mul_zero, mul_zero]
      · rw [hsame j hj hw]
    unfold TracerStep
    rw [carried_congr V G _ _ _ _ (q c) _ (fun _ _ => rfl) hq' k hk, jumps_congr V h2 _ (q c) _ hq' k hk, jumps_congr V h2 _ (q c) _ hq' k hk,
      carried_congr V G _ _ _ _ _ _ hother (fun _ _ => rfl) k hk, carried_lin, carried_lin, jumps_lin V h2 _ _ _ _ _ k hk,
      jumps_lin V h2 _ _ _ _ _ k hk, jumps_lin V h2 _ _ _ _ _ k hk]
    have e1 : applyRow S.diffEN (fluxChange S G (wind S G (column D)) (D.node 4) (fun k => D.edge 3 k - W.edge 3 k)
        (fun k => D.node 4 k - W.node 4 k)) k / G.jac k =
        carried S G G.jacEdge (wind S G (column D)) (D.node 4) k - carried S G G.jacEdge (windAfter S G D (W.edge 3)) (D.node 4) k +
          (carried S G G.jacEdge (wind S G (column D)) (D.node 4) k - carried S G G.jacEdge (wind S G (column D)) (W.node 4) k) := by
      have hd : ∀ m, applyRow S.interpNE (fun j => D.node 4 j - W.node 4 j) m =
          applyRow S.interpNE (D.node 4) m - applyRow S.interpNE (W.node 4) m := by
        intro m
        have := applyRow_lin S.interpNE 1 (-1) (D.node 4) (W.node 4) m
        rw [show (fun j => 1 * D.node 4 j + -1 * W.node 4 j) = fun j => D.node 4 j - W.node 4 j from funext fun j => by ring] at this
        linarith
      unfold carried
      rw [show fluxChange S G (wind S G (column D)) (D.node 4) (fun k => D.edge 3 k - W.edge 3 k) (fun k => D.node 4 k - W.node 4 k) =
        fun m => 1 * (1 * (G.jacEdge m * (applyRow S.interpNE (D.node 4) m * wind S G (column D) m)) +
          -1 * (G.jacEdge m * (applyRow S.interpNE (D.node 4) m * windAfter S G D (W.edge 3) m))) +
          1 * (1 * (G.jacEdge m * (applyRow S.interpNE (D.node 4) m * wind S G (column D) m)) +
          -1 * (G.jacEdge m * (applyRow S.interpNE (W.node 4) m * wind S G (column D) m))) from funext fun m => by
          unfold fluxChange windAfter
          rw [wind_at, wind_at, hd]
          by_cases h : 1 ≤ m ∧ m < S.levels
          · simp only [if_pos h, column]
            ring
          · simp only [if_neg h]
            ring, applyRow_lin, applyRow_lin, applyRow_lin]
      ring
    have e2 : penaltyApply S.penalty (fun a => |wind S G (column D) (a + 1)|) (fun k => D.node 4 k - W.node 4 k) (fun _ => 0) 1 1 k =
        jumps S (fun m => |wind S G (column D) m|) (D.node 4) k - jumps S (fun m => |wind S G (column D) m|) (W.node 4) k := by
      have := jumps_lin V h2 (fun m => |wind S G (column D) m|) 1 (-1) (D.node 4) (W.node 4) k hk
      rw [show (fun j => 1 * D.node 4 j + -1 * W.node 4 j) = fun j => D.node 4 j - W.node 4 j from funext fun j => by ring] at this
      unfold jumps at this ⊢
      linarith
    have e3 : penaltyApply S.penalty (fun a => sgn (wind S G (column D) (a + 1)) / G.derivREdge (a + 1) * (D.edge 3 (a + 1) - W.edge 3 (a + 1)))
        (D.node 4) (fun _ => 0) 1 1 k =
        -jumps S (fun m => sgn (wind S G (column D) m) * (W.edge 3 m - D.edge 3 m) / G.derivREdge m) (D.node 4) k := by
      unfold jumps
      rw [penalty_volumes V h2 _ _ k hk, penalty_volumes V h2 _ _ k hk]
      split_ifs <;> ring
    have e4 : applyRow S.diffEN (flux S (physical G) (column D) (D.node 4)) k / G.jac k =
        carried S G G.jacEdge (wind S G (column D)) (D.node 4) k := by
      unfold carried flux
      congr 2
      funext m
      rw [mul_assoc]
      rfl
    unfold levelSide levelTend at h
    dsimp only at h
    rw [e1, e2, e3, e4] at h
    change _ = _ - jumps S (fun m => |wind S G (column D) m|) (D.node 4) k at h
    linear_combination -r * h
  have := (C133_step V h2 hL solve hs G P D M W count q ref q t ht c hc _).1 key k hk
  rw [this, hq k hk]
  ring

end

end Verif.Schur
