/-
Lemmas: the step of a column in terms of the data.
-/
import Verif.Schur.Rows

namespace Verif.Schur

open Verif.Column Verif.Vdyn Finset

section
variable {S : Setup} {node edge : Nat → ℝ} (V : Volumes S node edge)
include V

/-! ### What is used of a column -/

theorem interp_levels (f g : Nat → ℝ) (h : ∀ j < S.levels, f j = g j) (k : Nat) (hk : k ≤ S.levels) :
    applyRow S.interpNE f k = applyRow S.interpNE g k :=
  applyRow_congr _ _ _ _ fun j _ hj => h j (by have := (interp_row V k hk).2.2; omega)

theorem gradient_levels (f g : Nat → ℝ) (h : ∀ j < S.levels, f j = g j) (k : Nat) :
    applyRow S.diffNE f k = applyRow S.diffNE g k :=
  applyRow_congr _ _ _ _ fun j _ hj => h j (by have := (gradient_row V k).2.2; omega)

theorem divergence_levels (f g : Nat → ℝ) (h : ∀ j ≤ S.levels, f j = g j) (k : Nat) (hk : k < S.levels) :
    applyRow S.diffEN f k = applyRow S.diffEN g k :=
  applyRow_congr _ _ _ _ fun j _ hj => h j (by have := (divergence_row V k).2; omega)

theorem wind_of (C C' : Column) (hu : C.u = C'.u) (hv : C.v = C'.v) (hw : C.w = C'.w) (G : Metric) (m : Nat) : 
    wind S G C m = wind S G C' m := by
  unfold wind verticalWind
  rw [hu, hv, hw]

theorem fluxChange_of (G : Metric) (v v' q q' w w' r r' : Nat → ℝ) (hv : ∀ m, v m = v' m) (hq : ∀ j < S.levels, q j = q' j)
    (hw : ∀ j ≤ S.levels, w j = w' j) (hr : ∀ j < S.levels, r j = r' j) (m : Nat) :
    fluxChange S G v q w r m = fluxChange S G v' q' w' r' m := by
  unfold fluxChange
  by_cases h : 1 ≤ m ∧ m < S.levels
  · rw [if_pos h, if_pos h, hv m, interp_levels V q q' hq m (by omega), interp_levels V r r' hr m (by omega), hw m (by omega)]
  · rw [if_neg h, if_neg h]

theorem levelSide_of (h2 : 2 ≤ S.levels) (G : Metric) (C C' : Column) (hC : ∀ m, wind S G C m = wind S G C' m)
    (q q' w w' r r' : Nat → ℝ) (hq : ∀ j < S.levels, q j = q' j) (hw : ∀ j ≤ S.levels, w j = w' j)
    (hr : ∀ j < S.levels, r j = r' j) (k : Nat) (hk : k < S.levels) :
    levelSide S G C q w r k = levelSide S G C' q' w' r' k := by
  unfold levelSide
  rw [divergence_levels V _ _ (fun j _ => fluxChange_of V G _ _ q q' w w' r r' hC hq hw hr j) k hk, hr k hk,
    penalty_congr_volumes V h2 _ (fun a => |wind S G C' (a + 1)|) r r' (fun a _ => by rw [hC]) hr k hk,
    penalty_congr_volumes V h2 _ (fun a => sgn (wind S G C' (a + 1)) / G.derivREdge (a + 1) * w' (a + 1)) q q'
      (fun a ha => by rw [hC, hw (a + 1) (by omega)]) hq k hk]

theorem exner_of (C C' : Column) (hp : ∀ j < S.levels, C.p j = C'.p j) (k : Nat) (hk : k < S.levels) : exner S C k = exner S C' k := by
  unfold exner
  rw [hp k hk]

theorem interfaceSide_of (G : Metric) (C C' : Column) (hp : ∀ j < S.levels, C.p j = C'.p j) (hr : ∀ j < S.levels, C.r j = C'.r j)
    (p p' w w' r r' : Nat → ℝ) (h1 : ∀ j < S.levels, p j = p' j) (hw : ∀ j ≤ S.levels, w j = w' j)
    (h3 : ∀ j < S.levels, r j = r' j) (k : Nat) (hk : k ≤ S.levels) :
    interfaceSide S G C p w r k = interfaceSide S G C' p' w' r' k := by
  unfold interfaceSide
  rw [interp_levels V _ _ hp k hk, interp_levels V _ _ hr k hk, interp_levels V p p' h1 k hk, interp_levels V r r' h3 k hk, hw k hk,
    gradient_levels V (exner S C) (exner S C') (exner_of V C C' hp) k,
    gradient_levels V (fun m => exner S C m / C.p m * p m) (fun m => exner S C' m / C'.p m * p' m)
      (fun j hj => by rw [exner_of V C C' hp j hj, hp j hj, h1 j hj]) k]

theorem levelTend_of (h2 : 2 ≤ S.levels) (G : Metric) (C C' : Column) (hC : ∀ m, wind S G C m = wind S G C' m) (q q' : Nat → ℝ)
    (hq : ∀ j < S.levels, q j = q' j) (k : Nat) (hk : k < S.levels) : levelTend S G C q k = levelTend S G C' q' k := by
  unfold levelTend
  rw [divergence_levels V _ (flux S (physical G) C' q') (fun j hj => ?_) k hk,
    penalty_congr_volumes V h2 _ (fun a => |wind S G C' (a + 1)|) q q' (fun a _ => by rw [hC]) hq k hk]
  have := hC j
  unfold wind at this
  unfold flux
  rw [this, interp_levels V q q' hq j hj]

theorem linear_of (h2 : 2 ≤ S.levels) (G : Metric) (C : Column) (f p w r p' w' r' a b c : Nat → ℝ) (hf : f 0 = 0)
    (hp : ∀ j < S.levels, p j = p' j) (hw : ∀ j ≤ S.levels, w j = w' j) (hr : ∀ j < S.levels, r j = r' j)
    (h : Linear S G C f p w r a b c) : Linear S G C f p' w' r' a b c := by
  constructor
  · intro k hk
    obtain ⟨e1, e2⟩ := h.1 k hk
    rw [levelSide_of V h2 G C C (fun _ => rfl) _ _ w w' p p' (fun _ _ => rfl) hw hp k hk] at e1
    rw [levelSide_of V h2 G C C (fun _ => rfl) _ _ w w' r r' (fun _ _ => rfl) hw hr k hk, hp (k - 1) (by omega)] at e2
    exact ⟨e1, e2⟩
  · intro k hk
    rw [← interfaceSide_of V G C C (fun _ _ => rfl) (fun _ _ => rfl) p p' w w' r r' hp hw hr k hk]
    exact h.2 k hk

/-! ### Rows -/

variable (hL : Lorenz S) (G : Metric) (D : Data) (M : Memory)
include hL

theorem state_column : (∀ j < S.levels, (asColumn D (setupColumn S D M).state).p j = (column D).p j) ∧
    (∀ j < S.levels, (asColumn D (setupColumn S D M).state).r j = (column D).r j) ∧
    (asColumn D (setupColumn S D M).state).w = (column D).w :=
  ⟨fun j hj => (state_eq hL D M j hj).1, fun j hj => (state_eq hL D M j hj).2, by funext j; exact state_w hL D M j⟩

theorem wind_state (m : Nat) : wind S G (asColumn D (setupColumn S D M).state) m = wind S G (column D) m :=
  wind_of V (asColumn D (setupColumn S D M).state) (column D) rfl rfl (state_column V hL D M).2.2 G m

/-- The jacobian, in terms of the data. -/
theorem rows_level (h2 : 2 ≤ S.levels) (y : Nat → ℝ) (k : Nat) (hk : k < S.levels) :
    Vdyn.product (jacobianUpdates S G (setupColumn S D M) (setupColumn S D M).state) y (3 * k) =
      levelSide S G (column D) (column D).p (fun n => y (3 * n + 1)) (fun n => y (3 * n)) k ∧
    Vdyn.product (jacobianUpdates S G (setupColumn S D M) (setupColumn S D M).state) y (3 * k + 2) =
      levelSide S G (column D) (column D).r (fun n => y (3 * n + 1)) (fun n => y (3 * n + 2)) k := by
  obtain ⟨hp, hr, hw⟩ := state_column V hL D M
  constructor
  · rw [← levelSide_of V h2 G _ _ (wind_state V hL G D M) _ _ _ _ _ _ hp (fun _ _ => rfl) (fun _ _ => rfl) k hk]
    exact product_level V hL G D M _ y h2 k 0 (Or.inl rfl) hk
  · rw [← levelSide_of V h2 G _ _ (wind_state V hL G D M) _ _ _ _ _ _ hr (fun _ _ => rfl) (fun _ _ => rfl) k hk]
    exact product_level V hL G D M _ y h2 k 2 (Or.inr rfl) hk

theorem rows_interface (y : Nat → ℝ) (k : Nat) (hk : k ≤ S.levels) :
    Vdyn.product (jacobianUpdates S G (setupColumn S D M) (setupColumn S D M).state) y (3 * k + 1) =
      interfaceSide S G (column D) (fun n => y (3 * n)) (fun n => y (3 * n + 1)) (fun n => y (3 * n + 2)) k := by
  obtain ⟨hp, hr, hw⟩ := state_column V hL D M
  rw [← interfaceSide_of V G _ _ hp hr _ _ _ _ _ _ (fun _ _ => rfl) (fun _ _ => rfl) (fun _ _ => rfl) k hk]
  exact product_interface hL G D M _ y k hk

theorem stray_entry (h2 : 2 ≤ S.levels) (k : Nat) (hk : k < S.levels) (h : 2 ≤ k) :
    total (jacobianUpdates S G (setupColumn S D M) (setupColumn S D M).state) (3 * (k - 2)) (3 * (k - 1) + 1) =
      levelSide S G (column D) (column D).p (fun m => if m = k - 1 then 1 else 0) (fun _ => 0) (k - 2) := by
  rw [total_indicator, (rows_level V hL G D M h2 _ (k - 2) (by omega)).1]
  congr 1
  · funext n
    simp only [show 3 * n + 1 = 3 * (k - 1) + 1 ↔ n = k - 1 by omega]
  · funext n
    exact if_neg (by omega)

/-- The equations that are solved, in terms of the data. -/
theorem equations_rows (h2 : 2 ≤ S.levels) (y : Nat → ℝ) :
    (∀ k < S.levels, Vdyn.product (jacobianUpdates S G (setupColumn S D M) (setupColumn S D M).state ++
        stray S (jacobianUpdates S G (setupColumn S D M) (setupColumn S D M).state)) y (3 * k) =
      levelSide S G (column D) (column D).p (fun n => y (3 * n + 1)) (fun n => y (3 * n)) k ∧
    Vdyn.product (jacobianUpdates S G (setupColumn S D M) (setupColumn S D M).state ++
        stray S (jacobianUpdates S G (setupColumn S D M) (setupColumn S D M).state)) y (3 * k + 2) =
      levelSide S G (column D) (column D).r (fun n => y (3 * n + 1)) (fun n => y (3 * n + 2)) k +
        strayFactor S G (column D) k * y (3 * (k - 1))) ∧
    ∀ k ≤ S.levels, Vdyn.product (jacobianUpdates S G (setupColumn S D M) (setupColumn S D M).state ++
        stray S (jacobianUpdates S G (setupColumn S D M) (setupColumn S D M).state)) y (3 * k + 1) =
      interfaceSide S G (column D) (fun n => y (3 * n)) (fun n => y (3 * n + 1)) (fun n => y (3 * n + 2)) k := by
  set us := jacobianUpdates S G (setupColumn S D M) (setupColumn S D M).state with hus
  have hs : ∀ i, i % 3 ≠ 2 → Vdyn.product (stray S us) y i = 0 := by
    intro i hi
    unfold stray
    by_cases ho : S.order = 2
    · rw [if_pos ho, product_map]
      exact sum_zero _ _ fun k => if_neg (by dsimp only; omega)
    · rw [if_neg ho]
      rfl
  have hs2 : ∀ k < S.levels, Vdyn.product (stray S us) y (3 * k + 2) = strayFactor S G (column D) k * y (3 * (k - 1)) := by
    intro k hk
    unfold stray strayFactor
    by_cases ho : S.order = 2
    · rw [if_pos ho, product_map, sum_range']
      by_cases h : 2 ≤ k
      · rw [if_pos ⟨ho, h⟩, ← stray_entry V hL G D M h2 k hk h, sum_eq_single (k - 2)]
        · dsimp only
          rw [if_pos (by omega), show 2 + (k - 2) = k by omega]
        · intro b _ hb
          exact if_neg (by dsimp only; omega)
        · intro h'
          rw [mem_range] at h'
          omega
      · rw [if_neg (fun h' => h h'.2), zero_mul]
        exact sum_eq_zero fun b _ => if_neg (by dsimp only; omega)
    · rw [if_neg ho, if_neg (fun h' => ho h'.1), zero_mul]
      rfl
  refine ⟨fun k hk => ⟨?_, ?_⟩, fun k hk => ?_⟩
  · rw [product_append, hs _ (by omega), add_zero]
    exact (rows_level V hL G D M h2 y k hk).1
  · rw [product_append, hs2 k hk, hus, (rows_level V hL G D M h2 y k hk).2]
  · rw [product_append, hs _ (by omega), add_zero]
    exact rows_interface V hL G D M y k hk

/-- The residual, in terms of the data. -/
theorem residual_rows (h2 : 2 ≤ S.levels) (href : S.useRef = true)
    (hin : S.uniform = true → ∀ k < S.levels, (S.diffDiffNN.row k).iend ≤ S.levels) :
    (∀ k < S.levels, residual S G (setupColumn S D M) (setupColumn S D M).state (3 * k) =
      levelTend S G (column D) (D.node 2) k - diffuse S S.diffDiffNN S.nuScalar (D.node 2) (D.refNode 2) k ∧
    residual S G (setupColumn S D M) (setupColumn S D M).state (3 * k + 2) = levelTend S G (column D) (D.node 4) k) ∧
    ∀ k ≤ S.levels, residual S G (setupColumn S D M) (setupColumn S D M).state (3 * k + 1) =
      interfaceTend S G D (column D) k := by
  obtain ⟨hp, hr, hw⟩ := state_column V hL D M
  have hwind := wind_state V hL G D M
  refine ⟨fun k hk => ?_, fun k hk => ?_⟩
  · obtain ⟨e1, e2⟩ := residual_level hL G D M (setupColumn S D M).state V href k hk
    constructor
    · rw [e1, (state_eq hL D M k hk).1, sub_self, zero_div, add_zero,
        ← levelTend_of V h2 G _ _ hwind (asColumn D (setupColumn S D M).state).p (D.node 2) hp k hk]
      congr 1
      unfold diffuse
      by_cases hu : S.uniform = true
      · rw [if_pos hu, if_pos hu]
        congr 2
        exact applyRow_congr _ _ _ _ fun j _ hj => hp j (by have := hin hu k hk; omega)
      · rw [if_neg hu, if_neg hu]
    · rw [e2, (state_eq hL D M k hk).2, sub_self, zero_div, add_zero,
        ← levelTend_of V h2 G _ _ hwind (asColumn D (setupColumn S D M).state).r (D.node 4) hr k hk]
      rfl
  · rw [residual_interface hL G D M _ href k hk, state_w hL, sub_self, zero_div, add_zero]
    unfold interfaceTend theta
    rw [hw, interp_levels V _ _ hp k hk, interp_levels V _ _ hr k hk,
      gradient_levels V (exner S _) (exner S (column D)) (exner_of V _ _ hp) k]

/-! ### The step -/

theorem residual_top (M : Memory) : residual S G M M.state (3 * S.levels + 1) = 0 := by
  unfold residual
  rw [show (3 * S.levels + 1) % 3 = 1 by omega, show (3 * S.levels + 1) / 3 = S.levels by omega]
  unfold tendency
  simp

omit hL

theorem off_half : (offDiagonals S = some (3 * half S + 1) ↔ S.order ≤ 6) ∧ (offDiagonals S = none ↔ 6 < S.order) := by
  obtain ⟨hh, ho, hN⟩ := order_half V
  unfold offDiagonals
  rw [V.volumes, if_pos rfl]
  rcases Nat.lt_or_ge 6 S.order with h | h
  · rw [if_neg (by omega), if_neg (by omega), if_neg (by omega)]
    simp
    omega
  · have : S.order = 2 ∨ S.order = 4 ∨ S.order = 6 := by omega
    rcases this with e | e | e
    · rw [if_pos (by omega), show half S = 1 by omega]
      simp
      omega
    · rw [if_neg (by omega), if_pos e, show half S = 2 by omega]
      simp
      omega
    · rw [if_neg (by omega), if_neg (by omega), if_pos e, show half S = 3 by omega]
      simp
      omega

theorem matrix_product (x y : Nat → ℝ) (M : Memory) (i : Nat) :
    ∑ j ∈ range (3 * (S.levels + 1)), matrix S G M x i j * y j =
      Vdyn.product (jacobianUpdates S G M x ++ stray S (jacobianUpdates S G M x)) y i := by
  unfold matrix
  apply total_product
  intro u hu _
  rw [List.mem_append] at hu
  rcases hu with hu | hu
  · have hu' : u ∈ space S G M x ++ timeUpdates S := hu
    rw [List.mem_append] at hu'
    rcases hu' with hu' | hu'
    · rcases space_placed G M x V u hu' with ⟨c', k', m', h1, h2, h3, h4, h5, h6, h7⟩ | ⟨c', k', m', h1, h2, h3, h4, h5, h6, h7⟩ |
        ⟨c', k', m', h1, h2, h3, h4, h5, h6, h7, h8⟩ <;> omega
    · unfold timeUpdates at hu'
      simp only [List.mem_flatMap, List.mem_cons, List.not_mem_nil, or_false, List.mem_range] at hu'
      obtain ⟨k, hk, rfl | rfl | rfl⟩ := hu' <;> simp only [upd, vec] <;> omega
  · unfold stray at hu
    split_ifs at hu with ho
    · rw [List.mem_map] at hu
      obtain ⟨k, hk, rfl⟩ := hu
      rw [List.mem_range'_1] at hk
      dsimp only
      omega
    · simp at hu

include hL

/-- When the step succeeds, and the equations that it solves. -/
theorem newton_cases (solve : BandSolver) (hs : Lapack solve) (hdt : S.dt ≠ 0) (h6 : S.order ≤ 6) :
    (newtonStep S G M solve D = none ↔ 2 * S.levels < 3 * (S.order + 1) + 1 ∨
      ¬ Solvable S.levels (jacobianUpdates S G (setupColumn S D M) (setupColumn S D M).state ++
        stray S (jacobianUpdates S G (setupColumn S D M) (setupColumn S D M).state))) ∧
    ∀ s, newtonStep S G M solve D = some s → ∀ i, Unknown S.levels i →
      Vdyn.product (jacobianUpdates S G (setupColumn S D M) (setupColumn S D M).state ++
        stray S (jacobianUpdates S G (setupColumn S D M) (setupColumn S D M).state))
        (fun j => (setupColumn S D M).state j - s j) i =
      residual S G (setupColumn S D M) (setupColumn S D M).state i := by
  obtain ⟨hh, ho, hN⟩ := order_half V
  have hoff := (off_half V).1.2 h6
  unfold newtonStep dgbsv jacobian
  dsimp only
  rw [hL.1, hL.2.1, if_neg (by simp), if_neg (by simp), hoff]
  dsimp only
  set M1 := setupColumn S D M with hM1
  have hd : schurOffDiagonals S = 2 * half S + 1 := by unfold schurOffDiagonals; omega
  rw [hd]
  by_cases hlt : 2 * S.levels < 2 * (2 * half S + 1) + (2 * half S + 1) + 1
  · rw [if_pos hlt]
    simp only [Option.map_none, true_iff, reduceCtorEq, false_implies, implies_true, and_true]
    left
    omega
  · rw [if_neg hlt]
    have h2 : 2 ≤ S.levels := by omega
    have T := matrix_shape G M1 M1.state V
    set B := bandEntry (3 * (2 * half S + 1) + 1) (2 * half S + 1) (schurMatrix S.levels (half S) (3 * half S + 1) (2 * half S + 1) S.dt
      (store (3 * half S + 1) (jacobianUpdates S G M1 M1.state))) with hBdef
    have hB := fun c k c' l hc hc' hk hl => schur_band G M1 M1.state V h2 c k c' l hc hc' hk hl
    have hreg := elimination_regular T hdt B hB
    have hsolv : (∀ y : Nat → ℝ, (∀ i, Unknown S.levels i → ∑ j ∈ range (3 * (S.levels + 1)), matrix S G M1 M1.state i j * y j = 0) →
        ∀ i, Unknown S.levels i → y i = 0) ↔ Solvable S.levels (jacobianUpdates S G M1 M1.state ++
          stray S (jacobianUpdates S G M1 M1.state)) := by
      unfold Solvable
      simp only [matrix_product V]
    rw [hsolv] at hreg
    obtain ⟨g1, g2, -⟩ := hs (2 * S.levels) (2 * half S + 1) (3 * (2 * half S + 1) + 1)
      (schurMatrix S.levels (half S) (3 * half S + 1) (2 * half S + 1) S.dt
        (store (3 * half S + 1) (jacobianUpdates S G M1 M1.state)))
      (schurRhs S.levels (3 * half S + 1) S.dt (store (3 * half S + 1) (jacobianUpdates S G M1 M1.state)) (residual S G M1 M1.state))
    by_cases hr : Solvable S.levels (jacobianUpdates S G M1 M1.state ++ stray S (jacobianUpdates S G M1 M1.state))
    · obtain ⟨z, e1, e2⟩ := g1 le_rfl (hreg.2 hr)
      rw [e1]
      simp only [Option.map_some, reduceCtorEq, hr, not_true_eq_false, or_false, false_iff]
      refine ⟨by omega, ?_⟩
      intro t ht i hi
      obtain rfl := Option.some.inj ht
      rw [← matrix_product V]
      simp only [sub_sub_cancel]
      refine elimination_solves T hdt B hB (residual S G M1 M1.state) z _ ?_ ?_ ?_ ?_ i hi
      · intro c k hc hk
        rw [e2 (2 * k + c) (by omega)]
        exact rhs_eq G M1 M1.state V _ c k hc hk
      · intro l hl
        unfold backOut vecS
        dsimp only
        constructor
        · rw [if_neg (by omega), if_pos (by omega)]
          congr 1
          omega
        · rw [if_neg (by omega), if_pos (by omega)]
          congr 1
          omega
      · intro i h1 hi
        exact back_w G M1 M1.state V _ z i h1 hi
      · intro k hk
        unfold backOut vec
        dsimp only
        rw [if_pos (by omega), show (3 * k + 1) / 3 = k by omega]
        rcases hk with rfl | rfl
        · rw [if_neg (by omega), if_pos rfl]
          ring
        · rw [if_pos rfl, residual_top V hL, mul_zero]
    · rw [g2 le_rfl (fun h => hr (hreg.1 h))]
      simp [hr]

end

end Verif.Schur
