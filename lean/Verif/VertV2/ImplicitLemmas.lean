/-
Lemmas for the implicit step of a column: the band, and that residual and Jacobian depend on the unknowns only.
-/
import Verif.VertV2.ColumnJacobian
import Verif.VertV2.Implicit
import Verif.Vdyn.ImplicitProps

namespace Verif.ColumnV2

open Verif.Column Verif.Vdyn Verif.Interp Finset

section
variable {S : Setup} {node edge sNode sEdge : Nat → ℝ} {gauss lob : List ℝ × List ℝ}

/-- Every statement that adds something to the Jacobian is in the band that was allocated. -/
theorem in_band (E : Elements S node edge gauss lob) (T : Stencils S node edge sNode sEdge gauss lob) (hL : Lorenz S)
    {d : Nat} (hd : offDiagonals S = some d) (G : Metric) (M : Memory) (x : Nat → ℝ) :
    ∀ u ∈ jacobianUpdates S G M x, InBand d (3 * (S.levels + 1)) u := by
  obtain ⟨hn, w1, w2⟩ := width E.elements hd
  obtain ⟨-, hN, hm, -, -⟩ := penalty_facts E
  have hold := C91_in_band E T hL hd (physical G) M x
  have hblock : ∀ k, k / S.order * S.order ≤ k ∧ k < k / S.order * S.order + S.order := fun k => by
    have h1 := Nat.div_add_mod k S.order
    have h2 := Nat.mod_lt k hn
    rw [mul_comm] at h1
    omega
  have hlast : ∀ k < S.levels, k / S.order * S.order + S.order ≤ S.levels := fun k hk => by
    have h1 : k / S.order < S.levels / S.order := (Nat.div_lt_iff_lt_mul hn).2 (by rw [← hN]; exact hk)
    have h2 := Nat.mul_le_mul_right S.order (show k / S.order + 1 ≤ S.levels / S.order by omega)
    rw [Nat.add_mul, one_mul] at h2
    omega
  intro u hu
  unfold jacobianUpdates at hu
  simp only [List.mem_append] at hu
  obtain ((hu | hu) | hu) | hu := hu
  · refine hold u ?_
    unfold Vdyn.jacobianUpdates
    simp only [List.mem_append]
    rw [show fluxUpdates S G M x = Vdyn.fluxUpdates S (physical G) M x from funext fun k => flux_physical S G _ x k] at hu
    simp [hu]
  · obtain ⟨k, hk, hu⟩ := List.mem_flatMap.1 hu
    rw [List.mem_range'_1] at hk
    unfold pressureUpdates at hu
    dsimp only at hu
    rcases List.mem_append.1 hu with hu | hu
    · obtain ⟨m, hmem, rfl⟩ := List.mem_map.1 hu
      rw [mem_stencil] at hmem
      obtain ⟨r1, r2⟩ := diffNE_range E k (by omega) (by omega)
      have h1 := r1 m hmem.1 hmem.2
      have h2 := hblock m
      constructor
      · simp only [upd, vec]
        omega
      · intro hv
        have hc : (S.diffNE.row k).coeff m ≠ 0 := fun h => hv (by simp [upd, h])
        have := r2 m hc
        simp only [upd, vec]
        omega
    · obtain ⟨l, hl, hu⟩ := List.mem_flatMap.1 hu
      obtain ⟨-, t2, t3⟩ := toInterfaces_range T hn hN hm k (by omega)
      have t := t2 (by omega) (by omega)
      rw [mem_stencil] at hl
      simp only [List.mem_cons, List.not_mem_nil, or_false] at hu
      rcases hu with rfl | rfl
      · apply inBand_of <;> simp only [upd, vec] <;> omega
      · apply inBand_of <;> simp only [upd, vec] <;> omega
  · obtain ⟨k, hk, hu⟩ := List.mem_flatMap.1 hu
    rw [List.mem_range'_1] at hk
    unfold clarkUpdates at hu
    obtain ⟨l, hl, hu⟩ := List.mem_flatMap.1 hu
    obtain ⟨m, hmem, rfl⟩ := List.mem_map.1 hu
    rw [mem_stencil] at hl hmem
    obtain ⟨r1, r2⟩ := diffNE_range E k (by omega) (by omega)
    have h1 := r1 l hl.1 hl.2
    obtain ⟨t1, t2⟩ := toLevels_range T hn hN l (by omega)
    rw [t1, t2] at hmem
    have h2 := hblock l
    have h3 := hlast l (by omega)
    constructor
    · simp only [upd, vec]
      omega
    · intro hv
      have hc : (S.diffNE.row k).coeff l ≠ 0 := fun h => hv (by simp [upd, h])
      have := r2 l hc
      simp only [upd, vec]
      omega
  · refine hold u ?_
    unfold Vdyn.jacobianUpdates
    simp only [List.mem_append]
    rw [time_same] at hu
    simp [hu]

theorem stored (E : Elements S node edge gauss lob) (T : Stencils S node edge sNode sEdge gauss lob) (hL : Lorenz S)
    {d : Nat} (hd : offDiagonals S = some d) (G : Metric) (M : Memory) (x y : Nat → ℝ) (i : Nat) :
    ∑ j ∈ range (3 * (S.levels + 1)), banded d (store d (jacobianUpdates S G M x)) i j * y j =
      Vdyn.product (jacobianUpdates S G M x) y i := by
  have h := in_band E T hL hd G M x
  exact C91_solver d _ _ (fun u hu => (h u hu).1) (fun u hu => (h u hu).2) y i

theorem kinetic_congr (E : Elements S node edge gauss lob) (T : Stencils S node edge sNode sEdge gauss lob) (G : Metric) (D : Data)
    {x x' : Nat → ℝ} (h : Agree S.levels x x') (k : Nat) (hk : k < S.levels) :
    kinetic S G (asColumn D x) k = kinetic S G (asColumn D x') k := by
  unfold kinetic
  rw [levels_congr E T (asColumn D x).w (asColumn D x').w (fun j hj => agree_w h j hj) k hk]
  rfl

/-- The residual depends on the data and the unknowns only. -/
theorem residual_congr (E : Elements S node edge gauss lob) (T : Stencils S node edge sNode sEdge gauss lob)
    (hNN : SecondOnLevels S node edge gauss lob) (hL : Lorenz S) (href : S.useRef = true) (G : Metric) (D : Data) (M M' : Memory)
    {x x' : Nat → ℝ} (h : Agree S.levels x x') (i : Nat) (hi : IsUnknown S i) :
    residual S G (setupColumn S D M) x i = residual S G (setupColumn S D M') x' i := by
  obtain ⟨hi1, hi2⟩ := hi
  have hr : ∀ j < S.levels, (asColumn D x).r j = (asColumn D x').r j := fun j hj => agree_r h j hj
  have hp : ∀ j < S.levels, (asColumn D x).p j = (asColumn D x').p j := fun j hj => agree_p h j hj
  have hw : ∀ j ≤ S.levels, (asColumn D x).w j = (asColumn D x').w j := fun j hj => agree_w h j hj
  obtain hc | hc | hc : i = 3 * (i / 3) ∨ i = 3 * (i / 3) + 1 ∨ i = 3 * (i / 3) + 2 := by omega
  · have hk : i / 3 < S.levels := by omega
    rw [hc]
    generalize i / 3 = k at *
    rw [(C136_levels hL G D M x href k hk).2, (C136_levels hL G D M' x' href k hk).2,
      diffuse_congr E hNN _ _ _ _ hp k hk, agree_p h k hk,
      diffEN_congr E _ _ (fun j hj => flux_congr E T (physical G) D h _ _ hp j hj) k hk]
  · rw [hc]
    have hk : i / 3 ≤ S.levels := by omega
    generalize i / 3 = k at *
    by_cases h0 : 0 < k ∧ k < S.levels
    · rw [(C136_velocity hL G D M x href k).1 h0.1 h0.2, (C136_velocity hL G D M' x' href k).1 h0.1 h0.2]
      have e1 : theta S (asColumn D x) k = theta S (asColumn D x') k := by
        unfold theta
        rw [interp_congr E T _ _ hp k hk, interp_congr E T _ _ hr k hk]
      have e2 := diffNE_congr E _ _ (fun j hj => exner_congr D h j hj) k h0.1 h0.2
      have e3 := diffNE_congr E _ _ (fun j hj => kinetic_congr E T G D h j hj) k h0.1 h0.2
      have e4 : shear S (physical G) (asColumn D x) k = shear S (physical G) (asColumn D x') k := by
        unfold shear
        dsimp only
        rw [hw k hk]
        rfl
      have e5 : diffuse S S.diffDiffEE S.nuVector (asColumn D x).w (D.refEdge 3) k =
          diffuse S S.diffDiffEE S.nuVector (asColumn D x').w (D.refEdge 3) k := by
        unfold diffuse
        rw [second_congr E T _ _ hw k hk]
      rw [e1, e2, e3, e4, e5, agree_w h k hk]
    · rw [(C136_velocity hL G D M x href k).2 (by omega), (C136_velocity hL G D M' x' href k).2 (by omega), agree_w h k hk]
  · have hk : i / 3 < S.levels := by omega
    rw [hc]
    generalize i / 3 = k at *
    rw [(C136_levels hL G D M x href k hk).1, (C136_levels hL G D M' x' href k hk).1,
      agree_r h k hk, diffEN_congr E _ _ (fun j hj => flux_congr E T (physical G) D h _ _ hr j hj) k hk]

/-- The Jacobian depends on the data and the unknowns only. -/
theorem product_congr (E : Elements S node edge gauss lob) (T : Stencils S node edge sNode sEdge gauss lob) (hL : Lorenz S)
    (G : Metric) (D : Data) (M M' : Memory) {x x' y y' : Nat → ℝ} (hx : Agree S.levels x x') (hy : Agree S.levels y y') (i : Nat)
    (hi : IsUnknown S i) :
    Vdyn.product (jacobianUpdates S G (setupColumn S D M) x) y i =
      Vdyn.product (jacobianUpdates S G (setupColumn S D M') x') y' i := by
  obtain ⟨hi1, hi2⟩ := hi
  have hlev : ∀ k c, c = 0 ∨ c = 2 → k < S.levels → Vdyn.product (jacobianUpdates S G (setupColumn S D M) x) y (3 * k + c) =
      Vdyn.product (jacobianUpdates S G (setupColumn S D M') x') y' (3 * k + c) := by
    intro k c hc hk
    have hxc : ∀ j < S.levels, x (3 * j + c) = x' (3 * j + c) := fun j hj => hx.1 _ (by omega)
    have hyc : ∀ j < S.levels, y (3 * j + c) = y' (3 * j + c) := fun j hj => hy.1 _ (by omega)
    rw [product_level E hL G D M x y k c hc hk, product_level E hL G D M' x' y' k c hc hk,
      diffEN_congr E _ (fun m => G.jacEdge m * (applyRow S.interpNE (fun n => x' (3 * n + c)) m * windChange S (physical G) y' m +
        applyRow S.interpNE (fun n => y' (3 * n + c)) m * verticalWind S (physical G) (asColumn D x') m)) (fun m hm => by
          rw [interp_congr E T _ _ hxc m hm, interp_congr E T _ _ hyc m hm, change_congr (physical G) hy,
            wind_congr (physical G) D hx]) k hk, hyc k hk]
  obtain hc | hc | hc : i = 3 * (i / 3) ∨ i = 3 * (i / 3) + 1 ∨ i = 3 * (i / 3) + 2 := by omega
  · rw [hc]
    exact hlev (i / 3) 0 (Or.inl rfl) (by omega)
  · rw [hc]
    have hk : i / 3 ≤ S.levels := by omega
    generalize i / 3 = k at *
    by_cases h0 : 0 < k ∧ k < S.levels
    · rw [product_interface hL G D M x y k h0.1 h0.2, product_interface hL G D M' x' y' k h0.1 h0.2]
      have hp : ∀ j < S.levels, (asColumn D x).p j = (asColumn D x').p j := fun j hj => agree_p hx j hj
      have hr : ∀ j < S.levels, (asColumn D x).r j = (asColumn D x').r j := fun j hj => agree_r hx j hj
      have hw : ∀ j ≤ S.levels, (asColumn D x).w j = (asColumn D x').w j := fun j hj => agree_w hx j hj
      rw [interp_congr E T _ _ hp k hk, interp_congr E T _ _ hr k hk,
        interp_congr E T (fun n => y (3 * n)) (fun n => y' (3 * n)) (fun j hj => agree_p hy j hj) k hk,
        interp_congr E T (fun n => y (3 * n + 2)) (fun n => y' (3 * n + 2)) (fun j hj => agree_r hy j hj) k hk,
        diffNE_congr E _ _ (fun j hj => exner_congr D hx j hj) k h0.1 h0.2,
        diffNE_congr E (fun m => exner S (asColumn D x) m / x (3 * m) * y (3 * m))
          (fun m => exner S (asColumn D x') m / x' (3 * m) * y' (3 * m))
          (fun j hj => by rw [exner_congr D hx j hj, agree_p hx j hj, agree_p hy j hj]) k h0.1 h0.2,
        diffNE_congr E (fun l => (G.conXi l 0 * D.node 0 l + G.conXi l 1 * D.node 1 l +
          G.conXi l 2 * (applyRow S.interpEN (asColumn D x).w l * G.derivR l)) *
            (G.derivR l * applyRow S.interpEN (fun m => y (3 * m + 1)) l))
          (fun l => (G.conXi l 0 * D.node 0 l + G.conXi l 1 * D.node 1 l +
          G.conXi l 2 * (applyRow S.interpEN (asColumn D x').w l * G.derivR l)) *
            (G.derivR l * applyRow S.interpEN (fun m => y' (3 * m + 1)) l))
          (fun j hj => by
            rw [levels_congr E T _ _ hw j hj,
              levels_congr E T (fun m => y (3 * m + 1)) (fun m => y' (3 * m + 1)) (fun l hl => agree_w hy l hl) j hj]) k h0.1 h0.2,
        agree_w hy k hk]
    · rw [product_end G D M x y k (by omega), product_end G D M' x' y' k (by omega), agree_w hy k hk]
  · rw [hc]
    exact hlev (i / 3) 2 (Or.inr rfl) (by omega)

/-- The two entries of the column that are no unknowns. -/
theorem product_unused (G : Metric) (M : Memory) (x y : Nat → ℝ) (c : Nat) (hc : c = 0 ∨ c = 2) :
    Vdyn.product (jacobianUpdates S G M x) y (3 * S.levels + c) = 1 / S.dt * y (3 * S.levels + c) := by
  have hflux : Vdyn.product ((List.range S.levels).flatMap (fluxUpdates S G M x)) y (3 * S.levels + c) = 0 := by
    rw [show fluxUpdates S G M x = Vdyn.fluxUpdates S (physical G) M x from funext fun k => flux_physical S G _ x k,
      product_levels _ List.nodup_range _ _ _ (fun k' hk' => flux_other S (physical G) _ x y k' _ hk'),
      show (3 * S.levels + c) / 3 = S.levels by omega, if_neg (by simp)]
  have hpress : ∀ l : List Nat, Vdyn.product (l.flatMap (pressureUpdates S G M x)) y (3 * S.levels + c) = 0 := fun l => by
    rw [product_flatMap]
    exact sum_zero _ _ fun k' => pressure_other S G _ x y k' _ (by omega)
  have hclark : ∀ l : List Nat, Vdyn.product (l.flatMap (clarkUpdates S G M x)) y (3 * S.levels + c) = 0 := fun l => by
    rw [product_flatMap]
    exact sum_zero _ _ fun k' => clark_other S G _ x y k' _ (by omega)
  unfold jacobianUpdates
  simp only [product_append]
  rw [hflux, hpress, hclark, time_same, time_row S y _ (by omega)]
  ring

end

end Verif.ColumnV2
