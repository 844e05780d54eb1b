/-
Lemmas for the implicit step: the residual and the Jacobian depend on the unknowns of the column only.
-/
import Verif.Vdyn.ImplicitSpec
import Verif.Vdyn.Band

namespace Verif.Vdyn

open Verif.Column Verif.Interp Finset Polynomial

theorem applyRow_congr (A : Op) (f g : Nat → ℝ) (k : Nat) (h : ∀ j, (A.row k).ibegin ≤ j → j < (A.row k).iend → f j = g j) :
    applyRow A f k = applyRow A g k := by
  rw [applyRow_eq, applyRow_eq]
  refine sum_congr rfl fun j hj => ?_
  rw [mem_Ico] at hj
  rw [h j hj.1 hj.2]

section
variable {S : Setup} {node edge sNode sEdge : Nat → ℝ} {gauss lob : List ℝ × List ℝ}

/-- The penalty on a level. -/
theorem penalty_form (E : Elements S node edge gauss lob) (h1 : 1 < S.levels / S.order) (v z : Nat → ℝ) (k : Nat)
    (hk : k < S.levels) : penaltyApply S.penalty v z (fun _ => 0) 1 1 k =
        (if k / S.order < S.levels / S.order - 1 then applyRow S.penalty.left z k * v (k / S.order) else 0) +
        (if 1 ≤ k / S.order then applyRow S.penalty.right z k * v (k / S.order - 1) else 0) := by
  obtain ⟨hn, hN, hm, hone, hmany⟩ := penalty_facts E
  obtain ⟨p1, p2, p3, p4⟩ := hmany h1
  have := apply_at S.penalty (by omega) p3 p4 v z (fun _ => 0) 1 1 one_pos k (by rw [p2, p1, ← hN]; exact hk)
  simp only [mul_one, zero_add] at this
  rw [this, p1, p2]
  rfl

theorem penalty_congr (E : Elements S node edge gauss lob) (v v' z z' : Nat → ℝ)
    (hv : ∀ a, a + 1 < S.levels / S.order → v a = v' a) (hz : ∀ j < S.levels, z j = z' j) (k : Nat) (hk : k < S.levels) :
    penaltyApply S.penalty v z (fun _ => 0) 1 1 k = penaltyApply S.penalty v' z' (fun _ => 0) 1 1 k := by
  obtain ⟨hn, hN, hm, hone, hmany⟩ := penalty_facts E
  by_cases h1 : S.levels / S.order = 1
  · rw [hone h1, hone h1]
  · rw [penalty_form E (by omega) v z k hk, penalty_form E (by omega) v' z' k hk]
    have hr := penalty_range E (by omega) k hk
    have hkm : k / S.order < S.levels / S.order := (Nat.div_lt_iff_lt_mul hn).2 (by rw [← hN]; exact hk)
    congr 1
    · by_cases h : k / S.order < S.levels / S.order - 1
      · rw [if_pos h, if_pos h, hv _ (by omega)]
        congr 1
        refine applyRow_congr _ _ _ _ fun j h1 h2 => hz j ?_
        rw [(hr.1 (by omega)).2] at h2
        have : (k / S.order + 2) * S.order ≤ S.levels / S.order * S.order := Nat.mul_le_mul_right _ (by omega)
        rw [Nat.add_mul] at this
        omega
      · rw [if_neg h, if_neg h]
    · by_cases h : 1 ≤ k / S.order
      · rw [if_pos h, if_pos h, hv _ (by omega)]
        congr 1
        refine applyRow_congr _ _ _ _ fun j h1 h2 => hz j ?_
        rw [(hr.2 (by omega)).2] at h2
        have : (k / S.order + 1) * S.order ≤ S.levels / S.order * S.order := Nat.mul_le_mul_right _ (by omega)
        rw [Nat.add_mul] at this
        omega
      · rw [if_neg h, if_neg h]

/-- The penalty is linear in the column. -/
theorem penalty_sub (E : Elements S node edge gauss lob) (v z z' : Nat → ℝ) (k : Nat) (hk : k < S.levels) :
    penaltyApply S.penalty v (fun l => z l - z' l) (fun _ => 0) 1 1 k =
      penaltyApply S.penalty v z (fun _ => 0) 1 1 k - penaltyApply S.penalty v z' (fun _ => 0) 1 1 k := by
  obtain ⟨hn, hN, hm, hone, hmany⟩ := penalty_facts E
  by_cases h1 : S.levels / S.order = 1
  · rw [hone h1, hone h1, hone h1, sub_zero]
  · have hs : ∀ A : Op, applyRow A (fun l => z l - z' l) k = applyRow A z k - applyRow A z' k := by
      intro A
      rw [applyRow_eq, applyRow_eq, applyRow_eq, ← sum_sub_distrib]
      exact sum_congr rfl fun j _ => by ring
    rw [penalty_form E (by omega) _ _ k hk, penalty_form E (by omega) _ _ k hk, penalty_form E (by omega) _ _ k hk, hs, hs]
    split_ifs <;> ring

theorem agree_p {N : Nat} {x x' : Nat → ℝ} (h : Agree N x x') (j : Nat) (hj : j < N) : x (3 * j) = x' (3 * j) := h.1 _ (by omega)

theorem agree_r {N : Nat} {x x' : Nat → ℝ} (h : Agree N x x') (j : Nat) (hj : j < N) : x (3 * j + 2) = x' (3 * j + 2) :=
  h.1 _ (by omega)

theorem agree_w {N : Nat} {x x' : Nat → ℝ} (h : Agree N x x') (j : Nat) (hj : j ≤ N) : x (3 * j + 1) = x' (3 * j + 1) := by
  rcases Nat.lt_or_ge j N with hlt | hge
  · exact h.1 _ (by omega)
  · obtain rfl : j = N := by omega
    exact h.2

theorem wind_congr (G : Metric) (D : Data) {x x' : Nat → ℝ} (h : Agree S.levels x x') (k : Nat) :
    verticalWind S G (asColumn D x) k = verticalWind S G (asColumn D x') k := by
  unfold verticalWind
  by_cases hk : k = 0 ∨ S.levels ≤ k
  · rw [if_pos hk, if_pos hk]
  · rw [if_neg hk, if_neg hk]
    dsimp only [asColumn]
    rw [agree_w h k (by omega)]

theorem change_congr (G : Metric) {y y' : Nat → ℝ} (h : Agree S.levels y y') (k : Nat) : windChange S G y k = windChange S G y' k := by
  unfold windChange
  by_cases hk : k = 0 ∨ S.levels ≤ k
  · rw [if_pos hk, if_pos hk]
  · rw [if_neg hk, if_neg hk, agree_w h k (by omega)]

theorem interp_congr (E : Elements S node edge gauss lob) (T : Stencils S node edge sNode sEdge gauss lob) (f g : Nat → ℝ)
    (h : ∀ j < S.levels, f j = g j) (k : Nat) (hk : k ≤ S.levels) : applyRow S.interpNE f k = applyRow S.interpNE g k := by
  obtain ⟨hn, hN, hm, -⟩ := penalty_facts E
  have := (toInterfaces_range T hn hN hm k hk).2.2
  exact applyRow_congr _ _ _ _ fun j _ h2 => h j (by omega)

theorem levels_congr (E : Elements S node edge gauss lob) (T : Stencils S node edge sNode sEdge gauss lob) (f g : Nat → ℝ)
    (h : ∀ j ≤ S.levels, f j = g j) (k : Nat) (hk : k < S.levels) : applyRow S.interpEN f k = applyRow S.interpEN g k := by
  obtain ⟨hn, hN, hm, -⟩ := penalty_facts E
  have := (toLevels_range T hn hN k hk).2
  have hkm : k / S.order < S.levels / S.order := (Nat.div_lt_iff_lt_mul hn).2 (by rw [← hN]; exact hk)
  have hb : (k / S.order + 1) * S.order ≤ S.levels / S.order * S.order := Nat.mul_le_mul_right _ (by omega)
  rw [Nat.add_mul] at hb
  exact applyRow_congr _ _ _ _ fun j _ h2 => h j (by omega)

theorem diffEN_congr (E : Elements S node edge gauss lob) (f g : Nat → ℝ)
    (h : ∀ j ≤ S.levels, f j = g j) (k : Nat) (hk : k < S.levels) : applyRow S.diffEN f k = applyRow S.diffEN g k := by
  obtain ⟨hn, hN, hm, -⟩ := penalty_facts E
  have := (diffEN_range E k hk).2
  have hkm : k / S.order < S.levels / S.order := (Nat.div_lt_iff_lt_mul hn).2 (by rw [← hN]; exact hk)
  have hb : (k / S.order + 1) * S.order ≤ S.levels / S.order * S.order := Nat.mul_le_mul_right _ (by omega)
  rw [Nat.add_mul] at hb
  exact applyRow_congr _ _ _ _ fun j _ h2 => h j (by omega)

theorem diffNE_congr (E : Elements S node edge gauss lob) (f g : Nat → ℝ)
    (h : ∀ j < S.levels, f j = g j) (k : Nat) (h0 : 0 < k) (hk : k < S.levels) : applyRow S.diffNE f k = applyRow S.diffNE g k :=
  applyRow_congr _ _ _ _ fun j h1 h2 => h j ((diffNE_range E k h0 hk).1 j h1 h2).2.2

theorem second_congr (E : Elements S node edge gauss lob) (T : Stencils S node edge sNode sEdge gauss lob) (f g : Nat → ℝ)
    (h : ∀ j ≤ S.levels, f j = g j) (k : Nat) (hk : k ≤ S.levels) : applyRow S.diffDiffEE f k = applyRow S.diffDiffEE g k := by
  obtain ⟨hn, hN, hm, -⟩ := penalty_facts E
  have := (second_range T hn hN k hk).2.2
  exact applyRow_congr _ _ _ _ fun j _ h2 => h j (by omega)

/-- The second derivative of levels is the one the library sets up, if it is used. -/
def SecondOnLevels (S : Setup) (node edge : Nat → ℝ) (gauss lob : List ℝ × List ℝ) : Prop :=
  S.uniform = true → ∃ solve, diffDiffInit solve .levels S.order S.levels (S.levels + 1) node edge gauss lob = .ok S.diffDiffNN

theorem diffuse_congr (E : Elements S node edge gauss lob) (hNN : SecondOnLevels S node edge gauss lob) (nu : ℝ) (f g ref : Nat → ℝ)
    (h : ∀ j < S.levels, f j = g j) (k : Nat) (hk : k < S.levels) :
    diffuse S S.diffDiffNN nu f ref k = diffuse S S.diffDiffNN nu g ref k := by
  obtain ⟨hn, hN, hm, -⟩ := penalty_facts E
  unfold diffuse
  by_cases hu : S.uniform = true
  · rw [if_pos hu, if_pos hu]
    congr 2
    obtain ⟨solve, hs⟩ := hNN hu
    have hend : (S.diffDiffNN.row k).iend ≤ S.levels := by
      unfold diffDiffInit at hs
      split_ifs at hs
      dsimp only at hs
      cases hf : getDerivatives solve 2 (S.order + 1) with
      | ok f =>
        rw [hf] at hs
        have hrow := congrFun (congrArg Op.row (Res.ok.inj hs)).symm k
        rw [hrow]
        unfold ddRow
        dsimp only
        have hkm : k / S.order < S.levels / S.order := (Nat.div_lt_iff_lt_mul hn).2 (by rw [← hN]; exact hk)
        split_ifs with c
        · have : (k / S.order + 1) * S.order ≤ S.levels / S.order * S.order := Nat.mul_le_mul_right _ (by omega)
          omega
        · have : (k / S.order + 2) * S.order ≤ S.levels / S.order * S.order := Nat.mul_le_mul_right _ (by omega)
          omega
      | exc => rw [hf] at hs; simp at hs
      | ub => rw [hf] at hs; simp at hs
    exact applyRow_congr _ _ _ _ fun j _ h2 => h j (by omega)
  · rw [if_neg hu, if_neg hu]

theorem flux_congr (E : Elements S node edge gauss lob) (T : Stencils S node edge sNode sEdge gauss lob) (G : Metric) (D : Data)
    {x x' : Nat → ℝ} (h : Agree S.levels x x') (q q' : Nat → ℝ) (hq : ∀ j < S.levels, q j = q' j) (k : Nat) (hk : k ≤ S.levels) :
    flux S G (asColumn D x) q k = flux S G (asColumn D x') q' k := by
  unfold flux
  rw [wind_congr G D h, interp_congr E T q q' hq k hk]

theorem exner_congr (D : Data) {x x' : Nat → ℝ} (h : Agree S.levels x x') (k : Nat) (hk : k < S.levels) :
    exner S (asColumn D x) k = exner S (asColumn D x') k := by
  unfold exner asColumn
  dsimp only
  rw [agree_p h k hk]

theorem kinetic_congr (E : Elements S node edge gauss lob) (T : Stencils S node edge sNode sEdge gauss lob) (G : Metric) (D : Data)
    {x x' : Nat → ℝ} (h : Agree S.levels x x') (k : Nat) (hk : k < S.levels) :
    kinetic S G (asColumn D x) k = kinetic S G (asColumn D x') k := by
  unfold kinetic
  rw [levels_congr E T (asColumn D x).w (asColumn D x').w (fun j hj => agree_w h j hj) k hk]
  rfl

/-- The residual depends on the data and the unknowns only. -/
theorem residual_congr (E : Elements S node edge gauss lob) (T : Stencils S node edge sNode sEdge gauss lob)
    (hNN : SecondOnLevels S node edge gauss lob) (hL : Lorenz S) (href : S.useRef = true) (G : Metric) (D : Data) (M M' : Memory)
    {x x' : Nat → ℝ} (h : Agree S.levels x x') (i : Nat) (hi : IsUnknown S i) :
    residual S G (setupColumn S D M) x i = residual S G (setupColumn S D M') x' i := by
  obtain ⟨hi1, hi2⟩ := hi
  have hr : ∀ j < S.levels, (asColumn D x).r j = (asColumn D x').r j := fun j hj => agree_r h j hj
  have hp : ∀ j < S.levels, (asColumn D x).p j = (asColumn D x').p j := fun j hj => agree_p h j hj
  have hw : ∀ j ≤ S.levels, (asColumn D x).w j = (asColumn D x').w j := fun j hj => agree_w h j hj
  have hpen : ∀ (q q' : Nat → ℝ) (k : Nat), k < S.levels → (∀ j < S.levels, q j = q' j) →
      penaltyApply S.penalty (fun a => |verticalWind S G (asColumn D x) ((a + 1) * S.order)|) q (fun _ => 0) 1 1 k =
      penaltyApply S.penalty (fun a => |verticalWind S G (asColumn D x') ((a + 1) * S.order)|) q' (fun _ => 0) 1 1 k :=
    fun q q' k hk hq => penalty_congr E _ _ _ _ (fun a _ => by rw [wind_congr G D h]) hq k hk
  obtain hc | hc | hc : i = 3 * (i / 3) ∨ i = 3 * (i / 3) + 1 ∨ i = 3 * (i / 3) + 2 := by omega
  · have hk : i / 3 < S.levels := by omega
    rw [hc]
    generalize i / 3 = k at *
    rw [(C90_levels hL E.elements G D M x href k hk).2, (C90_levels hL E.elements G D M' x' href k hk).2, hpen _ _ k hk hp,
      diffuse_congr E hNN _ _ _ _ hp k hk, agree_p h k hk,
      diffEN_congr E _ _ (fun j hj => flux_congr E T G D h _ _ hp j hj) k hk]
  · rw [hc]
    have hk : i / 3 ≤ S.levels := by omega
    generalize i / 3 = k at *
    by_cases h0 : 0 < k ∧ k < S.levels
    · rw [(C90_velocity hL G D M x href k).1 h0.1 h0.2, (C90_velocity hL G D M' x' href k).1 h0.1 h0.2]
      have e1 : theta S (asColumn D x) k = theta S (asColumn D x') k := by
        unfold theta
        rw [interp_congr E T _ _ hp k hk, interp_congr E T _ _ hr k hk]
      have e2 := diffNE_congr E _ _ (fun j hj => exner_congr D h j hj) k h0.1 h0.2
      have e3 := diffNE_congr E _ _ (fun j hj => kinetic_congr E T G D h j hj) k h0.1 h0.2
      have e4 : shear S G (asColumn D x) k = shear S G (asColumn D x') k := by
        unfold shear
        dsimp only
        rw [hw k hk]
        rfl
      have e5 : diffuse S S.diffDiffEE S.nuVector (asColumn D x).w (D.refEdge 3) k =
          diffuse S S.diffDiffEE S.nuVector (asColumn D x').w (D.refEdge 3) k := by
        unfold diffuse
        rw [second_congr E T _ _ hw k hk]
      have e6 : upwindW S G (asColumn D x) k = upwindW S G (asColumn D x') k := by
        unfold upwindW
        rw [second_congr E T _ _ hw k hk, wind_congr G D h]
      rw [e1, e2, e3, e4, e5, e6, agree_w h k hk]
    · rw [(C90_velocity hL G D M x href k).2 (by omega), (C90_velocity hL G D M' x' href k).2 (by omega), agree_w h k hk]
  · have hk : i / 3 < S.levels := by omega
    rw [hc]
    generalize i / 3 = k at *
    rw [(C90_levels hL E.elements G D M x href k hk).1, (C90_levels hL E.elements G D M' x' href k hk).1, hpen _ _ k hk hr,
      agree_r h k hk, diffEN_congr E _ _ (fun j hj => flux_congr E T G D h _ _ hr j hj) k hk]

/-- The Jacobian depends on the data and the unknowns only. -/
theorem product_congr (E : Elements S node edge gauss lob) (T : Stencils S node edge sNode sEdge gauss lob) (hL : Lorenz S)
    (G : Metric) (D : Data) (M M' : Memory) {x x' y y' : Nat → ℝ} (hx : Agree S.levels x x') (hy : Agree S.levels y y') (i : Nat)
    (hi : IsUnknown S i) :
    product (jacobianUpdates S G (setupColumn S D M) x) y i = product (jacobianUpdates S G (setupColumn S D M') x') y' i := by
  obtain ⟨hi1, hi2⟩ := hi
  have hlev : ∀ k c, c = 0 ∨ c = 2 → k < S.levels → product (jacobianUpdates S G (setupColumn S D M) x) y (3 * k + c) =
      product (jacobianUpdates S G (setupColumn S D M') x') y' (3 * k + c) := by
    intro k c hc hk
    have hxc : ∀ j < S.levels, x (3 * j + c) = x' (3 * j + c) := fun j hj => hx.1 _ (by omega)
    have hyc : ∀ j < S.levels, y (3 * j + c) = y' (3 * j + c) := fun j hj => hy.1 _ (by omega)
    rw [product_level E hL G D M x y k c hc hk, product_level E hL G D M' x' y' k c hc hk,
      diffEN_congr E _ (fun m => G.jacEdge m * (applyRow S.interpNE (fun n => x' (3 * n + c)) m * windChange S G y' m +
        applyRow S.interpNE (fun n => y' (3 * n + c)) m * verticalWind S G (asColumn D x') m)) (fun m hm => by
          rw [interp_congr E T _ _ hxc m hm, interp_congr E T _ _ hyc m hm, change_congr G hy, wind_congr G D hx]) k hk,
      penalty_congr E (fun a => |verticalWind S G (asColumn D x) ((a + 1) * S.order)|) 
        (fun a => |verticalWind S G (asColumn D x') ((a + 1) * S.order)|) _ _ (fun a _ => by rw [wind_congr G D hx]) hyc k hk,
      penalty_congr E (fun a => sgn (verticalWind S G (asColumn D x) ((a + 1) * S.order)) * windChange S G y ((a + 1) * S.order))
        (fun a => sgn (verticalWind S G (asColumn D x') ((a + 1) * S.order)) * windChange S G y' ((a + 1) * S.order)) _ _
        (fun a _ => by rw [wind_congr G D hx, change_congr G hy]) hxc k hk, hyc k hk]
  obtain hc | hc | hc : i = 3 * (i / 3) ∨ i = 3 * (i / 3) + 1 ∨ i = 3 * (i / 3) + 2 := by omega
  · rw [hc]
    exact hlev (i / 3) 0 (Or.inl rfl) (by omega)
  · rw [hc]
    have hk : i / 3 ≤ S.levels := by omega
    generalize i / 3 = k at *
    by_cases h0 : 0 < k ∧ k < S.levels
    · rw [product_interface hL G D M x y k h0.1 h0.2, product_interface hL G D M' x' y' k h0.1 h0.2]
      have hp : ∀ j < S.levels, (asColumn D x).p j = (asColumn D x').p j := fun j hj => agree_p hx j hj
      have hr : ∀ j < S.levels, (asColumn D x).r j = (asColumn D x').r j := fun j hj => agree_r hx j hj
      have hw : ∀ j ≤ S.levels, (asColumn D x).w j = (asColumn D x').w j := fun j hj => agree_w hx j hj
      rw [interp_congr E T _ _ hp k hk, interp_congr E T _ _ hr k hk,
        interp_congr E T (fun n => y (3 * n)) (fun n => y' (3 * n)) (fun j hj => agree_p hy j hj) k hk,
        interp_congr E T (fun n => y (3 * n + 2)) (fun n => y' (3 * n + 2)) (fun j hj => agree_r hy j hj) k hk,
        diffNE_congr E _ _ (fun j hj => exner_congr D hx j hj) k h0.1 h0.2,
        diffNE_congr E (fun m => exner S (asColumn D x) m / x (3 * m) * y (3 * m))
          (fun m => exner S (asColumn D x') m / x' (3 * m) * y' (3 * m))
          (fun j hj => by rw [exner_congr D hx j hj, agree_p hx j hj, agree_p hy j hj]) k h0.1 h0.2,
        diffNE_congr E (fun l => (G.conXi l 0 * D.node 0 l + G.conXi l 1 * D.node 1 l +
          G.conXi l 2 * applyRow S.interpEN (asColumn D x).w l) * applyRow S.interpEN (fun m => y (3 * m + 1)) l)
          (fun l => (G.conXi l 0 * D.node 0 l + G.conXi l 1 * D.node 1 l +
          G.conXi l 2 * applyRow S.interpEN (asColumn D x').w l) * applyRow S.interpEN (fun m => y' (3 * m + 1)) l)
          (fun j hj => by
            rw [levels_congr E T _ _ hw j hj,
              levels_congr E T (fun m => y (3 * m + 1)) (fun m => y' (3 * m + 1)) (fun l hl => agree_w hy l hl) j hj]) k h0.1 h0.2,
        second_congr E T _ _ hw k hk,
        second_congr E T (fun n => y (3 * n + 1)) (fun n => y' (3 * n + 1)) (fun l hl => agree_w hy l hl) k hk,
        wind_congr G D hx, change_congr G hy, agree_w hy k hk]
    · rw [product_end hL G D M x y k (by omega), product_end hL G D M' x' y' k (by omega), agree_w hy k hk]
  · rw [hc]
    exact hlev (i / 3) 2 (Or.inr rfl) (by omega)

/-- The two entries of the column that are no unknowns. -/
theorem product_unused (hL : Lorenz S) (G : Metric) (M : Memory) (x y : Nat → ℝ) (hE : Elements S node edge gauss lob) (c : Nat)
    (hc : c = 0 ∨ c = 2) :
    product (jacobianUpdates S G M x) y (3 * S.levels + c) = 1 / S.dt * y (3 * S.levels + c) := by
  obtain ⟨hn, hN, hm, hone, hmany⟩ := penalty_facts hE
  have hflux : product ((List.range S.levels).flatMap (fluxUpdates S G M x)) y (3 * S.levels + c) = 0 := by
    rw [product_levels _ List.nodup_range _ _ _ (fun k' hk' => flux_other S G _ x y k' _ hk'),
      show (3 * S.levels + c) / 3 = S.levels by omega, if_neg (by simp)]
  have hpress : ∀ l : List Nat, product (l.flatMap (pressureUpdates S M x)) y (3 * S.levels + c) = 0 := fun l => by
    rw [product_flatMap]
    exact sum_zero _ _ fun k' => pressure_other S _ x y k' _ (by omega)
  have hclark : ∀ l : List Nat, product (l.flatMap (clarkUpdates S G M x)) y (3 * S.levels + c) = 0 := fun l => by
    rw [product_flatMap]
    exact sum_zero _ _ fun k' => clark_other S G _ x y k' _ (by omega)
  have hup3 : product (upwindUpdates S G M x 3) y (3 * S.levels + c) = 0 := by
    have : onEdge S 3 = true := by simp [onEdge, hL.1]
    rw [upwindUpdates, this, if_pos rfl, upwindEdge_other S G _ x y _ (by omega)]
  have hup : ∀ c', c' = 2 ∨ c' = 4 → product (upwindUpdates S G M x c') y (3 * S.levels + c) = 0 := by
    intro c' hc'
    have hon : onEdge S c' = false := by
      rcases hc' with rfl | rfl
      · simp [onEdge, hL.2.1]
      · simp [onEdge]
    unfold product
    apply List.sum_eq_zero
    intro v hv
    obtain ⟨u, hu, rfl⟩ := List.mem_map.1 hv
    have hrow : u.row < 3 * S.levels := by
      rw [upwindUpdates, hon] at hu
      simp only [Bool.false_eq_true, if_false] at hu
      obtain ⟨a, ha, hu⟩ := List.mem_flatMap.1 hu
      rw [List.mem_range'_1] at ha
      have hper : perElement S = S.order := by simp [perElement, hE.elements]
      have hne : nElements S = S.levels / S.order := by simp [nElements, hE.elements]
      have e1 : (a - 1) * S.order + S.order = a * S.order := by
        conv_rhs => rw [show a = a - 1 + 1 by omega, Nat.add_mul, one_mul]
      have e2 : a * S.order + S.order ≤ S.levels := by
        have : (a + 1) * S.order ≤ S.levels / S.order * S.order := Nat.mul_le_mul_right _ (by omega)
        rw [Nat.add_mul, one_mul] at this
        omega
      unfold upwindLevelUpdates at hu
      dsimp only at hu
      rw [hper] at hu
      simp only [List.mem_append, List.mem_flatMap, List.mem_map, List.mem_range'_1] at hu
      obtain ((⟨k, hk, l, hl, rfl⟩ | ⟨k, hk, l, hl, rfl⟩) | ⟨k, hk, l, hl, rfl⟩) | ⟨k, hk, l, hl, rfl⟩ := hu <;>
        simp only [upd, vec] <;> omega
    rw [if_neg (by omega)]
  unfold jacobianUpdates
  simp only [product_append]
  rw [hflux, hpress, hclark, hup3, hup 2 (by omega), hup 4 (by omega), time_row S y _ (by omega)]
  ring

end

end Verif.Vdyn
