import Verif.Whole.Conserve

/-!
# A lake at rest
-/

namespace Verif.Whole

open Verif.Horiz (Var value Medium)

/-- Viscosity leaves the velocity alone where the flow that is diffused is at rest. -/
theorem vector_rest (M : Medium) (ω : Nat → ℝ) (h : Horiz.Paired M.G.S.order M.B ω) (xz : Bool) (init : Horiz.Data)
    (dt nuDiv nuVort : ℝ) (scale : Bool) (u : Horiz.Data) (a b k : Nat) (ha : a < M.G.S.elemA) (hb : b < M.G.S.elemB)
    (hk : k < M.G.S.levels)
    (h0 : ∀ i j, i < M.G.S.order → j < M.G.S.order → value M.G.S init (.state 0) a b k i j = 0 ∧
      value M.G.S init (.state 1) a b k i j = 0) (i j : Nat) (hi : i < M.G.S.order) (hj : j < M.G.S.order) (v : Var) :
    value M.G.S (Horiz.applyVector M xz init dt nuDiv nuVort scale u) v a b k i j = value M.G.S u v a b k i j := by
  by_cases hv : v ≠ .state 0 ∧ v ≠ .state 1
  · exact Horiz.vector_out M xz init dt nuDiv nuVort scale u _ hv
  obtain ⟨c1, c2⟩ := Horiz.vector_change M xz init dt nuDiv nuVort scale u a b k i j ha hb hk hi hj
  have r0 : ∀ i j, i < M.G.S.order → j < M.G.S.order → Horiz.read M.G init a b k 0 i j = 0 := fun i j hi hj =>
    (Horiz.value_at _ _ _ _ _ _ _ _).symm.trans (h0 i j hi hj).1
  have r1 : ∀ i j, i < M.G.S.order → j < M.G.S.order → Horiz.read M.G init a b k 1 i j = 0 := fun i j hi hj =>
    (Horiz.value_at _ _ _ _ _ _ _ _).symm.trans (h0 i j hi hj).2
  have ca : ∀ i j, i < M.G.S.order → j < M.G.S.order → Horiz.conUa M.G init a b k i j = 0 := fun i j hi hj => by
    rw [Horiz.conUa, r0 i j hi hj, r1 i j hi hj]; ring
  have cb : ∀ i j, i < M.G.S.order → j < M.G.S.order → Horiz.conUb M.G init a b k i j = 0 := fun i j hi hj => by
    rw [Horiz.conUb, r0 i j hi hj, r1 i j hi hj]; ring
  have d : ∀ i j, i < M.G.S.order → j < M.G.S.order → Horiz.divergence M init a b k i j = 0 := by
    intro i j hi hj
    rw [Horiz.divergence, Horiz.derivA_const M.G M.B ω h _ 0 i j hi (fun s hs => by rw [ca s j hs hj, mul_zero]),
      Horiz.derivB_const M.G M.B ω h _ 0 i j hj (fun s hs => by rw [cb i s hi hs, mul_zero])]
    simp
  have c : ∀ i j, i < M.G.S.order → j < M.G.S.order → Horiz.vorticity M init a b k i j = 0 := by
    intro i j hi hj
    rw [Horiz.vorticity, Horiz.derivA_const M.G M.B ω h _ 0 i j hi (fun s hs => r1 s j hs hj),
      Horiz.derivB_const M.G M.B ω h _ 0 i j hj (fun s hs => r0 i s hi hs)]
    simp
  have wA : ∀ f : Nat → Nat → ℝ, (∀ i j, i < M.G.S.order → j < M.G.S.order → f i j = 0) →
      Horiz.weakA M.G M.B f i j = 0 := by
    intro f hf
    rw [Horiz.weakA_sum, Finset.sum_eq_zero (fun s hs => by rw [hf s j (Finset.mem_range.1 hs) hj, zero_mul])]; ring
  have wB : ∀ f : Nat → Nat → ℝ, (∀ i j, i < M.G.S.order → j < M.G.S.order → f i j = 0) →
      Horiz.weakB M.G M.B f i j = 0 := by
    intro f hf
    rw [Horiz.weakB_sum, Finset.sum_eq_zero (fun s hs => by rw [hf i s hi (Finset.mem_range.1 hs), zero_mul])]; ring
  rw [Horiz.vectorUa, wA _ d, wA _ c, wB _ c] at c1
  rw [Horiz.vectorUb, wB _ d, wA _ c, wB _ c] at c2
  simp only [Horiz.flowChange, Horiz.change] at c1 c2
  rw [not_and_or, not_not, not_not] at hv
  rcases hv with rfl | rfl
  · linarith
  · cases xz <;> simp at c2 <;> linarith

variable (W : World)

/-- Two fields agree on velocity and height at the nodes the patches own. -/
def World.Same (v w : W.Field) : Prop :=
  ∀ n iA iB k, Horiz.Interior (W.tile n).M.G.S iA iB → k < W.levels → ∀ c, c < 3 → v n c iA iB k = w n c iA iB k

theorem World.AtRest.of_same {H : ℝ} {v w : W.Field} (h : W.AtRest H w) (hs : W.Same v w) : W.AtRest H v := by
  intro n iA iB k hI hk
  rw [hs n iA iB k hI hk 0 (by omega), hs n iA iB k hI hk 1 (by omega), hs n iA iB k hI hk 2 (by omega)]
  exact h n iA iB k hI hk

theorem World.interior_element (hW : W.Tiled) (n : Fin W.count) (iA iB : Nat)
    (hI : Horiz.Interior (W.tile n).M.G.S iA iB) : ∃ a b i j, a < (W.tile n).M.G.S.elemA ∧ b < (W.tile n).M.G.S.elemB ∧
      i < W.order ∧ j < W.order ∧ iA = W.halo + a * W.order + i ∧ iB = W.halo + b * W.order + j := by
  obtain ⟨s1, s2, -⟩ := hW.shape n
  have ho := hW.order
  unfold Horiz.Interior at hI
  rw [s1, s2] at hI
  obtain ⟨h1, h2, h3, h4⟩ := hI
  refine ⟨(iA - W.halo) / W.order, (iB - W.halo) / W.order, (iA - W.halo) % W.order, (iB - W.halo) % W.order,
    Nat.div_lt_of_lt_mul (by rw [mul_comm]; omega), Nat.div_lt_of_lt_mul (by rw [mul_comm]; omega),
    Nat.mod_lt _ (by omega), Nat.mod_lt _ (by omega), ?_, ?_⟩
  · have := Nat.div_add_mod' (iA - W.halo) W.order; omega
  · have := Nat.div_add_mod' (iB - W.halo) W.order; omega

/-- Fields that agree on all elements agree. -/
theorem World.same_of (hW : W.Tiled) (x y : W.Field × W.Field)
    (h : ∀ n a b k i j, a < (W.tile n).M.G.S.elemA → b < (W.tile n).M.G.S.elemB → k < W.levels → i < W.order →
      j < W.order → ∀ c, c < 3 → value (W.tile n).M.G.S (W.join x n) (.state c) a b k i j =
        value (W.tile n).M.G.S (W.join y n) (.state c) a b k i j) : W.Same x.1 y.1 := by
  intro n iA iB k hI hk c hc
  obtain ⟨s1, s2, -⟩ := hW.shape n
  obtain ⟨a, b, i, j, ha, hb, hi, hj, rfl, rfl⟩ := W.interior_element hW n iA iB hI
  have := h n a b k i j ha hb hk hi hj c hc
  unfold value World.join at this
  simp only [s1, s2] at this
  exact this

theorem World.rest_values (hW : W.Tiled) (H : ℝ) (x : W.Field × W.Field) (hx : W.AtRest H x.1) (n : Fin W.count)
    (a b k : Nat) (ha : a < (W.tile n).M.G.S.elemA) (hb : b < (W.tile n).M.G.S.elemB) (hk : k < W.levels) (i j : Nat)
    (hi : i < (W.tile n).M.G.S.order) (hj : j < (W.tile n).M.G.S.order) :
    value (W.tile n).M.G.S (W.join x n) (.state 0) a b k i j = 0 ∧
      value (W.tile n).M.G.S (W.join x n) (.state 1) a b k i j = 0 ∧
      value (W.tile n).M.G.S (W.join x n) (.state 2) a b k i j = H := by
  obtain ⟨s1, s2, -⟩ := hW.shape n
  rw [s1] at hi hj
  have := hx n _ _ k (W.element_interior hW n a b i j ha hb hi hj) hk
  unfold value World.join
  simp only [s1, s2]
  exact this

section
variable (hW : W.Tiled) (hS : W.ShallowWater) (hQ : W.Quadrature)

include hW hQ in
theorem World.explicit_rest (hr : W.uniform = true → ∀ n iA iB k, (W.tile n).M.ref ⟨.state 0, iA, iB, k⟩ = 0 ∧
      (W.tile n).M.ref ⟨.state 1, iA, iB, k⟩ = 0) (dt H : ℝ) (x y : W.Field × W.Field) (hx : W.AtRest H x.1) :
    W.Same (W.stepExplicit dt x y).1 y.1 := by
  refine W.same_of hW _ _ (fun n a b k i j ha hb hk hi hj c hc => ?_)
  obtain ⟨s1, s2, s3, -⟩ := hW.shape n
  have hp : Horiz.Paired (W.tile n).M.G.S.order (W.tile n).M.B W.weight := by rw [s1]; exact hQ.paired n
  have hk' : k < (W.tile n).M.G.S.levels := by rw [s3]; exact hk
  have vals := W.rest_values hW H x hx n a b k ha hb hk
  unfold World.stepExplicit
  rw [W.join_split]
  unfold World.explicitOn
  simp only
  have e1 : ∀ u, value (W.tile n).M.G.S (Horiz.filterTracers (W.tile n).M.G.S (W.area n) u) (.state c) a b k i j =
      value (W.tile n).M.G.S u (.state c) a b k i j := fun u => Horiz.filter_state _ _ _ _ c rfl
  rw [e1]
  have lake := Horiz.C74_lake (W.tile n).M.G (W.tile n).M.B W.weight hp (W.join x n) dt (W.join y n) a b k ha hb hk' H vals
    (.state c) i j (by rw [s1]; exact hi) (by rw [s1]; exact hj)
  split_ifs with hu
  · rw [vector_rest (W.tile n).M W.weight hp _ _ _ _ _ _ _ a b k ha hb hk' (fun i j _ _ => by
        unfold value
        exact hr hu n _ _ _) i j (by rw [s1]; exact hi) (by rw [s1]; exact hj),
      vector_rest (W.tile n).M W.weight hp _ _ _ _ _ _ _ a b k ha hb hk' (fun i j hi hj =>
        ⟨(vals i j hi hj).1, (vals i j hi hj).2.1⟩) i j (by rw [s1]; exact hi) (by rw [s1]; exact hj)]
    exact lake
  · exact lake

include hW hS hQ in
theorem World.diffuse_rest (dt nuScalar dt' nuDiv nuVort : ℝ) (scale : Bool) (H : ℝ) (x y : W.Field × W.Field)
    (hx : W.AtRest H x.1) : W.Same (W.diffuse dt nuScalar dt' nuDiv nuVort scale x y).1 y.1 := by
  refine W.same_of hW _ _ (fun n a b k i j ha hb hk hi hj c hc => ?_)
  obtain ⟨s1, s2, s3, -⟩ := hW.shape n
  have hp : Horiz.Paired (W.tile n).M.G.S.order (W.tile n).M.B W.weight := by rw [s1]; exact hQ.paired n
  have hk' : k < (W.tile n).M.G.S.levels := by rw [s3]; exact hk
  have vals := W.rest_values hW H x hx n a b k ha hb hk
  unfold World.diffuse
  rw [W.join_split]
  simp only
  rw [vector_rest (W.tile n).M W.weight hp _ _ _ _ _ _ _ a b k ha hb hk' (fun i j hi hj =>
        ⟨(vals i j hi hj).1, (vals i j hi hj).2.1⟩) i j (by rw [s1]; exact hi) (by rw [s1]; exact hj)]
  cases happ : Horiz.applyScalar (W.tile n).M (W.join x n) dt nuScalar scale (-1) false (W.join y n) with
  | none => rfl
  | some r =>
    simp only [Option.getD_some]
    have const : ∀ C, (∀ i j, i < (W.tile n).M.G.S.order → j < (W.tile n).M.G.S.order →
        value (W.tile n).M.G.S (W.join x n) (.state c) a b k i j = C) →
        value (W.tile n).M.G.S r (.state c) a b k i j = value (W.tile n).M.G.S (W.join y n) (.state c) a b k i j := by
      intro C hC
      refine Horiz.C75_uniform (W.tile n).M W.weight hp (W.join x n) dt nuScalar scale (-1) false (W.join y n) r happ
        (.state c) a b k ha hb (.inl ⟨hS.nodes n c, hk'⟩) C (fun i j hi hj => ?_) i j (by rw [s1]; exact hi)
        (by rw [s1]; exact hj)
      rw [← hC i j hi hj]
      simp [Horiz.diffused]
    interval_cases c
    · exact const 0 fun i j hi hj => (vals i j hi hj).1
    · exact const 0 fun i j hi hj => (vals i j hi hj).2.1
    · exact const H fun i j hi hj => (vals i j hi hj).2.2

/-- The mean of equal values. -/
theorem World.mean_const (turn : Int × Int × Int → Bool → Bool) (hM : W.Mutual turn) (f : Int × Int × Int → ℝ) (C : ℝ)
    (hf : ∀ n ∈ W.nodes, f n = C) (n : Int × Int × Int) (hn : n ∈ W.nodes) : W.mean f n = C := by
  unfold World.mean
  split_ifs with ht
  · rw [hf n hn, hf _ (hM.closed _ n hn), hf _ (hM.closed _ n hn)]; ring
  · rw [hf n hn, hf _ (hM.closed _ n hn), hf _ (hM.closed _ n hn), hf _ (hM.dclosed n hn ht).1]; ring

include hW in
theorem World.mutual : ∃ turn, W.Mutual turn := by
  cases hk : W.kind with
  | sphere => exact ⟨_, W.mutual_sphere hW hk⟩
  | plane => exact ⟨_, W.mutual_plane hW hk⟩

include hW in
theorem World.rest_field (H : ℝ) (v : W.Field) (hv : W.AtRest H v) (k : Nat) (hk : k < W.levels) (n : Int × Int × Int)
    (hn : n ∈ W.nodes) : W.field v 0 k n = 0 ∧ W.field v 1 k n = 0 ∧ W.field v 2 k n = H := by
  obtain ⟨p, g, h⟩ := n
  obtain ⟨i, hi⟩ := W.contains_some hW p g h hn
  obtain ⟨a1, ⟨a2, a3⟩, a4, a5⟩ := (W.contains_iff hW i p g h).mp hi
  obtain ⟨s1, s2, -⟩ := hW.shape i
  rw [add_mul] at a3 a5
  obtain ⟨iA, hA⟩ : ∃ iA : Nat, (iA : Int) = g - (W.tile i).eA * W.order + W.halo :=
    ⟨(g - (W.tile i).eA * W.order + W.halo).toNat, by omega⟩
  obtain ⟨iB, hB⟩ : ∃ iB : Nat, (iB : Int) = h - (W.tile i).eB * W.order + W.halo :=
    ⟨(h - (W.tile i).eB * W.order + W.halo).toNat, by omega⟩
  have hI : Horiz.Interior (W.tile i).M.G.S iA iB := by
    unfold Horiz.Interior
    rw [s1, s2]
    zify
    refine ⟨?_, ?_, ?_, ?_⟩ <;> linarith
  have hp : (p, g, h) = W.place i iA iB := by
    unfold World.place
    rw [a1, hA, hB]
    simp
  rw [hp, W.field_own hW v 0 k i iA iB hI, W.field_own hW v 1 k i iA iB hI, W.field_own hW v 2 k i iA iB hI]
  exact hv i iA iB k hI hk

include hW in
theorem World.rest_velocity (H : ℝ) (v : W.Field) (hv : W.AtRest H v) (k : Nat) (hk : k < W.levels)
    (n : Int × Int × Int) : W.field v 0 k n = 0 ∧ W.field v 1 k n = 0 := by
  cases ho : W.owner n.1 n.2.1 n.2.2 with
  | none =>
    unfold World.field
    rw [ho]
    exact ⟨rfl, rfl⟩
  | some i =>
    have hc : W.contains i n.1 n.2.1 n.2.2 = true := by
      unfold World.owner at ho
      have h := List.find?_some ho
      simpa using h
    have := W.rest_field hW H v hv k hk n (W.contains_node hW i _ _ _ hc)
    exact ⟨this.1, this.2.1⟩

include hW hS in
theorem World.dss_rest (hT : W.TurnsRest) (H : ℝ) (v : W.Field) (hv : W.AtRest H v) : W.AtRest H (W.dssState v) := by
  intro i iA iB k hI hk
  obtain ⟨turn, hM⟩ := W.mutual hW
  have hn := W.contains_node hW i _ _ _ (W.place_in hW i iA iB hI)
  have h3 := hS.three
  have vel : ∀ a b : Int, 0 ≤ a → 0 ≤ b → ∀ n,
      W.see (W.place i a b).1 (W.place i a b).2.1 (W.place i a b).2.2 = some n →
      W.turn i (W.exchange v i) 0 a.toNat b.toNat k = 0 ∧ W.turn i (W.exchange v i) 1 a.toNat b.toNat k = 0 := by
    intro a b ha hb n hs
    have e : ∀ c, W.exchange v i c a.toNat b.toNat k = W.field v c k n := by
      intro c
      refine W.exchange_at hW v i c a.toNat b.toNat k n ?_
      rw [Int.toNat_of_nonneg ha, Int.toNat_of_nonneg hb]
      exact hs
    have z := W.rest_velocity hW H v hv k hk n
    exact hT i _ _ _ k ((e 0).trans z.1) ((e 1).trans z.2)
  refine ⟨?_, ?_, ?_⟩
  · unfold World.dssState World.averageAll
    rw [if_pos ⟨by omega, hk⟩,
      W.average_at hW turn hM i _ (fun _ => 0) (fun a b ha hb n hs => (vel a b ha hb n hs).1) iA iB hI]
    exact W.mean_const turn hM _ 0 (fun _ _ => rfl) _ hn
  · unfold World.dssState World.averageAll
    rw [if_pos ⟨by omega, hk⟩,
      W.average_at hW turn hM i _ (fun _ => 0) (fun a b ha hb n hs => (vel a b ha hb n hs).2) iA iB hI]
    exact W.mean_const turn hM _ 0 (fun _ _ => rfl) _ hn
  · have := W.averageAll_field hW turn hM v (fun i => W.turn i (W.exchange v i)) W.components 2 k (by omega) hk
      (fun i => hS.turn i _ 2 le_rfl) (W.place i iA iB) hn
    rw [W.field_own hW _ 2 k i iA iB hI] at this
    refine this.trans ?_
    exact W.mean_const turn hM _ H (fun n hn => (W.rest_field hW H v hv k hk n hn).2.2) _ hn

include hW hS hQ in
theorem World.after_rest (hT : W.TurnsRest) (dt H : ℝ) (x : W.Field × W.Field) (hx : W.AtRest H x.1) :
    W.AtRest H (W.afterSubCycle dt x).1 := by
  unfold World.afterSubCycle
  split_ifs
  · exact hx
  · exact hx
  · exact W.dss_rest hW hS hT H _ (hx.of_same W (W.diffuse_rest hW hS hQ _ _ _ _ _ _ H x x hx))
  · have hl : W.AtRest 0 (W.laplacian x).1 := by
      refine W.dss_rest hW hS hT 0 _ (World.AtRest.of_same W ?_ (W.diffuse_rest hW hS hQ _ _ _ _ _ _ H x _ hx))
      exact fun _ _ _ _ _ _ => ⟨rfl, rfl, rfl⟩
    exact W.dss_rest hW hS hT H _ (hx.of_same W (W.diffuse_rest hW hS hQ _ _ _ _ _ _ 0 _ x hl))
  · exact hx

include hW hS hQ in
/-- The sub-steps keep multiples of a lake at rest. -/
theorem World.rest_keeps (hT : W.TurnsRest)
    (hr : W.uniform = true → ∀ n iA iB k, (W.tile n).M.ref ⟨.state 0, iA, iB, k⟩ = 0 ∧
      (W.tile n).M.ref ⟨.state 1, iA, iB, k⟩ = 0) (H : ℝ) :
    Steps.KeepsAll W.dyn (fun r (x : W.Field × W.Field) => W.AtRest (r * H) x.1) := by
  have base : ∀ ef : ℝ → W.Field × W.Field → W.Field × W.Field → W.Field × W.Field,
      (∀ c x y, W.AtRest (1 * H) x.1 → W.AtRest (1 * H) y.1 → W.AtRest (1 * H) (ef c x y).1) →
      Steps.Keeps W.dyn ef (fun r (x : W.Field × W.Field) => W.AtRest (r * H) x.1) := by
    intro ef hef
    constructor
    · intro n iA iB k _ _
      exact ⟨rfl, rfl, (zero_mul H).symm⟩
    · intro a b x y hx hy n iA iB k hI hk
      obtain ⟨x0, x1, x2⟩ := hx n iA iB k hI hk
      obtain ⟨y0, y1, y2⟩ := hy n iA iB k hI hk
      simp only [Prod.fst_add, Pi.add_apply]
      rw [x0, x1, x2, y0, y1, y2]
      refine ⟨by ring, by ring, by ring⟩
    · intro c a x hx n iA iB k hI hk
      obtain ⟨x0, x1, x2⟩ := hx n iA iB k hI hk
      simp only [Prod.smul_fst, Pi.smul_apply, smul_eq_mul]
      rw [x0, x1, x2]
      refine ⟨by ring, by ring, by ring⟩
    · intro c x y hx hy
      exact W.dss_rest hW hS hT _ _ (hef c x y hx hy)
    · intro x hx
      exact W.dss_rest hW hS hT _ _ hx
    · intro c x y _ hy; exact hy
    · intro c x y _ hy; exact hy
    · intro c x y _ hy; exact hy
    · intro x hx; exact hx
    · intro c x hx
      exact W.after_rest hW hS hQ hT c _ x hx
  have ex : ∀ c x y, W.AtRest (1 * H) x.1 → W.AtRest (1 * H) y.1 → W.AtRest (1 * H) (W.stepExplicit c x y).1 :=
    fun c x y hx hy => hy.of_same W (W.explicit_rest hW hQ hr c _ x y hx)
  exact ⟨base _ ex, base _ fun c x y _ hy => hy, base _ ex⟩

end

end Verif.Whole
