import Verif.Deep.RestSpec
import Verif.Deep.Runs
import Verif.Whole.Rest
import Verif.Nonhydro.PropsMore
import Verif.Nonhydro.ExplicitProps

/-!
# An atmosphere at rest
-/

namespace Verif.Vdyn

theorem penalty_pos {S : Setup} {node edge : Nat → ℝ} {gauss lob : List ℝ × List ℝ} (E : Elements S node edge gauss lob) :
    0 < S.penalty.n := by
  obtain ⟨solve, -, -, -, hP⟩ := E.setup
  have hn := (penalty_facts E).1
  unfold Column.penaltyInit at hP
  split_ifs at hP with h1 h2 h3 h4 h5
  · simp only [Column.PenaltyRes.ok.injEq] at hP
    rw [← hP]; exact hn
  · split at hP
    · simp only [Column.PenaltyRes.ok.injEq] at hP
      rw [← hP]; exact hn
    · simp at hP
    · simp at hP

end Verif.Vdyn

namespace Verif.Whole

open Verif.Horiz (Medium value)

variable (W : World)

/-- The field of one component that has the same value everywhere. -/
theorem World.const_field (hW : W.Tiled) (C : ℝ) (v : W.Field) (c k : Nat)
    (hv : ∀ i iA iB, Horiz.Interior (W.tile i).M.G.S iA iB → v i c iA iB k = C) (n : Int × Int × Int)
    (hn : n ∈ W.nodes) : W.field v c k n = C := by
  obtain ⟨p, g, h⟩ := n
  obtain ⟨i, hi⟩ := W.contains_some hW p g h hn
  obtain ⟨a1, ⟨a2, a3⟩, a4, a5⟩ := (W.contains_iff hW i p g h).mp hi
  obtain ⟨s1, s2, -⟩ := hW.shape i
  rw [add_mul] at a3 a5
  obtain ⟨iA, hA⟩ : ∃ iA : Nat, (iA : Int) = g - (W.tile i).eA * W.order + W.halo :=
    ⟨(g - (W.tile i).eA * W.order + W.halo).toNat, by omega⟩
  obtain ⟨iB, hB⟩ : ∃ iB : Nat, (iB : Int) = h - (W.tile i).eB * W.order + W.halo :=
    ⟨(h - (W.tile i).eB * W.order + W.halo).toNat, by omega⟩
  have hI : Horiz.Interior (W.tile i).M.G.S iA iB := by
    unfold Horiz.Interior
    rw [s1, s2]
    zify
    refine ⟨?_, ?_, ?_, ?_⟩ <;> linarith
  have hp : (p, g, h) = W.place i iA iB := by
    unfold World.place
    rw [a1, hA, hB]
    simp
  rw [hp, W.field_own hW v c k i iA iB hI]
  exact hv i iA iB hI

theorem World.zero_field (hW : W.Tiled) (v : W.Field) (c k : Nat)
    (hv : ∀ i iA iB, Horiz.Interior (W.tile i).M.G.S iA iB → v i c iA iB k = 0) (n : Int × Int × Int) :
    W.field v c k n = 0 := by
  cases ho : W.owner n.1 n.2.1 n.2.2 with
  | none =>
    unfold World.field
    rw [ho]
  | some i =>
    have hc : W.contains i n.1 n.2.1 n.2.2 = true := by
      unfold World.owner at ho
      have h := List.find?_some ho
      simpa using h
    exact W.const_field hW 0 v c k hv n (W.contains_node hW i _ _ _ hc)

end Verif.Whole

namespace Verif.Deep

open Verif.Horiz (Var value Medium)

variable (A : Atmos)

/-- The value of a component on a level or interface of an atmosphere at rest. -/
def profile (P R : Nat → ℝ) (c k : Nat) : ℝ := if c = 2 then P k else if c = 4 then R k else 0

variable {node edge sNode sEdge : Nat → ℝ} {gauss lob : List ℝ × List ℝ}

section
variable (hC : A.Columnar node edge sNode sEdge gauss lob)
include hC

theorem Atmos.still_iff (P R : Nat → ℝ) (v : A.W.Field) : A.Still P R v ↔
    ∀ c, c < 5 → ∀ k, k < A.top c → ∀ i iA iB, Horiz.Interior (A.W.tile i).M.G.S iA iB →
      v i c iA iB k = profile P R c k := by
  unfold Atmos.top
  simp only [A.edge_iff hC, decide_eq_true_eq]
  constructor
  · intro h c hc k hk i iA iB hI
    obtain ⟨h1, h2⟩ := h i iA iB hI
    unfold profile
    interval_cases c <;> simp at hk ⊢
    · exact (h1 k hk).1
    · exact (h1 k hk).2.1
    · exact (h1 k hk).2.2.1
    · exact h2 k (by omega)
    · exact (h1 k hk).2.2.2
  · intro h i iA iB hI
    refine ⟨fun k hk => ⟨?_, ?_, ?_, ?_⟩, fun k hk => ?_⟩
    · have := h 0 (by omega) k (by simpa using hk) i iA iB hI
      simpa [profile] using this
    · have := h 1 (by omega) k (by simpa using hk) i iA iB hI
      simpa [profile] using this
    · have := h 2 (by omega) k (by simpa using hk) i iA iB hI
      simpa [profile] using this
    · have := h 4 (by omega) k (by simpa using hk) i iA iB hI
      simpa [profile] using this
    · have := h 3 (by omega) k (by simp; omega) i iA iB hI
      simpa [profile] using this

theorem Atmos.top_le (c k : Nat) (hk : k < A.top c) : k ≤ A.W.levels ∧ (c ≠ 3 → k < A.W.levels) := by
  unfold Atmos.top at hk
  simp only [A.edge_iff hC, decide_eq_true_eq] at hk
  split_ifs at hk with h
  · exact ⟨by omega, fun h' => absurd h h'⟩
  · exact ⟨by omega, fun _ => hk⟩

end

variable (hW : A.W.Tiled) (hQ : A.W.Quadrature) (hP : A.Primitive)
  (hC : A.Columnar node edge sNode sEdge gauss lob)

include hW hP hC in
theorem Atmos.dss_still (hT : A.W.TurnsRest) (P R : Nat → ℝ) (v : A.W.Field) (hv : A.Still P R v) :
    A.Still P R (A.dssState v) := by
  rw [A.still_iff hC] at hv ⊢
  intro c hc k hk i iA iB hI
  obtain ⟨turn, hM⟩ := A.W.mutual hW
  have hn := A.W.contains_node hW i _ _ _ (A.W.place_in hW i iA iB hI)
  unfold Atmos.dssState Atmos.averageAll
  rw [if_pos ⟨by rw [hP.five]; exact hc, hk⟩]
  have ex : ∀ a b : Int, 0 ≤ a → 0 ≤ b → ∀ n,
      A.W.see (A.W.place i a b).1 (A.W.place i a b).2.1 (A.W.place i a b).2.2 = some n →
      ∀ c, A.W.exchange v i c a.toNat b.toNat k = A.W.field v c k n := by
    intro a b ha hb n hs c
    refine A.W.exchange_at hW v i c a.toNat b.toNat k n ?_
    rw [Int.toNat_of_nonneg ha, Int.toNat_of_nonneg hb]
    exact hs
  by_cases h2 : 2 ≤ c
  · rw [A.W.average_at hW turn hM i _ (fun n => A.W.field v c k n) (fun a b ha hb n hs => by
        show A.W.turn i (A.W.exchange v i) c _ _ k = _
        rw [hP.turn i _ c h2]; exact ex a b ha hb n hs c) iA iB hI]
    exact A.W.mean_const turn hM _ _ (fun n hn => A.W.const_field hW _ v c k (hv c hc k hk) n hn) _ hn
  · have hk' := (A.top_le hC c k hk).2 (by omega)
    have t0 : ∀ c, c < 2 → k < A.top c := fun c hc => by
      unfold Atmos.top
      simp only [A.edge_iff hC, decide_eq_true_eq]
      rw [if_neg (by omega)]; exact hk'
    have z : ∀ c, c < 2 → ∀ n, A.W.field v c k n = 0 := fun c hc n => by
      refine A.W.zero_field hW v c k (fun i iA iB hI => ?_) n
      rw [hv c (by omega) k (t0 c hc) i iA iB hI, profile, if_neg (by omega), if_neg (by omega)]
    have vel : ∀ a b : Int, 0 ≤ a → 0 ≤ b → ∀ n,
        A.W.see (A.W.place i a b).1 (A.W.place i a b).2.1 (A.W.place i a b).2.2 = some n →
        A.W.turn i (A.W.exchange v i) 0 a.toNat b.toNat k = 0 ∧
          A.W.turn i (A.W.exchange v i) 1 a.toNat b.toNat k = 0 := by
      intro a b ha hb n hs
      exact hT i _ _ _ k ((ex a b ha hb n hs 0).trans (z 0 (by omega) n)) ((ex a b ha hb n hs 1).trans (z 1 (by omega) n))
    rw [A.W.average_at hW turn hM i _ (fun _ => 0) (fun a b ha hb n hs => by
        have := vel a b ha hb n hs
        interval_cases c
        · exact this.1
        · exact this.2) iA iB hI, profile, if_neg (by omega), if_neg (by omega)]
    exact A.W.mean_const turn hM _ 0 (fun _ _ => rfl) _ hn

/-- Two fields agree at the nodes the patches own. -/
def Atmos.Same (v w : A.W.Field) : Prop :=
  ∀ c, c < 5 → ∀ k, k < A.top c → ∀ i iA iB, Horiz.Interior (A.W.tile i).M.G.S iA iB → v i c iA iB k = w i c iA iB k

include hC in
theorem Atmos.Still.of_same {P R : Nat → ℝ} {v w : A.W.Field} (h : A.Still P R w) (hs : A.Same v w) : A.Still P R v := by
  rw [A.still_iff hC] at h ⊢
  intro c hc k hk i iA iB hI
  rw [hs c hc k hk i iA iB hI]
  exact h c hc k hk i iA iB hI

include hW in
/-- Fields that agree on all elements agree. -/
theorem Atmos.same_of (v w : A.W.Field)
    (h : ∀ c, c < 5 → ∀ k, k < A.top c → ∀ n a b i j, a < (A.W.tile n).M.G.S.elemA → b < (A.W.tile n).M.G.S.elemB →
      i < A.W.order → j < A.W.order →
      v n c (A.W.halo + a * A.W.order + i) (A.W.halo + b * A.W.order + j) k =
        w n c (A.W.halo + a * A.W.order + i) (A.W.halo + b * A.W.order + j) k) : A.Same v w := by
  intro c hc k hk n iA iB hI
  obtain ⟨a, b, i, j, ha, hb, hi, hj, rfl, rfl⟩ := A.W.interior_element hW n iA iB hI
  exact h c hc k hk n a b i j ha hb hi hj

include hW in
theorem Atmos.value_join (x : A.W.Field × A.W.Field) (n : Fin A.W.count) (c a b k i j : Nat) :
    value (A.W.tile n).M.G.S (A.W.join x n) (.state c) a b k i j =
      x.1 n c (A.W.halo + a * A.W.order + i) (A.W.halo + b * A.W.order + j) k := by
  obtain ⟨s1, s2, -⟩ := hW.shape n
  unfold value Whole.World.join
  simp only [s1, s2]

include hW hQ hP hC in
theorem Atmos.diffuse_still (dt nuScalar dt' nuDiv nuVort : ℝ) (scale : Bool) (P R : Nat → ℝ) (x y : A.W.Field × A.W.Field)
    (hx : A.Still P R x.1) : A.Same (A.W.diffuse dt nuScalar dt' nuDiv nuVort scale x y).1 y.1 := by
  refine A.same_of hW _ _ (fun c hc k hk n a b i j ha hb hi hj => ?_)
  have hv := (A.still_iff hC P R x.1).1 hx
  obtain ⟨s1, s2, s3, -⟩ := hW.shape n
  have hp : Horiz.Paired (A.W.tile n).M.G.S.order (A.W.tile n).M.B A.W.weight := by rw [s1]; exact hQ.paired n
  have hi' : i < (A.W.tile n).M.G.S.order := by rw [s1]; exact hi
  have hj' : j < (A.W.tile n).M.G.S.order := by rw [s1]; exact hj
  obtain ⟨t1, t2⟩ := A.top_le hC c k hk
  rw [← A.value_join hW, ← A.value_join hW]
  have vals : ∀ c, c < 5 → k < A.top c → ∀ i j, i < (A.W.tile n).M.G.S.order → j < (A.W.tile n).M.G.S.order →
      value (A.W.tile n).M.G.S (A.W.join x n) (.state c) a b k i j = profile P R c k := by
    intro c hc hk i j hi hj
    rw [s1] at hi hj
    rw [A.value_join hW]
    exact hv c hc k hk n _ _ (A.W.element_interior hW n a b i j ha hb hi hj)
  unfold Whole.World.diffuse
  rw [A.W.join_split]
  simp only
  have hvec : ∀ (u : Horiz.Data), value (A.W.tile n).M.G.S (Horiz.applyVector (A.W.tile n).M A.W.xz (A.W.join x n) dt' nuDiv
      nuVort scale u) (.state c) a b k i j = value (A.W.tile n).M.G.S u (.state c) a b k i j := by
    intro u
    by_cases h3 : c = 3
    · rw [h3]
      exact Horiz.vector_out (A.W.tile n).M A.W.xz _ _ _ _ _ u _ ⟨by simp, by simp⟩
    · have hk2 := t2 h3
      have t0 : ∀ c, c < 2 → k < A.top c := fun c hc => by
        unfold Atmos.top
        simp only [A.edge_iff hC, decide_eq_true_eq]
        rw [if_neg (by omega)]; exact hk2
      refine Whole.vector_rest (A.W.tile n).M A.W.weight hp _ _ _ _ _ _ _ a b k ha hb (by rw [s3]; exact hk2)
        (fun i j hi hj => ⟨?_, ?_⟩) i j hi' hj' _
      · rw [vals 0 (by omega) (t0 0 (by omega)) i j hi hj]; rfl
      · rw [vals 1 (by omega) (t0 1 (by omega)) i j hi hj]; rfl
  rw [hvec]
  cases happ : Horiz.applyScalar (A.W.tile n).M (A.W.join x n) dt nuScalar scale (-1) false (A.W.join y n) with
  | none => rfl
  | some r =>
    simp only [Option.getD_some]
    refine Horiz.C75_uniform (A.W.tile n).M A.W.weight hp (A.W.join x n) dt nuScalar scale (-1) false (A.W.join y n) r happ
      (.state c) a b k ha hb ?_ (profile P R c k) (fun i j hi hj => ?_) i j hi' hj'
    · have hl := hP.located n c
      rw [A.edge_iff hC] at hl
      by_cases h3 : c = 3
      · right
        refine ⟨by rw [hl]; simp [h3], by rw [s3]; exact t1⟩
      · left
        refine ⟨by rw [hl]; simp [h3], by rw [s3]; exact t2 h3⟩
    · rw [← vals c hc hk i j hi hj]
      simp [Horiz.diffused]

include hW hQ hP hC in
theorem Atmos.after_still (hT : A.W.TurnsRest) (dt : ℝ) (P R : Nat → ℝ) (x : A.W.Field × A.W.Field)
    (hx : A.Still P R x.1) : A.Still P R (A.afterSubCycle dt x).1 := by
  classical
  unfold Atmos.afterSubCycle
  split_ifs
  · exact hx
  · exact hx
  · exact A.dss_still hW hP hC hT P R _ (hx.of_same A hC (A.diffuse_still hW hQ hP hC _ _ _ _ _ _ P R x x hx))
  · have hl : A.Still (fun _ => 0) (fun _ => 0) (A.laplacian x).1 := by
      refine A.dss_still hW hP hC hT _ _ _ (Atmos.Still.of_same A hC ?_ (A.diffuse_still hW hQ hP hC _ _ _ _ _ _ P R x _ hx))
      exact fun _ _ _ _ => ⟨fun _ _ => ⟨rfl, rfl, rfl, rfl⟩, fun _ _ => rfl⟩
    exact A.dss_still hW hP hC hT P R _ (hx.of_same A hC (A.diffuse_still hW hQ hP hC _ _ _ _ _ _ _ _ _ x hl))
  · exact hx

/-! ### The horizontal step -/

/-- Air at rest over level ground is left at rest by the horizontal step, and nothing else in it changes. -/
theorem nonhydro_still (F : Nonhydro.Dynamics) (hu : F.A.uniform = false) (he : F.eqn = .primitive)
    (hw : F.A.wOnEdge = true) (hpe : F.A.pOnEdge = false) (dt : ℝ) (init u : Horiz.Data) (ω : Nat → ℝ)
    (hp : Horiz.Paired F.A.G.S.order F.A.B ω) (a b : Nat) (ha : a < F.A.G.S.elemA) (hb : b < F.A.G.S.elemB) (P : Nat → ℝ)
    (hU : ∀ k i j, k < F.A.G.S.levels → i < F.A.G.S.order → j < F.A.G.S.order →
      value F.A.G.S init (.state 0) a b k i j = 0 ∧ value F.A.G.S init (.state 1) a b k i j = 0)
    (hV : ∀ k i j, k ≤ F.A.G.S.levels → i < F.A.G.S.order → j < F.A.G.S.order →
      value F.A.G.S init (Nonhydro.edge 3) a b k i j = 0)
    (hT : ∀ k i j, k < F.A.G.S.levels → i < F.A.G.S.order → j < F.A.G.S.order →
      value F.A.G.S init (.state 2) a b k i j = P k)
    (hz : ∀ k i j m, k < F.A.G.S.levels → i < F.A.G.S.order → j < F.A.G.S.order → m < 2 →
      Nonhydro.place F.A (fun x y => F.A.derivR x y k m) a b i j = 0)
    (i j : Nat) (hi : i < F.A.G.S.order) (hj : j < F.A.G.S.order)
    (hU' : ∀ k, k < F.A.G.S.levels → value F.A.G.S u (.state 0) a b k i j = 0 ∧ value F.A.G.S u (.state 1) a b k i j = 0)
    (hV' : value F.A.G.S u (Nonhydro.edge 3) a b 0 i j = 0) (D : Nat → Horiz.Data)
    (hD : Nonhydro.stepExplicit F 0 1 dt (fun m => if m = 0 then init else u) = .done D) :
    (∀ c k, c < 5 → k < F.A.G.S.levels → value F.A.G.S (D 1) (.state c) a b k i j = value F.A.G.S u (.state c) a b k i j) ∧
      ∀ k, value F.A.G.S (D 1) (Nonhydro.edge 3) a b k i j = value F.A.G.S u (Nonhydro.edge 3) a b k i j := by
  unfold Nonhydro.stepExplicit at hD
  rw [if_neg (by decide), he] at hD
  simp only [if_true, one_ne_zero, if_false] at hD
  cases hs : Nonhydro.stepNonhydro F.A init dt u with
  | none => rw [hs] at hD; simp at hD
  | some r =>
    obtain ⟨i', u'⟩ := r
    rw [hs] at hD
    simp only [Nonhydro.finish, Nonhydro.uniformDiffusion, hu, Bool.false_eq_true, if_false,
      Nonhydro.Outcome.done.injEq] at hD
    obtain ⟨r1, r2⟩ := Nonhydro.C83_rest F.A init dt u i' u' hs ω hp a b ha hb P hU
      (fun k i j hk hi hj => by rw [hw, if_pos rfl]; exact hV k i j (by omega) hi hj)
      (fun k i j hk hi hj => by
        rw [hpe, if_neg (by simp)]
        refine hT k i j ?_ hi hj
        rcases hk with hk | ⟨hk, -⟩
        · exact hk
        · rw [hpe] at hk; simp at hk) hz i j hi hj
    have out : ∀ c k, value F.A.G.S (D 1) (.state c) a b k i j = value F.A.G.S u' (.state c) a b k i j := by
      intro c k
      rw [← hD]
      unfold Horiz.store
      simp only [if_true]
      exact Horiz.filter_state _ _ _ _ c rfl
    refine ⟨fun c k hc hk => ?_, fun k => ?_⟩
    · rw [out]
      exact r1 (.state c) k (by simp [Nonhydro.edge]; omega) hk (by simp)
    · refine (out 8 k).trans ?_
      by_cases h0 : 0 < k
      · exact r2 hw k h0
      · obtain rfl : k = 0 := by omega
        have e := (Nonhydro.edge_value F.A init dt u i' u' hs hw a b i j ha hb hi hj 0).2.2
        have z : ∀ c, c < 2 → Nonhydro.atInterface F.A u' (.state c) a b 0 i j = 0 := by
          intro c hc
          unfold Nonhydro.atInterface
          refine Finset.sum_eq_zero fun l hl => ?_
          rw [Finset.mem_range] at hl
          rw [r1 (.state c) l (by simp [Nonhydro.edge]; omega) hl (by simp)]
          have := hU' l hl
          interval_cases c
          · rw [this.1, mul_zero]
          · rw [this.2, mul_zero]
        rw [z 0 (by omega), z 1 (by omega)] at e
        refine e.trans ?_
        rw [hV']
        ring

include hW hC in
theorem Atmos.value_lift (x : A.W.Field × A.W.Field) (n : Fin A.W.count) (a b k i j : Nat) :
    (∀ c, c < 5 → c ≠ 3 → value (A.W.tile n).M.G.S (A.lift x n) (.state c) a b k i j =
      x.1 n c (A.W.halo + a * A.W.order + i) (A.W.halo + b * A.W.order + j) k) ∧
    value (A.W.tile n).M.G.S (A.lift x n) (Nonhydro.edge 3) a b k i j =
      x.1 n 3 (A.W.halo + a * A.W.order + i) (A.W.halo + b * A.W.order + j) k := by
  obtain ⟨s1, s2, -⟩ := hW.shape n
  unfold value Atmos.lift
  simp only [s1, s2, A.edge_iff hC, decide_eq_true_eq]
  refine ⟨fun c h5 h3 => ?_, ?_⟩
  · simp [h5, h3]
  · simp [Nonhydro.edge]

include hW hQ hC in
theorem Atmos.explicit_still (hu : A.W.uniform = false) (hG : A.LevelGround) (dt : ℝ) (P R P' R' : Nat → ℝ)
    (x y : A.W.Field × A.W.Field) (hx : A.Still P R x.1) (hy : A.Still P' R' y.1) :
    A.Still P' R' (A.stepExplicit dt x y).1 := by
  refine hy.of_same A hC (A.same_of hW _ _ (fun c hc k hk n a b i j ha hb hi hj => ?_))
  obtain ⟨s1, s2, s3, -⟩ := hW.shape n
  have hi' : i < (A.W.tile n).M.G.S.order := by rw [s1]; exact hi
  have hj' : j < (A.W.tile n).M.G.S.order := by rw [s1]; exact hj
  have hp : Horiz.Paired (A.W.tile n).M.G.S.order (A.W.tile n).M.B A.W.weight := by rw [s1]; exact hQ.paired n
  obtain ⟨t1, t2⟩ := A.top_le hC c k hk
  have ins : ∀ i j, i < (A.W.tile n).M.G.S.order → j < (A.W.tile n).M.G.S.order → Horiz.Interior (A.W.tile n).M.G.S
      (A.W.halo + a * A.W.order + i) (A.W.halo + b * A.W.order + j) := fun i j hi hj =>
    A.W.element_interior hW n a b i j ha hb (by rw [← s1]; exact hi) (by rw [← s1]; exact hj)
  have key : ∀ D : Nat → Horiz.Data, Nonhydro.stepExplicit (A.horizontal n) 0 1 dt
      (fun m => if m = 0 then A.lift x n else A.lift y n) = .done D → _ := fun D hD =>
    nonhydro_still (A.horizontal n) hu rfl hC.lorenz.1 hC.lorenz.2.1 dt (A.lift x n) (A.lift y n) A.W.weight hp a b ha hb P
      (fun k i j hk hi hj => by
        have hk : k < (A.W.tile n).M.G.S.levels := hk
        rw [s3] at hk
        have h := (hx n _ _ (ins i j hi hj)).1 k hk
        exact ⟨((A.value_lift hW hC x n a b k i j).1 0 (by omega) (by omega)).trans h.1,
          ((A.value_lift hW hC x n a b k i j).1 1 (by omega) (by omega)).trans h.2.1⟩)
      (fun k i j hk hi hj => by
        have hk : k ≤ (A.W.tile n).M.G.S.levels := hk
        rw [s3] at hk
        exact (A.value_lift hW hC x n a b k i j).2.trans ((hx n _ _ (ins i j hi hj)).2 k hk))
      (fun k i j hk hi hj => by
        have hk : k < (A.W.tile n).M.G.S.levels := hk
        rw [s3] at hk
        exact ((A.value_lift hW hC x n a b k i j).1 2 (by omega) (by omega)).trans
          ((hx n _ _ (ins i j hi hj)).1 k hk).2.2.1)
      (fun k i j m hk hi hj hm => by
        have hk : k < (A.W.tile n).M.G.S.levels := hk
        rw [s3] at hk
        unfold Nonhydro.place
        show (A.air n).A.derivR ((A.W.tile n).M.G.S.halo + a * (A.W.tile n).M.G.S.order + i)
          ((A.W.tile n).M.G.S.halo + b * (A.W.tile n).M.G.S.order + j) k m = 0
        rw [s1, s2]
        exact hG n _ _ k m (ins i j hi hj) hk hm)
      i j hi' hj'
      (fun k hk => by
        have hk : k < (A.W.tile n).M.G.S.levels := hk
        rw [s3] at hk
        have h := (hy n _ _ (ins i j hi' hj')).1 k hk
        exact ⟨((A.value_lift hW hC y n a b k i j).1 0 (by omega) (by omega)).trans h.1,
          ((A.value_lift hW hC y n a b k i j).1 1 (by omega) (by omega)).trans h.2.1⟩)
      ((A.value_lift hW hC y n a b 0 i j).2.trans ((hy n _ _ (ins i j hi' hj')).2 0 (by omega))) D hD
  have low : ∀ u : Horiz.Data, u ⟨.state (if A.onEdge c then 5 + c else c), A.W.halo + a * A.W.order + i,
      A.W.halo + b * A.W.order + j, k⟩ =
      if c = 3 then value (A.W.tile n).M.G.S u (Nonhydro.edge 3) a b k i j
      else value (A.W.tile n).M.G.S u (.state c) a b k i j := by
    intro u
    unfold value
    simp only [s1, s2, A.edge_iff hC, decide_eq_true_eq]
    split_ifs with h3
    · rw [h3]; rfl
    · rfl
  have lift : (if c = 3 then value (A.W.tile n).M.G.S (A.lift y n) (Nonhydro.edge 3) a b k i j
      else value (A.W.tile n).M.G.S (A.lift y n) (.state c) a b k i j) =
      y.1 n c (A.W.halo + a * A.W.order + i) (A.W.halo + b * A.W.order + j) k := by
    split_ifs with h3
    · rw [h3]; exact (A.value_lift hW hC y n a b k i j).2
    · exact (A.value_lift hW hC y n a b k i j).1 c hc h3
  unfold Atmos.stepExplicit Atmos.lower
  simp only
  rw [low (A.explicitOn dt n (A.lift x n) (A.lift y n)), ← lift]
  unfold Atmos.explicitOn
  cases hD : Nonhydro.stepExplicit (A.horizontal n) 0 1 dt (fun m => if m = 0 then A.lift x n else A.lift y n) with
  | exception => rfl
  | undefined => rfl
  | done D =>
    simp only
    obtain ⟨k1, k2⟩ := key D hD
    split_ifs with h3
    · exact k2 k
    · exact k1 c k hc (by show k < (A.W.tile n).M.G.S.levels; rw [s3]; exact t2 h3)

end Verif.Deep
