import Verif.Deep.Nodes

/-!
# Columns at the same place of a patch agree after summation and after the vertical steps
-/

namespace Verif.Deep

open Verif.Whole (World)
open Verif.Dss (twin Corner)

variable (A : Atmos)

/-- A column is stood for by itself or by the next one at the same place, which is at no end of the row. -/
theorem stands_twin (halo e p i : Nat) (hp : 2 ≤ p) (hi : halo ≤ i) :
    Vdyn.standsFor halo (e * p) p i = i ∨ (Vdyn.standsFor halo (e * p) p i = i + 1 ∧
      ((i + 1 : Nat) : Int) - halo = twin p ((i : Int) - halo) ∧ i ≠ halo ∧ (i : Int) ≠ halo + e * p - 1 ∧
      ((i + 1 : Nat) : Int) ≠ halo + e * p - 1) := by
  unfold Vdyn.standsFor
  split_ifs with h
  · obtain ⟨h1, h2⟩ := h
    right
    obtain ⟨c, hc⟩ := Nat.dvd_of_mod_eq_zero h1
    have hc0 : c ≠ 0 := by rintro rfl; omega
    have hce : c < e := by
      rw [hc, Nat.mul_comm] at h2
      exact Nat.lt_of_mul_lt_mul_right h2
    have hcp : p * 1 ≤ p * c := Nat.mul_le_mul_left p (by omega)
    have hcc : p * (c + 1) ≤ p * e := Nat.mul_le_mul_left p hce
    have hz : (i : Int) - halo = p * c - 1 := by
      have : ((i - halo + 1 : Nat) : Int) = ((p * c : Nat) : Int) := by rw [hc]
      push_cast [Nat.cast_sub hi] at this
      omega
    have hez : ((e * p : Nat) : Int) = ((p * e : Nat) : Int) := by rw [Nat.mul_comm]
    push_cast at hez
    have hcz : ((p : Int) * (c + 1)) ≤ p * e := by exact_mod_cast hcc
    have hoz : ((p : Int) * 1) ≤ p * c := by exact_mod_cast hcp
    rw [mul_add] at hcz
    refine ⟨rfl, ?_, by omega, by omega, by push_cast; omega⟩
    rw [hz, show (p : Int) * c - 1 = c * p - 1 by ring, Dss.twin_last _ _ (by omega)]
    push_cast
    linarith [hz, mul_comm (p : Int) c]
  · exact .inl rfl

section
variable (hW : A.W.Tiled)

include hW in
theorem Atmos.patch_interior (i : Fin A.W.count) (iA iB : Nat) (hI : Horiz.Interior (A.W.tile i).M.G.S iA iB) :
    (A.W.patch i).Interior iA iB := by
  obtain ⟨s1, s2, -⟩ := hW.shape i
  unfold Dss.Patch.Interior
  rw [A.W.patch_halo hW, A.W.patch_order hW]
  show (A.W.halo : Int) ≤ iA ∧ (iA : Int) < A.W.halo + (A.W.tile i).M.G.S.elemA * A.W.order ∧ (A.W.halo : Int) ≤ iB ∧
    (iB : Int) < A.W.halo + (A.W.tile i).M.G.S.elemB * A.W.order
  unfold Horiz.Interior at hI
  rw [s1, s2] at hI
  exact_mod_cast hI

include hW in
/-- After summation. -/
theorem Atmos.average_first (i : Fin A.W.count) (u : Dss.Field) (iA iB : Nat)
    (hI : Horiz.Interior (A.W.tile i).M.G.S iA iB) :
    A.W.average i u iA iB = A.W.average i u (A.first i (iA, iB)).1 (A.first i (iA, iB)).2 := by
  obtain ⟨s1, s2, -⟩ := hW.shape i
  have hok := A.W.patch_ok hW i
  have hd : A.W.average i u = Dss.dss (A.W.patch i) u := by
    unfold World.average
    cases hk : A.W.kind with
    | sphere => rfl
    | plane =>
      simp only
      refine Dss.C58_cartesian _ hok (fun c => ?_) u
      rw [A.W.missing_see hW, A.W.see_plane hk]
      rfl
  rw [hd]
  obtain ⟨f1, -⟩ := A.first_inside hW i iA iB hI
  have n0 := A.patch_interior hW i iA iB hI
  have n1 := A.patch_interior hW i _ _ f1
  have lo : A.W.halo ≤ iA ∧ A.W.halo ≤ iB := by
    unfold Horiz.Interior at hI
    rw [s2] at hI
    omega
  have ta := stands_twin A.W.halo (A.W.tile i).M.G.S.elemA A.W.order iA hW.order lo.1
  have tb := stands_twin A.W.halo (A.W.tile i).M.G.S.elemB A.W.order iB hW.order lo.2
  have ea : (A.first i (iA, iB)).1 = Vdyn.standsFor A.W.halo ((A.W.tile i).M.G.S.elemA * A.W.order) A.W.order iA := by
    simp only [Atmos.first, Vdyn.Box.owner, Atmos.box, s1, s2]
  have eb : (A.first i (iA, iB)).2 = Vdyn.standsFor A.W.halo ((A.W.tile i).M.G.S.elemB * A.W.order) A.W.order iB := by
    simp only [Atmos.first, Vdyn.Box.owner, Atmos.box, s1, s2]
  rw [← ea] at ta
  rw [← eb] at tb
  have cA : ∀ c, (A.W.patch i).cornerA c = A.W.halo ∨
      (A.W.patch i).cornerA c = A.W.halo + (A.W.tile i).M.G.S.elemA * A.W.order - 1 := by
    intro c
    cases c <;> simp only [Dss.Patch.cornerA, A.W.patch_halo hW, A.W.patch_order hW] <;>
      first | exact .inr rfl | exact .inl rfl | exact .inl trivial
  have cB : ∀ c, (A.W.patch i).cornerB c = A.W.halo ∨
      (A.W.patch i).cornerB c = A.W.halo + (A.W.tile i).M.G.S.elemB * A.W.order - 1 := by
    intro c
    cases c <;> simp only [Dss.Patch.cornerB, A.W.patch_halo hW, A.W.patch_order hW] <;>
      first | exact .inr rfl | exact .inl rfl | exact .inl trivial
  have core : (¬ (A.W.patch i).Triple iA iB) →
      (¬ (A.W.patch i).Triple (A.first i (iA, iB)).1 (A.first i (iA, iB)).2) →
      Dss.dss (A.W.patch i) u iA iB = Dss.dss (A.W.patch i) u (A.first i (iA, iB)).1 (A.first i (iA, iB)).2 := by
    intro h0 h1
    rw [Dss.C58_mean _ hok u _ _ n0 h0, Dss.C58_mean _ hok u _ _ n1 h1]
    symm
    refine Dss.mean_copies _ hok.order _ _ _ _ _ ?_ ?_
    · rw [A.W.patch_halo hW, A.W.patch_order hW]
      rcases ta with h | ⟨h, h', -⟩
      · left; rw [h]
      · right; rw [h, h']
    · rw [A.W.patch_halo hW, A.W.patch_order hW]
      rcases tb with h | ⟨h, h', -⟩
      · left; rw [h]
      · right; rw [h, h']
  rcases ta with ha | ⟨ha, -, h2, h3, h4⟩
  · rcases tb with hb | ⟨hb, -, h2, h3, h4⟩
    · rw [ha, hb]
    · refine core ?_ ?_
      · rintro ⟨c, -, -, h⟩
        rcases cB c with h' | h' <;> rw [h'] at h <;> omega
      · rintro ⟨c, -, -, h⟩
        rw [hb] at h
        rcases cB c with h' | h' <;> rw [h'] at h <;> push_cast at h h4 <;> omega
  · refine core ?_ ?_
    · rintro ⟨c, -, h, -⟩
      rcases cA c with h' | h' <;> rw [h'] at h <;> omega
    · rintro ⟨c, -, h, -⟩
      rw [ha] at h
      rcases cA c with h' | h' <;> rw [h'] at h <;> push_cast at h h4 <;> omega

include hW in
theorem Atmos.dss_joined (hP : A.Primitive) (v : A.W.Field) : A.Joined (A.dssState v) := by
  intro i iA iB hI c hc k hk
  unfold Atmos.dssState Atmos.averageAll
  rw [hP.five, if_pos ⟨hc, hk⟩, if_pos ⟨hc, hk⟩]
  exact A.average_first hW i _ iA iB hI

variable {node edge sNode sEdge : Nat → ℝ} {gauss lob : List ℝ × List ℝ}
  (hC : A.Columnar node edge sNode sEdge gauss lob)

include hC in
theorem Atmos.edge_iff (c : Nat) : A.onEdge c = decide (c = 3) := by
  obtain ⟨h1, h2, -⟩ := hC.lorenz
  simp [Atmos.onEdge, h1, h2]
  rfl

include hC in
/-- Columns of joined data agree. -/
theorem Atmos.columns_first (x : A.W.Field × A.W.Field) (hx : A.Joined x.1) (i : Fin A.W.count) (iA iB : Nat)
    (hI : Horiz.Interior (A.W.tile i).M.G.S iA iB) :
    (A.columns (A.lift x i) (A.first i (iA, iB))).node = (A.columns (A.lift x i) (iA, iB)).node ∧
    (A.columns (A.lift x i) (A.first i (iA, iB))).edge = (A.columns (A.lift x i) (iA, iB)).edge := by
  have h := hx i iA iB hI
  unfold Atmos.top at h
  simp only [A.edge_iff hC, decide_eq_true_eq] at h
  constructor
  · funext c k
    simp only [Atmos.columns, Atmos.lift, A.edge_iff hC, decide_eq_true_eq]
    split_ifs with h1 h2 h3 h3
    · rfl
    · exact (h c h2 k (by rw [if_neg h3]; exact h1)).symm
    · rw [h3]
      exact (h 3 (by decide) k (by rw [if_pos rfl]; omega)).symm
    · rfl
    · rfl
  · funext c k
    simp only [Atmos.columns, Atmos.lift, Nonhydro.edge, A.edge_iff hC, decide_eq_true_eq, show ¬ 5 + c < 5 by omega,
      if_false, show 5 + c - 5 = c by omega]
    split_ifs with h1 h3
    · rw [h3]
      exact (h 3 (by decide) k (by rw [if_pos rfl]; omega)).symm
    · rfl
    · rfl

include hC in
theorem Atmos.gather_joined (P : Fin A.W.count → Vdyn.Columns)
    (h : ∀ i iA iB, Horiz.Interior (A.W.tile i).M.G.S iA iB →
      (∀ c k, c < 5 → c ≠ 3 → k < A.W.levels → (P i (iA, iB)).node c k = (P i (A.first i (iA, iB))).node c k) ∧
      ∀ k, k ≤ A.W.levels → (P i (iA, iB)).edge 3 k = (P i (A.first i (iA, iB))).edge 3 k) :
    A.Joined (A.gather P).1 := by
  intro i iA iB hI c hc k hk
  obtain ⟨h1, h2⟩ := h i iA iB hI
  unfold Atmos.top at hk
  simp only [A.edge_iff hC, decide_eq_true_eq] at hk
  simp only [Atmos.gather, A.edge_iff hC, decide_eq_true_eq]
  split_ifs with h3
  · rw [if_pos h3] at hk
    rw [h3]
    exact h2 k (by omega)
  · rw [if_neg h3] at hk
    exact h1 c k hc h3 hk

include hW hC in
theorem Atmos.implicit_joined (dt : ℝ) (x y : A.W.Field × A.W.Field) (hy : A.Joined y.1) :
    A.Joined (A.stepImplicit dt x y).1 := by
  classical
  unfold Atmos.stepImplicit
  split_ifs with hdt
  · exact hy
  rcases A.collect_cases _ y with h | ⟨P, hP, h⟩
  · rw [h]; exact hy
  rw [h]
  refine A.gather_joined hC P fun i iA iB hI => ?_
  obtain ⟨c1, c2⟩ := A.columns_first hC y hy i iA iB hI
  have hP := hP i
  cases he : A.fullyExplicit with
  | true =>
    rw [he] at hP
    simp only [Vdyn.implicitPatch, if_true, Vdyn.PatchRes.ok.injEq] at hP
    rw [← hP]
    exact ⟨fun c k _ _ _ => by rw [c1], fun k _ => by rw [c2]⟩
  | false =>
    rw [he] at hP
    obtain ⟨f1, f2⟩ := A.first_inside hW i iA iB hI
    have hi := (A.inside i iA iB).2 hI
    have hi' := (A.inside i _ _).2 f1
    have hl : ∀ k, k < A.W.levels → k < (A.setup dt).levels := fun k hk => by
      show k < A.column.levels; rw [hC.levels]; exact hk
    have hl' : ∀ k, k ≤ A.W.levels → k ≤ (A.setup dt).levels := fun k hk => by
      show k ≤ A.column.levels; rw [hC.levels]; exact hk
    have sh := (Vdyn.C94_shared (Vdyn.elements_dt hC.elements dt) (Vdyn.stencils_dt hC.stencils dt) hC.second hC.lorenz
      hC.ref A.solve hC.lapack hdt (A.vertical i) A.W.tracers (A.box i) A.W.order (A.whole hW i) false _ _ _ _ _ hP
      (iA, iB) (A.first i (iA, iB)) hi hi' f2.symm).1
    have un := fun x => Vdyn.C94_columns (Vdyn.elements_dt hC.elements dt) (Vdyn.stencils_dt hC.stencils dt) hC.second
      hC.lorenz hC.ref A.solve hC.lapack hdt (A.vertical i) A.W.tracers (A.box i) A.W.order (A.whole hW i) false _ _ _
      (A.memory i) _ _ hP x
    obtain ⟨_, -, u1, -⟩ := (un (iA, iB)).2 hi
    obtain ⟨_, -, v1, -⟩ := (un (A.first i (iA, iB))).2 hi'
    refine ⟨fun c k hc h3 hk => ?_, fun k hk => (sh 3 (.inr (.inl rfl))).2 k (hl' k hk)⟩
    by_cases h2 : c = 2 ∨ c = 3 ∨ c = 4
    · exact (sh c h2).1 k (hl k hk)
    · rw [u1, v1, if_neg (fun h => h2 h.1), if_neg (fun h => h2 h.1), c1]

include hW hC in
theorem Atmos.terms_joined (dt : ℝ) (x y : A.W.Field × A.W.Field) (hx : A.Joined x.1) (hy : A.Joined y.1) :
    A.Joined (A.stepTerms dt x y).1 := by
  unfold Atmos.stepTerms
  rcases A.collect_cases _ y with h | ⟨P, hP, h⟩
  · rw [h]; exact hy
  rw [h]
  refine A.gather_joined hC P fun i iA iB hI => ?_
  obtain ⟨c1, c2⟩ := A.columns_first hC y hy i iA iB hI
  obtain ⟨d1, d2⟩ := A.columns_first hC x hx i iA iB hI
  obtain ⟨f1, -⟩ := A.first_inside hW i iA iB hI
  obtain ⟨s1, -⟩ := Vdyn.sweep_any _ _ _ (Vdyn.interior_nodup _) _ _ _ (hP i)
  obtain ⟨M, hM⟩ := s1 (iA, iB) ((Vdyn.mem_interior _ _).2 ((A.inside i iA iB).2 hI))
  obtain ⟨N, hN⟩ := s1 (A.first i (iA, iB)) ((Vdyn.mem_interior _ _).2 ((A.inside i _ _).2 f1))
  have hD : Vdyn.columnData (A.vertical i) (A.first i (iA, iB)) (A.columns (A.lift x i) (A.first i (iA, iB))) =
      Vdyn.columnData (A.vertical i) (iA, iB) (A.columns (A.lift x i) (iA, iB)) := by
    unfold Vdyn.columnData
    rw [d1, d2]
    show Vdyn.Data.mk _ _ ((A.fixed i).refNode _) ((A.fixed i).refEdge _) = _
    rw [(hC.reference i iA iB hI).1, (hC.reference i iA iB hI).2]
    rfl
  rw [hD, hC.metric i iA iB hI] at hN
  have tM := fun k => Vdyn.C95_terms (Vdyn.elements_dt hC.elements dt) (Vdyn.stencils_dt hC.stencils dt) hC.second
    hC.lorenz hC.ref A.solve _ _ _ _ _ _ _ _ _ hM k
  have tN := fun k => Vdyn.C95_terms (Vdyn.elements_dt hC.elements dt) (Vdyn.stencils_dt hC.stencils dt) hC.second
    hC.lorenz hC.ref A.solve _ _ _ _ _ _ _ _ _ hN k
  have hl : ∀ k, k < A.W.levels → k < A.column.levels := fun k hk => by rw [hC.levels]; exact hk
  refine ⟨fun c k hc h3 hk => ?_, fun k hk => ?_⟩
  · obtain ⟨a4, a2, -, -, a0, -⟩ := tM k
    obtain ⟨b4, b2, -, -, b0, -⟩ := tN k
    by_cases h4 : c = 4
    · subst h4
      rw [a4 (hl k hk), b4 (hl k hk), c1]
    by_cases h2 : c = 2
    · subst h2
      rw [a2 (hl k hk), b2 (hl k hk), c1]
    · rw [a0 c (.inl ⟨h2, h4⟩), b0 c (.inl ⟨h2, h4⟩), c1]
  · obtain ⟨-, -, a3, a0, -⟩ := tM k
    obtain ⟨-, -, b3, b0, -⟩ := tN k
    by_cases hb : k = 0 ∨ A.column.levels ≤ k
    · rw [a0 hb, b0 hb, c2]
    · push Not at hb
      rw [a3 (by omega) hb.2, b3 (by omega) hb.2, c2]

include hW in
theorem Atmos.after_joined (hP : A.Primitive) (dt : ℝ) (x : A.W.Field × A.W.Field) (hx : A.Joined x.1) :
    A.Joined (A.afterSubCycle dt x).1 := by
  classical
  unfold Atmos.afterSubCycle
  split_ifs
  · exact hx
  · exact hx
  · exact A.dss_joined hW hP _
  · exact A.dss_joined hW hP _
  · exact hx

end

end Verif.Deep
