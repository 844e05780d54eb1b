import Verif.Deep.Rest
import Verif.Vdyn.ExplicitProps
import Verif.Vdyn.ImplicitProps

/-!
# The vertical steps of an atmosphere at rest
-/

namespace Verif.Vdyn

open Verif.Column (applyAll rowLoop penaltyApply)

theorem applyAll_zero (A : Column.Op) (s : Nat) : applyAll A (fun _ => 0) (fun _ => 0) s 1 = fun _ => 0 := by
  unfold applyAll
  generalize List.range A.rows = l
  induction l with
  | nil => rfl
  | cons k l ih =>
    rw [List.foldl_cons]
    have : Function.update (fun _ => (0 : ℝ)) (k * 1) (rowLoop (A.row k) 0 fun _ => 0) = fun _ => 0 := by
      rw [Column.rowLoop_eq]
      simp [Function.update_eq_self_iff]
    rw [this, ih]

theorem smoothing_zero {S : Setup} {node edge : Nat → ℝ} {gauss lob : List ℝ × List ℝ} (E : Elements S node edge gauss lob)
    (w : Nat → ℝ) (k : Nat) : smoothing S w (fun _ => 0) k = 0 := by
  have hn := penalty_pos E
  unfold smoothing penaltyApply
  simp only
  rw [applyAll_zero, applyAll_zero, Column.addBuffer_at _ hn 1 _ _ _ _ 1 one_pos, Column.range_eq',
    Column.addBuffer_at _ hn 0 _ _ _ _ 1 one_pos]
  simp

end Verif.Vdyn

namespace Verif.Deep

open Verif.Column (applyRow)

variable (A : Atmos) {node edge sNode sEdge : Nat → ℝ} {gauss lob : List ℝ × List ℝ}
  (hW : A.W.Tiled) (hC : A.Columnar node edge sNode sEdge gauss lob)

/-- A column at rest. -/
def Atmos.Calm (P R : Nat → ℝ) (U : Vdyn.State) : Prop :=
  (∀ k, U.node 0 k = 0 ∧ U.node 1 k = 0 ∧ U.edge 3 k = 0) ∧
    ∀ k, k < A.W.levels → U.node 2 k = P k ∧ U.node 4 k = R k

theorem Atmos.calm_of (P R : Nat → ℝ) (D : Horiz.Data) (iA iB : Nat)
    (h0 : ∀ k, k < A.W.levels → D ⟨.state 0, iA, iB, k⟩ = 0 ∧ D ⟨.state 1, iA, iB, k⟩ = 0 ∧ D ⟨.state 2, iA, iB, k⟩ = P k ∧
      D ⟨.state 4, iA, iB, k⟩ = R k) (h1 : ∀ k, k ≤ A.W.levels → D ⟨Nonhydro.edge 3, iA, iB, k⟩ = 0) :
    A.Calm P R (A.columns D (iA, iB)) := by
  unfold Atmos.Calm Atmos.columns
  simp only
  refine ⟨fun k => ⟨?_, ?_, ?_⟩, fun k hk => ⟨?_, ?_⟩⟩
  · split_ifs with h
    · exact (h0 k h).1
    · rfl
  · split_ifs with h
    · exact (h0 k h).2.1
    · rfl
  · split_ifs with h
    · exact h1 k h
    · rfl
  · rw [if_pos hk]; exact (h0 k hk).2.2.1
  · rw [if_pos hk]; exact (h0 k hk).2.2.2

include hC in
theorem Atmos.calm_lift (P R : Nat → ℝ) (x : A.W.Field × A.W.Field) (hx : A.Still P R x.1) (i : Fin A.W.count)
    (iA iB : Nat) (hI : Horiz.Interior (A.W.tile i).M.G.S iA iB) : A.Calm P R (A.columns (A.lift x i) (iA, iB)) := by
  obtain ⟨h1, h2⟩ := hx i iA iB hI
  refine A.calm_of P R _ iA iB (fun k hk => ?_) (fun k hk => ?_)
  · simp only [Atmos.lift, A.edge_iff hC]
    simpa using h1 k hk
  · simp only [Atmos.lift, A.edge_iff hC, Nonhydro.edge]
    simpa using h2 k hk

include hC in
theorem Atmos.calm_prepare (P R : Nat → ℝ) (x : A.W.Field × A.W.Field) (hx : A.Still P R x.1) (i : Fin A.W.count)
    (iA iB : Nat) (hI : Horiz.Interior (A.W.tile i).M.G.S iA iB) :
    A.Calm P R (A.columns (Nonhydro.prepare (A.horizontal i).A (A.lift x i)) (iA, iB)) := by
  obtain ⟨h1, h2⟩ := hx i iA iB hI
  have hp : (A.horizontal i).A.pOnEdge = false := hC.lorenz.2.1
  have pr := fun y h0 h1 h3 => Nonhydro.prepare_same (A.horizontal i).A (A.lift x i) y h0 h1 h3 (fun _ => hp)
  refine A.calm_of P R _ iA iB (fun k hk => ?_) (fun k hk => ?_)
  · rw [pr _ (by simp [Nonhydro.edge]) (by simp [Nonhydro.edge]) (by simp),
      pr _ (by simp [Nonhydro.edge]) (by simp [Nonhydro.edge]) (by simp),
      pr _ (by simp [Nonhydro.edge]) (by simp [Nonhydro.edge]) (by simp),
      pr _ (by simp [Nonhydro.edge]) (by simp [Nonhydro.edge]) (by simp)]
    simp only [Atmos.lift, A.edge_iff hC]
    simpa using h1 k hk
  · rw [pr _ (by simp [Nonhydro.edge]) (by simp [Nonhydro.edge]) (by simp [Nonhydro.edge])]
    simp only [Atmos.lift, A.edge_iff hC, Nonhydro.edge]
    simpa using h2 k hk

include hC in
theorem Atmos.still_gather (P R : Nat → ℝ) (Q : Fin A.W.count → Vdyn.Columns)
    (h : ∀ i iA iB, Horiz.Interior (A.W.tile i).M.G.S iA iB →
      (∀ k, k < A.W.levels → (Q i (iA, iB)).node 0 k = 0 ∧ (Q i (iA, iB)).node 1 k = 0 ∧ (Q i (iA, iB)).node 2 k = P k ∧
        (Q i (iA, iB)).node 4 k = R k) ∧ ∀ k, k ≤ A.W.levels → (Q i (iA, iB)).edge 3 k = 0) :
    A.Still P R (A.gather Q).1 := by
  intro i iA iB hI
  obtain ⟨h1, h2⟩ := h i iA iB hI
  simp only [Atmos.gather, A.edge_iff hC]
  exact ⟨fun k hk => by simpa using h1 k hk, fun k hk => by simpa using h2 k hk⟩

include hC in
/-- The balance of the data of a column. -/
theorem Atmos.balance (P R : Nat → ℝ) (hB : A.Hydrostatic P R) (dt : ℝ) (i : Fin A.W.count) (iA iB : Nat)
    (hI : Horiz.Interior (A.W.tile i).M.G.S iA iB) (D : Vdyn.Data) (h2 : ∀ k, k < A.W.levels → D.node 2 k = P k)
    (h4 : ∀ k, k < A.W.levels → D.node 4 k = R k) (k : Nat) (h0 : 0 < k) (hk : k < (A.setup dt).levels) :
    applyRow (A.setup dt).interpNE (D.node 2) k / applyRow (A.setup dt).interpNE (D.node 4) k *
      applyRow (A.setup dt).diffNE (fun j => (A.setup dt).phys.cp * Real.exp ((A.setup dt).phys.r /
        ((A.setup dt).phys.cp - (A.setup dt).phys.r) * Real.log ((A.setup dt).phys.r / (A.setup dt).phys.p0 * D.node 2 j))) k =
      -((A.setup dt).phys.g * ((A.vertical i).metric (iA, iB)).derivREdge k) := by
  have E : Vdyn.Elements (A.setup dt) node edge gauss lob := Vdyn.elements_dt hC.elements dt
  have T : Vdyn.Stencils (A.setup dt) node edge sNode sEdge gauss lob := Vdyn.stencils_dt hC.stencils dt
  have hl : ∀ j, j < (A.setup dt).levels → j < A.W.levels := fun j hj => by rw [← hC.levels]; exact hj
  have e := hB i iA iB hI k h0 (hl k hk)
  rw [Vdyn.interp_congr E T (D.node 2) P (fun j hj => h2 j (hl j hj)) k (by exact hk.le),
    Vdyn.interp_congr E T (D.node 4) R (fun j hj => h4 j (hl j hj)) k (by exact hk.le),
    Vdyn.diffNE_congr E _ (fun j => (A.setup dt).phys.cp * Real.exp ((A.setup dt).phys.r /
        ((A.setup dt).phys.cp - (A.setup dt).phys.r) * Real.log ((A.setup dt).phys.r / (A.setup dt).phys.p0 * P j)))
      (fun j hj => by simp only [h2 j (hl j hj)]) k h0 hk]
  exact e

section
variable (hu : A.column.uniform = false) {P R : Nat → ℝ} (hB : A.Hydrostatic P R)

include hC hu hB in
/-- The terms are nothing in a column at rest. -/
theorem Atmos.terms_calm (dt : ℝ) (e : Bool) (i : Fin A.W.count) (iA iB : Nat)
    (hI : Horiz.Interior (A.W.tile i).M.G.S iA iB) (D : Vdyn.Data)
    (h0 : ∀ k, D.node 0 k = 0 ∧ D.node 1 k = 0 ∧ D.edge 3 k = 0)
    (h1 : ∀ k, k < A.W.levels → D.node 2 k = P k ∧ D.node 4 k = R k) (M : Vdyn.Memory) (count : Nat)
    (q ref : Nat → Nat → ℝ) (U V : Vdyn.State)
    (h : Vdyn.termsColumn A.solve (A.setup dt) ((A.vertical i).metric (iA, iB)) e D M count q ref U = .ok V) :
    V.node = U.node ∧ V.edge = U.edge :=
  Vdyn.C95_balance (Vdyn.elements_dt hC.elements dt) hC.lorenz (Vdyn.stencils_dt hC.stencils dt)
    (Vdyn.penalty_pos (Vdyn.elements_dt hC.elements dt)) hC.ref hu A.solve _ e D M count q ref U V h h0
    (A.balance hC P R hB dt i iA iB hI D (fun k hk => (h1 k hk).1) (fun k hk => (h1 k hk).2))

include hC hu hB in
theorem Atmos.terms_still (dt : ℝ) (P' R' : Nat → ℝ) (x y : A.W.Field × A.W.Field) (hx : A.Still P R x.1)
    (hy : A.Still P' R' y.1) : A.Still P' R' (A.stepTerms dt x y).1 := by
  unfold Atmos.stepTerms
  rcases A.collect_cases _ y with h | ⟨Q, hQ, h⟩
  · rw [h]; exact hy
  rw [h]
  refine A.still_gather hC P' R' Q fun i iA iB hI => ?_
  obtain ⟨s1, -⟩ := Vdyn.sweep_any _ _ _ (Vdyn.interior_nodup _) _ _ _ (hQ i)
  obtain ⟨M, hM⟩ := s1 (iA, iB) ((Vdyn.mem_interior _ _).2 ((A.inside i iA iB).2 hI))
  obtain ⟨d0, d1⟩ := A.calm_lift hC P R x hx i iA iB hI
  obtain ⟨u0, u1⟩ := A.calm_lift hC P' R' y hy i iA iB hI
  obtain ⟨e1, e2⟩ := A.terms_calm hC hu hB dt _ i iA iB hI _ d0 d1 _ _ _ _ _ _ hM
  rw [e1, e2]
  exact ⟨fun k hk => ⟨(u0 k).1, (u0 k).2.1, u1 k hk⟩, fun k _ => (u0 k).2.2⟩

include hC hu hB in
theorem Atmos.vertical_still (dt : ℝ) (P' R' : Nat → ℝ) (x y : A.W.Field × A.W.Field) (hx : A.Still P R x.1)
    (hy : A.Still P' R' y.1) : A.Still P' R' (A.stepVertical dt x y).1 := by
  unfold Atmos.stepVertical
  rcases A.collect_cases _ y with h | ⟨Q, hQ, h⟩
  · rw [h]; exact hy
  rw [h]
  refine A.still_gather hC P' R' Q fun i iA iB hI => ?_
  obtain ⟨s1, -⟩ := Vdyn.sweep_any _ _ _ (Vdyn.interior_nodup _) _ _ _ (hQ i)
  obtain ⟨M, hM⟩ := s1 (iA, iB) ((Vdyn.mem_interior _ _).2 ((A.inside i iA iB).2 hI))
  obtain ⟨d0, d1⟩ := A.calm_prepare hC P R x hx i iA iB hI
  obtain ⟨u0, u1⟩ := A.calm_lift hC P' R' y hy i iA iB hI
  have E : Vdyn.Elements (A.setup dt) node edge gauss lob := Vdyn.elements_dt hC.elements dt
  obtain ⟨V, h1, h2, h3, -, h4⟩ := Vdyn.C95_rest E _ _ _ _ _ _ _ _ _ _ hM
  have e : V.node = (A.columns (A.lift y i) (iA, iB)).node ∧ V.edge = (A.columns (A.lift y i) (iA, iB)).edge := by
    cases he : A.fullyExplicit with
    | false => rw [h2 he]; exact ⟨rfl, rfl⟩
    | true => exact A.terms_calm hC hu hB dt true i iA iB hI _ d0 d1 _ _ _ _ _ _ (h1 he)
  have vel : ∀ c, c < 2 → ∀ k, k < A.W.levels → (Q i (iA, iB)).node c k = 0 := by
    intro c hc k hk
    have := Vdyn.C95_horizontal_partial E hC.lorenz _ _ _ _ _ _ _ _ _ _ hM (.inr hu) c (by omega) k
      (by show k < A.column.levels; rw [hC.levels]; exact hk)
    have z : (Vdyn.columnData (A.vertical i) (iA, iB)
        (A.columns (Nonhydro.prepare (A.horizontal i).A (A.lift x i)) (iA, iB))).node c = fun _ => 0 := by
      funext k
      interval_cases c
      · exact (d0 k).1
      · exact (d0 k).2.1
    have zu : (A.columns (A.lift y i) (iA, iB)).node c k = 0 := by
      interval_cases c
      · exact (u0 k).1
      · exact (u0 k).2.1
    rw [this, z, zu]
    have s : ∀ w, Vdyn.smoothing (A.setup dt) w (fun _ => 0) k = 0 := fun w => Vdyn.smoothing_zero E w k
    have hd : Vdyn.diffuse (A.setup dt) (A.setup dt).diffDiffNN (A.setup dt).nuVector (fun _ => 0)
        ((Vdyn.columnData (A.vertical i) (iA, iB)
          (A.columns (Nonhydro.prepare (A.horizontal i).A (A.lift x i)) (iA, iB))).refNode c) k = 0 := by
      unfold Vdyn.diffuse
      rw [if_neg (by simp [Atmos.setup, hu])]
    rw [s, hd]
    ring
  refine ⟨fun k hk => ⟨vel 0 (by omega) k hk, vel 1 (by omega) k hk, ?_, ?_⟩, fun k hk => ?_⟩
  · rw [h4 2 k (.inl ⟨by omega, by omega⟩), e.1]; exact (u1 k hk).1
  · rw [h4 4 k (.inl ⟨by omega, by omega⟩), e.1]; exact (u1 k hk).2
  · rw [h3, e.2]; exact (u0 k).2.2

include hW hC hu hB in
theorem Atmos.implicit_still (dt : ℝ) (x y : A.W.Field × A.W.Field) (hx : A.Still P R x.1) (hy : A.Still P R y.1) :
    A.Still P R (A.stepImplicit dt x y).1 := by
  classical
  unfold Atmos.stepImplicit
  split_ifs with hdt
  · exact hy
  rcases A.collect_cases _ y with h | ⟨Q, hQ, h⟩
  · rw [h]; exact hy
  rw [h]
  refine A.still_gather hC P R Q fun i iA iB hI => ?_
  obtain ⟨u0, u1⟩ := A.calm_lift hC P R y hy i iA iB hI
  have hQ := hQ i
  cases he : A.fullyExplicit with
  | true =>
    rw [he] at hQ
    simp only [Vdyn.implicitPatch, if_true, Vdyn.PatchRes.ok.injEq] at hQ
    rw [← hQ]
    exact ⟨fun k hk => ⟨(u0 k).1, (u0 k).2.1, u1 k hk⟩, fun k _ => (u0 k).2.2⟩
  | false =>
    rw [he] at hQ
    obtain ⟨f1, -⟩ := A.first_inside hW i iA iB hI
    obtain ⟨d0, d1⟩ := A.calm_lift hC P R x hx i _ _ f1
    have E : Vdyn.Elements (A.setup dt) node edge gauss lob := Vdyn.elements_dt hC.elements dt
    have T : Vdyn.Stencils (A.setup dt) node edge sNode sEdge gauss lob := Vdyn.stencils_dt hC.stencils dt
    have hl : ∀ k, k < A.W.levels → k < A.column.levels := fun k hk => by rw [hC.levels]; exact hk
    have hl' : ∀ k, k ≤ A.W.levels → k ≤ A.column.levels := fun k hk => by rw [hC.levels]; exact hk
    obtain ⟨V, hV, a1, a2, -⟩ := (Vdyn.C94_columns E T hC.second hC.lorenz hC.ref A.solve hC.lapack hdt (A.vertical i)
      A.W.tracers (A.box i) A.W.order (A.whole hW i) false _ _ _ (A.memory i) _ _ hQ (iA, iB)).2 ((A.inside i iA iB).2 hI)
    obtain ⟨V', t, h1, -, rfl⟩ := Vdyn.step_halves A.solve (A.vertical i) A.W.tracers _ _ _ _ V hV
    obtain ⟨b1, b2⟩ := Vdyn.C92_balance E T hC.lorenz (Vdyn.penalty_pos E) hC.ref hu A.solve hC.lapack _ _ _ _ V' h1 d0
      (A.balance hC P R hB dt i _ _ f1 _ (fun k hk => (d1 k hk).1) (fun k hk => (d1 k hk).2))
    refine ⟨fun k hk => ⟨?_, ?_, ?_, ?_⟩, fun k hk => ?_⟩
    · rw [a1, if_neg (fun h => by omega)]; exact (u0 k).1
    · rw [a1, if_neg (fun h => by omega)]; exact (u0 k).2.1
    · rw [a1, if_pos ⟨by omega, hl k hk⟩]
      exact (b1 k (hl k hk)).1.trans (d1 k hk).1
    · rw [a1, if_pos ⟨by omega, hl k hk⟩]
      exact (b1 k (hl k hk)).2.trans (d1 k hk).2
    · rw [a2, if_pos ⟨by omega, hl' k hk⟩]
      exact b2 k (hl' k hk)

end

end Verif.Deep
