/-
C140: a column in which tracers, by an implicit step, part from density, by an explicit one; columns and patches that meet the hypotheses
of C140 and C141.
-/
import Verif.VertV2.TermsProps

namespace Verif.ColumnV2

open Verif.Column Verif.Vdyn Verif.Interp Finset

/-- **C140, where the code does something else.**  Without the fully explicit option tracers take an implicit step while density takes an
explicit one: in this column, on a grid with the same volume elements everywhere, a tracer equal to density in all data is not equal to
density after the step. -/
theorem C140_constant_false (phys : Thermo.Constants) (solve : BandSolver) (hs : Lapack solve) (M : Memory) (ref : Nat → Nat → ℝ) :
    ∃ (S : Setup) (node edge : Nat → ℝ) (gauss lob : List ℝ × List ℝ) (G : Metric) (P : Schur.Site) (D : Data) (V : Vdyn.State),
    Elements S node edge gauss lob ∧ Lorenz S ∧ S.useRef = true ∧ S.uniform = false ∧ S.phys = phys ∧
    (∀ k, 0 < G.jac k) ∧ P.Holds S G ∧ (∀ m, P.other S m = G.jacEdge m) ∧
    termsColumn solve S G P false D M 1 (fun _ => D.node 4) ref ⟨D.node, D.edge, fun _ => D.node 4⟩ = .ok V ∧
    ¬ ∀ k < S.levels, V.tracer 0 k = V.node 4 k := by
  obtain ⟨S0, E0, T0, hL0, hN0, hn0, href0, hu0, hp, -⟩ := unit_setup 10 (by omega) phys
  obtain ⟨h1, hpos, hsm⟩ := C139_small_steps E0 T0 hL0 (by omega) solve hs crossed ⟨11, 1, 0, 0, fun _ => 1⟩ (by
    simp [Schur.Site.Beyond, hN0]) breeze false (by simp [hu0])
  have hh : h1 / 2 ≠ 0 := by positivity
  obtain ⟨S, hS⟩ : ∃ S, S = { S0 with dt := h1 / 2 } := ⟨_, rfl⟩
  have hsm := hsm (h1 / 2) hh (by rw [abs_of_pos (by positivity)]; linarith)
  have E := elements_dt E0 (h1 / 2)
  have T := stencils_dt T0 (h1 / 2)
  have hL : Lorenz S := hS ▸ hL0
  have href : S.useRef = true := hS ▸ href0
  have hu : S.uniform = false := hS ▸ hu0
  have hN : S.levels = 10 := hS ▸ hN0
  have hn : S.order = 1 := hS ▸ hn0
  have hphys : S.phys = phys := hS ▸ hp
  have hdt : S.dt ≠ 0 := hS ▸ hh
  rw [← hS] at hsm E T
  have hNN : SecondOnLevels S (fun k => (k : ℝ) + 1 / 2) (fun k => (k : ℝ)) ([0], [2]) ([-1, 1], [1, 1]) := fun h => by
    rw [hu] at h
    simp at h
  obtain ⟨t, ht⟩ := hsm M (addTerms S (residual S crossed (setupColumn S breeze M) (setupColumn S breeze M).state)
    ⟨breeze.node, breeze.edge, fun _ => breeze.node 4⟩) 1 (fun _ => breeze.node 4) ref (fun _ => breeze.node 4)
  obtain ⟨W, hW⟩ : ∃ W, W = addTerms S (residual S crossed (setupColumn S breeze M) (setupColumn S breeze M).state)
    ⟨breeze.node, breeze.edge, fun _ => breeze.node 4⟩ := ⟨_, rfl⟩
  have hrun : termsColumn solve S crossed ⟨11, 1, 0, 0, fun _ => 1⟩ false breeze M 1 (fun _ => breeze.node 4) ref
      ⟨breeze.node, breeze.edge, fun _ => breeze.node 4⟩ = .ok { W with tracer := t } := by
    unfold termsColumn
    dsimp only
    rw [show (addTerms S (residual S crossed (setupColumn S breeze M) (setupColumn S breeze M).state)
      ⟨breeze.node, breeze.edge, fun _ => breeze.node 4⟩).tracer = fun _ => breeze.node 4 from rfl, ht, hW]
  refine ⟨S, _, _, _, _, crossed, ⟨11, 1, 0, 0, fun _ => 1⟩, breeze, { W with tracer := t }, E, hL, href, hu, hphys, fun k => ?_,
    ⟨by simp, by simp, fun m hm => by simp [crossed]⟩, fun m => by simp [Schur.Site.other, crossed], hrun, fun hall => ?_⟩
  · simp only [crossed]
    split_ifs <;> norm_num
  rw [← hW] at ht
  have hold : ∀ m, windOld S crossed breeze m = if m = 1 then 1 else 0 := crossed_wind T hn hN _
  have hnew : ∀ m, windNew S crossed breeze W m = if m = 1 then 1 else 0 := crossed_wind T hn hN _
  have hterm := fun k => (C140_terms E T hNN hL href solve crossed _ false breeze M 1 _ ref _ _ hrun k).1
  have hstep := (C139_step E T hL solve hs crossed _ breeze M hdt W 1 _ ref _ t ht 0 one_pos
    (fun j => W.node 4 j - breeze.node 4 j)).2 (fun k hk => by
      have := hall k hk
      dsimp only at this
      rw [this]
      ring)
  have hb : ∀ j, breeze.node 4 j = 1 := fun j => by simp [breeze]
  have d0 := hterm 0 (by omega)
  have d1 := hterm 1 (by omega)
  have hd : ∀ k, divergence S crossed (windOld S crossed breeze) (breeze.node 4) k =
    Schur.carried S crossed crossed.jacEdge (windOld S crossed breeze) (breeze.node 4) k := fun _ => rfl
  rw [hd, (crossed_carried E T hn hN _ _ _ hold).1] at d0
  rw [hd, (crossed_carried E T hn hN _ _ _ hold).2] at d1
  have s0 := hstep 0 (by omega)
  unfold TracerStep at s0
  rw [(crossed_carried E T hn hN _ _ _ hold).1, (crossed_carried E T hn hN _ _ _ hnew).1] at s0
  have e1 : crossed.jacEdge 1 = 1 := rfl
  have e2 : Schur.Site.other ⟨11, 1, 0, 0, fun _ => 1⟩ S 1 = 1 := rfl
  simp only [hb, e1, e2] at d0 d1 s0
  rw [d0, d1] at s0
  have : (1 - S.dt * (1 * ((1 + 1) / 2)) - 1) / S.dt = -1 := by
    field_simp
    ring
  rw [this] at s0
  apply hdt
  linarith

/-- Every column of ten levels and every small enough time step meet the hypotheses of C140, with and without the option. -/
example (phys : Thermo.Constants) (solve : BandSolver) (hs : Lapack solve) (G : Metric) (e : Bool) (D : Data) (M : Memory) (count : Nat)
    (q ref : Nat → Nat → ℝ) (U : Vdyn.State) : ∃ S : Setup, ∃ V,
    Elements S (fun k => (k : ℝ) + 1 / 2) (fun k => (k : ℝ)) ([0], [2]) ([-1, 1], [1, 1]) ∧
    Stencils S (fun k => (k : ℝ) + 1 / 2) (fun k => (k : ℝ)) (fun k => (k : ℝ) + 1 / 2) (fun k => (k : ℝ)) ([0], [2]) ([-1, 1], [1, 1]) ∧
    SecondOnLevels S (fun k => (k : ℝ) + 1 / 2) (fun k => (k : ℝ)) ([0], [2]) ([-1, 1], [1, 1]) ∧ Lorenz S ∧ S.useRef = true ∧
    S.uniform = false ∧ S.levels = 10 ∧ S.dt ≠ 0 ∧ termsColumn solve S G ⟨12, 8, 3, 4, fun _ => 1⟩ e D M count q ref U = .ok V := by
  obtain ⟨S, E, T, hL, hN, hn, href, hu, hp, -⟩ := unit_setup 10 (by omega) phys
  obtain ⟨h1, hpos, h⟩ := C139_small_steps E T hL (by omega) solve hs G ⟨12, 8, 3, 4, fun _ => 1⟩ (by
    simp [Schur.Site.Beyond, hN]) D e (by simp [hu])
  have hh : h1 / 2 ≠ 0 := by positivity
  obtain ⟨t, ht⟩ := h (h1 / 2) hh (by rw [abs_of_pos (by positivity)]; linarith) M
    (addTerms { S with dt := h1 / 2 } (residual { S with dt := h1 / 2 } G (setupColumn { S with dt := h1 / 2 } D M)
      (setupColumn { S with dt := h1 / 2 } D M).state) U) count q ref U.tracer
  refine ⟨{ S with dt := h1 / 2 }, { addTerms { S with dt := h1 / 2 } (residual { S with dt := h1 / 2 } G
    (setupColumn { S with dt := h1 / 2 } D M) (setupColumn { S with dt := h1 / 2 } D M).state) U with tracer := t }, elements_dt E _,
    stencils_dt T _, fun h => by
    rw [show S.uniform = false from hu] at h
    simp at h, hL, href, hu, hN, hh, ?_⟩
  unfold termsColumn
  dsimp only
  rw [show (addTerms { S with dt := h1 / 2 } (residual { S with dt := h1 / 2 } G (setupColumn { S with dt := h1 / 2 } D M)
      (setupColumn { S with dt := h1 / 2 } D M).state) U).tracer = U.tracer from rfl, ht]

/-- A patch of two by three elements of order four and ten levels, wide enough: the loop of the implicit step succeeds for small time
steps. -/
example (phys : Thermo.Constants) (solve : BandSolver) (hs : Lapack solve) (F : Fixed) (volumes : Nat → ℝ) (count : Nat) (same : Bool)
    (init C : Columns) (leave : Place → Memory → Memory) (M : Memory) :
    ∃ S : Setup, ∃ C', Elements S (fun k => (k : ℝ) + 1 / 2) (fun k => (k : ℝ)) ([0], [2]) ([-1, 1], [1, 1]) ∧ Lorenz S ∧ S.levels = 10 ∧
    S.dt ≠ 0 ∧ (Box.mk 1 12 1 8).Whole 4 ∧ (Box.mk 1 12 1 8).Inside (4, 4) ∧ (Box.mk 1 12 1 8).owner 4 (4, 4) = (5, 5) ∧
    stepPatch solve S F 15 11 volumes count false ⟨1, 12, 1, 8⟩ 4 same init leave M C = .ok C' := by
  obtain ⟨S, E, T, hL, hN, hn, href, hu, hp, -⟩ := unit_setup 10 (by omega) phys
  have hB : (Box.mk 1 12 1 8).Whole 4 := ⟨by omega, rfl, rfl⟩
  have hcol : ∀ l : List Place, (∀ x ∈ l, (Box.mk 1 12 1 8).Inside x) → ∃ h0 : ℝ, 0 < h0 ∧ ∀ h : ℝ, h ≠ 0 → |h| < h0 → ∀ x ∈ l,
      ∃ V, stepColumn solve { S with dt := h } (F.metric x) ⟨15, 11, x.1, x.2, volumes⟩
        ⟨(if same then C x else init x).node, (if same then C x else init x).edge, F.refNode x, F.refEdge x⟩ M count
        (if same then C x else init x).tracer (F.refTracer x) (C x) = .ok V := by
    intro l
    induction l with
    | nil => exact fun _ => ⟨1, one_pos, fun _ _ _ x hx => by simp at hx⟩
    | cons x l ih =>
      intro hl
      obtain ⟨h0, p0, H0⟩ := ih fun y hy => hl y (List.mem_cons_of_mem _ hy)
      have hx : (Box.mk 1 12 1 8).Inside x := hl x List.mem_cons_self
      unfold Box.Inside at hx
      dsimp only at hx
      obtain ⟨h1, p1, H1⟩ := C138_small_steps E T hL (by omega) (d := 4) (by simp [offDiagonals, E.elements, hn]) (by omega) solve hs
        (F.metric x) ⟨(if same then C x else init x).node, (if same then C x else init x).edge, F.refNode x, F.refEdge x⟩ M (C x)
      obtain ⟨h2, p2, H2⟩ := C139_small_steps E T hL (by omega) solve hs (F.metric x) ⟨15, 11, x.1, x.2, volumes⟩ (by
        unfold Schur.Site.Beyond
        dsimp only
        rw [hN]
        omega) ⟨(if same then C x else init x).node, (if same then C x else init x).edge, F.refNode x, F.refEdge x⟩ false
        (by simp [hu])
      refine ⟨min h0 (min h1 h2), lt_min p0 (lt_min p1 p2), fun h hh hlt y hy => ?_⟩
      rcases List.mem_cons.1 hy with rfl | hy
      · obtain ⟨V, hV⟩ := H1 h hh (lt_of_lt_of_le hlt (le_trans (min_le_right _ _) (min_le_left _ _)))
        obtain ⟨t, ht⟩ := H2 h hh (lt_of_lt_of_le hlt (le_trans (min_le_right _ _) (min_le_right _ _))) M V count
          (if same then C y else init y).tracer (F.refTracer y) V.tracer
        refine ⟨{ V with tracer := t }, ?_⟩
        unfold stepColumn
        rw [hV]
        dsimp only
        rw [ht]
      · exact H0 h hh (lt_of_lt_of_le hlt (min_le_left _ _)) y hy
  obtain ⟨h0, hpos, H⟩ := hcol (stepPlaces ⟨1, 12, 1, 8⟩ 4) fun x hx => ((mem_stepPlaces _ 4 hB x).1 hx).1
  have hh : h0 / 2 ≠ 0 := by positivity
  have hlt : |h0 / 2| < h0 := by rw [abs_of_pos (by positivity)]; linarith
  have hNN : SecondOnLevels { S with dt := h0 / 2 } (fun k => (k : ℝ) + 1 / 2) (fun k => (k : ℝ)) ([0], [2]) ([-1, 1], [1, 1]) :=
    fun h => by rw [show S.uniform = false from hu] at h; simp at h
  obtain ⟨C', hC'⟩ := (C141_columns (elements_dt E (h0 / 2)) (stencils_dt T (h0 / 2)) hNN hL href solve hs hh F 15 11 volumes count
    ⟨1, 12, 1, 8⟩ 4 hB same init leave M M C).2.1.2 fun x hx ho => H _ hh hlt x ((mem_stepPlaces _ 4 hB x).2 ⟨hx, ho⟩)
  exact ⟨{ S with dt := h0 / 2 }, C', elements_dt E _, hL, hN, hh, hB, by simp [Box.Inside], by simp [Box.owner, standsFor], hC'⟩

end Verif.ColumnV2
