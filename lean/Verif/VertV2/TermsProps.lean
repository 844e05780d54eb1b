/-
C140, C141: the implicit terms taken explicitly and the loop over columns of the implicit step of method v2.
-/
import Verif.VertV2.TracerExamples
import Verif.VertV2.Terms
import Verif.VertV2.TermsSpec
import Verif.Vdyn.ExplicitProps

namespace Verif.ColumnV2

open Verif.Column Verif.Vdyn Verif.Interp Finset

theorem columnOf_data (D : Data) : asColumn D (unknowns D.node D.edge) = columnOf D := by
  unfold asColumn columnOf
  simp only [unknowns_p, unknowns_w, unknowns_r]

section
variable {S : Setup} {node edge sNode sEdge : Nat → ℝ} {gauss lob : List ℝ × List ℝ}

/-- The tendencies of the data of a column. -/
theorem residual_of_data (E : Elements S node edge gauss lob) (T : Stencils S node edge sNode sEdge gauss lob)
    (hNN : SecondOnLevels S node edge gauss lob) (hL : Lorenz S) (href : S.useRef = true) (G : Metric) (D : Data) (M : Memory) (k : Nat) :
    (k < S.levels → residual S G (setupColumn S D M) (setupColumn S D M).state (3 * k + 2) =
      divergence S G (windOld S G D) (D.node 4) k) ∧
    (k < S.levels → residual S G (setupColumn S D M) (setupColumn S D M).state (3 * k) =
      divergence S G (windOld S G D) (D.node 2) k - diffuse S S.diffDiffNN S.nuScalar (D.node 2) (D.refNode 2) k) ∧
    (0 < k → k < S.levels → residual S G (setupColumn S D M) (setupColumn S D M).state (3 * k + 1) = force S G D k) ∧
    (k = 0 ∨ k = S.levels → residual S G (setupColumn S D M) (setupColumn S D M).state (3 * k + 1) = 0) := by
  have ha := state_unknowns hL D M
  have hflux : ∀ q, flux S (physical G) (columnOf D) q = fun m => G.jacEdge m * (applyRow S.interpNE q m * windOld S G D m) := fun q => by
    unfold windOld
    rw [columnOf_data]
    funext m
    exact mul_assoc _ _ _
  refine ⟨fun hk => ?_, fun hk => ?_, fun h0 hk => ?_, fun hk => ?_⟩
  · rw [residual_congr E T hNN hL href G D M M ha _ ⟨by omega, Or.inr (by omega)⟩, (C136_levels hL G D M _ href k hk).1, unknowns_r,
      columnOf_data, hflux]
    simp [divergence, columnOf]
  · rw [residual_congr E T hNN hL href G D M M ha _ ⟨by omega, Or.inr (by omega)⟩, (C136_levels hL G D M _ href k hk).2, unknowns_p,
      columnOf_data, hflux]
    simp [divergence, columnOf]
  · rw [residual_congr E T hNN hL href G D M M ha _ ⟨by omega, Or.inl (by omega)⟩, (C136_velocity hL G D M _ href k).1 h0 hk, unknowns_w,
      columnOf_data]
    simp [force, columnOf]
  · rw [(C136_velocity hL G D M _ href k).2 hk, state_w hL]
    simp

/-- The tendencies of a column at rest in balance. -/
theorem residual_rest (E : Elements S node edge gauss lob) (T : Stencils S node edge sNode sEdge gauss lob)
    (hL : Lorenz S) (href : S.useRef = true) (hu : S.uniform = false) (G : Metric) (D : Data) (M : Memory)
    (h0 : ∀ k, D.node 0 k = 0 ∧ D.node 1 k = 0 ∧ D.edge 3 k = 0)
    (hbal : ∀ k, 0 < k → k < S.levels →
      applyRow S.interpNE (D.node 2) k / applyRow S.interpNE (D.node 4) k *
        applyRow S.diffNE (fun j => S.phys.cp * Real.exp (S.phys.r / (S.phys.cp - S.phys.r) *
          Real.log (S.phys.r / S.phys.p0 * D.node 2 j))) k / G.derivREdge k = -S.phys.g) (i : Nat) (hi : IsUnknown S i) :
    residual S G (setupColumn S D M) (setupColumn S D M).state i = 0 := by
  have hNN : SecondOnLevels S node edge gauss lob := fun h => by rw [hu] at h; simp at h
  have hap : ∀ A : Op, ∀ k, applyRow A (fun _ => (0 : ℝ)) k = 0 := fun A k => by rw [Vdyn.applyRow_eq]; simp
  have hz : ∀ A nu f g k, diffuse S A nu f g k = 0 := fun A nu f g k => by unfold diffuse; rw [hu]; simp
  have hw : (columnOf D).w = fun _ => 0 := funext fun k => (h0 k).2.2
  have hu0 : (columnOf D).u = fun _ => 0 := funext fun k => (h0 k).1
  have hv0 : (columnOf D).v = fun _ => 0 := funext fun k => (h0 k).2.1
  have hwind : ∀ m, windOld S G D m = 0 := by
    intro m
    unfold windOld verticalWind
    rw [columnOf_data, hw, hu0, hv0]
    simp [hap]
  have hdiv : ∀ q k, divergence S G (windOld S G D) q k = 0 := by
    intro q k
    unfold divergence
    simp only [hwind, mul_zero]
    rw [hap, zero_div]
  have hforce : ∀ k, 0 < k → k < S.levels → force S G D k = 0 := by
    intro k hk0 hk
    have hkin : kinetic S G (columnOf D) = fun _ => 0 := by
      funext j
      unfold kinetic
      rw [hw, hu0, hv0]
      simp [hap]
    have hsh : shear S (physical G) (columnOf D) k = 0 := by
      unfold shear
      rw [hw, hu0, hv0]
      simp [hap]
    have hb := hbal k hk0 hk
    have e1 : theta S (columnOf D) k * applyRow S.diffNE (exner S (columnOf D)) k / G.derivREdge k = -S.phys.g := hb
    unfold force
    rw [hkin, hsh, hap, hz, add_zero, sub_zero, sub_zero, e1]
    ring
  obtain ⟨i1, i2⟩ := hi
  obtain ⟨r4, r2, r3, r1⟩ := residual_of_data E T hNN hL href G D M (i / 3)
  obtain h | h | h : i = 3 * (i / 3) ∨ i = 3 * (i / 3) + 1 ∨ i = 3 * (i / 3) + 2 := by omega
  · rw [h, r2 (by omega), hdiv, hz, sub_zero]
  · by_cases hk : 0 < i / 3 ∧ i / 3 < S.levels
    · rw [h, r3 hk.1 hk.2, hforce _ hk.1 hk.2]
    · rw [h, r1 (by omega)]
  · rw [h, r4 (by omega), hdiv]

theorem terms_parts (solve : BandSolver) (G : Metric) (P : Schur.Site) (e : Bool) (D : Data) (M : Memory) (count : Nat)
    (q ref : Nat → Nat → ℝ) (U V : Vdyn.State) (h : termsColumn solve S G P e D M count q ref U = .ok V) :
    ∃ t, updateTracers S G P (setupColumn S D M) solve e D
      (addTerms S (residual S G (setupColumn S D M) (setupColumn S D M).state) U) count q ref U.tracer = .ok t ∧
      V = { addTerms S (residual S G (setupColumn S D M) (setupColumn S D M).state) U with tracer := t } := by
  unfold termsColumn at h
  dsimp only at h
  rw [show (addTerms S (residual S G (setupColumn S D M) (setupColumn S D M).state) U).tracer = U.tracer from rfl] at h
  cases ht : updateTracers S G P (setupColumn S D M) solve e D
      (addTerms S (residual S G (setupColumn S D M) (setupColumn S D M).state) U) count q ref U.tracer with
  | exc => rw [ht] at h; simp at h
  | ub => rw [ht] at h; simp at h
  | ok t =>
    rw [ht] at h
    exact ⟨t, rfl, (ColumnRes.ok.inj h).symm⟩

/-- **C140 (terms).**  The tendencies are those of transport, pressure gradient, gravity and diffusion in the initial data, times the time
step; vertical velocity at the bottom and the top stays, and so does everything that is neither density, density times potential
temperature, vertical velocity nor tracer. -/
theorem C140_terms (E : Elements S node edge gauss lob) (T : Stencils S node edge sNode sEdge gauss lob)
    (hNN : SecondOnLevels S node edge gauss lob) (hL : Lorenz S) (href : S.useRef = true) (solve : BandSolver) (G : Metric)
    (P : Schur.Site) (e : Bool) (D : Data) (M : Memory) (count : Nat) (q ref : Nat → Nat → ℝ) (U V : Vdyn.State)
    (h : termsColumn solve S G P e D M count q ref U = .ok V) (k : Nat) :
    (k < S.levels → V.node 4 k = U.node 4 k - S.dt * divergence S G (windOld S G D) (D.node 4) k) ∧
    (k < S.levels → V.node 2 k = U.node 2 k - S.dt * (divergence S G (windOld S G D) (D.node 2) k -
      diffuse S S.diffDiffNN S.nuScalar (D.node 2) (D.refNode 2) k)) ∧
    (0 < k → k < S.levels → V.edge 3 k = U.edge 3 k - S.dt * force S G D k) ∧
    (k = 0 ∨ S.levels ≤ k → V.edge 3 k = U.edge 3 k) ∧
    (∀ c, (c ≠ 2 ∧ c ≠ 4) ∨ S.levels ≤ k → V.node c k = U.node c k) ∧
    (∀ c, c ≠ 3 → V.edge c k = U.edge c k) ∧
    (∀ c, count ≤ c ∨ S.levels ≤ k → V.tracer c k = U.tracer c k) := by
  obtain ⟨t, ht, rfl⟩ := terms_parts solve G P e D M count q ref U V h
  obtain ⟨r4, r2, r3, r0⟩ := residual_of_data E T hNN hL href G D M k
  obtain ⟨l1, l2, -⟩ := hL
  refine ⟨fun hk => ?_, fun hk => ?_, fun h0 hk => ?_, fun hk => ?_, fun c hc => ?_, fun c hc => ?_, fun c hc => ?_⟩
  · rw [← r4 hk]
    simp [addTerms, hk, vec]
  · rw [← r2 hk]
    simp [addTerms, hk, vec, l2]
  · rw [← r3 h0 hk]
    simp [addTerms, hk.le, vec, l1]
  · dsimp only [addTerms]
    by_cases hk2 : k ≤ S.levels
    · rw [if_pos hk2, if_neg (show ¬ (3 = 2 ∧ S.pOnEdge = true) by omega), if_pos ⟨rfl, l1⟩, vec, r0 (by omega), mul_zero, sub_zero]
    · rw [if_neg hk2]
  · dsimp only [addTerms]
    rw [l1]
    split_ifs with h1 h2 h3 h4
    · omega
    · simp at h3
    · omega
    · rfl
    · rfl
  · dsimp only [addTerms]
    rw [l2]
    split_ifs with h1 h2 h3
    · simp at h2
    · omega
    · rfl
    · rfl
  · exact C139_untouched solve G P D _ e _ count q ref _ t ht c k hc

/-- **C140 (tracers).**  Under the fully explicit option tracers change by the explicit step; otherwise by the implicit step, with the wind
of the vertical velocity after the step. -/
theorem C140_tracers (E : Elements S node edge gauss lob) (T : Stencils S node edge sNode sEdge gauss lob) (hL : Lorenz S)
    (href : S.useRef = true) (solve : BandSolver) (hs : Lapack solve) (hdt : S.dt ≠ 0) (G : Metric) (P : Schur.Site) (e : Bool) (D : Data)
    (M : Memory) (count : Nat) (q ref : Nat → Nat → ℝ) (U V : Vdyn.State) (h : termsColumn solve S G P e D M count q ref U = .ok V)
    (c : Nat) (hc : c < count) :
    (e = true → ∀ k < S.levels, ExplicitTracer S G D (q c) (ref c) (fun j => V.tracer c j - U.tracer c j) k) ∧
    (e = false → ∀ dq, (∀ k < S.levels, TracerStep S G (P.other S) (windOld S G D) (windNew S G D V) (q c) dq k) ↔
      ∀ k < S.levels, V.tracer c k = U.tracer c k + dq k) := by
  obtain ⟨t, ht, rfl⟩ := terms_parts solve G P e D M count q ref U V h
  constructor
  · rintro rfl k hk
    exact C139_explicit E T hL href solve hs G P D M hdt _ count q ref U.tracer t ht c hc k hk
  · rintro rfl dq
    exact C139_step E T hL solve hs G P D M hdt _ count q ref U.tracer t ht c hc dq

/-- **C140 (refused).**  The step fails exactly where the update of tracers does. -/
theorem C140_refused (E : Elements S node edge gauss lob) (T : Stencils S node edge sNode sEdge gauss lob) (hL : Lorenz S)
    (solve : BandSolver) (hs : Lapack solve) (hdt : S.dt ≠ 0) (G : Metric) (P : Schur.Site) (e : Bool) (D : Data) (M : Memory) (count : Nat)
    (q ref : Nat → Nat → ℝ) (U : Vdyn.State) :
    (termsColumn solve S G P e D M count q ref U = .ub ↔
      count ≠ 0 ∧ ¬ (e = false ∧ S.uniform = true) ∧ (S.levels + 2 ≤ 4 * S.order ∨ (e = false ∧ P.Beyond S))) ∧
    (termsColumn solve S G P e D M count q ref U = .exc ↔
      count ≠ 0 ∧ ((e = false ∧ S.uniform = true) ∨ (¬ (S.levels + 2 ≤ 4 * S.order ∨ (e = false ∧ P.Beyond S)) ∧
        (S.levels + 2 < 6 * S.order ∨ (e = false ∧ ¬ RegularTracers S G (P.other S) (windOld S G D)))))) := by
  obtain ⟨r1, r2, -⟩ := C139_refused E T hL solve hs G P D M e hdt
    (addTerms S (residual S G (setupColumn S D M) (setupColumn S D M).state) U) count q ref U.tracer
  rw [← r1, ← r2]
  unfold termsColumn
  dsimp only
  rw [show (addTerms S (residual S G (setupColumn S D M) (setupColumn S D M).state) U).tracer = U.tracer from rfl]
  cases updateTracers S G P (setupColumn S D M) solve e D
      (addTerms S (residual S G (setupColumn S D M) (setupColumn S D M).state) U) count q ref U.tracer <;> simp

/-- **C140 (mass).**  The step changes neither the mass of a column nor, without uniform diffusion, the integral of density times potential
temperature, nor the mass of tracers. -/
theorem C140_mass (E : Elements S node edge gauss lob) (T : Stencils S node edge sNode sEdge gauss lob)
    (hNN : SecondOnLevels S node edge gauss lob) (hL : Lorenz S) (href : S.useRef = true) (solve : BandSolver) (hs : Lapack solve)
    (hdt : S.dt ≠ 0) (G : Metric) (hJ : ∀ k < S.levels, G.jac k ≠ 0) (P : Schur.Site) (e : Bool) (D : Data) (M : Memory) (count : Nat)
    (q ref : Nat → Nat → ℝ) (U V : Vdyn.State) (h : termsColumn solve S G P e D M count q ref U = .ok V) :
    overLevels S edge gauss (fun k => G.jac k * V.node 4 k) = overLevels S edge gauss (fun k => G.jac k * U.node 4 k) ∧
    (S.uniform = false →
      overLevels S edge gauss (fun k => G.jac k * V.node 2 k) = overLevels S edge gauss (fun k => G.jac k * U.node 2 k)) ∧
    ∀ c, overLevels S edge gauss (fun k => G.jac k * V.tracer c k) = overLevels S edge gauss (fun k => G.jac k * U.tracer c k) := by
  have w0 : windOld S G D 0 = 0 := wind_outside S _ _ 0 (by omega)
  have w1 : windOld S G D S.levels = 0 := if_pos (Or.inr le_rfl)
  have hdiv : ∀ z : Nat → ℝ, overLevels S edge gauss (fun k => G.jac k * divergence S G (windOld S G D) z k) = 0 :=
    fun z => divergence_total E G hJ _ (by rw [w0]; ring) (by rw [w1]; ring)
  have htr := fun k => C140_terms E T hNN hL href solve G P e D M count q ref U V h k
  refine ⟨?_, fun hu => ?_, fun c => ?_⟩
  · rw [overLevels_congr S edge gauss _ (fun k => G.jac k * U.node 4 k - S.dt * (G.jac k * divergence S G (windOld S G D) (D.node 4) k))
      (fun k hk => by rw [(htr k).1 hk]; ring), overLevels_sub, overLevels_mul, hdiv]
    ring
  · have hd : ∀ k, diffuse S S.diffDiffNN S.nuScalar (D.node 2) (D.refNode 2) k = 0 := fun k => by
      unfold diffuse
      rw [hu]
      simp
    rw [overLevels_congr S edge gauss _ (fun k => G.jac k * U.node 2 k - S.dt * (G.jac k * divergence S G (windOld S G D) (D.node 2) k))
      (fun k hk => by rw [(htr k).2.1 hk, hd]; ring), overLevels_sub, overLevels_mul, hdiv]
    ring
  · obtain ⟨t, ht, rfl⟩ := terms_parts solve G P e D M count q ref U V h
    exact C139_mass E T hL href solve hs G hJ P D M e hdt _ count q ref U.tracer t ht c

/-- **C140 (constant mixing ratio; partial).**  Under the fully explicit option and without uniform diffusion, a tracer that is a constant
times density, in the initial data and in the data to update, stays that constant times density.  Missing: steps without the option, in
which tracers take an implicit step and density an explicit one, and uniform diffusion. -/
theorem C140_constant_partial (E : Elements S node edge gauss lob) (T : Stencils S node edge sNode sEdge gauss lob)
    (hNN : SecondOnLevels S node edge gauss lob) (hL : Lorenz S) (href : S.useRef = true) (hu : S.uniform = false) (solve : BandSolver)
    (hs : Lapack solve) (hdt : S.dt ≠ 0) (G : Metric) (P : Schur.Site) (D : Data) (M : Memory) (count : Nat) (q ref : Nat → Nat → ℝ)
    (U V : Vdyn.State) (h : termsColumn solve S G P true D M count q ref U = .ok V) (c : Nat) (hc : c < count) (r : ℝ)
    (hq : ∀ k < S.levels, q c k = r * D.node 4 k) (hU : ∀ k < S.levels, U.tracer c k = r * U.node 4 k) (k : Nat) (hk : k < S.levels) :
    V.tracer c k = r * V.node 4 k := by
  have h4 := (C140_terms E T hNN hL href solve G P true D M count q ref U V h k).1 hk
  obtain ⟨t, ht, rfl⟩ := terms_parts solve G P true D M count q ref U V h
  have hx := C139_explicit E T hL href solve hs G P D M hdt _ count q ref U.tracer t ht c hc k hk
  unfold ExplicitTracer at hx
  dsimp only at hx
  have hmix : applyRow S.diffEN (mixing S D (q c) (ref c)) k = 0 := by
    rw [show mixing S D (q c) (ref c) = fun _ => 0 from funext fun m => if_neg (by rw [hu]; simp)]
    exact applyRow_zero _ _
  have hq' : ∀ j < S.levels, q c j = r * D.node 4 j + 0 * D.node 4 j := fun j hj => by rw [hq j hj]; ring
  rw [hmix, carried_same E T G _ _ (q c) _ hq' k hk, Schur.carried_lin, zero_div] at hx
  rw [h4]
  dsimp only
  have hUk := hU k hk
  rw [carried_divergence] at hx
  field_simp at hx
  linear_combination hx + hUk

/-- **C140 (balance).**  Without uniform diffusion the terms are nothing in a column at rest in hydrostatic balance. -/
theorem C140_balance (E : Elements S node edge gauss lob) (T : Stencils S node edge sNode sEdge gauss lob) (hL : Lorenz S)
    (href : S.useRef = true) (hu : S.uniform = false) (solve : BandSolver) (G : Metric) (P : Schur.Site) (e : Bool) (D : Data)
    (M : Memory) (count : Nat) (q ref : Nat → Nat → ℝ) (U V : Vdyn.State) (h : termsColumn solve S G P e D M count q ref U = .ok V)
    (h0 : ∀ k, D.node 0 k = 0 ∧ D.node 1 k = 0 ∧ D.edge 3 k = 0)
    (hbal : ∀ k, 0 < k → k < S.levels →
      applyRow S.interpNE (D.node 2) k / applyRow S.interpNE (D.node 4) k *
        applyRow S.diffNE (fun j => S.phys.cp * Real.exp (S.phys.r / (S.phys.cp - S.phys.r) *
          Real.log (S.phys.r / S.phys.p0 * D.node 2 j))) k / G.derivREdge k = -S.phys.g) :
    V.node = U.node ∧ V.edge = U.edge := by
  obtain ⟨t, -, rfl⟩ := terms_parts solve G P e D M count q ref U V h
  have hrest := addTerms_congr hL _ (fun _ => 0) U fun i hi => residual_rest E T hL href hu G D M h0 hbal i hi
  rw [hrest]
  constructor
  · funext c k
    dsimp only [addTerms]
    split_ifs with h1 h2 h3 h4
    · rw [h2.1]; ring
    · rw [h3.1]; ring
    · rw [h4]; ring
    · rfl
    · rfl
  · funext c k
    dsimp only [addTerms]
    split_ifs with h1 h2 h3
    · rw [h2.1]; ring
    · rw [h3.1]; ring
    · rfl
    · rfl

/-- **C140 (history).**  The step does not depend on the columns before it. -/
theorem C140_history (E : Elements S node edge gauss lob) (T : Stencils S node edge sNode sEdge gauss lob)
    (hNN : SecondOnLevels S node edge gauss lob) (hL : Lorenz S) (href : S.useRef = true) (solve : BandSolver) (hs : Lapack solve)
    (hdt : S.dt ≠ 0) (G : Metric) (P : Schur.Site) (e : Bool) (D : Data) (M M' : Memory) (count : Nat) (q ref : Nat → Nat → ℝ)
    (U : Vdyn.State) : termsColumn solve S G P e D M count q ref U = termsColumn solve S G P e D M' count q ref U := by
  have ha := agree_trans (state_unknowns hL D M) (agree_symm (state_unknowns hL D M'))
  have hF := addTerms_congr hL _ _ U fun i hi => residual_congr E T hNN hL href G D M M' ha i hi
  unfold termsColumn
  dsimp only
  rw [hF, C139_history E T hL href solve hs G P D M M' e hdt]

/-- A sweep over columns with steps that do not depend on memory. -/
theorem sweep_columns (step : Memory → Place → Vdyn.State → ColumnRes) (hist : ∀ M M' x U, step M x U = step M' x U)
    (leave : Place → Memory → Memory) (l : List Place) (hl : l.Nodup) (Q : Place → Prop) (hQ : ∀ x, x ∈ l ↔ Q x) (M M0 : Memory)
    (C : Columns) :
    ((∃ C', sweep step leave l M C = .ok C') ↔ ∀ x, Q x → ∃ V, step M0 x (C x) = .ok V) ∧
    ∀ C', sweep step leave l M C = .ok C' → ∀ x, (Q x → step M0 x (C x) = .ok (C' x)) ∧ (¬ Q x → C' x = C x) := by
  obtain ⟨s1, s2⟩ := sweep_spec step hist leave M0 l hl M C
  refine ⟨⟨?_, fun h => s2 fun x hx => h x ((hQ x).1 hx)⟩, fun C' hC' x => ?_⟩
  · rintro ⟨C', hC'⟩ x hx
    exact ⟨_, (s1 C' hC').1 x ((hQ x).2 hx)⟩
  · exact ⟨fun hx => (s1 C' hC').1 x ((hQ x).2 hx), fun hx => (s1 C' hC').2 x fun h => hx ((hQ x).1 h)⟩

/-- **C140 (patch).**  The step of a patch succeeds if and only if the step of every column of the interior does; then every column of the
interior is stepped, from its own data and whatever the order, and everything else stays. -/
theorem C140_patch (E : Elements S node edge gauss lob) (T : Stencils S node edge sNode sEdge gauss lob)
    (hNN : SecondOnLevels S node edge gauss lob) (hL : Lorenz S) (href : S.useRef = true) (solve : BandSolver) (hs : Lapack solve)
    (hdt : S.dt ≠ 0) (F : Fixed) (a b : Nat) (volumes : Nat → ℝ) (count : Nat) (e : Bool) (B : Box) (init : Columns)
    (leave : Place → Memory → Memory) (M M0 : Memory) (C : Columns) :
    ((∃ C', termsPatch solve S F a b volumes count e B init leave M C = .ok C') ↔ ∀ x, B.Inside x → ∃ V,
      termsColumn solve S (F.metric x) ⟨a, b, x.1, x.2, volumes⟩ e ⟨(init x).node, (init x).edge, F.refNode x, F.refEdge x⟩ M0 count
        (init x).tracer (F.refTracer x) (C x) = .ok V) ∧
    ∀ C', termsPatch solve S F a b volumes count e B init leave M C = .ok C' → ∀ x,
      (B.Inside x → termsColumn solve S (F.metric x) ⟨a, b, x.1, x.2, volumes⟩ e
        ⟨(init x).node, (init x).edge, F.refNode x, F.refEdge x⟩ M0 count (init x).tracer (F.refTracer x) (C x) = .ok (C' x)) ∧
      (¬ B.Inside x → C' x = C x) := by
  have h := sweep_columns (fun M x U => termsColumn solve S (F.metric x) (site a b volumes x) e
    (columnData F x (init x)) M count (init x).tracer (F.refTracer x) U)
    (fun M M' x U => C140_history E T hNN hL href solve hs hdt (F.metric x) (site a b volumes x) e (columnData F x (init x)) M M' count
      (init x).tracer (F.refTracer x) U) leave (interior B) (interior_nodup B) _ (mem_interior B) M M0 C
  exact h

/-! ### The loop of the implicit step -/

theorem step_parts (solve : BandSolver) (G : Metric) (P : Schur.Site) (D : Data) (M : Memory) (count : Nat) (q ref : Nat → Nat → ℝ)
    (U V : Vdyn.State) (h : stepColumn solve S G P D M count q ref U = .ok V) :
    ∃ W t, implicitColumn solve S G D M U = some W ∧
      updateTracers S G P (setupColumn S D M) solve false D W count q ref U.tracer = .ok t ∧ V = { W with tracer := t } := by
  unfold stepColumn at h
  cases hW : implicitColumn solve S G D M U with
  | none => rw [hW] at h; simp at h
  | some W =>
    rw [hW] at h
    dsimp only at h
    have htr : W.tracer = U.tracer := by
      unfold implicitColumn at hW
      obtain ⟨s, -, rfl⟩ := Option.map_eq_some_iff.1 hW
      rfl
    rw [htr] at h
    cases ht : updateTracers S G P (setupColumn S D M) solve false D W count q ref U.tracer with
    | exc => rw [ht] at h; simp at h
    | ub => rw [ht] at h; simp at h
    | ok t =>
      rw [ht] at h
      exact ⟨W, t, rfl, ht, (ColumnRes.ok.inj h).symm⟩

/-- **C141 (step).**  The step of a column takes the unknowns `x` of its data to the one and only `x'` with `J (x - x') = F x`, for the
residual `F` and the Jacobian `J` at `x`, changes tracers by the implicit step with the wind of the new vertical velocity, and leaves
everything else as it was. -/
theorem C141_step (E : Elements S node edge gauss lob) (T : Stencils S node edge sNode sEdge gauss lob)
    (hNN : SecondOnLevels S node edge gauss lob) (hL : Lorenz S) (href : S.useRef = true) (solve : BandSolver) (hs : Lapack solve)
    (hdt : S.dt ≠ 0) (G : Metric) (P : Schur.Site) (D : Data) (M : Memory) (count : Nat) (q ref : Nat → Nat → ℝ) (U V : Vdyn.State)
    (h : stepColumn solve S G P D M count q ref U = .ok V) :
    (∀ x', (∀ i, IsUnknown S i →
      Vdyn.product (jacobianUpdates S G (setupColumn S D M) (unknowns D.node D.edge)) (fun j => unknowns D.node D.edge j - x' j) i =
      residual S G (setupColumn S D M) (unknowns D.node D.edge) i) ↔ Agree S.levels x' (unknowns V.node V.edge)) ∧
    (∀ c < count, ∀ dq, (∀ k < S.levels, TracerStep S G (P.other S) (windOld S G D) (windNew S G D V) (q c) dq k) ↔
      ∀ k < S.levels, V.tracer c k = U.tracer c k + dq k) ∧
    (∀ c k, (c ≠ 2 ∧ c ≠ 4) ∨ S.levels ≤ k → V.node c k = U.node c k) ∧ (∀ c k, c ≠ 3 ∨ S.levels < k → V.edge c k = U.edge c k) ∧
    (∀ c k, count ≤ c ∨ S.levels ≤ k → V.tracer c k = U.tracer c k) := by
  obtain ⟨W, t, hW, ht, rfl⟩ := step_parts solve G P D M count q ref U V h
  have hun := fun c k => C138_untouched hL solve G D M U W hW c k
  refine ⟨fun x' => C138_newton E T hNN hL href solve hs G D M U W hW x', fun c hc dq => ?_, fun c k hc => ?_, fun c k hc => ?_,
    fun c k hc => ?_⟩
  · exact C139_step E T hL solve hs G P D M hdt W count q ref U.tracer t ht c hc dq
  · exact hc.elim (fun h => (hun c k).1 h.1 h.2) (hun c k).2.2.2.1
  · exact hc.elim (hun c k).2.1 (hun c k).2.2.2.2
  · exact C139_untouched solve G P D _ false _ count q ref _ t ht c k hc

/-- **C141 (refused).**  The step of a column succeeds if and only if the order is at most five, there are at least as many levels as the
band has diagonals on one side, the Jacobian is not singular and, if there are tracers, uniform diffusion is off, there are at least
`6 p - 2` levels for order `p`, the place `[levels][iA][iB]` is in the array of volume elements and the matrix of tracers is not singular. -/
theorem C141_refused (E : Elements S node edge gauss lob) (T : Stencils S node edge sNode sEdge gauss lob) (hL : Lorenz S)
    (solve : BandSolver) (hs : Lapack solve) (hdt : S.dt ≠ 0) (G : Metric) (P : Schur.Site) (D : Data) (M : Memory) (count : Nat)
    (q ref : Nat → Nat → ℝ) (U : Vdyn.State) :
    (∃ V, stepColumn solve S G P D M count q ref U = .ok V) ↔
      S.order ≤ 5 ∧ (∀ d, offDiagonals S = some d → d ≤ S.levels) ∧ RegularColumn S G D M ∧
      (count = 0 ∨ (S.uniform = false ∧ 6 * S.order ≤ S.levels + 2 ∧ ¬ P.Beyond S ∧
        RegularTracers S G (P.other S) (windOld S G D))) := by
  have hn := (penalty_facts E).1
  have h138 := C138_refused E T hL solve hs G D M U
  have hleft : (∃ W, implicitColumn solve S G D M U = some W) ↔
      S.order ≤ 5 ∧ (∀ d, offDiagonals S = some d → d ≤ S.levels) ∧ RegularColumn S G D M := by
    rw [← Option.isSome_iff_exists, ← not_iff_not, Option.not_isSome_iff_eq_none, h138]
    constructor
    · rintro (h | ⟨d, h, h'⟩ | h) ⟨k1, k2, k3⟩
      · omega
      · have := k2 d h
        omega
      · exact h k3
    · intro h
      by_contra hno
      rw [not_or, not_or] at hno
      refine h ⟨by omega, fun d hd => ?_, not_not.1 hno.2.2⟩
      by_contra hlt
      exact hno.2.1 ⟨d, hd, by omega⟩
  have hright : ∀ W : Vdyn.State, (∃ t, updateTracers S G P (setupColumn S D M) solve false D W count q ref U.tracer = .ok t) ↔
      (count = 0 ∨ (S.uniform = false ∧ 6 * S.order ≤ S.levels + 2 ∧ ¬ P.Beyond S ∧
        RegularTracers S G (P.other S) (windOld S G D))) := by
    intro W
    obtain ⟨r1, r2, r3⟩ := C139_refused E T hL solve hs G P D M false hdt W count q ref U.tracer
    cases ht : updateTracers S G P (setupColumn S D M) solve false D W count q ref U.tracer with
    | ub =>
      obtain ⟨k1, k2, k3⟩ := r1.1 ht
      simp only [reduceCtorEq, exists_false, false_iff]
      rintro (h | ⟨-, h1, h2, -⟩)
      · exact k1 h
      · rcases k3 with h | ⟨-, h⟩
        · omega
        · exact h2 h
    | exc =>
      obtain ⟨k1, k2⟩ := r2.1 ht
      simp only [reduceCtorEq, exists_false, false_iff]
      rintro (h | ⟨h0, h1, h2, h3⟩)
      · exact k1 h
      · rcases k2 with ⟨-, h⟩ | ⟨-, h | ⟨-, h⟩⟩
        · rw [h0] at h
          simp at h
        · omega
        · exact h h3
    | ok t =>
      refine iff_of_true ⟨t, rfl⟩ ?_
      rw [ht] at r1 r2
      simp only [reduceCtorEq, false_iff, true_and] at r1 r2
      by_cases hc : count = 0
      · exact Or.inl hc
      · refine Or.inr ?_
        have hu : S.uniform = false := by
          by_contra h
          exact r2 ⟨hc, Or.inl (by simpa using h)⟩
        have k1 : ¬ (S.levels + 2 ≤ 4 * S.order ∨ P.Beyond S) := fun h => r1 ⟨hc, by simp [hu], h⟩
        refine ⟨hu, ?_, fun h => k1 (Or.inr h), ?_⟩
        · by_contra h
          exact r2 ⟨hc, Or.inr ⟨k1, Or.inl (by omega)⟩⟩
        · by_contra h
          exact r2 ⟨hc, Or.inr ⟨k1, Or.inr h⟩⟩
  constructor
  · rintro ⟨V, h⟩
    obtain ⟨W, t, hW, ht, -⟩ := step_parts solve G P D M count q ref U V h
    obtain ⟨a1, a2, a3⟩ := hleft.1 ⟨W, hW⟩
    exact ⟨a1, a2, a3, (hright W).1 ⟨t, ht⟩⟩
  · rintro ⟨a1, a2, a3, a4⟩
    obtain ⟨W, hW⟩ := hleft.2 ⟨a1, a2, a3⟩
    obtain ⟨t, ht⟩ := (hright W).2 a4
    refine ⟨{ W with tracer := t }, ?_⟩
    unfold stepColumn
    rw [hW]
    dsimp only
    rw [(C138_untouched hL solve G D M U W hW 0 0).2.2.1, ht]

/-- **C141 (history).**  The step of a column with its tracers does not depend on the columns before it. -/
theorem C141_history (E : Elements S node edge gauss lob) (T : Stencils S node edge sNode sEdge gauss lob)
    (hNN : SecondOnLevels S node edge gauss lob) (hL : Lorenz S) (href : S.useRef = true) (solve : BandSolver) (hs : Lapack solve)
    (hdt : S.dt ≠ 0) (G : Metric) (P : Schur.Site) (D : Data) (M M' : Memory) (count : Nat) (q ref : Nat → Nat → ℝ) (U : Vdyn.State) :
    stepColumn solve S G P D M count q ref U = stepColumn solve S G P D M' count q ref U := by
  unfold stepColumn
  rw [C138_history E T hNN hL href solve hs G D M M' U]
  cases implicitColumn solve S G D M' U with
  | none => rfl
  | some W =>
    dsimp only
    rw [C139_history E T hL href solve hs G P D M M' false hdt]

/-- **C141 (columns).**  Under the fully explicit option the implicit step does nothing.  Otherwise its loop succeeds if and only if the
step of every column of the interior that stands for itself does; then those columns are stepped, each once, from its own data and whatever
the order and the columns before, and all other columns stay: the last column of an element, if another element follows, is at the place
of the first of the next, which stands for it. -/
theorem C141_columns (E : Elements S node edge gauss lob) (T : Stencils S node edge sNode sEdge gauss lob)
    (hNN : SecondOnLevels S node edge gauss lob) (hL : Lorenz S) (href : S.useRef = true) (solve : BandSolver) (hs : Lapack solve)
    (hdt : S.dt ≠ 0) (F : Fixed) (a b : Nat) (volumes : Nat → ℝ) (count : Nat) (B : Box) (p : Nat) (hB : B.Whole p) (same : Bool)
    (init : Columns) (leave : Place → Memory → Memory) (M M0 : Memory) (C : Columns) :
    stepPatch solve S F a b volumes count true B p same init leave M C = .ok C ∧
    ((∃ C', stepPatch solve S F a b volumes count false B p same init leave M C = .ok C') ↔ ∀ x, B.Inside x → B.owner p x = x → ∃ V,
      stepColumn solve S (F.metric x) ⟨a, b, x.1, x.2, volumes⟩
        ⟨(if same then C x else init x).node, (if same then C x else init x).edge, F.refNode x, F.refEdge x⟩ M0 count
        (if same then C x else init x).tracer (F.refTracer x) (C x) = .ok V) ∧
    ∀ C', stepPatch solve S F a b volumes count false B p same init leave M C = .ok C' → ∀ x,
      (B.Inside x ∧ B.owner p x = x → stepColumn solve S (F.metric x) ⟨a, b, x.1, x.2, volumes⟩
        ⟨(if same then C x else init x).node, (if same then C x else init x).edge, F.refNode x, F.refEdge x⟩ M0 count
        (if same then C x else init x).tracer (F.refTracer x) (C x) = .ok (C' x)) ∧
      (¬ (B.Inside x ∧ B.owner p x = x) → C' x = C x) := by
  refine ⟨by simp [stepPatch], ?_⟩
  have h := sweep_columns (fun M x U => stepColumn solve S (F.metric x) (site a b volumes x)
    (columnData F x (if same then U else init x)) M count (if same then U else init x).tracer (F.refTracer x) U)
    (fun M M' x U => C141_history E T hNN hL href solve hs hdt _ _ _ M M' count _ _ U) leave (stepPlaces B p)
    (stepPlaces_nodup B p) _ (mem_stepPlaces B p hB) M M0 C
  unfold stepPatch
  simp only [Bool.false_eq_true, if_false]
  refine ⟨h.1.trans ⟨fun h x hx ho => h x ⟨hx, ho⟩, fun h x hx => h x hx.1 hx.2⟩, h.2⟩

/-- **C141 (mass).**  The loop changes in no column the mass of air or of a tracer, nor, without uniform diffusion, the integral of density
times potential temperature, if data are updated in place. -/
theorem C141_mass (E : Elements S node edge gauss lob) (T : Stencils S node edge sNode sEdge gauss lob)
    (hNN : SecondOnLevels S node edge gauss lob) (hL : Lorenz S) (href : S.useRef = true) (solve : BandSolver) (hs : Lapack solve)
    (hdt : S.dt ≠ 0) (F : Fixed) (a b : Nat) (volumes : Nat → ℝ) (count : Nat) (e : Bool) (B : Box) (p : Nat) (hB : B.Whole p)
    (init : Columns) (leave : Place → Memory → Memory) (M : Memory) (C C' : Columns)
    (h : stepPatch solve S F a b volumes count e B p true init leave M C = .ok C') (x : Place)
    (hJ : ∀ k < S.levels, (F.metric x).jac k ≠ 0) :
    overLevels S edge gauss (fun k => (F.metric x).jac k * (C' x).node 4 k) =
      overLevels S edge gauss (fun k => (F.metric x).jac k * (C x).node 4 k) ∧
    (S.uniform = false → overLevels S edge gauss (fun k => (F.metric x).jac k * (C' x).node 2 k) =
      overLevels S edge gauss (fun k => (F.metric x).jac k * (C x).node 2 k)) ∧
    ∀ c, overLevels S edge gauss (fun k => (F.metric x).jac k * (C' x).tracer c k) =
      overLevels S edge gauss (fun k => (F.metric x).jac k * (C x).tracer c k) := by
  obtain ⟨h0, -, h1⟩ := C141_columns E T hNN hL href solve hs hdt F a b volumes count B p hB true init leave M M C
  cases e with
  | true =>
    rw [h] at h0
    obtain rfl := PatchRes.ok.inj h0
    simp
  | false =>
    obtain ⟨i1, i2⟩ := h1 C' h x
    by_cases hx : B.Inside x ∧ B.owner p x = x
    · obtain ⟨W, t, hW, ht, hV⟩ := step_parts solve _ _ _ M count _ _ _ _ (i1 hx)
      rw [hV]
      obtain ⟨m1, m2⟩ := C138_conserved E T hNN hL href solve hs _ hJ _ M _ W hW hdt
      exact ⟨m1, m2, fun c => C139_mass E T hL href solve hs _ hJ _ _ M false hdt _ count _ _ _ t ht c⟩
    · rw [i2 hx]
      simp

/-- **C141 (outside).**  On the other hand, without uniform diffusion and with tracers, the loop never comes to its end in a patch that,
with its halo, is not wider in its first direction than columns have levels. -/
theorem C141_outside (E : Elements S node edge gauss lob) (T : Stencils S node edge sNode sEdge gauss lob) (hNN : SecondOnLevels S node edge gauss lob)
    (hL : Lorenz S) (href : S.useRef = true) (hu : S.uniform = false) (solve : BandSolver) (hs : Lapack solve) (hdt : S.dt ≠ 0) (F : Fixed)
    (a b : Nat) (ha : a ≤ S.levels) (volumes : Nat → ℝ) (count : Nat) (hc : count ≠ 0) (B : Box) (p : Nat) (hB : B.Whole p) (same : Bool)
    (init : Columns) (leave : Place → Memory → Memory) (M : Memory) (C C' : Columns) (x : Place) (hx : B.Inside x) (ho : B.owner p x = x) :
    stepPatch solve S F a b volumes count false B p same init leave M C ≠ .ok C' := by
  intro h
  have h1 := ((C141_columns E T hNN hL href solve hs hdt F a b volumes count B p hB same init leave M M C).2.2 C' h x).1 ⟨hx, ho⟩
  obtain ⟨W, t, -, ht, -⟩ := step_parts solve _ _ _ M count _ _ _ _ h1
  rw [C139_outside E T hL solve hs _ _ ha _ M hu hdt W count hc] at ht
  simp at ht

/-- **C141 (consistency; partial).**  Where all volume elements read are those of the column, a tracer that is a constant times density
stays that constant times density if data are updated in place.  Missing: other volume elements, see `C139_consistent_false`. -/
theorem C141_consistent_partial (E : Elements S node edge gauss lob) (T : Stencils S node edge sNode sEdge gauss lob)
    (hNN : SecondOnLevels S node edge gauss lob) (hL : Lorenz S) (href : S.useRef = true) (solve : BandSolver) (hs : Lapack solve)
    (hdt : S.dt ≠ 0) (F : Fixed) (a b : Nat) (volumes : Nat → ℝ) (count : Nat) (e : Bool) (B : Box) (p : Nat) (hB : B.Whole p)
    (init : Columns) (leave : Place → Memory → Memory) (M : Memory) (C C' : Columns)
    (h : stepPatch solve S F a b volumes count e B p true init leave M C = .ok C') (x : Place)
    (hvol : ∀ m, 0 < m → m < S.levels → volumes ((m * b + x.1) * (S.levels + 1) + x.2) = (F.metric x).jacEdge m)
    (c : Nat) (hc : c < count) (r : ℝ) (hr : ∀ k < S.levels, (C x).tracer c k = r * (C x).node 4 k) (k : Nat) (hk : k < S.levels) :
    (C' x).tracer c k = r * (C' x).node 4 k := by
  obtain ⟨h0, -, h1⟩ := C141_columns E T hNN hL href solve hs hdt F a b volumes count B p hB true init leave M M C
  cases e with
  | true =>
    rw [h] at h0
    obtain rfl := PatchRes.ok.inj h0
    exact hr k hk
  | false =>
    obtain ⟨i1, i2⟩ := h1 C' h x
    by_cases hx : B.Inside x ∧ B.owner p x = x
    · obtain ⟨W, t, hW, ht, hV⟩ := step_parts solve _ _ _ M count _ _ _ _ (i1 hx)
      rw [hV]
      exact C139_consistent_partial E T hNN hL href solve hs (F.metric x) ⟨a, b, x.1, x.2, volumes⟩ hvol _ M M hdt _ W hW count _ _ t ht c hc r hr k hk
    · rw [i2 hx]
      exact hr k hk

end

end Verif.ColumnV2
