/-
C93: small enough steps succeed in columns with enough levels; columns with too few levels; the scale of uniform diffusion.
-/
import Verif.Vdyn.TracerProps
import Verif.Vdyn.ImplicitExamples

namespace Verif.Vdyn

open Verif.Column Verif.Interp Finset Polynomial

theorem elements_dt {S : Setup} {node edge : Nat → ℝ} {gauss lob : List ℝ × List ℝ} (E : Elements S node edge gauss lob) (h : ℝ) :
    Elements { S with dt := h } node edge gauss lob := ⟨E.elements, E.setup, E.separated, E.apartNodes, E.apartEdges,
    E.gaussRule, E.onGauss, E.lobattoRule, E.onLobatto, E.insideEdges, E.insideNodes⟩

theorem stencils_dt {S : Setup} {node edge sNode sEdge : Nat → ℝ} {gauss lob : List ℝ × List ℝ} (T : Stencils S node edge sNode sEdge gauss lob)
    (h : ℝ) : Stencils { S with dt := h } node edge sNode sEdge gauss lob := ⟨T.toInterfaces, T.toLevels, T.second, T.separated,
    T.insideEdges, T.insideNodes⟩

theorem tracers_small_regular {S : Setup} {node edge sNode sEdge : Nat → ℝ} {gauss lob : List ℝ × List ℝ}
    (E : Elements S node edge gauss lob) (T : Stencils S node edge sNode sEdge gauss lob) (hL : Lorenz S) (G : Metric) (D : Data) :
    ∃ h0 : ℝ, 0 < h0 ∧ ∀ h : ℝ, h ≠ 0 → |h| < h0 → RegularTracers { S with dt := h } G (windBefore S G D) := by
  let M : Memory := ⟨fun _ _ => 0, fun _ _ => 0, fun _ _ => 0, fun _ _ => 0, fun _ => 0, fun _ => 0, fun _ => 0⟩
  set us := (List.range S.levels).flatMap (tracerFluxUpdates S G (windBefore S G D)) ++
    (List.range' 1 (nElements S - 1)).flatMap (tracerUpwindUpdates S (windBefore S G D)) with hus
  have hwind : initialWind S G (setupColumn S D M) = windBefore S G D := funext (initialWind_eq hL G D M)
  have hcol : ∀ u ∈ us, u.value ≠ 0 → u.col < S.levels := fun u hu _ => by
    refine (tracer_in_band E T G (setupColumn S D M) false u ?_).2.1
    unfold tracerUpdates
    rw [hwind]
    exact List.mem_append_left _ hu
  have hrow : ∀ (y : Nat → ℝ), ∀ k < S.levels, product us y k =
      divergence S G (windBefore S G D) y k - smoothing S (fun m => |windBefore S G D m|) y k := by
    intro y k hk
    rw [hus, product_append, tracerFlux_row S G _ y k hk, tracerUpwind_row E _ y k hk]
    unfold divergence smoothing
    ring
  set B := (us.map fun u => |u.value|).sum with hB
  have hB0 : 0 ≤ B := by
    apply List.sum_nonneg
    intro v hv
    obtain ⟨u, -, rfl⟩ := List.mem_map.1 hv
    exact abs_nonneg _
  refine ⟨1 / (B + 1), by positivity, fun h hh hlt c hc => ?_⟩
  have hsplit : ∀ i < S.levels, c i = -(h * product us c i) := by
    intro i hi
    have h1 : c i / h + divergence S G (windBefore S G D) c i - smoothing S (fun m => |windBefore S G D m|) c i = 0 := hc i hi
    rw [hrow c i hi]
    field_simp at h1
    linear_combination h1
  intro j hj
  obtain ⟨i, hi, hmax⟩ := exists_max_image (range S.levels) (fun i => |c i|) ⟨j, mem_range.2 hj⟩
  have hb : ∀ j < S.levels, |c j| ≤ |c i| := fun j hj => hmax j (mem_range.2 hj)
  have hi' := hsplit i (mem_range.1 hi)
  have hle : |c i| ≤ |h| * (B * |c i|) := by
    conv_lhs => rw [hi', abs_neg, abs_mul]
    exact mul_le_mul_of_nonneg_left (product_bound us _ c _ hcol hb (abs_nonneg _) i) (abs_nonneg _)
  have hz : |c i| = 0 := by
    by_contra hne
    have hpos : 0 < |c i| := lt_of_le_of_ne (abs_nonneg _) (Ne.symm hne)
    have h1 : |h| * (B + 1) < 1 := by
      rw [lt_div_iff₀ (by positivity)] at hlt
      exact hlt
    nlinarith [abs_nonneg h, abs_pos.2 hh]
  have := hb j hj
  rw [hz] at this
  exact abs_eq_zero.1 (le_antisymm this (abs_nonneg _))

/-- **C93 (small steps).**  In a column of at least `6 p - 2` levels, the update succeeds for every small enough time step, unless
implicit steps are combined with uniform diffusion. -/
theorem C93_small_steps {S : Setup} {node edge sNode sEdge : Nat → ℝ} {gauss lob : List ℝ × List ℝ}
    (E : Elements S node edge gauss lob) (T : Stencils S node edge sNode sEdge gauss lob) (hL : Lorenz S) (hlev : 6 * S.order ≤ S.levels + 2)
    (solve : BandSolver) (hs : Lapack solve) (G : Metric) (D : Data) (e : Bool) (he : ¬ (e = false ∧ S.uniform = true)) :
    ∃ h0 : ℝ, 0 < h0 ∧ ∀ h : ℝ, h ≠ 0 → |h| < h0 → ∀ (M : Memory) (V : State) (count : Nat) (q ref U : Nat → Nat → ℝ),
      ∃ t, updateTracers { S with dt := h } G (setupColumn { S with dt := h } D M) solve e D V count q ref U = .ok t := by
  obtain ⟨h0, hpos, hreg⟩ := tracers_small_regular E T hL G D
  refine ⟨h0, hpos, fun h hh hlt M V count q ref U => ?_⟩
  by_cases hc : count = 0
  · refine ⟨U, ?_⟩
    unfold updateTracers
    rw [if_pos hc]
  · obtain ⟨s, h1, -⟩ := ((tracer_cases (elements_dt E h) (stencils_dt T h) hL solve hs G D M e hh V count hc q ref U).2 he).2.2
      hlev fun _ => hreg h hh hlt
    exact ⟨_, h1⟩

/-- **C93, where the code does something else.**  In a column of two elements with one level, the update of a tracer writes outside
its array, for every time step, wind and tracer, implicit or explicit; with three elements it is always refused. -/
theorem C93_few_levels_false (phys : Thermo.Constants) (N : Nat) (hN : N = 2 ∨ N = 3) :
    ∃ (S : Setup) (node edge : Nat → ℝ) (gauss lob : List ℝ × List ℝ), Elements S node edge gauss lob ∧ Lorenz S ∧ S.levels = N ∧
    S.order = 1 ∧ S.phys = phys ∧ S.uniform = false ∧
    ∀ (h : ℝ), h ≠ 0 → ∀ (solve : BandSolver), Lapack solve → ∀ (G : Metric) (D : Data) (M : Memory) (e : Bool) (V : State) (q ref U : Nat → Nat → ℝ),
      updateTracers { S with dt := h } G (setupColumn { S with dt := h } D M) solve e D V 1 q ref U = if N = 2 then .ub else .exc := by
  obtain ⟨S, E, T, hL, hN', hn, href, hu, hp, -⟩ := unit_setup N (by omega) phys
  refine ⟨S, _, _, _, _, E, hL, hN', hn, hp, hu, fun h hh solve hs G D M e V q ref U => ?_⟩
  have hE := elements_dt E h
  have hT := stencils_dt T h
  have a0 : Lorenz { S with dt := h } := hL
  have a1 : ({ S with dt := h } : Setup).levels = N := hN'
  have a2 : ({ S with dt := h } : Setup).order = 1 := hn
  have a3 : ({ S with dt := h } : Setup).uniform = false := hu
  have a4 : ({ S with dt := h } : Setup).dt ≠ 0 := hh
  generalize ({ S with dt := h } : Setup) = S' at hE hT a0 a1 a2 a3 a4
  obtain ⟨r1, r2, -⟩ := C93_refused hE hT a0 solve hs G D M e a4 V 1 q ref U
  rcases hN with rfl | rfl
  · rw [if_pos rfl]
    exact r1.2 ⟨by omega, by simp [a3], by omega⟩
  · rw [if_neg (by omega)]
    exact r2.2 ⟨by omega, Or.inr ⟨by omega, Or.inl (by omega)⟩⟩

/-- **C93, where the code does something else.**  Over flat ground, where the volume element is the height of the model top, uniform
diffusion of tracers in explicit steps is as many times too strong as the top is high: the coefficient is not divided by the square of
the height, as it is for all other variables (`diffuse`), but by the volume element alone. -/
theorem C93_scale_false (S : Setup) (G : Metric) (D : Data) (q ref : Nat → ℝ) (hz : S.ztop ≠ 0) (hu : S.uniform = true) (k : Nat)
    (hJ : G.jac k = S.ztop) : applyRow S.diffEN (mixing S D q ref) k / G.jac k =
      S.ztop * applyRow S.diffEN (fun m => if 1 ≤ m ∧ m < S.levels then
        S.nuScalar / S.ztop ^ 2 * applyRow S.interpNE (D.node 4) m *
          applyRow S.diffNE (fun j => q j / D.node 4 j - ref j / D.refNode 4 j) m else 0) k := by
  rw [applyRow_eq, applyRow_eq, hJ, sum_div, mul_sum]
  apply sum_congr rfl
  intro m _
  unfold mixing
  by_cases h : 1 ≤ m ∧ m < S.levels
  · rw [if_pos ⟨hu, h⟩, if_pos h]
    field_simp
  · rw [if_neg (fun h' => h h'.2), if_neg h]
    simp

/-- Columns of ten levels meet the hypotheses of the theorems about tracers, and of those about the step before it, for all data. -/
example (phys : Thermo.Constants) (solve : BandSolver) (hs : Lapack solve) (G : Metric) (D : Data) (M : Memory) (U : State)
    (q ref : Nat → Nat → ℝ) (count : Nat) :
    ∃ S : Setup, ∃ V, ∃ t, Elements S (fun k => (k : ℝ) + 1 / 2) (fun k => (k : ℝ)) ([0], [2]) ([-1, 1], [1, 1]) ∧
    Stencils S (fun k => (k : ℝ) + 1 / 2) (fun k => (k : ℝ)) (fun k => (k : ℝ) + 1 / 2) (fun k => (k : ℝ)) ([0], [2]) ([-1, 1], [1, 1]) ∧
    Lorenz S ∧ S.useRef = true ∧ S.uniform = false ∧ S.levels = 10 ∧ S.order = 1 ∧ S.dt ≠ 0 ∧ implicitColumn solve S G D M U = some V ∧
    updateTracers S G (setupColumn S D M) solve false D V count q ref q = .ok t := by
  obtain ⟨S, E, T, hL, hN, hn, href, hu, hp, -⟩ := unit_setup 10 (by omega) phys
  obtain ⟨h0, hpos, h⟩ := C92_small_steps E T hL (by omega) (d := 4) (by simp [offDiagonals, E.elements, hn]) (by omega) solve hs G D M U
  obtain ⟨h1, hpos1, h'⟩ := C93_small_steps E T hL (by omega) solve hs G D false (by simp [hu])
  have hmin : 0 < min h0 h1 := lt_min hpos hpos1
  have hlt : |min h0 h1 / 2| < min h0 h1 := by rw [abs_of_pos (by positivity)]; linarith
  obtain ⟨V, hV⟩ := h (min h0 h1 / 2) (by positivity) (lt_of_lt_of_le hlt (min_le_left _ _))
  obtain ⟨t, ht⟩ := h' (min h0 h1 / 2) (by positivity) (lt_of_lt_of_le hlt (min_le_right _ _)) M V count q ref q
  exact ⟨{ S with dt := min h0 h1 / 2 }, V, t, elements_dt E _, stencils_dt T _, hL, href, hu, hN, hn,
    by show min h0 h1 / 2 ≠ 0; positivity, hV, ht⟩

end Verif.Vdyn
