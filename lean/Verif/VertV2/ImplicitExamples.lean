/-
C138: small enough steps succeed; columns of elements with one level.
-/
import Verif.VertV2.ImplicitProps
import Verif.Vdyn.ImplicitExamples

namespace Verif.ColumnV2

open Verif.Column Verif.Vdyn Finset

/-- The Jacobian but for the time step. -/
noncomputable def spatialUpdates (S : Setup) (G : Metric) (M : Memory) (x : Nat → ℝ) : List Update :=
  (List.range S.levels).flatMap (fluxUpdates S G M x) ++
  (List.range' 1 (S.levels - 1)).flatMap (pressureUpdates S G M x) ++
  (List.range' 1 (S.levels - 1)).flatMap (clarkUpdates S G M x)

theorem small_regular {S : Setup} {node edge sNode sEdge : Nat → ℝ} {gauss lob : List ℝ × List ℝ} (E : Elements S node edge gauss lob)
    (T : Stencils S node edge sNode sEdge gauss lob) (hL : Lorenz S) (hord : S.order ≤ 5) (G : Metric) (D : Data) (M : Memory) :
    ∃ h0 : ℝ, 0 < h0 ∧ ∀ h : ℝ, h ≠ 0 → |h| < h0 → RegularColumn { S with dt := h } G D M := by
  have hn := (penalty_facts E).1
  have hoff := (C91_refused S G (setupColumn S D M) (setupColumn S D M).state).2.2 E.elements
  obtain ⟨d, hd⟩ : ∃ d, offDiagonals S = some d := by
    cases h : offDiagonals S with
    | none => have := hoff.1 h; omega
    | some d => exact ⟨d, rfl⟩
  set us := spatialUpdates S G (setupColumn S D M) (setupColumn S D M).state with hus
  have hcol : ∀ u ∈ us, u.value ≠ 0 → u.col < 3 * (S.levels + 1) := fun u hu h =>
    (in_band E T hL hd G (setupColumn S D M) (setupColumn S D M).state u (List.mem_append_left _ hu)).2 h |>.1
  set B := (us.map fun u => |u.value|).sum with hB
  have hB0 : 0 ≤ B := by
    apply List.sum_nonneg
    intro v hv
    obtain ⟨u, -, rfl⟩ := List.mem_map.1 hv
    exact abs_nonneg _
  refine ⟨1 / (B + 1), by positivity, fun h hh hlt c hc => ?_⟩
  have hsplit : ∀ i < 3 * (S.levels + 1), c i = -(h * Vdyn.product us c i) := by
    intro i hi
    have h1 : Vdyn.product (us ++ Vdyn.timeUpdates { S with dt := h }) c i = 0 := hc i hi
    rw [product_append, time_row (S := { S with dt := h }) (y := c) i hi] at h1
    field_simp at h1
    linarith
  obtain ⟨i, hi, hmax⟩ := exists_max_image (range (3 * (S.levels + 1))) (fun i => |c i|) ⟨0, by simp⟩
  have hb : ∀ j < 3 * (S.levels + 1), |c j| ≤ |c i| := fun j hj => hmax j (mem_range.2 hj)
  have hi' := hsplit i (mem_range.1 hi)
  have hle : |c i| ≤ |h| * (B * |c i|) := by
    conv_lhs => rw [hi', abs_neg, abs_mul]
    exact mul_le_mul_of_nonneg_left (product_bound us _ c _ hcol hb (abs_nonneg _) i) (abs_nonneg _)
  have hz : |c i| = 0 := by
    by_contra hne
    have hpos : 0 < |c i| := lt_of_le_of_ne (abs_nonneg _) (Ne.symm hne)
    have h1 : |h| * (B + 1) < 1 := by
      rw [lt_div_iff₀ (by positivity)] at hlt
      exact hlt
    nlinarith [abs_nonneg h, abs_pos.2 hh]
  intro j hj
  have := hb j hj
  rw [hz] at this
  exact abs_eq_zero.1 (le_antisymm this (abs_nonneg _))

/-- **C138 (small steps).**  Every column with enough levels, of order five or below, has a time step below which the step
is not refused. -/
theorem C138_small_steps {S : Setup} {node edge sNode sEdge : Nat → ℝ} {gauss lob : List ℝ × List ℝ}
    (E : Elements S node edge gauss lob) (T : Stencils S node edge sNode sEdge gauss lob) (hL : Lorenz S) (hord : S.order ≤ 5) {d : Nat}
    (hd : offDiagonals S = some d) (hlev : d ≤ S.levels) (solve : BandSolver) (hs : Lapack solve) (G : Metric) (D : Data) (M : Memory)
    (U : Vdyn.State) :
    ∃ h0 : ℝ, 0 < h0 ∧ ∀ h : ℝ, h ≠ 0 → |h| < h0 → ∃ V, implicitColumn solve { S with dt := h } G D M U = some V := by
  obtain ⟨h0, hpos, hreg⟩ := small_regular E T hL hord G D M
  refine ⟨h0, hpos, fun h hh hlt => ?_⟩
  have E' : Elements { S with dt := h } node edge gauss lob := ⟨E.elements, E.setup, E.separated, E.apartNodes, E.apartEdges,
    E.gaussRule, E.onGauss, E.lobattoRule, E.onLobatto, E.insideEdges, E.insideNodes⟩
  have T' : Stencils { S with dt := h } node edge sNode sEdge gauss lob := ⟨T.toInterfaces, T.toLevels, T.second, T.separated,
    T.insideEdges, T.insideNodes⟩
  rw [← Option.ne_none_iff_exists']
  intro hnone
  rcases (C138_refused E' T' hL solve hs G D M U).1 hnone with h1 | ⟨d', h1, h2⟩ | h1
  · have : S.order ≤ 5 := hord
    have : 5 < S.order := h1
    omega
  · have h3 : offDiagonals S = some d' := h1
    rw [hd] at h3
    obtain rfl := Option.some.inj h3
    have : S.levels < d := h2
    omega
  · exact h1 (hreg h hh hlt)

/-- **C138, where the code does something else.**  Three levels are too few: the step of every column of elements with one level is
refused, although the Jacobian of this column is regular. -/
theorem C138_few_levels_false (phys : Thermo.Constants) (G : Metric) (D : Data) (M : Memory) :
    ∃ (S : Setup) (node edge : Nat → ℝ) (gauss lob : List ℝ × List ℝ), Elements S node edge gauss lob ∧ Lorenz S ∧ S.levels = 3 ∧
    S.order = 1 ∧ S.phys = phys ∧ S.dt ≠ 0 ∧ RegularColumn S G D M ∧
    ∀ (solve : BandSolver) (U : Vdyn.State), implicitColumn solve S G D M U = none := by
  obtain ⟨S, E, T, hL, hN, hn, href, hu, hp, -⟩ := unit_setup 3 (by omega) phys
  obtain ⟨h0, hpos, hreg⟩ := small_regular E T hL (by omega) G D M
  refine ⟨{ S with dt := h0 / 2 }, _, _, _, _, ⟨E.elements, E.setup, E.separated, E.apartNodes, E.apartEdges,
    E.gaussRule, E.onGauss, E.lobattoRule, E.onLobatto, E.insideEdges, E.insideNodes⟩, hL, hN, hn, hp, by
      show h0 / 2 ≠ 0
      positivity, hreg _ (by positivity) (by rw [abs_of_pos (by positivity)]; linarith), fun solve U => ?_⟩
  have hoff : offDiagonals { S with dt := h0 / 2 } = some 4 := by
    unfold offDiagonals
    simp [E.elements, hn]
  have hN' : ({ S with dt := h0 / 2 } : Setup).levels = 3 := hN
  generalize ({ S with dt := h0 / 2 } : Setup) = S' at hoff hN'
  unfold implicitColumn newtonStep dgbsv
  rw [hoff]
  dsimp only
  rw [if_pos (by rw [hN']; omega)]
  rfl

/-- Columns of ten levels meet the hypotheses of the theorems about the step, for all data. -/
example (phys : Thermo.Constants) (solve : BandSolver) (hs : Lapack solve) (G : Metric) (D : Data) (M : Memory) (U : Vdyn.State) :
    ∃ S : Setup, ∃ V, Elements S (fun k => (k : ℝ) + 1 / 2) (fun k => (k : ℝ)) ([0], [2]) ([-1, 1], [1, 1]) ∧
    Stencils S (fun k => (k : ℝ) + 1 / 2) (fun k => (k : ℝ)) (fun k => (k : ℝ) + 1 / 2) (fun k => (k : ℝ)) ([0], [2]) ([-1, 1], [1, 1]) ∧
    SecondOnLevels S (fun k => (k : ℝ) + 1 / 2) (fun k => (k : ℝ)) ([0], [2]) ([-1, 1], [1, 1]) ∧ Lorenz S ∧ S.useRef = true ∧
    S.uniform = false ∧ S.levels = 10 ∧ S.order = 1 ∧ S.dt ≠ 0 ∧ implicitColumn solve S G D M U = some V := by
  obtain ⟨S, E, T, hL, hN, hn, href, hu, hp, -⟩ := unit_setup 10 (by omega) phys
  obtain ⟨h0, hpos, h⟩ := C138_small_steps E T hL (by omega) (d := 4) (by simp [offDiagonals, E.elements, hn]) (by omega) solve hs G D M U
  obtain ⟨V, hV⟩ := h (h0 / 2) (by positivity) (by rw [abs_of_pos (by positivity)]; linarith)
  exact ⟨{ S with dt := h0 / 2 }, V, ⟨E.elements, E.setup, E.separated, E.apartNodes, E.apartEdges,
    E.gaussRule, E.onGauss, E.lobattoRule, E.onLobatto, E.insideEdges, E.insideNodes⟩, ⟨T.toInterfaces, T.toLevels, T.second, T.separated,
    T.insideEdges, T.insideNodes⟩, fun h => by rw [show S.uniform = false from hu] at h; simp at h, hL, href, hu, hN, hn,
    by show h0 / 2 ≠ 0; positivity, hV⟩

/-- Every profile with a pressure gradient at rest is in balance over some heights: `C138_balance`. -/
example (S : Setup) (hg : S.phys.g ≠ 0) (D : Data) (hX : ∀ k, 0 < k → k < S.levels →
      applyRow S.interpNE (D.node 2) k / applyRow S.interpNE (D.node 4) k *
        applyRow S.diffNE (fun j => S.phys.cp * Real.exp (S.phys.r / (S.phys.cp - S.phys.r) *
          Real.log (S.phys.r / S.phys.p0 * D.node 2 j))) k ≠ 0) : ∃ G : Metric, ∀ k, 0 < k → k < S.levels →
    applyRow S.interpNE (D.node 2) k / applyRow S.interpNE (D.node 4) k *
      applyRow S.diffNE (fun j => S.phys.cp * Real.exp (S.phys.r / (S.phys.cp - S.phys.r) *
        Real.log (S.phys.r / S.phys.p0 * D.node 2 j))) k / G.derivREdge k = -S.phys.g := by
  refine ⟨{ sampleMetric (fun _ => 1) with derivREdge := fun k => -(applyRow S.interpNE (D.node 2) k / applyRow S.interpNE (D.node 4) k *
      applyRow S.diffNE (fun j => S.phys.cp * Real.exp (S.phys.r / (S.phys.cp - S.phys.r) *
        Real.log (S.phys.r / S.phys.p0 * D.node 2 j))) k) / S.phys.g }, fun k h0 hk => ?_⟩
  have := hX k h0 hk
  dsimp only
  generalize applyRow S.interpNE (D.node 2) k / applyRow S.interpNE (D.node 4) k * _ = X at *
  field_simp

end Verif.ColumnV2
