/-
C139: small enough steps succeed; a column of ten levels next to one with another volume element, in which constant mixing ratios
do not stay.
-/
import Verif.VertV2.TracerProps
import Verif.VertV2.ImplicitExamples
import Verif.VertV2.ColumnExamples
import Verif.Vdyn.TracerExamples

namespace Verif.ColumnV2

open Verif.Column Verif.Vdyn Verif.Interp Finset Polynomial

theorem tracers_regular {S : Setup} {node edge sNode sEdge : Nat → ℝ} {gauss lob : List ℝ × List ℝ}
    (E : Elements S node edge gauss lob) (T : Stencils S node edge sNode sEdge gauss lob) (hL : Lorenz S) (G : Metric) (P : Schur.Site)
    (D : Data) : ∃ h0 : ℝ, 0 < h0 ∧ ∀ h : ℝ, h ≠ 0 → |h| < h0 → RegularTracers { S with dt := h } G (P.other S) (windOld S G D) := by
  set us := (List.range S.levels).flatMap (tracerFluxUpdates S G P (windOld S G D)) with hus
  have hcol : ∀ u ∈ us, u.value ≠ 0 → u.col < S.levels := fun u hu _ => by
    refine (Vdyn.tracer_in_band E T _ (setupColumn S D blank) false u (updates_volumes S G P _ false u ?_)).2.1
    unfold tracerUpdates
    rw [initial_wind hL]
    exact List.mem_append_left _ hu
  have hrow : ∀ (y : Nat → ℝ), ∀ k < S.levels, Vdyn.product us y k = Schur.carried S G (P.other S) (windOld S G D) y k := by
    intro y k hk
    rw [hus, fluxUpdates_volumes, tracerFlux_row S _ _ y k hk]
    rfl
  set B := (us.map fun u => |u.value|).sum with hB
  have hB0 : 0 ≤ B := by
    apply List.sum_nonneg
    intro v hv
    obtain ⟨u, -, rfl⟩ := List.mem_map.1 hv
    exact abs_nonneg _
  refine ⟨1 / (B + 1), by positivity, fun h hh hlt c hc => ?_⟩
  have hsplit : ∀ i < S.levels, c i = -(h * Vdyn.product us c i) := by
    intro i hi
    have h1 : c i / h + Schur.carried S G (P.other S) (windOld S G D) c i = 0 := hc i hi
    rw [hrow c i hi]
    field_simp at h1
    linear_combination h1
  intro j hj
  obtain ⟨i, hi, hmax⟩ := exists_max_image (range S.levels) (fun i => |c i|) ⟨j, mem_range.2 hj⟩
  have hb : ∀ j < S.levels, |c j| ≤ |c i| := fun j hj => hmax j (mem_range.2 hj)
  have hi' := hsplit i (mem_range.1 hi)
  have hle : |c i| ≤ |h| * (B * |c i|) := by
    conv_lhs => rw [hi', abs_neg, abs_mul]
    exact mul_le_mul_of_nonneg_left (product_bound us _ c _ hcol hb (abs_nonneg _) i) (abs_nonneg _)
  have hz : |c i| = 0 := by
    by_contra hne
    have hpos : 0 < |c i| := lt_of_le_of_ne (abs_nonneg _) (Ne.symm hne)
    have h1 : |h| * (B + 1) < 1 := by
      rw [lt_div_iff₀ (by positivity)] at hlt
      exact hlt
    nlinarith [abs_nonneg h, abs_pos.2 hh]
  have := hb j hj
  rw [hz] at this
  exact abs_eq_zero.1 (le_antisymm this (abs_nonneg _))

/-- **C139 (small steps).**  In a column of at least `6 p - 2` levels, where the places read are inside the array of volume elements, the
update succeeds for every small enough time step, unless implicit steps are combined with uniform diffusion. -/
theorem C139_small_steps {S : Setup} {node edge sNode sEdge : Nat → ℝ} {gauss lob : List ℝ × List ℝ}
    (E : Elements S node edge gauss lob) (T : Stencils S node edge sNode sEdge gauss lob) (hL : Lorenz S) (hlev : 6 * S.order ≤ S.levels + 2)
    (solve : BandSolver) (hs : Lapack solve) (G : Metric) (P : Schur.Site) (hP : ¬ P.Beyond S) (D : Data) (e : Bool)
    (he : ¬ (e = false ∧ S.uniform = true)) :
    ∃ h0 : ℝ, 0 < h0 ∧ ∀ h : ℝ, h ≠ 0 → |h| < h0 → ∀ (M : Memory) (V : Vdyn.State) (count : Nat) (q ref U : Nat → Nat → ℝ),
      ∃ t, updateTracers { S with dt := h } G P (setupColumn { S with dt := h } D M) solve e D V count q ref U = .ok t := by
  have hn := (penalty_facts E).1
  obtain ⟨h0, hpos, hreg⟩ := tracers_regular E T hL G P D
  refine ⟨h0, hpos, fun h hh hlt M V count q ref U => ?_⟩
  by_cases hc : count = 0
  · refine ⟨U, ?_⟩
    unfold updateTracers
    rw [if_pos hc]
  · have hr := hreg h hh hlt
    obtain ⟨s, h1, -⟩ := (((tracer_cases (elements_dt E h) (stencils_dt T h) hL solve hs G P D M e hh V count hc q ref U).2 he).2 (by
      rintro (h4 | ⟨-, h4⟩)
      · have : S.levels + 2 ≤ 4 * S.order := h4
        omega
      · exact hP h4)).2 (by
      rintro (h6 | ⟨-, h6⟩)
      · have : S.levels + 2 < 6 * S.order := h6
        omega
      · exact h6 hr)
    exact ⟨_, h1⟩

section
variable {S : Setup}

theorem unit_mean (T : Stencils S (fun k => (k : ℝ) + 1 / 2) (fun k => (k : ℝ)) (fun k => (k : ℝ) + 1 / 2) (fun k => (k : ℝ))
    ([0], [2]) ([-1, 1], [1, 1])) (hn : S.order = 1) (y : Nat → ℝ) (k : Nat) (hk : k + 1 < S.levels) :
    applyRow S.interpNE y (k + 1) = (y k + y (k + 1)) / 2 := by
  have hdist : ∀ b, DistinctNodes S.order (fun i => ((b * S.order + i : ℕ) : ℝ) + 1 / 2) := fun b i j hi hj hij => by omega
  have hfit : ∀ b, ∀ i < S.order, (C (y b)).eval (((b * S.order + i : ℕ) : ℝ) + 1 / 2) = y (b * S.order + i) := fun b i hi => by
    rw [eval_C]
    congr 1
    rw [hn]
    omega
  have hdeg : ∀ b, (C (y b)).degree < (S.order : WithBot ℕ) := fun b => by
    rw [hn]
    exact lt_of_le_of_lt degree_C_le (by norm_num)
  obtain ⟨wl, wr, -, -, h1, h2, h3⟩ := (C69_levels S.order S.levels (S.levels + 1) _ _ (S.levels + 1) _ false S.interpNE T.toInterfaces
    T.separated (k + 1) (by omega) (by simp [Zeroed]) (Or.inr ⟨by omega, by omega⟩) k y).2 (by
      refine ⟨by rw [hn, Nat.div_one]; omega, ?_, ?_⟩ <;> rw [hn] <;> norm_num [eps]) (hdist k) (hdist (k + 1)) (C (y k)) (C (y (k + 1)))
      (hdeg k) (hdeg (k + 1)) (hfit k) (hfit (k + 1))
  rw [h3, eval_C, eval_C]
  rw [hn] at h2
  push_cast at h2
  norm_num at h2
  have e1 : wl = 1 / 2 := by linarith
  have e2 : wr = 1 / 2 := by linarith
  rw [e1, e2]
  ring

theorem unit_divergence (E : Elements S (fun k => (k : ℝ) + 1 / 2) (fun k => (k : ℝ)) ([0], [2]) ([-1, 1], [1, 1]))
    (hn : S.order = 1) (y : Nat → ℝ) (k : Nat) (hk : k < S.levels) : applyRow S.diffEN y k = y (k + 1) - y k := by
  obtain ⟨solve, -, -, hB, -⟩ := E.setup
  have hdiv : S.levels / S.order = S.levels := by rw [hn, Nat.div_one]
  have hdeg : (C (y (k + 1) - y k) * X + C (y k - (y (k + 1) - y k) * k) : ℝ[X]).degree < ((S.order + 1 : ℕ) : WithBot ℕ) := by
    rw [hn]
    exact lt_of_le_of_lt degree_linear_le (by norm_num)
  have := (C70_interfaces S.order S.levels (S.levels + 1) _ _ S.levels _ false S.diffEN hB E.separated k k y).2.2.2.1 (by
    refine ⟨by rw [hdiv]; exact hk, Or.inr ?_, Or.inr ?_⟩
    · rw [hn]
      norm_num [eps]
    · rw [hn]
      norm_num [eps]
      linarith) (E.apartEdges k (by rw [hdiv]; exact hk)) _ hdeg (by
    intro i hi
    rw [hn] at hi ⊢
    obtain rfl | rfl : i = 0 ∨ i = 1 := by omega
    · simp
    · simp
      ring)
  rw [this]
  simp

end

/-- A volume element of two on the second level and one elsewhere; horizontal wind crosses the first inner interface. -/
noncomputable def crossed : Metric where
  jac := fun k => if k = 1 then 2 else 1
  jacEdge := fun _ => 1
  derivR := fun _ => 1
  derivREdge := fun _ => 1
  conA := fun _ _ => 0
  conB := fun _ _ => 0
  conXi := fun _ _ => 0
  conAEdge := fun _ _ => 0
  conBEdge := fun _ _ => 0
  conXiEdge := fun m c => if m = 1 ∧ c = 0 then 1 else 0

/-- Horizontal wind, density and density times potential temperature one. -/
noncomputable def breeze : Data where
  node := fun c _ => if c = 0 ∨ c = 2 ∨ c = 4 then 1 else 0
  edge := fun _ _ => 0
  refNode := fun _ _ => 0
  refEdge := fun _ _ => 0

/-- Eleven columns in a row, of which this is the first; volume elements one, two on the bottom of the second column. -/
noncomputable def neighbours : Schur.Site := ⟨11, 1, 0, 0, fun n => if n = 11 then 2 else 1⟩

section
variable {S : Setup}

theorem crossed_wind (T : Stencils S (fun k => (k : ℝ) + 1 / 2) (fun k => (k : ℝ)) (fun k => (k : ℝ) + 1 / 2) (fun k => (k : ℝ))
    ([0], [2]) ([-1, 1], [1, 1])) (hn : S.order = 1) (hN : S.levels = 10) (x : Nat → ℝ) (m : Nat) :
    verticalWind S (physical crossed) (asColumn breeze x) m = if m = 1 then 1 else 0 := by
  unfold verticalWind
  by_cases h : m = 1
  · subst h
    rw [if_neg (by omega), if_pos rfl]
    have := unit_mean T hn (breeze.node 0) 0 (by omega)
    simp only [zero_add] at this
    simp only [asColumn, physical, crossed, this]
    norm_num [breeze]
  · rw [if_neg h]
    simp [physical, crossed, h]

theorem crossed_carried (E : Elements S (fun k => (k : ℝ) + 1 / 2) (fun k => (k : ℝ)) ([0], [2]) ([-1, 1], [1, 1]))
    (T : Stencils S (fun k => (k : ℝ) + 1 / 2) (fun k => (k : ℝ)) (fun k => (k : ℝ) + 1 / 2) (fun k => (k : ℝ))
    ([0], [2]) ([-1, 1], [1, 1])) (hn : S.order = 1) (hN : S.levels = 10) (v xi q : Nat → ℝ) (hx : ∀ m, xi m = if m = 1 then 1 else 0) :
    Schur.carried S crossed v xi q 0 = v 1 * ((q 0 + q 1) / 2) ∧
    Schur.carried S crossed v xi q 1 = -(v 1 * ((q 0 + q 1) / 2)) / 2 := by
  have h := unit_mean T hn q 0 (by omega)
  simp only [zero_add] at h
  constructor
  · unfold Schur.carried
    rw [unit_divergence E hn _ 0 (by omega)]
    simp only [hx, zero_add, h]
    simp [crossed]
  · unfold Schur.carried
    rw [unit_divergence E hn _ 1 (by omega)]
    simp only [hx, h]
    simp [crossed]

end

/-- The column, its step and the update of one tracer equal to density, for every solver. -/
theorem crossed_runs (phys : Thermo.Constants) (solve : BandSolver) (hs : Lapack solve) (M M' : Memory) (U0 : Vdyn.State) :
    ∃ (S : Setup) (V : Vdyn.State) (t : Nat → Nat → ℝ),
    Elements S (fun k => (k : ℝ) + 1 / 2) (fun k => (k : ℝ)) ([0], [2]) ([-1, 1], [1, 1]) ∧
    Stencils S (fun k => (k : ℝ) + 1 / 2) (fun k => (k : ℝ)) (fun k => (k : ℝ) + 1 / 2) (fun k => (k : ℝ)) ([0], [2]) ([-1, 1], [1, 1]) ∧
    SecondOnLevels S (fun k => (k : ℝ) + 1 / 2) (fun k => (k : ℝ)) ([0], [2]) ([-1, 1], [1, 1]) ∧ Lorenz S ∧ S.useRef = true ∧
    S.uniform = false ∧ S.levels = 10 ∧ S.order = 1 ∧ S.phys = phys ∧ S.dt ≠ 0 ∧ implicitColumn solve S crossed breeze M' U0 = some V ∧
    updateTracers S crossed neighbours (setupColumn S breeze M) solve false breeze V 1 (fun _ => breeze.node 4) (fun _ _ => 0)
      (fun _ => breeze.node 4) = .ok t := by
  obtain ⟨S, E, T, hL, hN, hn, href, hu, hp, -⟩ := unit_setup 10 (by omega) phys
  obtain ⟨h0, hpos, h⟩ := C138_small_steps E T hL (by omega) (d := 4) (by simp [offDiagonals, E.elements, hn]) (by omega) solve hs
    crossed breeze M' U0
  obtain ⟨h1, hpos1, h'⟩ := C139_small_steps E T hL (by omega) solve hs crossed neighbours (by
    simp [Schur.Site.Beyond, neighbours, hN]) breeze false (by simp [hu])
  have hlt := min_le_left h0 h1
  have hlt1 := min_le_right h0 h1
  have hm : 0 < min h0 h1 := lt_min hpos hpos1
  obtain ⟨V, hV⟩ := h (min h0 h1 / 2) (by positivity) (by rw [abs_of_pos (by positivity)]; linarith)
  obtain ⟨t, ht⟩ := h' (min h0 h1 / 2) (by positivity) (by rw [abs_of_pos (by positivity)]; linarith) M V 1
    (fun _ => breeze.node 4) (fun _ _ => 0) (fun _ => breeze.node 4)
  exact ⟨{ S with dt := min h0 h1 / 2 }, V, t, elements_dt E _, stencils_dt T _, fun h => by
    rw [show S.uniform = false from hu] at h
    simp at h, hL, href, hu, hN, hn, hp, by show min h0 h1 / 2 ≠ 0; positivity, hV, ht⟩

/-- **C139, where the code does something else.**  In this column, through whose first inner interface wind blows, a tracer equal to
density is not equal to the new density after the implicit step of both: its update is computed with the volume element of the bottom of
another column. -/
theorem C139_consistent_false (phys : Thermo.Constants) (solve : BandSolver) (hs : Lapack solve) (M M' : Memory) (U0 : Vdyn.State) :
    ∃ (S : Setup) (node edge : Nat → ℝ) (gauss lob : List ℝ × List ℝ) (G : Metric) (P : Schur.Site) (D : Data) (V : Vdyn.State)
    (t : Nat → Nat → ℝ), Elements S node edge gauss lob ∧ Lorenz S ∧ S.useRef = true ∧ S.uniform = false ∧ S.phys = phys ∧
    (∀ k, 0 < G.jac k) ∧ (∀ n, 0 < P.data n) ∧ P.Holds S G ∧ implicitColumn solve S G D M' U0 = some V ∧
    updateTracers S G P (setupColumn S D M) solve false D V 1 (fun _ => D.node 4) (fun _ _ => 0) (fun _ => D.node 4) = .ok t ∧
    ¬ ∀ k < S.levels, t 0 k = V.node 4 k := by
  obtain ⟨S, V, t, E, T, hNN, hL, href, hu, hN, hn, hp, hdt, hV, ht⟩ := crossed_runs phys solve hs M M' U0
  refine ⟨S, _, _, _, _, crossed, neighbours, breeze, V, t, E, hL, href, hu, hp, fun k => ?_, fun n => ?_, ⟨?_, ?_, fun m hm => ?_⟩, hV, ht,
    fun hall => ?_⟩
  · simp only [crossed]
    split_ifs <;> norm_num
  · simp only [neighbours]
    split_ifs <;> norm_num
  · simp [neighbours]
  · simp [neighbours]
  · simp only [neighbours, crossed, hN]
    rw [if_neg (by omega)]
  have hold : ∀ m, windOld S crossed breeze m = if m = 1 then 1 else 0 := crossed_wind T hn hN _
  have hnew : ∀ m, windNew S crossed breeze V m = if m = 1 then 1 else 0 := crossed_wind T hn hN _
  have hcar := (C139_consistent E T hNN hL href solve hs crossed neighbours breeze M M' hdt U0 V hV 1 (fun _ => breeze.node 4) (fun _ _ => 0)
    t ht 0 one_pos 1 (fun k _ => by ring)).1 (fun k hk => by rw [hall k hk]; ring)
  have hz := (hcar.resolve_left one_ne_zero) 0 (by omega)
  rw [(crossed_carried E T hn hN _ _ _ hold).1] at hz
  have hother : neighbours.other S 1 = 2 := by simp [Schur.Site.other, neighbours, hN]
  have d0 := density_step E T hNN hL href solve hs crossed breeze M' U0 V hV 0 (by omega)
  have d1 := density_step E T hNN hL href solve hs crossed breeze M' U0 V hV 1 (by omega)
  unfold TracerStep at d0 d1
  rw [(crossed_carried E T hn hN _ _ _ hold).1, (crossed_carried E T hn hN _ _ _ hnew).1] at d0
  rw [(crossed_carried E T hn hN _ _ _ hold).2, (crossed_carried E T hn hN _ _ _ hnew).2] at d1
  rw [hother] at hz
  have e1 : crossed.jacEdge 1 = 1 := rfl
  have e2 : breeze.node 4 0 = 1 := by simp [breeze]
  have e3 : breeze.node 4 1 = 1 := by simp [breeze]
  simp only [e1, e2, e3] at hz d0 d1
  have hsum : V.node 4 0 - 1 + (V.node 4 1 - 1) = 0 := by linarith
  generalize V.node 4 0 = a at *
  generalize V.node 4 1 = b at *
  obtain rfl : b = 2 - a := by linarith
  have k0 : (1 * a + -1 * 1) / S.dt + 1 = 0 := by linear_combination d0
  have k1 : (1 * (2 - a) + -1 * 1) / S.dt - 1 / 2 = 0 := by linear_combination d1
  have : (1 * a + -1 * 1) / S.dt + (1 * (2 - a) + -1 * 1) / S.dt = 0 := by
    rw [← add_div]
    ring
  linarith

/-- The column of the counterexample, and the same with a row of equal volume elements, meet the hypotheses of the theorems about the
update. -/
example (phys : Thermo.Constants) (solve : BandSolver) (hs : Lapack solve) (M M' : Memory) (U0 : Vdyn.State) :
    ∃ (S : Setup) (V : Vdyn.State) (t : Nat → Nat → ℝ),
    Elements S (fun k => (k : ℝ) + 1 / 2) (fun k => (k : ℝ)) ([0], [2]) ([-1, 1], [1, 1]) ∧ S.dt ≠ 0 ∧ S.levels = 10 ∧
    (∀ k < S.levels, crossed.jac k ≠ 0) ∧ implicitColumn solve S crossed breeze M' U0 = some V ∧
    updateTracers S crossed neighbours (setupColumn S breeze M) solve false breeze V 1 (fun _ => breeze.node 4) (fun _ _ => 0)
      (fun _ => breeze.node 4) = .ok t := by
  obtain ⟨S, V, t, E, -, -, -, -, -, hN, -, -, hdt, hV, ht⟩ := crossed_runs phys solve hs M M' U0
  refine ⟨S, V, t, E, hdt, hN, fun k _ => ?_, hV, ht⟩
  simp only [crossed]
  split_ifs <;> norm_num

/-- Volume elements equal everywhere meet the hypothesis of `C139_consistent_partial`. -/
example (S : Setup) : (⟨11, 1, 0, 0, fun _ => 1⟩ : Schur.Site).Holds S crossed ∧
    ∀ m, 0 < m → m < S.levels → (⟨11, 1, 0, 0, fun _ => 1⟩ : Schur.Site).other S m = crossed.jacEdge m := by
  refine ⟨⟨by simp, by simp, fun m _ => ?_⟩, fun m _ _ => ?_⟩
  · simp [crossed]
  · simp [Schur.Site.other, crossed]

end Verif.ColumnV2
