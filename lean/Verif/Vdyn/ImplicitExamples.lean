/-
C92: small enough steps succeed in columns that are not refused for their number of levels; columns of elements with one level.
-/
import Verif.Vdyn.ImplicitProps
import Verif.Vdyn.JacobianExamples

namespace Verif.Vdyn

open Verif.Column Verif.Interp Finset Polynomial

/-- The Jacobian but for the time step. -/
noncomputable def spatialUpdates (S : Setup) (G : Metric) (M : Memory) (x : Nat → ℝ) : List Update :=
  (List.range S.levels).flatMap (fluxUpdates S G M x) ++
  (List.range' 1 (S.levels - 1)).flatMap (pressureUpdates S M x) ++
  (List.range' 1 (S.levels - 1)).flatMap (clarkUpdates S G M x) ++
  upwindUpdates S G M x 2 ++ upwindUpdates S G M x 3 ++ upwindUpdates S G M x 4

theorem product_bound (us : List Update) (n : Nat) (c : Nat → ℝ) (b : ℝ) (hcol : ∀ u ∈ us, u.value ≠ 0 → u.col < n) (hb : ∀ j < n, |c j| ≤ b)
    (hb0 : 0 ≤ b) (i : Nat) : |product us c i| ≤ (us.map fun u => |u.value|).sum * b := by
  unfold product
  induction us with
  | nil => simp
  | cons u us ih =>
    simp only [List.map_cons, List.sum_cons]
    have h1 := ih fun v hv => hcol v (List.mem_cons_of_mem _ hv)
    have h2 : |if u.row = i then u.value * c u.col else 0| ≤ |u.value| * b := by
      split_ifs
      · rw [abs_mul]
        by_cases h0 : u.value = 0
        · simp [h0]
        · exact mul_le_mul_of_nonneg_left (hb _ (hcol u List.mem_cons_self h0)) (abs_nonneg _)
      · rw [abs_zero]
        positivity
    calc _ ≤ _ := abs_add_le _ _
      _ ≤ _ := add_le_add h2 h1
      _ = _ := by ring

theorem small_regular {S : Setup} {node edge sNode sEdge : Nat → ℝ} {gauss lob : List ℝ × List ℝ} (E : Elements S node edge gauss lob)
    (T : Stencils S node edge sNode sEdge gauss lob) (hL : Lorenz S) (hord : S.order ≤ 5) (G : Metric) (D : Data) (M : Memory) :
    ∃ h0 : ℝ, 0 < h0 ∧ ∀ h : ℝ, h ≠ 0 → |h| < h0 → RegularColumn { S with dt := h } G D M := by
  have hn := (penalty_facts E).1
  have hoff := (C91_refused S G (setupColumn S D M) (setupColumn S D M).state).2.2 E.elements
  obtain ⟨d, hd⟩ : ∃ d, offDiagonals S = some d := by
    cases h : offDiagonals S with
    | none => have := hoff.1 h; omega
    | some d => exact ⟨d, rfl⟩
  set us := spatialUpdates S G (setupColumn S D M) (setupColumn S D M).state with hus
  have hcol : ∀ u ∈ us, u.value ≠ 0 → u.col < 3 * (S.levels + 1) := fun u hu h =>
    (C91_in_band E T hL hd G (setupColumn S D M) (setupColumn S D M).state u (List.mem_append_left _ hu)).2 h |>.1
  set B := (us.map fun u => |u.value|).sum with hB
  have hB0 : 0 ≤ B := by
    apply List.sum_nonneg
    intro v hv
    obtain ⟨u, -, rfl⟩ := List.mem_map.1 hv
    exact abs_nonneg _
  refine ⟨1 / (B + 1), by positivity, fun h hh hlt c hc => ?_⟩
  have hsplit : ∀ i < 3 * (S.levels + 1), c i = -(h * product us c i) := by
    intro i hi
    have h1 : product (us ++ timeUpdates { S with dt := h }) c i = 0 := hc i hi
    rw [product_append, time_row (S := { S with dt := h }) (y := c) i hi] at h1
    field_simp at h1
    linarith
  obtain ⟨i, hi, hmax⟩ := exists_max_image (range (3 * (S.levels + 1))) (fun i => |c i|) ⟨0, by simp⟩
  have hb : ∀ j < 3 * (S.levels + 1), |c j| ≤ |c i| := fun j hj => hmax j (mem_range.2 hj)
  have hi' := hsplit i (mem_range.1 hi)
  have hle : |c i| ≤ |h| * (B * |c i|) := by
    conv_lhs => rw [hi', abs_neg, abs_mul]
    exact mul_le_mul_of_nonneg_left (product_bound us _ c _ hcol hb (abs_nonneg _) i) (abs_nonneg _)
  have hz : |c i| = 0 := by
    by_contra hne
    have hpos : 0 < |c i| := lt_of_le_of_ne (abs_nonneg _) (Ne.symm hne)
    have h1 : |h| * (B + 1) < 1 := by
      rw [lt_div_iff₀ (by positivity)] at hlt
      exact hlt
    nlinarith [abs_nonneg h, abs_pos.2 hh]
  intro j hj
  have := hb j hj
  rw [hz] at this
  exact abs_eq_zero.1 (le_antisymm this (abs_nonneg _))

/-- **C92 (small steps).**  Every column with enough levels, of order five or below, has a time step below which the step
is not refused. -/
theorem C92_small_steps {S : Setup} {node edge sNode sEdge : Nat → ℝ} {gauss lob : List ℝ × List ℝ} (E : Elements S node edge gauss lob)
    (T : Stencils S node edge sNode sEdge gauss lob) (hL : Lorenz S) (hord : S.order ≤ 5) {d : Nat} (hd : offDiagonals S = some d)
    (hlev : d ≤ S.levels) (solve : BandSolver) (hs : Lapack solve) (G : Metric) (D : Data) (M : Memory) (U : State) :
    ∃ h0 : ℝ, 0 < h0 ∧ ∀ h : ℝ, h ≠ 0 → |h| < h0 → ∃ V, implicitColumn solve { S with dt := h } G D M U = some V := by
  obtain ⟨h0, hpos, hreg⟩ := small_regular E T hL hord G D M
  refine ⟨h0, hpos, fun h hh hlt => ?_⟩
  have E' : Elements { S with dt := h } node edge gauss lob := ⟨E.elements, E.setup, E.separated, E.apartNodes, E.apartEdges,
    E.gaussRule, E.onGauss, E.lobattoRule, E.onLobatto, E.insideEdges, E.insideNodes⟩
  have T' : Stencils { S with dt := h } node edge sNode sEdge gauss lob := ⟨T.toInterfaces, T.toLevels, T.second, T.separated,
    T.insideEdges, T.insideNodes⟩
  rw [← Option.ne_none_iff_exists']
  intro hnone
  rcases ((C92_refused E' T' solve hs G D M U).2 hL).1 hnone with h1 | ⟨d', h1, h2⟩ | h1
  · have : S.order ≤ 5 := hord
    have : 5 < S.order := h1
    omega
  · have h3 : offDiagonals S = some d' := h1
    rw [hd] at h3
    obtain rfl := Option.some.inj h3
    have : S.levels < d := h2
    omega
  · exact h1 (hreg h hh hlt)

/-- `N` elements of length one with one level each. -/
theorem unit_setup (N : Nat) (hN0 : 1 < N) (phys : Thermo.Constants) : ∃ S : Setup,
    Elements S (fun k => (k : ℝ) + 1 / 2) (fun k => (k : ℝ)) ([0], [2]) ([-1, 1], [1, 1]) ∧
    Stencils S (fun k => (k : ℝ) + 1 / 2) (fun k => (k : ℝ)) (fun k => (k : ℝ) + 1 / 2) (fun k => (k : ℝ)) ([0], [2]) ([-1, 1], [1, 1]) ∧
    Lorenz S ∧ S.levels = N ∧ S.order = 1 ∧ S.useRef = true ∧ S.uniform = false ∧ S.phys = phys ∧ 0 < S.penalty.n := by
  obtain ⟨solve, hs⟩ := solver_exists
  have hdvd : 1 ∣ N := one_dvd N
  have hne : fluxInit solve .levels 1 N (N + 1) (fun k => (k : ℝ) + 1 / 2) (fun k => (k : ℝ)) (N + 1) (fun k => (k : ℝ)) true ≠ .exc := by
    rw [Ne, (C88_refused solve .levels 1 N (N + 1) _ _ (N + 1) _ true one_pos).1]
    simp only [not_or, not_exists]
    refine ⟨by omega, by omega, by simp, fun l hl => ?_⟩
    obtain ⟨hl1, hl2⟩ := hl
    have h1 : (0 : ℝ) ≤ l := Nat.cast_nonneg l
    have h2 : (l : ℝ) ≤ N := Nat.cast_le.2 (by omega)
    rcases hl2 with h | h
    · simp at h
      linarith
    · linarith
  obtain ⟨A, hA⟩ := (C88_refused solve .levels 1 N (N + 1) _ _ (N + 1) _ true one_pos).2 hne
  have hsep : Separated (fun b => ((b * 1 : ℕ) : ℝ)) (N / 1) := fun a _ => by
    push_cast
    norm_num [eps]
  have hinE : ∀ a < N / 1, ∀ j, 0 < j → j < 1 → InElement (fun b => ((b * 1 : ℕ) : ℝ)) (N / 1) a ((a * 1 + j : ℕ) : ℝ) :=
    fun a _ j h0 h1 => by omega
  have hinN : ∀ a < N / 1, ∀ i < 1, InElement (fun b => ((b * 1 : ℕ) : ℝ)) (N / 1) a (((a * 1 + i : ℕ) : ℝ) + 1 / 2) := by
    intro a ha i hi
    obtain rfl : i = 0 := by omega
    rw [Nat.div_one] at *
    refine ⟨ha, Or.inr ?_, Or.inr ?_⟩
    · push_cast
      norm_num [eps]
    · push_cast
      norm_num [eps]
      linarith
  obtain ⟨B, hB⟩ : ∃ B, diffInterfaceInit .interfaces 1 N (N + 1) (fun k => (k : ℝ) + 1 / 2) (fun k => (k : ℝ)) N
      (fun k => (k : ℝ) + 1 / 2) false = .ok B := by
    unfold diffInterfaceInit
    rw [if_neg (by omega), if_neg (by omega), if_neg (by omega)]
    exact ⟨_, rfl⟩
  obtain ⟨P, hP, hPn⟩ : ∃ P : Penalty, penaltyInit solve 1 N (N + 1) (fun k => (k : ℝ) + 1 / 2) (fun k => (k : ℝ)) = .ok P ∧ 0 < P.n := by
    obtain ⟨-, -, -, f, hf, -⟩ := flux_cases hA
    unfold penaltyInit
    rw [if_neg (by omega), if_neg (by rw [Nat.div_one]; omega), if_neg (by omega), if_neg (by omega), if_neg (by omega), hf]
    exact ⟨_, rfl, one_pos⟩
  obtain ⟨IA, hIA⟩ : ∃ A, interpInit .levels 1 N (N + 1) (fun k => (k : ℝ) + 1 / 2) (fun k => (k : ℝ)) (N + 1) (fun k => (k : ℝ)) false =
      .ok A := by
    unfold interpInit
    rw [if_neg (by omega), if_neg (by omega), if_neg (by omega)]
    simp only [Bool.false_eq_true, false_and, if_false]
    refine fill_of fun l hl _ _ => ?_
    obtain ⟨a, ⟨h, ha, h1, h2, h3, h4⟩ | ⟨h, ha, h1⟩⟩ := edge_located (fun k => (k : ℝ)) 1 (N / 1) one_pos (by rw [Nat.div_one]; omega)
      hsep hinE l (by rw [Nat.div_one]; omega)
    · rw [Nat.div_one] at ha h4
      unfold levelRow levelBase
      rw [h]
      dsimp only
      by_cases hl0 : l = 0
      · rw [if_pos ⟨rfl, hl0⟩, if_pos (by omega)]
        simp
      · rw [if_neg (by omega)]
        by_cases hlN : l = N
        · rw [if_pos ⟨rfl, by omega⟩, if_pos (by omega)]
          simp
        · rw [if_neg (by omega)]
          simp
    · rw [Nat.div_one] at ha
      unfold levelRow levelBase
      rw [h]
      dsimp only
      rw [if_neg (by omega), if_neg (by omega)]
      simp only [Option.bind_some, if_true]
      rw [if_pos (by omega)]
      simp
  obtain ⟨IB, hIB⟩ : ∃ B, interpInit .interfaces 1 N (N + 1) (fun k => (k : ℝ) + 1 / 2) (fun k => (k : ℝ)) N (fun k => (k : ℝ) + 1 / 2)
      false = .ok B := by
    unfold interpInit
    rw [if_neg (by omega), if_neg (by omega), if_neg (by omega)]
    simp only [Bool.false_eq_true, false_and, if_false]
    exact fill_of fun l hl _ _ => rfl
  obtain ⟨K, hK⟩ : ∃ K, diffDiffInit solve .interfaces 1 N (N + 1) (fun k => (k : ℝ) + 1 / 2) (fun k => (k : ℝ)) ([0], [2])
      ([-1, 1], [1, 1]) = .ok K := by
    unfold diffDiffInit
    rw [if_neg (by omega), if_neg (by dsimp only; omega), if_neg (by omega), if_neg (by omega)]
    exact ⟨_, rfl⟩
  let S : Setup :=
    { levels := N, order := 1, volumes := false, wOnEdge := true, pOnEdge := false, massOnLevels := false, uniform := false,
      useRef := true, nuScalar := 0, nuVector := 0, ztop := 1, dt := 1, phys := phys, interpNE := IA, interpEN := IB, diffNN := IA,
      diffNNZero := IA, diffNE := A, diffEN := B, diffDiffNN := K, diffDiffEE := K, penalty := P }
  refine ⟨S, ⟨rfl, ⟨solve, hs, hA, hB, hP⟩, hsep, ?_, ?_, midpoint_gauss, ?_, trapezoid_lobatto, ?_, hinE, hinN⟩,
    ⟨hIA, hIB, ⟨solve, hK⟩, hsep, hinE, hinN⟩, ⟨rfl, rfl, rfl⟩, rfl, rfl, rfl, rfl, rfl, hPn⟩
  · intro b _ i j hi hj hij
    have h1 : S.order = 1 := rfl
    omega
  · intro b _ i j hi hj hij
    have h1 : S.order = 1 := rfl
    have hd : (1 : ℝ) ≤ |(i : ℝ) - j| := by
      obtain ⟨rfl, rfl⟩ | ⟨rfl, rfl⟩ : (i = 0 ∧ j = 1) ∨ (i = 1 ∧ j = 0) := by omega
      · norm_num
      · norm_num
    have : ((b * S.order + i : ℕ) : ℝ) - ((b * S.order + j : ℕ) : ℝ) = (i : ℝ) - j := by push_cast; ring
    rw [this]
    refine le_trans ?_ hd
    norm_num
  · intro a ha
    have h1 : S.order = 1 := rfl
    rw [h1]
    refine ⟨by push_cast; linarith, fun i hi => ?_⟩
    obtain rfl : i = 0 := by omega
    push_cast
    norm_num
  · intro a ha
    have h1 : S.order = 1 := rfl
    rw [h1]
    refine ⟨by push_cast; linarith, fun i hi => ?_⟩
    obtain rfl | rfl : i = 0 ∨ i = 1 := by omega
    · push_cast
      norm_num
    · push_cast
      norm_num

/-- **C92, where the code does something else.**  Three levels are too few: the step of every column of elements with one level is
refused, for every time step, although the Jacobian of this column is regular for small ones. -/
theorem C92_few_levels_false (phys : Thermo.Constants) (G : Metric) (D : Data) (M : Memory) :
    ∃ (S : Setup) (node edge : Nat → ℝ) (gauss lob : List ℝ × List ℝ), Elements S node edge gauss lob ∧ Lorenz S ∧ S.levels = 3 ∧
    S.order = 1 ∧ S.phys = phys ∧ S.dt ≠ 0 ∧ RegularColumn S G D M ∧
    ∀ (solve : BandSolver) (U : State), implicitColumn solve S G D M U = none := by
  obtain ⟨S, E, T, hL, hN, hn, href, hu, hp, -⟩ := unit_setup 3 (by omega) phys
  obtain ⟨h0, hpos, hreg⟩ := small_regular E T hL (by omega) G D M
  refine ⟨{ S with dt := h0 / 2 }, _, _, _, _, ⟨E.elements, E.setup, E.separated, E.apartNodes, E.apartEdges,
    E.gaussRule, E.onGauss, E.lobattoRule, E.onLobatto, E.insideEdges, E.insideNodes⟩, hL, hN, hn, hp, by
      show h0 / 2 ≠ 0
      positivity, hreg _ (by positivity) (by rw [abs_of_pos (by positivity)]; linarith), fun solve U => ?_⟩
  have hoff : offDiagonals { S with dt := h0 / 2 } = some 4 := by
    unfold offDiagonals
    simp [E.elements, hn]
  have hL' : Lorenz { S with dt := h0 / 2 } := hL
  have hN' : ({ S with dt := h0 / 2 } : Setup).levels = 3 := hN
  generalize ({ S with dt := h0 / 2 } : Setup) = S' at hoff hL' hN'
  unfold implicitColumn newtonStep dgbsv
  rw [hoff]
  dsimp only
  rw [(C91_refused S' G _ _).2.1 hL']
  dsimp only
  rw [if_pos (by rw [hN']; omega)]
  rfl

/-- Columns of ten levels meet the hypotheses of the theorems about the step, for all data. -/
example (phys : Thermo.Constants) (solve : BandSolver) (hs : Lapack solve) (G : Metric) (D : Data) (M : Memory) (U : State) :
    ∃ S : Setup, ∃ V, Elements S (fun k => (k : ℝ) + 1 / 2) (fun k => (k : ℝ)) ([0], [2]) ([-1, 1], [1, 1]) ∧
    Stencils S (fun k => (k : ℝ) + 1 / 2) (fun k => (k : ℝ)) (fun k => (k : ℝ) + 1 / 2) (fun k => (k : ℝ)) ([0], [2]) ([-1, 1], [1, 1]) ∧
    SecondOnLevels S (fun k => (k : ℝ) + 1 / 2) (fun k => (k : ℝ)) ([0], [2]) ([-1, 1], [1, 1]) ∧ Lorenz S ∧ S.useRef = true ∧
    S.uniform = false ∧ S.levels = 10 ∧ S.order = 1 ∧ S.dt ≠ 0 ∧ implicitColumn solve S G D M U = some V := by
  obtain ⟨S, E, T, hL, hN, hn, href, hu, hp, -⟩ := unit_setup 10 (by omega) phys
  obtain ⟨h0, hpos, h⟩ := C92_small_steps E T hL (by omega) (d := 4) (by simp [offDiagonals, E.elements, hn]) (by omega) solve hs G D M U
  obtain ⟨V, hV⟩ := h (h0 / 2) (by positivity) (by rw [abs_of_pos (by positivity)]; linarith)
  exact ⟨{ S with dt := h0 / 2 }, V, ⟨E.elements, E.setup, E.separated, E.apartNodes, E.apartEdges,
    E.gaussRule, E.onGauss, E.lobattoRule, E.onLobatto, E.insideEdges, E.insideNodes⟩, ⟨T.toInterfaces, T.toLevels, T.second, T.separated,
    T.insideEdges, T.insideNodes⟩, fun h => by rw [show S.uniform = false from hu] at h; simp at h, hL, href, hu, hN, hn,
    by show h0 / 2 ≠ 0; positivity, hV⟩

/-- Every profile of density and potential temperature at rest is in balance over some heights: `C92_balance`. -/
example (S : Setup) (hg : S.phys.g ≠ 0) (D : Data) : ∃ G : Metric, ∀ k, 0 < k → k < S.levels →
    applyRow S.interpNE (D.node 2) k / applyRow S.interpNE (D.node 4) k *
      applyRow S.diffNE (fun j => S.phys.cp * Real.exp (S.phys.r / (S.phys.cp - S.phys.r) *
        Real.log (S.phys.r / S.phys.p0 * D.node 2 j))) k = -(S.phys.g * G.derivREdge k) := by
  refine ⟨{ sampleMetric (fun _ => 1) with derivREdge := fun k => -(applyRow S.interpNE (D.node 2) k / applyRow S.interpNE (D.node 4) k *
      applyRow S.diffNE (fun j => S.phys.cp * Real.exp (S.phys.r / (S.phys.cp - S.phys.r) *
        Real.log (S.phys.r / S.phys.p0 * D.node 2 j))) k) / S.phys.g }, fun k _ _ => ?_⟩
  dsimp only
  field_simp

/-- Volume elements that grow in steps of elements jump; constant ones do not: `C92_conserved_partial`. -/
example (S : Setup) (hn : S.order = 1) (node edge : Nat → ℝ) : Fits S node (fun _ => C 2) (sampleMetric fun _ => 2).jac ∧
    ∀ a < S.levels / S.order - 1, jump S.order edge (fun _ => C 2) a = 0 := by
  refine ⟨fun a _ => ?_, fun a _ => by simp [jump]⟩
  rw [hn]
  refine ⟨lt_of_le_of_lt degree_C_le (by norm_num), fun i hi => ?_⟩
  simp [sampleMetric]

end Verif.Vdyn
