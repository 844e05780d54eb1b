/-
C95: the explicit step of the columns of a patch.
-/
import Verif.Vdyn.PatchProps
import Verif.Vdyn.ExplicitSpec

namespace Verif.Vdyn

open Verif.Column Verif.Interp Finset Polynomial

theorem unknowns_p (node edge : Nat → Nat → ℝ) (k : Nat) : unknowns node edge (3 * k) = node 2 k := by
  unfold unknowns
  rw [if_pos (by omega), show 3 * k / 3 = k by omega]

theorem unknowns_w (node edge : Nat → Nat → ℝ) (k : Nat) : unknowns node edge (3 * k + 1) = edge 3 k := by
  unfold unknowns
  rw [if_neg (by omega), if_pos (by omega), show (3 * k + 1) / 3 = k by omega]

theorem unknowns_r (node edge : Nat → Nat → ℝ) (k : Nat) : unknowns node edge (3 * k + 2) = node 4 k := by
  unfold unknowns
  rw [if_neg (by omega), if_neg (by omega), show (3 * k + 2) / 3 = k by omega]

theorem asColumn_data (D : Data) : asColumn D (unknowns D.node D.edge) = D.column := by
  unfold asColumn Data.column
  simp only [unknowns_p, unknowns_w, unknowns_r]

theorem wind_data (S : Setup) (G : Metric) (D : Data) : windBefore S G D = verticalWind S G D.column := by
  unfold windBefore
  rw [asColumn_data]

section
variable {S : Setup} {node edge sNode sEdge : Nat → ℝ} {gauss lob : List ℝ × List ℝ}

/-- The tendencies of the data of a column. -/
theorem residual_data (E : Elements S node edge gauss lob) (T : Stencils S node edge sNode sEdge gauss lob)
    (hNN : SecondOnLevels S node edge gauss lob) (hL : Lorenz S) (href : S.useRef = true) (G : Metric) (D : Data) (M : Memory) (k : Nat) :
    (k < S.levels → residual S G (setupColumn S D M) (setupColumn S D M).state (3 * k + 2) =
      divergence S G (windBefore S G D) (D.node 4) k - smoothing S (fun m => |windBefore S G D m|) (D.node 4) k) ∧
    (k < S.levels → residual S G (setupColumn S D M) (setupColumn S D M).state (3 * k) =
      divergence S G (windBefore S G D) (D.node 2) k - smoothing S (fun m => |windBefore S G D m|) (D.node 2) k -
        diffuse S S.diffDiffNN S.nuScalar (D.node 2) (D.refNode 2) k) ∧
    (0 < k → k < S.levels → residual S G (setupColumn S D M) (setupColumn S D M).state (3 * k + 1) = verticalForce S G D k) ∧
    (k = 0 ∨ k = S.levels → residual S G (setupColumn S D M) (setupColumn S D M).state (3 * k + 1) = 0) := by
  have ha := state_unknowns hL D M
  have hflux : ∀ q, flux S G D.column q = fun m => G.jacEdge m * (applyRow S.interpNE q m * windBefore S G D m) := fun q => by
    rw [wind_data]
    funext m
    exact mul_assoc _ _ _
  refine ⟨fun hk => ?_, fun hk => ?_, fun h0 hk => ?_, fun hk => ?_⟩
  · rw [residual_congr E T hNN hL href G D M M ha _ ⟨by omega, Or.inr (by omega)⟩, (C90_levels hL E.elements G D M _ href k hk).1,
      asColumn_data, unknowns_r, sub_self, zero_div, add_zero, hflux, ← wind_data]
    rfl
  · rw [residual_congr E T hNN hL href G D M M ha _ ⟨by omega, Or.inr (by omega)⟩, (C90_levels hL E.elements G D M _ href k hk).2,
      asColumn_data, unknowns_p, sub_self, zero_div, add_zero, hflux, ← wind_data]
    rfl
  · rw [residual_congr E T hNN hL href G D M M ha _ ⟨by omega, Or.inl (by omega)⟩, (C90_velocity hL G D M _ href k).1 h0 hk,
      asColumn_data, unknowns_w, sub_self, zero_div, add_zero]
    rfl
  · rw [residual_congr E T hNN hL href G D M M ha _ ⟨by omega, Or.inl (by omega)⟩, (C90_velocity hL G D M _ href k).2 hk,
      unknowns_w, sub_self, zero_div]

theorem terms_halves (solve : BandSolver) (G : Metric) (e : Bool) (D : Data) (M : Memory) (count : Nat) (q ref : Nat → Nat → ℝ)
    (U V : State) (h : termsColumn solve S G e D M count q ref U = .ok V) :
    ∃ t, updateTracers S G (setupColumn S D M) solve e D
      (addTerms S (residual S G (setupColumn S D M) (setupColumn S D M).state) U) count q ref U.tracer = .ok t ∧
      V = { addTerms S (residual S G (setupColumn S D M) (setupColumn S D M).state) U with tracer := t } := by
  unfold termsColumn at h
  dsimp only at h
  rw [show (addTerms S (residual S G (setupColumn S D M) (setupColumn S D M).state) U).tracer = U.tracer from rfl] at h
  cases ht : updateTracers S G (setupColumn S D M) solve e D
      (addTerms S (residual S G (setupColumn S D M) (setupColumn S D M).state) U) count q ref U.tracer with
  | exc => rw [ht] at h; simp at h
  | ub => rw [ht] at h; simp at h
  | ok t =>
    rw [ht] at h
    exact ⟨t, rfl, (ColumnRes.ok.inj h).symm⟩

/-- **C95 (implicit terms, explicitly).**  The tendencies are those of transport, pressure gradient, gravity, diffusion and upwinding in
the initial data, times the time step; vertical velocity at the bottom and the top stays, and so does everything that is neither density,
density times potential temperature, vertical velocity nor tracer. -/
theorem C95_terms (E : Elements S node edge gauss lob) (T : Stencils S node edge sNode sEdge gauss lob)
    (hNN : SecondOnLevels S node edge gauss lob) (hL : Lorenz S) (href : S.useRef = true) (solve : BandSolver) (G : Metric) (e : Bool)
    (D : Data) (M : Memory) (count : Nat) (q ref : Nat → Nat → ℝ) (U V : State)
    (h : termsColumn solve S G e D M count q ref U = .ok V) (k : Nat) :
    (k < S.levels → V.node 4 k = U.node 4 k -
      S.dt * (divergence S G (windBefore S G D) (D.node 4) k - smoothing S (fun m => |windBefore S G D m|) (D.node 4) k)) ∧
    (k < S.levels → V.node 2 k = U.node 2 k -
      S.dt * (divergence S G (windBefore S G D) (D.node 2) k - smoothing S (fun m => |windBefore S G D m|) (D.node 2) k -
        diffuse S S.diffDiffNN S.nuScalar (D.node 2) (D.refNode 2) k)) ∧
    (0 < k → k < S.levels → V.edge 3 k = U.edge 3 k - S.dt * verticalForce S G D k) ∧
    (k = 0 ∨ S.levels ≤ k → V.edge 3 k = U.edge 3 k) ∧
    (∀ c, (c ≠ 2 ∧ c ≠ 4) ∨ S.levels ≤ k → V.node c k = U.node c k) ∧
    (∀ c, c ≠ 3 → V.edge c k = U.edge c k) ∧
    (∀ c, count ≤ c ∨ S.levels ≤ k → V.tracer c k = U.tracer c k) := by
  obtain ⟨t, ht, rfl⟩ := terms_halves solve G e D M count q ref U V h
  obtain ⟨r4, r2, r3, r0⟩ := residual_data E T hNN hL href G D M k
  obtain ⟨l1, l2, -⟩ := hL
  refine ⟨fun hk => ?_, fun hk => ?_, fun h0 hk => ?_, fun hk => ?_, fun c hc => ?_, fun c hc => ?_, fun c hc => ?_⟩
  · rw [← r4 hk]
    simp [addTerms, hk, vec]
  · rw [← r2 hk]
    simp [addTerms, hk, vec, l2]
  · rw [← r3 h0 hk]
    simp [addTerms, hk.le, vec, l1]
  · dsimp only [addTerms]
    by_cases hk2 : k ≤ S.levels
    · rw [if_pos hk2, if_neg (show ¬ (3 = 2 ∧ S.pOnEdge = true) by omega), if_pos ⟨rfl, l1⟩, vec, r0 (by omega), mul_zero, sub_zero]
    · rw [if_neg hk2]
  · dsimp only [addTerms]
    rw [l1]
    split_ifs with h1 h2 h3 h4
    · omega
    · simp at h3
    · omega
    · rfl
    · rfl
  · dsimp only [addTerms]
    rw [l2]
    split_ifs with h1 h2 h3
    · simp at h2
    · omega
    · rfl
    · rfl
  · exact C93_untouched solve G D _ e _ count q ref _ t ht c k hc

theorem penalty_out (E : Elements S node edge gauss lob) (v z out : Nat → ℝ) (k : Nat) :
    penaltyApply S.penalty v z out 1 1 k = out k + if k < S.levels then penaltyApply S.penalty v z (fun _ => 0) 1 1 k else 0 := by
  obtain ⟨hn, hN, hm, hone, hmany⟩ := penalty_facts E
  by_cases h1 : S.levels / S.order = 1
  · rw [hone h1, hone h1]
    simp
  · obtain ⟨p1, p2, p3, p4⟩ := hmany (by omega)
    have hb : S.penalty.m * S.penalty.n = S.levels := by rw [p2, p1, ← hN]
    by_cases hk : k < S.levels
    · have a := apply_at S.penalty (by omega) p3 p4 v z out 1 1 one_pos k (by omega)
      have b := apply_at S.penalty (by omega) p3 p4 v z (fun _ => 0) 1 1 one_pos k (by omega)
      rw [mul_one] at a b
      rw [if_pos hk, a, b]
      ring
    · rw [if_neg hk, add_zero, apply_other S.penalty (by omega) v z out 1 1 one_pos k (fun j hj => by omega)]

/-- The wind that upwinding uses. -/
theorem explicit_wind (hL : Lorenz S) (G : Metric) (D : Data) (M : Memory) (count : Nat) :
    (∀ k, explicitWind S G true D M count k = windBefore S G D k) ∧
    ∀ k ≤ S.levels, explicitWind S G false D M count k = edgeWind S G D k := by
  constructor
  · intro k
    unfold explicitWind
    dsimp only
    rw [if_pos rfl]
    have ha := state_unknowns hL D M
    by_cases hc : count = 0
    · rw [if_pos hc, show xiDotEdge S G (setupColumn S D M) (setupColumn S D M).state k =
        verticalWind S G (asColumn D (setupColumn S D M).state) k from congrFun (wind_eq hL G D M _) k]
      exact wind_congr G D ha k
    · rw [if_neg hc, wind_data]
      unfold tracerWind verticalWind
      simp only [hL.1, if_true]
      by_cases hk : 1 ≤ k ∧ k < S.levels
      · rw [if_pos hk, if_neg (by omega)]
        simp [setupColumn, hL.1, Data.column]
      · rw [if_neg hk, if_pos (by omega)]
  · intro k hk
    unfold explicitWind edgeWind
    dsimp only
    rw [if_neg (by simp)]
    by_cases h : k = 0 ∨ k = S.levels
    · rw [if_pos h, if_pos (by omega)]
    · rw [if_neg h, if_neg (by omega)]

theorem explicit_halves (solve : BandSolver) (G : Metric) (e : Bool) (D : Data) (M : Memory) (count : Nat) (q ref : Nat → Nat → ℝ)
    (U V : State) (h : explicitColumn solve S G e D M count q ref U = .ok V) :
    ∃ W, (e = true → termsColumn solve S G true D M count q ref U = .ok W) ∧ (e = false → W = U) ∧
      V = smoothHorizontal S (explicitWind S G e D M count) D (if e then (setupColumn S D M).node else M.node) W := by
  unfold explicitColumn at h
  cases e with
  | false =>
    simp only [Bool.false_eq_true, if_false] at h ⊢
    exact ⟨U, by simp, fun _ => rfl, (ColumnRes.ok.inj h).symm⟩
  | true =>
    simp only [if_true] at h ⊢
    cases ht : termsColumn solve S G true D M count q ref U with
    | exc => rw [ht] at h; simp at h
    | ub => rw [ht] at h; simp at h
    | ok W =>
      rw [ht] at h
      exact ⟨W, fun _ => rfl, by simp, (ColumnRes.ok.inj h).symm⟩

/-- **C95 (horizontal velocity; partial).**  The explicit step adds to the horizontal velocity of a column the penalty of its jumps at
element edges, weighted by the time step and the speed of the vertical wind there, and uniform diffusion of its departure from the
reference.  The wind is that of the column under the fully explicit option, and that of the velocities on interfaces otherwise.
Missing: uniform diffusion without the fully explicit option, see `C95_stale_false`. -/
theorem C95_horizontal_partial (E : Elements S node edge gauss lob) (hL : Lorenz S) (solve : BandSolver) (G : Metric) (e : Bool) (D : Data)
    (M : Memory) (count : Nat) (q ref : Nat → Nat → ℝ) (U V : State) (h : explicitColumn solve S G e D M count q ref U = .ok V)
    (hu : e = true ∨ S.uniform = false) (c : Nat) (hc : c = 0 ∨ c = 1) (k : Nat) (hk : k < S.levels) :
    V.node c k = U.node c k + smoothing S (fun m => S.dt * |(if e then windBefore S G D else edgeWind S G D) m|) (D.node c) k +
      S.dt * diffuse S S.diffDiffNN S.nuVector (D.node c) (D.refNode c) k := by
  obtain ⟨hn, hN, hm, -⟩ := penalty_facts E
  obtain ⟨W, h1, h2, rfl⟩ := explicit_halves solve G e D M count q ref U V h
  have hW : W.node c k = U.node c k := by
    cases e with
    | false => rw [h2 rfl]
    | true =>
      obtain ⟨t, -, rfl⟩ := terms_halves solve G true D M count q ref U W (h1 rfl)
      dsimp only [addTerms]
      rw [hL.1]
      split_ifs with h1 h2 h3 h4
      · omega
      · omega
      · omega
      · rfl
  dsimp only [smoothHorizontal]
  rw [if_pos hc, penalty_out E, if_pos hk, hW]
  have hp : perElement S = S.order := by
    unfold perElement
    rw [E.elements]
    rfl
  congr 1
  · congr 1
    unfold smoothing
    refine penalty_congr E _ _ _ _ (fun a ha => ?_) (fun _ _ => rfl) k hk
    rw [hp]
    have hb : (a + 1) * S.order ≤ S.levels := by
      rw [hN]
      exact Nat.mul_le_mul_right _ (by omega)
    cases e with
    | true => rw [(explicit_wind hL G D M count).1]; rfl
    | false => rw [(explicit_wind hL G D M count).2 _ hb]; rfl
  · unfold diffuse
    by_cases huu : S.uniform = true
    · have he : e = true := by
        rcases hu with he | hf
        · exact he
        · rw [huu] at hf; simp at hf
      rw [if_pos ⟨huu, hk⟩, if_pos huu, he]
      have : (setupColumn S D M).node c = D.node c := by
        unfold setupColumn
        dsimp only
        rw [if_pos hc]
      simp only [if_true]
      rw [this, pow_two]
      ring
    · rw [if_neg (fun h => huu h.1), if_neg huu, mul_zero]

/-- **C95 (the rest).**  What the explicit step does to everything but horizontal velocity is, under the fully explicit option, the
implicit terms, and nothing otherwise. -/
theorem C95_rest (E : Elements S node edge gauss lob) (solve : BandSolver) (G : Metric) (e : Bool) (D : Data) (M : Memory) (count : Nat)
    (q ref : Nat → Nat → ℝ) (U V : State) (h : explicitColumn solve S G e D M count q ref U = .ok V) :
    ∃ W, (e = true → termsColumn solve S G true D M count q ref U = .ok W) ∧ (e = false → W = U) ∧ V.edge = W.edge ∧ V.tracer = W.tracer ∧
      ∀ c k, (c ≠ 0 ∧ c ≠ 1) ∨ S.levels ≤ k → V.node c k = W.node c k := by
  obtain ⟨W, h1, h2, rfl⟩ := explicit_halves solve G e D M count q ref U V h
  refine ⟨W, h1, h2, rfl, rfl, fun c k hc => ?_⟩
  dsimp only [smoothHorizontal]
  by_cases h01 : c = 0 ∨ c = 1
  · rw [if_pos h01, penalty_out E, if_neg (by omega), if_neg (by omega)]
    ring
  · rw [if_neg h01]

/-- **C95 (refused).**  Without the fully explicit option the explicit step always succeeds.  With it, it fails if and only if there are
tracers and fewer than `6 p - 2` levels for order `p`. -/
theorem C95_refused (E : Elements S node edge gauss lob) (T : Stencils S node edge sNode sEdge gauss lob) (hL : Lorenz S)
    (solve : BandSolver) (hs : Lapack solve) (hdt : S.dt ≠ 0) (G : Metric) (D : Data) (M : Memory) (count : Nat) (q ref : Nat → Nat → ℝ)
    (U : State) :
    (∃ V, explicitColumn solve S G false D M count q ref U = .ok V) ∧
    ((∃ V, explicitColumn solve S G true D M count q ref U = .ok V) ↔ count = 0 ∨ 6 * S.order ≤ S.levels + 2) := by
  have hn := (penalty_facts E).1
  refine ⟨⟨_, rfl⟩, ?_⟩
  obtain ⟨r1, r2, r3⟩ := C93_refused E T hL solve hs G D M true hdt
    (addTerms S (residual S G (setupColumn S D M) (setupColumn S D M).state) U) count q ref U.tracer
  constructor
  · rintro ⟨V, h⟩
    obtain ⟨W, h1, -, -⟩ := explicit_halves solve G true D M count q ref U V h
    obtain ⟨t, ht, -⟩ := terms_halves solve G true D M count q ref U W (h1 rfl)
    by_contra hno
    rw [not_or] at hno
    rcases Nat.lt_or_ge (4 * S.order) (S.levels + 2) with h4 | h4
    · rw [r2.2 ⟨hno.1, Or.inr ⟨h4, Or.inl (by omega)⟩⟩] at ht
      simp at ht
    · rw [r1.2 ⟨hno.1, by simp, h4⟩] at ht
      simp at ht
  · intro hyp
    cases ht : updateTracers S G (setupColumn S D M) solve true D
        (addTerms S (residual S G (setupColumn S D M) (setupColumn S D M).state) U) count q ref U.tracer with
    | exc =>
      have := r2.1 ht
      simp at this
      omega
    | ub =>
      have := r1.1 ht
      simp at this
      omega
    | ok t =>
      refine ⟨smoothHorizontal S (explicitWind S G true D M count) D (setupColumn S D M).node
        { addTerms S (residual S G (setupColumn S D M) (setupColumn S D M).state) U with tracer := t }, ?_⟩
      unfold explicitColumn termsColumn
      simp only [if_true]
      rw [show (addTerms S (residual S G (setupColumn S D M) (setupColumn S D M).state) U).tracer = U.tracer from rfl, ht]

/-- **C95 (mass; partial).**  Where the volume element does not jump over element edges, the implicit terms change neither the mass of a
column nor, without uniform diffusion, the integral of density times potential temperature, nor the mass of tracers.  Missing: volume
elements that jump, see `C90_conserved_false`. -/
theorem C95_mass_partial (E : Elements S node edge gauss lob) (T : Stencils S node edge sNode sEdge gauss lob)
    (hNN : SecondOnLevels S node edge gauss lob) (hL : Lorenz S) (href : S.useRef = true) (solve : BandSolver) (hs : Lapack solve)
    (hdt : S.dt ≠ 0) (G : Metric) (hJ : ∀ k < S.levels, G.jac k ≠ 0) (e : Bool) (D : Data) (M : Memory) (count : Nat)
    (q ref : Nat → Nat → ℝ) (U V : State) (h : termsColumn solve S G e D M count q ref U = .ok V) (pJ : Nat → ℝ[X])
    (hpJ : Fits S node pJ G.jac) (hjoin : ∀ a < S.levels / S.order - 1, jump S.order edge pJ a = 0) :
    overLevels S edge gauss (fun k => G.jac k * V.node 4 k) = overLevels S edge gauss (fun k => G.jac k * U.node 4 k) ∧
    (S.uniform = false →
      overLevels S edge gauss (fun k => G.jac k * V.node 2 k) = overLevels S edge gauss (fun k => G.jac k * U.node 2 k)) ∧
    ∀ c, overLevels S edge gauss (fun k => G.jac k * V.tracer c k) = overLevels S edge gauss (fun k => G.jac k * U.tracer c k) := by
  have w0 : windBefore S G D 0 = 0 := wind_outside S G _ 0 (by omega)
  have w1 : windBefore S G D S.levels = 0 := if_pos (Or.inr le_rfl)
  have hdiv : ∀ z : Nat → ℝ, overLevels S edge gauss (fun k => G.jac k * divergence S G (windBefore S G D) z k) = 0 :=
    fun z => divergence_total E G hJ _ (by rw [w0]; ring) (by rw [w1]; ring)
  have hsm : ∀ v z : Nat → ℝ, overLevels S edge gauss (fun k => G.jac k * smoothing S v z k) = 0 := fun v z => penalty_total E _ pJ hpJ hjoin _ _
  have htr := fun k => C95_terms E T hNN hL href solve G e D M count q ref U V h k
  refine ⟨?_, fun hu => ?_, fun c => ?_⟩
  · rw [overLevels_congr S edge gauss _ (fun k => G.jac k * U.node 4 k - S.dt * (G.jac k * divergence S G (windBefore S G D) (D.node 4) k -
      G.jac k * smoothing S (fun m => |windBefore S G D m|) (D.node 4) k)) (fun k hk => by rw [(htr k).1 hk]; ring),
      overLevels_sub, overLevels_mul, overLevels_sub, hdiv, hsm]
    ring
  · have hd : ∀ k, diffuse S S.diffDiffNN S.nuScalar (D.node 2) (D.refNode 2) k = 0 := fun k => by
      unfold diffuse
      rw [hu]
      simp
    rw [overLevels_congr S edge gauss _ (fun k => G.jac k * U.node 2 k - S.dt * (G.jac k * divergence S G (windBefore S G D) (D.node 2) k -
      G.jac k * smoothing S (fun m => |windBefore S G D m|) (D.node 2) k)) (fun k hk => by rw [(htr k).2.1 hk, hd]; ring),
      overLevels_sub, overLevels_mul, overLevels_sub, hdiv, hsm]
    ring
  · obtain ⟨t, ht, rfl⟩ := terms_halves solve G e D M count q ref U V h
    exact C93_mass_partial E T hL href solve hs G hJ D M e hdt _ count q ref U.tracer t ht pJ hpJ hjoin c

/-- **C95 (constant mixing ratio).**  Under the fully explicit option and without uniform diffusion, a tracer that is a constant times
density, in the initial data and in the data to update, stays that constant times density. -/
theorem C95_constant (E : Elements S node edge gauss lob) (T : Stencils S node edge sNode sEdge gauss lob)
    (hNN : SecondOnLevels S node edge gauss lob) (hL : Lorenz S) (href : S.useRef = true) (hu : S.uniform = false) (solve : BandSolver)
    (hs : Lapack solve) (hdt : S.dt ≠ 0) (G : Metric) (D : Data) (M : Memory) (count : Nat) (q ref : Nat → Nat → ℝ) (U V : State)
    (h : termsColumn solve S G true D M count q ref U = .ok V) (c : Nat) (hc : c < count) (r : ℝ)
    (hq : ∀ k < S.levels, q c k = r * D.node 4 k) (hU : ∀ k < S.levels, U.tracer c k = r * U.node 4 k) (k : Nat) (hk : k < S.levels) :
    V.tracer c k = r * V.node 4 k := by
  have h4 := (C95_terms E T hNN hL href solve G true D M count q ref U V h k).1 hk
  obtain ⟨t, ht, rfl⟩ := terms_halves solve G true D M count q ref U V h
  have hx := C93_explicit E T hL href solve hs G D M hdt _ count q ref U.tracer t ht c hc k hk
  unfold ExplicitStep at hx
  dsimp only at hx
  have hmix : applyRow S.diffEN (mixing S D (q c) (ref c)) k = 0 := by
    rw [show mixing S D (q c) (ref c) = fun _ => 0 from funext fun m => if_neg (by rw [hu]; simp)]
    exact applyRow_zero _ _
  have hq' : ∀ j < S.levels, q c j = r * D.node 4 j + 0 * D.node 4 j := fun j hj => by rw [hq j hj]; ring
  rw [hmix, divergence_congr E T G _ _ (q c) _ (fun _ _ => rfl) hq' k hk, smoothing_congr E _ (q c) _ hq' k hk, divergence_lin,
    smoothing_lin E _ _ _ _ _ k hk] at hx
  rw [h4]
  dsimp only
  have hUk := hU k hk
  rw [zero_div] at hx
  field_simp at hx
  linear_combination hx + hUk

/-- **C95 (balance).**  Without uniform diffusion the implicit terms are nothing in a column at rest in hydrostatic balance. -/
theorem C95_balance (E : Elements S node edge gauss lob) (hL : Lorenz S) (T : Stencils S node edge sNode sEdge gauss lob)
    (hn : 0 < S.penalty.n) (href : S.useRef = true) (hu : S.uniform = false) (solve : BandSolver) (G : Metric) (e : Bool) (D : Data)
    (M : Memory) (count : Nat) (q ref : Nat → Nat → ℝ) (U V : State) (h : termsColumn solve S G e D M count q ref U = .ok V)
    (h0 : ∀ k, D.node 0 k = 0 ∧ D.node 1 k = 0 ∧ D.edge 3 k = 0)
    (hbal : ∀ k, 0 < k → k < S.levels →
      applyRow S.interpNE (D.node 2) k / applyRow S.interpNE (D.node 4) k *
        applyRow S.diffNE (fun j => S.phys.cp * Real.exp (S.phys.r / (S.phys.cp - S.phys.r) *
          Real.log (S.phys.r / S.phys.p0 * D.node 2 j))) k = -(S.phys.g * G.derivREdge k)) :
    V.node = U.node ∧ V.edge = U.edge := by
  obtain ⟨t, -, rfl⟩ := terms_halves solve G e D M count q ref U V h
  have hbal' : ∀ k, 0 < k → k < S.levels →
        theta S (asColumn D (setupColumn S D M).state) k *
          applyRow S.diffNE (exner S (asColumn D (setupColumn S D M).state)) k = -(S.phys.g * G.derivREdge k) := by
    intro k hk0 hk
    rw [← hbal k hk0 hk]
    unfold theta
    rw [interp_congr E T (asColumn D (setupColumn S D M).state).p (D.node 2) (fun j hj => (state_eq hL D M j hj).1) k (by omega),
      interp_congr E T (asColumn D (setupColumn S D M).state).r (D.node 4) (fun j hj => (state_eq hL D M j hj).2) k (by omega)]
    congr 1
    refine diffNE_congr E _ _ (fun j hj => ?_) k hk0 hk
    unfold exner asColumn
    dsimp only
    rw [(state_eq hL D M j hj).1]
  have hrest := (C90_rest hL E.elements hn href hu G D M h0).2 hbal'
  obtain ⟨l1, l2, -⟩ := hL
  constructor
  · funext c k
    dsimp only [addTerms]
    by_cases hk : k < S.levels
    · rw [if_pos hk, l1, vec, vec, vec, hrest _ (by omega), hrest _ (by omega), hrest _ (by omega)]
      split_ifs with a b d
      · rw [a.1]; ring
      · simp at b
      · rw [d]; ring
      · rfl
    · rw [if_neg hk]
  · funext c k
    dsimp only [addTerms]
    by_cases hk : k ≤ S.levels
    · rw [if_pos hk, l2, vec, vec, hrest (3 * k + 1) (by omega)]
      by_cases hc : c = 3
      · rw [hc]
        simp [l1]
      · simp [hc]
    · rw [if_neg hk]

/-- **C95 (dissipation; partial).**  Without uniform diffusion the explicit step keeps the integral of each component of covariant
horizontal velocity over the column, and, for time steps that are not negative, what it adds works against that component: it takes half
the squares of its jumps at element edges, weighted by the speed of the wind.  Missing: uniform diffusion. -/
theorem C95_dissipation_partial (E : Elements S node edge gauss lob) (hL : Lorenz S) (solve : BandSolver) (G : Metric) (e : Bool) (D : Data)
    (M : Memory) (count : Nat) (q ref : Nat → Nat → ℝ) (U V : State) (h : explicitColumn solve S G e D M count q ref U = .ok V)
    (hu : S.uniform = false) (c : Nat) (hc : c = 0 ∨ c = 1) (p : Nat → ℝ[X]) (hp : Fits S node p (D.node c)) :
    overLevels S edge gauss (V.node c) = overLevels S edge gauss (U.node c) ∧
    overLevels S edge gauss (fun k => D.node c k * (V.node c k - U.node c k)) =
      -(S.dt / 2) * ∑ a ∈ range (S.levels / S.order - 1), |(if e then windBefore S G D else edgeWind S G D) ((a + 1) * S.order)| *
        jump S.order edge p a ^ 2 ∧
    (0 ≤ S.dt → overLevels S edge gauss (fun k => D.node c k * (V.node c k - U.node c k)) ≤ 0) := by
  have hV := C95_horizontal_partial E hL solve G e D M count q ref U V h (Or.inr hu) c hc
  generalize (if e then windBefore S G D else edgeWind S G D) = w at *
  have hd : ∀ k, diffuse S S.diffDiffNN S.nuVector (D.node c) (D.refNode c) k = 0 := fun k => by
    unfold diffuse
    rw [hu]
    simp
  have hone : Fits S node (fun _ => C 1) fun _ => 1 := fun a ha => by
    have hn := (penalty_facts E).1
    refine ⟨lt_of_le_of_lt degree_C_le (by exact_mod_cast hn), fun i _ => by simp⟩
  have hwork : overLevels S edge gauss (fun k => D.node c k * smoothing S (fun m => S.dt * |w m|) (D.node c) k) =
      -(S.dt / 2) * ∑ a ∈ range (S.levels / S.order - 1), |w ((a + 1) * S.order)| * jump S.order edge p a ^ 2 := by
    obtain ⟨hn, hN, hm, hone', -⟩ := penalty_facts E
    obtain ⟨sol, hs, -, -, hP⟩ := E.setup
    unfold smoothing overLevels
    by_cases h1 : S.levels / S.order = 1
    · rw [hone' h1, h1]
      simp
    · have key := C87_energy sol hs S.order S.levels (S.levels + 1) node edge S.penalty hP (by omega) gauss E.gaussRule E.onGauss
        (fun a => S.dt * |w ((a + 1) * S.order)|) (D.node c) (fun _ => 0) (D.node c) 1 1 one_pos p p
        (fun a ha => (hp a ha).1) (fun a ha => (hp a ha).1) (fun a ha => by simpa using (hp a ha).2) (fun a ha => (hp a ha).2)
      simp only [mul_one, sub_zero] at key
      rw [sum_congr rfl (fun k _ => (mul_assoc _ _ _).symm), key, mul_sum, mul_sum]
      exact sum_congr rfl fun a _ => by ring
  have hdiff : overLevels S edge gauss (fun k => D.node c k * (V.node c k - U.node c k)) =
      overLevels S edge gauss (fun k => D.node c k * smoothing S (fun m => S.dt * |w m|) (D.node c) k) :=
    overLevels_congr S edge gauss _ _ fun k hk => by rw [hV k hk, hd]; ring
  refine ⟨?_, hdiff.trans hwork, fun hdt => ?_⟩
  · have := penalty_total E (fun _ => 1) (fun _ => C 1) hone (fun a _ => by simp [jump])
      (fun a => S.dt * |w ((a + 1) * S.order)|) (D.node c)
    simp only [one_mul] at this
    rw [overLevels_congr S edge gauss (V.node c) (fun k => U.node c k + smoothing S (fun m => S.dt * |w m|) (D.node c) k)
      (fun k hk => by rw [hV k hk, hd]; ring), overLevels_add]
    unfold smoothing
    rw [this, add_zero]
  · rw [hdiff, hwork]
    have : 0 ≤ ∑ a ∈ range (S.levels / S.order - 1), |w ((a + 1) * S.order)| * jump S.order edge p a ^ 2 :=
      sum_nonneg fun a _ => by positivity
    nlinarith

theorem addTerms_congr (hL : Lorenz S) (F F' : Nat → ℝ) (U : State) (h : ∀ i, IsUnknown S i → F i = F' i) :
    addTerms S F U = addTerms S F' U := by
  obtain ⟨l1, l2, -⟩ := hL
  have h0 : ∀ k < S.levels, F (vec 0 k) = F' (vec 0 k) := fun k hk => h _ ⟨by unfold vec; omega, Or.inr (by unfold vec; omega)⟩
  have h2 : ∀ k < S.levels, F (vec 2 k) = F' (vec 2 k) := fun k hk => h _ ⟨by unfold vec; omega, Or.inr (by unfold vec; omega)⟩
  have h1 : ∀ k ≤ S.levels, F (vec 1 k) = F' (vec 1 k) := fun k hk => h _ ⟨by unfold vec; omega, Or.inl (by unfold vec; omega)⟩
  have e1 : (addTerms S F U).node = (addTerms S F' U).node := by
    funext c k
    unfold addTerms
    dsimp only
    rw [l1]
    split_ifs with a b d
    · rw [h0 k a]
    · simp at d
    · rw [h2 k a]
    · rfl
    · rfl
  have e2 : (addTerms S F U).edge = (addTerms S F' U).edge := by
    funext c k
    unfold addTerms
    dsimp only
    rw [l2]
    split_ifs with a b d
    · simp at b
    · rw [h1 k a]
    · rfl
    · rfl
  have : ∀ A B : State, A.node = B.node → A.edge = B.edge → A.tracer = B.tracer → A = B := by
    rintro ⟨⟩ ⟨⟩ rfl rfl rfl
    rfl
  exact this _ _ e1 e2 rfl

/-- **C95 (history).**  Under the fully explicit option, or without uniform diffusion, the explicit step of a column does not depend on
the columns before it; nor do the implicit terms. -/
theorem C95_history (E : Elements S node edge gauss lob) (T : Stencils S node edge sNode sEdge gauss lob)
    (hNN : SecondOnLevels S node edge gauss lob) (hL : Lorenz S) (href : S.useRef = true) (solve : BandSolver) (hs : Lapack solve)
    (hdt : S.dt ≠ 0) (G : Metric) (e : Bool) (D : Data) (M M' : Memory) (count : Nat) (q ref : Nat → Nat → ℝ) (U : State) :
    termsColumn solve S G e D M count q ref U = termsColumn solve S G e D M' count q ref U ∧
    (e = true ∨ S.uniform = false →
      explicitColumn solve S G e D M count q ref U = explicitColumn solve S G e D M' count q ref U) := by
  have hterms : ∀ e, termsColumn solve S G e D M count q ref U = termsColumn solve S G e D M' count q ref U := by
    intro e
    have ha := agree_trans (state_unknowns hL D M) (agree_symm (state_unknowns hL D M'))
    have hF := addTerms_congr hL _ _ U fun i hi => residual_congr E T hNN hL href G D M M' ha i hi
    unfold termsColumn
    dsimp only
    rw [hF, C93_history E T hL href solve hs G D M M' e hdt]
  refine ⟨hterms e, fun hu => ?_⟩
  unfold explicitColumn
  have hw : explicitWind S G e D M count = explicitWind S G e D M' count := by
    funext k
    cases e with
    | true => rw [(explicit_wind hL G D M count).1, (explicit_wind hL G D M' count).1]
    | false => rfl
  rw [hw, hterms true]
  have hsm : ∀ W, smoothHorizontal S (explicitWind S G e D M' count) D (if e then (setupColumn S D M).node else M.node) W =
      smoothHorizontal S (explicitWind S G e D M' count) D (if e then (setupColumn S D M').node else M'.node) W := by
    intro W
    unfold smoothHorizontal
    congr 1
    funext c k
    by_cases hc : c = 0 ∨ c = 1
    · rw [if_pos hc, if_pos hc]
      congr 1
      by_cases huu : S.uniform = true
      · have he : e = true := by
          rcases hu with he | hf
          · exact he
          · rw [huu] at hf; simp at hf
        rw [he]
        simp only [if_true]
        rw [show (setupColumn S D M).node c = (setupColumn S D M').node c by unfold setupColumn; dsimp only; rw [if_pos hc, if_pos hc]]
      · rw [if_neg (fun h => huu h.1), if_neg (fun h => huu h.1)]
    · rw [if_neg hc, if_neg hc]
  simp only [hsm]

/-- **C95, where the code does something else.**  Without the fully explicit option, uniform diffusion of horizontal velocity diffuses
what the last column of an earlier implicit step left in memory: a column at rest, with a reference at rest, is set in motion if that
other column has a second derivative. -/
theorem C95_stale_false (E : Elements S node edge gauss lob) (solve : BandSolver) (G : Metric) (hu : S.uniform = true) (hdt : S.dt ≠ 0)
    (hnu : S.nuVector ≠ 0) (hz : S.ztop ≠ 0) (D : Data) (hrest : ∀ c k, D.node c k = 0 ∧ D.edge c k = 0 ∧ D.refNode c k = 0)
    (other : Data) (k : Nat) (hk : k < S.levels) (hother : applyRow S.diffDiffNN (other.node 0) k ≠ 0) (M : Memory) (count : Nat)
    (q ref : Nat → Nat → ℝ) (U : State) :
    ∃ V, explicitColumn solve S G false D (setupColumn S other M) count q ref U = .ok V ∧ V.node 0 k ≠ U.node 0 k := by
  refine ⟨_, rfl, ?_⟩
  dsimp only [smoothHorizontal]
  have hz0 : ∀ v : Nat → ℝ, penaltyApply S.penalty v (D.node 0) (fun _ => 0) 1 1 k = 0 := fun v => by
    obtain ⟨hn, hN, hm, hone, hmany⟩ := penalty_facts E
    rw [show D.node 0 = fun _ => 0 from funext fun j => (hrest 0 j).1]
    by_cases h1 : S.levels / S.order = 1
    · rw [hone h1]
    · rw [penalty_form E (by omega) _ _ k hk, applyRow_zero, applyRow_zero]
      simp
  rw [if_pos (Or.inl rfl), penalty_out E, if_pos hk, if_pos ⟨hu, hk⟩, hz0]
  rw [show D.refNode 0 = fun _ => 0 from funext fun j => (hrest 0 j).2.2, applyRow_zero]
  simp only [Bool.false_eq_true, if_false]
  rw [show (setupColumn S other M).node 0 = other.node 0 by simp [setupColumn]]
  intro hcon
  have : S.dt * (S.nuVector / (S.ztop * S.ztop)) * applyRow S.diffDiffNN (other.node 0) k = 0 := by linarith
  have hne : S.dt * (S.nuVector / (S.ztop * S.ztop)) ≠ 0 := by positivity
  exact hother ((mul_eq_zero.1 this).resolve_left hne)

end

/-! ### The patch -/

theorem mem_interior (B : Box) (x : Place) : x ∈ interior B ↔ B.Inside x := by
  unfold interior Box.Inside
  simp only [List.mem_flatMap, List.mem_range'_1, List.mem_map]
  constructor
  · rintro ⟨i, hi, j, hj, rfl⟩
    exact ⟨hi.1, hi.2, hj.1, hj.2⟩
  · rintro ⟨h1, h2, h3, h4⟩
    exact ⟨x.1, ⟨h1, h2⟩, x.2, ⟨h3, h4⟩, rfl⟩

theorem interior_nodup (B : Box) : (interior B).Nodup := by
  unfold interior
  rw [List.nodup_flatMap]
  refine ⟨fun i _ => List.Nodup.map (fun a b h => (Prod.mk.inj h).2) List.nodup_range', ?_⟩
  refine List.Pairwise.imp ?_ (List.nodup_range' (s := B.aBegin) (n := B.aWidth))
  intro a b hab x hx hy
  obtain ⟨j, -, rfl⟩ := List.mem_map.1 hx
  obtain ⟨j', -, h⟩ := List.mem_map.1 hy
  exact hab (Prod.mk.inj h).1.symm

/-- A sweep with steps that do not depend on memory. -/
theorem sweep_spec (step : Memory → Place → State → ColumnRes) (hist : ∀ M M' x U, step M x U = step M' x U)
    (leave : Place → Memory → Memory) (M0 : Memory) (l : List Place) (hl : l.Nodup) (M : Memory) (P : Columns) :
    (∀ P', sweep step leave l M P = .ok P' → (∀ x ∈ l, step M0 x (P x) = .ok (P' x)) ∧ ∀ x, x ∉ l → P' x = P x) ∧
    ((∀ x ∈ l, ∃ V, step M0 x (P x) = .ok V) → ∃ P', sweep step leave l M P = .ok P') := by
  induction l generalizing M P with
  | nil => simp [sweep]
  | cons y l ih =>
    obtain ⟨hy, hl⟩ := List.nodup_cons.1 hl
    unfold sweep
    rw [hist M M0 y (P y)]
    cases hs : step M0 y (P y) with
    | exc =>
      refine ⟨by simp, fun h => ?_⟩
      obtain ⟨V, hV⟩ := h y (by simp)
      rw [hs] at hV
      simp at hV
    | ub =>
      refine ⟨by simp, fun h => ?_⟩
      obtain ⟨V, hV⟩ := h y (by simp)
      rw [hs] at hV
      simp at hV
    | ok V =>
      dsimp only
      obtain ⟨i1, i2⟩ := ih hl (leave y M) (Function.update P y V)
      have hother : ∀ x ∈ l, Function.update P y V x = P x := fun x hx =>
        Function.update_of_ne (fun h => hy (by rw [← h]; exact hx)) _ _
      refine ⟨fun P' hP' => ?_, fun h => ?_⟩
      · obtain ⟨j1, j2⟩ := i1 P' hP'
        refine ⟨fun x hx => ?_, fun x hx => ?_⟩
        · rcases List.mem_cons.1 hx with rfl | hx
          · rw [j2 x hy, Function.update_self, hs]
          · rw [← j1 x hx, hother x hx]
        · rw [j2 x (fun h => hx (by simp [h])), Function.update_of_ne (fun h => hx (by simp [h]))]
      · exact i2 fun x hx => by
          rw [hother x hx]
          exact h x (by simp [hx])

/-- **C95 (patch; partial).**  With the fully explicit option, or without uniform diffusion, the explicit step of a patch succeeds if and
only if the step of every column of the interior does; then every column of the interior is stepped, from its own data and whatever the
order, and everything else stays.  The same holds of the implicit terms.  Missing: see `C95_stale_false`. -/
theorem C95_patch_partial {S : Setup} {node edge sNode sEdge : Nat → ℝ} {gauss lob : List ℝ × List ℝ} (E : Elements S node edge gauss lob)
    (T : Stencils S node edge sNode sEdge gauss lob) (hNN : SecondOnLevels S node edge gauss lob) (hL : Lorenz S) (href : S.useRef = true)
    (solve : BandSolver) (hs : Lapack solve) (hdt : S.dt ≠ 0) (F : Fixed) (count : Nat) (e : Bool) (B : Box) (init : Columns)
    (leave : Place → Memory → Memory) (M M0 : Memory) (P : Columns) :
    (e = true ∨ S.uniform = false →
      ((∃ P', explicitPatch solve S F count e B init leave M P = .ok P') ↔ ∀ x, B.Inside x → ∃ V,
        explicitColumn solve S (F.metric x) e (columnData F x (init x)) M0 count (init x).tracer (F.refTracer x) (P x) = .ok V) ∧
      ∀ P', explicitPatch solve S F count e B init leave M P = .ok P' → ∀ x,
        (B.Inside x → explicitColumn solve S (F.metric x) e (columnData F x (init x)) M0 count (init x).tracer (F.refTracer x) (P x) =
          .ok (P' x)) ∧ (¬ B.Inside x → P' x = P x)) ∧
    ((∃ P', termsPatch solve S F count e B init leave M P = .ok P') ↔ ∀ x, B.Inside x → ∃ V,
      termsColumn solve S (F.metric x) e (columnData F x (init x)) M0 count (init x).tracer (F.refTracer x) (P x) = .ok V) ∧
    ∀ P', termsPatch solve S F count e B init leave M P = .ok P' → ∀ x,
      (B.Inside x → termsColumn solve S (F.metric x) e (columnData F x (init x)) M0 count (init x).tracer (F.refTracer x) (P x) =
        .ok (P' x)) ∧ (¬ B.Inside x → P' x = P x) := by
  have gen : ∀ step : Memory → Place → State → ColumnRes, (∀ M M' x U, step M x U = step M' x U) →
      ((∃ P', sweep step leave (interior B) M P = .ok P') ↔ ∀ x, B.Inside x → ∃ V, step M0 x (P x) = .ok V) ∧
      ∀ P', sweep step leave (interior B) M P = .ok P' → ∀ x,
        (B.Inside x → step M0 x (P x) = .ok (P' x)) ∧ (¬ B.Inside x → P' x = P x) := by
    intro step hist
    obtain ⟨s1, s2⟩ := sweep_spec step hist leave M0 (interior B) (interior_nodup B) M P
    refine ⟨⟨?_, fun h => s2 fun x hx => h x ((mem_interior B x).1 hx)⟩, fun P' hP' x => ?_⟩
    · rintro ⟨P', hP'⟩ x hx
      exact ⟨_, (s1 P' hP').1 x ((mem_interior B x).2 hx)⟩
    · exact ⟨fun hx => (s1 P' hP').1 x ((mem_interior B x).2 hx), fun hx => (s1 P' hP').2 x fun h => hx ((mem_interior B x).1 h)⟩
  refine ⟨fun hu => ?_, ?_⟩
  · exact gen _ fun M M' x U => (C95_history E T hNN hL href solve hs hdt _ e _ M M' count _ _ U).2 hu
  · exact gen _ fun M M' x U => (C95_history E T hNN hL href solve hs hdt _ e _ M M' count _ _ U).1

/-- Columns of ten levels meet the hypotheses, with any data, tracers and time step: the explicit step succeeds. -/
example (phys : Thermo.Constants) (solve : BandSolver) (hs : Lapack solve) (G : Metric) (e : Bool) (D : Data) (M : Memory) (count : Nat)
    (q ref : Nat → Nat → ℝ) (U : State) (h : ℝ) (hh : h ≠ 0) :
    ∃ S : Setup, ∃ V, Elements S (fun k => (k : ℝ) + 1 / 2) (fun k => (k : ℝ)) ([0], [2]) ([-1, 1], [1, 1]) ∧ Lorenz S ∧ S.levels = 10 ∧
    S.dt = h ∧ S.useRef = true ∧ S.uniform = false ∧ explicitColumn solve S G e D M count q ref U = .ok V := by
  obtain ⟨S, E, T, hL, hN, hn, href, hu, hp, -⟩ := unit_setup 10 (by omega) phys
  obtain ⟨r1, r2⟩ := C95_refused (elements_dt E h) (stencils_dt T h) hL solve hs hh G D M count q ref U
  have : ∃ V, explicitColumn solve { S with dt := h } G e D M count q ref U = .ok V := by
    cases e with
    | false => exact r1
    | true =>
      apply r2.2
      right
      show 6 * S.order ≤ S.levels + 2
      omega
  obtain ⟨V, hV⟩ := this
  exact ⟨{ S with dt := h }, V, elements_dt E h, hL, hN, rfl, href, hu, hV⟩

/-- A column of ten levels, with any other column that has a second derivative in its setting, meets the hypotheses of
`C95_stale_false`. -/
example (phys : Thermo.Constants) (A : Op) (other : Data) (hother : applyRow A (other.node 0) 3 ≠ 0) (solve : BandSolver) (G : Metric)
    (M : Memory) (U : State) : ∃ (S : Setup) (D : Data) (V : State), S.diffDiffNN = A ∧ (∀ c k, D.node c k = 0 ∧ D.edge c k = 0) ∧
    explicitColumn solve S G false D (setupColumn S other M) 0 (fun _ _ => 0) (fun _ _ => 0) U = .ok V ∧ V.node 0 3 ≠ U.node 0 3 := by
  obtain ⟨S, E, T, hL, hN, hn, href, hu, hp, -⟩ := unit_setup 10 (by omega) phys
  have E' : Elements { S with dt := 1, uniform := true, nuVector := 1, ztop := 1, diffDiffNN := A } (fun k => (k : ℝ) + 1 / 2)
      (fun k => (k : ℝ)) ([0], [2]) ([-1, 1], [1, 1]) := by
    obtain ⟨a, b, c, d, e, f, g, h, i, j, k⟩ := E
    exact ⟨a, b, c, d, e, f, g, h, i, j, k⟩
  obtain ⟨V, h1, h2⟩ := C95_stale_false E' solve G rfl one_ne_zero one_ne_zero one_ne_zero
    ⟨fun _ _ => 0, fun _ _ => 0, fun _ _ => 0, fun _ _ => 0⟩ (fun _ _ => ⟨rfl, rfl, rfl⟩) other 3
    (show 3 < S.levels by omega) hother M 0 (fun _ _ => 0) (fun _ _ => 0) U
  exact ⟨_, ⟨fun _ _ => 0, fun _ _ => 0, fun _ _ => 0, fun _ _ => 0⟩, V, rfl, fun _ _ => ⟨rfl, rfl⟩, h1, h2⟩

end Verif.Vdyn
