/-
C139: the update of the tracers of a column of vertical method v2.
-/
import Verif.VertV2.ImplicitProps
import Verif.VertV2.Tracer
import Verif.VertV2.TracerSpec
import Verif.Schur.TracerProps
import Verif.Vdyn.TracerProps

namespace Verif.ColumnV2

open Verif.Column Verif.Vdyn Verif.Interp Finset

/-- The metric with the volume elements `v` on interfaces. -/
def withVolumes (G : Metric) (v : Nat → ℝ) : Metric := { physical G with jacEdge := v }

theorem tracerWind_physical (S : Setup) (G : Metric) (M : Memory) (a b : Nat → ℝ) :
    tracerWind S G M a b = Vdyn.tracerWind S (physical G) M a b := by
  funext k
  unfold tracerWind Vdyn.tracerWind physical
  dsimp only
  by_cases h : 1 ≤ k ∧ k < S.levels
  · rw [if_pos h, if_pos h]
    simp only [if_true, if_neg (show ¬ (0 : Nat) = 2 by omega), if_neg (show ¬ (1 : Nat) = 2 by omega)]
    ring
  · rw [if_neg h, if_neg h]

theorem initialWind_physical (S : Setup) (G : Metric) (M : Memory) : initialWind S G M = Vdyn.initialWind S (physical G) M :=
  tracerWind_physical S G M _ _

theorem fluxUpdates_volumes (S : Setup) (G : Metric) (P : Schur.Site) (xi : Nat → ℝ) :
    tracerFluxUpdates S G P xi = Vdyn.tracerFluxUpdates S (withVolumes G (P.other S)) xi := by
  funext k
  unfold tracerFluxUpdates Vdyn.tracerFluxUpdates withVolumes physical
  simp only [Schur.address_other]

/-- The statements are some of those of the default method, for another metric. -/
theorem updates_volumes (S : Setup) (G : Metric) (P : Schur.Site) (M : Memory) (e : Bool) (u : Update)
    (hu : u ∈ tracerUpdates S G P M e) : u ∈ Vdyn.tracerUpdates S (withVolumes G (P.other S)) M e := by
  unfold tracerUpdates at hu
  unfold Vdyn.tracerUpdates
  rw [fluxUpdates_volumes, initialWind_physical] at hu
  rw [show Vdyn.initialWind S (withVolumes G (P.other S)) M = Vdyn.initialWind S (physical G) M from rfl]
  cases e with
  | true => exact hu
  | false =>
    simp only [Bool.false_eq_true, if_false] at hu ⊢
    rcases List.mem_append.1 hu with h | h
    · exact List.mem_append_left _ (List.mem_append_left _ h)
    · exact List.mem_append_right _ h

section
variable {S : Setup} {node edge sNode sEdge : Nat → ℝ} {gauss lob : List ℝ × List ℝ}

theorem initial_wind (hL : Lorenz S) (G : Metric) (D : Data) (M : Memory) :
    initialWind S G (setupColumn S D M) = windOld S G D := by
  rw [initialWind_physical]
  exact funext (Vdyn.initialWind_eq hL (physical G) D M)

theorem updated_wind (hL : Lorenz S) (G : Metric) (D : Data) (M : Memory) (V : Vdyn.State) :
    tracerWind S G (setupColumn S D M) (V.node 3) (V.edge 3) = windNew S G D V := by
  rw [tracerWind_physical]
  exact funext (Vdyn.updatedWind_eq hL (physical G) D M V)

theorem data_wind (hL : Lorenz S) (G : Metric) (D : Data) (M : Memory) :
    tracerWind S G (setupColumn S D M) (D.node 3) (D.edge 3) = windOld S G D :=
  updated_wind hL G D M ⟨D.node, D.edge, fun _ _ => 0⟩

/-! ### The matrix -/

theorem tracer_matrix (hL : Lorenz S) (G : Metric) (P : Schur.Site) (D : Data) (M : Memory) (y : Nat → ℝ) (k : Nat) (hk : k < S.levels) :
    Vdyn.product (tracerUpdates S G P (setupColumn S D M) false) y k =
      y k / S.dt + Schur.carried S G (P.other S) (windOld S G D) y k := by
  unfold tracerUpdates
  simp only [Bool.false_eq_true, if_false]
  rw [product_append, tracerTime_row S y k hk, initial_wind hL, fluxUpdates_volumes, tracerFlux_row S _ _ y k hk]
  exact add_comm _ _

theorem tracer_identity (G : Metric) (P : Schur.Site) (M : Memory) (y : Nat → ℝ) (k : Nat) (hk : k < S.levels) :
    Vdyn.product (tracerUpdates S G P M true) y k = y k / S.dt := by
  unfold tracerUpdates
  simp only [if_true, List.nil_append]
  exact tracerTime_row S y k hk

theorem tracer_leaves (E : Elements S node edge gauss lob) (T : Stencils S node edge sNode sEdge gauss lob) (G : Metric) (P : Schur.Site)
    (M : Memory) (e : Bool) : (tracerUpdates S G P M e).any (tracerOutside S) = true ↔ S.levels + 2 ≤ 4 * S.order := by
  obtain ⟨hn, hN, hm, -⟩ := penalty_facts E
  have hpos : 0 < S.levels := by rw [hN]; exact Nat.mul_pos hm hn
  constructor
  · intro h
    obtain ⟨u, hu, ho⟩ := List.any_eq_true.1 h
    exact (Vdyn.tracer_outside E T _ M e).1 (List.any_eq_true.2 ⟨u, updates_volumes S G P M e u hu, ho⟩)
  · intro h
    rw [List.any_eq_true]
    refine ⟨⟨S.levels - 1, S.levels - 1, 1 / S.dt⟩, ?_, ?_⟩
    · unfold tracerUpdates
      refine List.mem_append_right _ ?_
      unfold tracerTimeUpdates
      exact List.mem_map.2 ⟨S.levels - 1, List.mem_range.2 (by omega), rfl⟩
    · unfold tracerOutside tracerAddress
      rw [decide_eq_true_iff]
      right
      dsimp only
      have e1 : (S.levels : Int) * ((S.levels - 1 : ℕ) : Int) = S.levels * S.levels - S.levels := by
        rw [Nat.cast_sub (by omega)]
        push_cast
        ring
      rw [e1]
      omega

theorem tracer_read (E : Elements S node edge gauss lob) (T : Stencils S node edge sNode sEdge gauss lob) (G : Metric) (P : Schur.Site)
    (M : Memory) (e : Bool) (hlev : 6 * S.order ≤ S.levels + 2) (y : Nat → ℝ) (i : Nat) :
    ∑ j ∈ range S.levels, bandEntry S.levels (2 * S.order - 1) (tracerStore S (tracerUpdates S G P M e)) i j * y j =
      Vdyn.product (tracerUpdates S G P M e) y i := by
  obtain ⟨hn, -⟩ := penalty_facts E
  have hb := fun u hu => Vdyn.tracer_in_band E T _ M e u (updates_volumes S G P M e u hu)
  rw [← total_product _ S.levels (fun u hu _ => (hb u hu).2.1) y i]
  apply sum_congr rfl
  intro j _
  unfold bandEntry total
  by_cases hin : i ≤ j + (2 * S.order - 1) ∧ j ≤ i + (2 * S.order - 1)
  · rw [if_pos hin]
    unfold tracerStore
    rw [tracerStore_from, zero_add]
    congr 2
    apply List.map_congr_left
    intro u hu
    obtain ⟨-, -, h3, h4⟩ := hb u hu
    have := tracerAddress_inj hn hlev u.row u.col i j h3 h4 hin.1 hin.2
    by_cases hc : u.row = i ∧ u.col = j
    · rw [if_pos hc, if_pos (this.2 hc)]
    · rw [if_neg hc, if_neg (fun hh => hc (this.1 hh))]
  · rw [if_neg hin, List.sum_eq_zero]
    intro v hv
    obtain ⟨u, hu, rfl⟩ := List.mem_map.1 hv
    rw [if_neg]
    rintro ⟨rfl, rfl⟩
    exact hin (hb u hu).2.2

/-! ### The array of volume elements -/

theorem levelRow_nonempty (n N : Nat) (hn : 0 < n) (nd ed : Nat → ℝ) (m nOut l : Nat) (s : ℝ) (r : Row)
    (h : levelRow n N nd ed m nOut l s = some r) : r.ibegin < r.iend := by
  unfold levelRow at h
  dsimp only at h
  rw [Option.bind_eq_some_iff] at h
  obtain ⟨r0, h0, h⟩ := h
  have hr0 : r0.ibegin < r0.iend := by
    unfold levelBase at h0
    split_ifs at h0 with c1 c2 c3 c4
    · obtain rfl := Option.some.inj h0
      exact Nat.mul_lt_mul_of_pos_right (by omega) hn
    · obtain rfl := Option.some.inj h0
      exact Nat.mul_lt_mul_of_pos_right (by omega) hn
    · obtain rfl := Option.some.inj h0
      exact Nat.mul_lt_mul_of_pos_right (by omega) hn
  split_ifs at h with d1 d2
  · obtain rfl := Option.some.inj h
    dsimp only
    omega
  · obtain rfl := Option.some.inj h
    exact hr0

theorem tracer_beyond (E : Elements S node edge gauss lob) (T : Stencils S node edge sNode sEdge gauss lob) (P : Schur.Site) :
    tracerBeyond S P = true ↔ P.Beyond S := by
  obtain ⟨hn, hN, hm, -⟩ := penalty_facts E
  have hpos : 0 < S.levels := by rw [hN]; exact Nat.mul_pos hm hn
  have e : ∀ m, P.address S m P.iA P.iB = (m * P.b + P.iA) * (S.levels + 1) + P.iB := fun m => by
    unfold Schur.Site.address
    ring
  have hlast : ∀ k < S.levels, k / S.order * S.order + S.order ≤ S.levels := fun k hk => by
    have h1 : k / S.order < S.levels / S.order := (Nat.div_lt_iff_lt_mul hn).2 (by rw [← hN]; exact hk)
    have h2 := Nat.mul_le_mul_right S.order (show k / S.order + 1 ≤ S.levels / S.order by omega)
    rw [Nat.add_mul, one_mul] at h2
    omega
  unfold tracerBeyond Schur.Site.Beyond
  simp only [List.any_eq_true, List.mem_range, decide_eq_true_iff, e]
  constructor
  · rintro ⟨k, hk, m, hmem, n, -, h⟩
    rw [mem_stencil] at hmem
    obtain ⟨-, d2⟩ := diffEN_range E k hk
    have := hlast k hk
    refine h.trans ?_
    have : m ≤ S.levels := by omega
    gcongr
  · intro h
    obtain ⟨r, hr, hrow⟩ := fill_rows ((interp_fill T.toInterfaces).2 rfl) S.levels (by omega)
    have hne := levelRow_nonempty _ _ hn _ _ _ _ _ _ r hr
    obtain ⟨d1, d2⟩ := diffEN_range E (S.levels - 1) (by omega)
    have h1 := Nat.div_add_mod (S.levels - 1) S.order
    have h2 := Nat.mod_lt (S.levels - 1) hn
    rw [mul_comm] at h1
    exact ⟨S.levels - 1, by omega, S.levels, by rw [mem_stencil]; omega, r.ibegin, by rw [mem_stencil, hrow]; omega, h⟩

/-! ### The right hand side -/

theorem rhs_implicit (hu : S.uniform = false) (G : Metric) (D : Data) (M : Memory)
    (V : Vdyn.State) (q ref : Nat → ℝ) (k : Nat) :
    tracerRhs S G (setupColumn S D M) (windNew S G D V) q ref k = Schur.carried S G G.jacEdge (windNew S G D V) q k := by
  unfold tracerRhs Schur.carried
  congr 2
  funext m
  unfold tracerFlux
  by_cases h : 1 ≤ m ∧ m < S.levels
  · rw [if_pos h, hu]
    simp only [Bool.false_eq_true, if_false]
    ring
  · rw [if_neg h, show windNew S G D V m = 0 from wind_outside S _ _ m h]
    ring

theorem carried_divergence (G : Metric) (xi q : Nat → ℝ) (k : Nat) : Schur.carried S G G.jacEdge xi q k = divergence S G xi q k := rfl

theorem rhs_data (E : Elements S node edge gauss lob) (T : Stencils S node edge sNode sEdge gauss lob) (hL : Lorenz S)
    (href : S.useRef = true) (G : Metric) (D : Data) (M : Memory) (q ref : Nat → ℝ) (k : Nat) (hk : k < S.levels) :
    tracerRhs S G (setupColumn S D M) (windOld S G D) q ref k =
      Schur.carried S G G.jacEdge (windOld S G D) q k - applyRow S.diffEN (mixing S D q ref) k / G.jac k := by
  have h := Vdyn.rhs_explicit E T hL href (physical G) D M (fun _ => 0) q ref k hk
  unfold Vdyn.tracerRhs at h
  simp only [if_true] at h
  have hper : perElement S = S.order := by simp [perElement, E.elements]
  rw [show Vdyn.tracerWind S (physical G) (setupColumn S D M) (D.node 3) (D.edge 3) = windOld S G D from
    funext (Vdyn.updatedWind_eq hL (physical G) D M ⟨D.node, D.edge, fun _ _ => 0⟩), hper,
    show Vdyn.windBefore S (physical G) D = windOld S G D from rfl] at h
  unfold smoothing at h
  unfold tracerRhs
  rw [show tracerFlux S G (setupColumn S D M) (windOld S G D) q ref =
    tracerFlux S (physical G) (setupColumn S D M) (windOld S G D) q ref from rfl, carried_divergence]
  have hd : divergence S (physical G) (windOld S G D) q k = divergence S G (windOld S G D) q k := rfl
  have hj : (physical G).jac k = G.jac k := rfl
  rw [hd, hj] at h
  linarith

/-- What an update ends in. -/
theorem tracer_cases (E : Elements S node edge gauss lob) (T : Stencils S node edge sNode sEdge gauss lob) (hL : Lorenz S)
    (solve : BandSolver) (hs : Lapack solve) (G : Metric) (P : Schur.Site) (D : Data) (M : Memory) (e : Bool) (hdt : S.dt ≠ 0)
    (V : Vdyn.State) (count : Nat) (hc : count ≠ 0) (q ref U : Nat → Nat → ℝ) :
    (e = false ∧ S.uniform = true → updateTracers S G P (setupColumn S D M) solve e D V count q ref U = .exc) ∧
    (¬ (e = false ∧ S.uniform = true) →
      (S.levels + 2 ≤ 4 * S.order ∨ (e = false ∧ P.Beyond S) →
        updateTracers S G P (setupColumn S D M) solve e D V count q ref U = .ub) ∧
      (¬ (S.levels + 2 ≤ 4 * S.order ∨ (e = false ∧ P.Beyond S)) →
        (S.levels + 2 < 6 * S.order ∨ (e = false ∧ ¬ RegularTracers S G (P.other S) (windOld S G D)) →
          updateTracers S G P (setupColumn S D M) solve e D V count q ref U = .exc) ∧
        (¬ (S.levels + 2 < 6 * S.order ∨ (e = false ∧ ¬ RegularTracers S G (P.other S) (windOld S G D))) →
          ∃ s : Nat → Nat → ℝ, updateTracers S G P (setupColumn S D M) solve e D V count q ref U =
              .ok (fun c k => if c < count ∧ k < S.levels then U c k - s c k else U c k) ∧
            ∀ c < count, ∀ k < S.levels, Vdyn.product (tracerUpdates S G P (setupColumn S D M) e) (s c) k =
              tracerRhs S G (setupColumn S D M) (if e then windOld S G D else windNew S G D V) (q c) (ref c) k))) := by
  have hn := (penalty_facts E).1
  constructor
  · intro h
    unfold updateTracers
    rw [if_neg hc, if_pos h]
  intro hnot
  have hbad : ((tracerUpdates S G P (setupColumn S D M) e).any (tracerOutside S) || (!e && tracerBeyond S P)) = true ↔
      S.levels + 2 ≤ 4 * S.order ∨ (e = false ∧ P.Beyond S) := by
    rw [Bool.or_eq_true, tracer_leaves E T, Bool.and_eq_true, tracer_beyond E T]
    simp
  have hxi : (if e then tracerWind S G (setupColumn S D M) (D.node 3) (D.edge 3)
      else tracerWind S G (setupColumn S D M) (V.node 3) (V.edge 3)) = if e then windOld S G D else windNew S G D V := by
    rw [data_wind hL, updated_wind hL]
  refine ⟨fun h => ?_, fun h => ?_⟩
  · unfold updateTracers
    rw [if_neg hc, if_neg hnot]
    dsimp only
    rw [if_pos (hbad.2 h)]
  have hreg : 6 * S.order ≤ S.levels + 2 →
      (Vdyn.Regular S.levels S.levels (2 * S.order - 1) (tracerStore S (tracerUpdates S G P (setupColumn S D M) e)) ↔
        (e = false → RegularTracers S G (P.other S) (windOld S G D))) := by
    intro h6
    unfold Vdyn.Regular RegularTracers
    simp only [tracer_read E T G P _ _ h6]
    cases e with
    | false =>
      constructor
      · intro h _ y hy
        exact h y fun k hk => by rw [tracer_matrix hL G P D M y k hk]; exact hy k hk
      · intro h y hy
        exact h rfl y fun k hk => by rw [← tracer_matrix hL G P D M y k hk]; exact hy k hk
    | true =>
      simp only [reduceCtorEq, false_implies, iff_true]
      intro y hy k hk
      have := hy k hk
      rw [tracer_identity G P _ y k hk] at this
      exact (div_eq_zero_iff.1 this).resolve_right hdt
  constructor
  · intro h'
    unfold updateTracers
    rw [if_neg hc, if_neg hnot]
    dsimp only
    rw [if_neg (fun hh => h (hbad.1 hh)), if_neg, ]
    rw [hxi]
    intro hall
    rw [List.all_eq_true] at hall
    have h0 := hall 0 (List.mem_range.2 (by omega))
    obtain ⟨-, g2, g3⟩ := hs S.levels (2 * S.order - 1) S.levels (tracerStore S (tracerUpdates S G P (setupColumn S D M) e))
      (tracerRhs S G (setupColumn S D M) (if e then windOld S G D else windNew S G D V) (q 0) (ref 0))
    by_cases hl : S.levels + 2 < 6 * S.order
    · rw [g3 (by omega)] at h0
      simp at h0
    · obtain ⟨he, hr⟩ := h'.resolve_left hl
      rw [g2 (by omega) (fun hR => hr ((hreg (by omega)).1 hR he))] at h0
      simp at h0
  · intro h'
    rw [not_or] at h'
    have h6 : 6 * S.order ≤ S.levels + 2 := by omega
    have hR := (hreg h6).2 fun he => by
      by_contra hr
      exact h'.2 ⟨he, hr⟩
    have hsol : ∀ c, ∃ s, solve S.levels (2 * S.order - 1) S.levels (tracerStore S (tracerUpdates S G P (setupColumn S D M) e))
        (tracerRhs S G (setupColumn S D M) (if e then windOld S G D else windNew S G D V) (q c) (ref c)) = some s ∧
        ∀ k < S.levels, Vdyn.product (tracerUpdates S G P (setupColumn S D M) e) s k =
          tracerRhs S G (setupColumn S D M) (if e then windOld S G D else windNew S G D V) (q c) (ref c) k := by
      intro c
      obtain ⟨s, h1, h2⟩ := (hs S.levels (2 * S.order - 1) S.levels (tracerStore S (tracerUpdates S G P (setupColumn S D M) e))
        (tracerRhs S G (setupColumn S D M) (if e then windOld S G D else windNew S G D V) (q c) (ref c))).1 (by omega) hR
      refine ⟨s, h1, fun k hk => ?_⟩
      rw [← h2 k hk, tracer_read E T G P _ _ h6]
    choose s h1 h2 using hsol
    refine ⟨s, ?_, fun c _ k hk => h2 c k hk⟩
    unfold updateTracers
    rw [if_neg hc, if_neg hnot]
    dsimp only
    rw [if_neg (fun hh => h (hbad.1 hh)), hxi]
    simp only [h1, Option.isSome_some, Option.getD_some, List.all_eq_true, implies_true, if_true]

/-- **C139 (refused).**  With tracers, the update of a column throws for implicit steps with uniform diffusion; otherwise it leaves an
array if the column has at most `4 p - 2` levels for order `p`, or if the step is implicit and the place `[levels][iA][iB]` is behind the
end of the array of volume elements; otherwise it throws if there are fewer than `6 p - 2` levels, or if the step is implicit and its
matrix singular.  In all other cases it succeeds.  Without tracers it does nothing. -/
theorem C139_refused (E : Elements S node edge gauss lob) (T : Stencils S node edge sNode sEdge gauss lob) (hL : Lorenz S)
    (solve : BandSolver) (hs : Lapack solve) (G : Metric) (P : Schur.Site) (D : Data) (M : Memory) (e : Bool) (hdt : S.dt ≠ 0)
    (V : Vdyn.State) (count : Nat) (q ref U : Nat → Nat → ℝ) :
    (updateTracers S G P (setupColumn S D M) solve e D V count q ref U = .ub ↔
      count ≠ 0 ∧ ¬ (e = false ∧ S.uniform = true) ∧ (S.levels + 2 ≤ 4 * S.order ∨ (e = false ∧ P.Beyond S))) ∧
    (updateTracers S G P (setupColumn S D M) solve e D V count q ref U = .exc ↔
      count ≠ 0 ∧ ((e = false ∧ S.uniform = true) ∨ (¬ (S.levels + 2 ≤ 4 * S.order ∨ (e = false ∧ P.Beyond S)) ∧
        (S.levels + 2 < 6 * S.order ∨ (e = false ∧ ¬ RegularTracers S G (P.other S) (windOld S G D)))))) ∧
    (count = 0 → updateTracers S G P (setupColumn S D M) solve e D V count q ref U = .ok U) := by
  by_cases hc : count = 0
  · have : updateTracers S G P (setupColumn S D M) solve e D V count q ref U = .ok U := by
      unfold updateTracers
      rw [if_pos hc]
    rw [this]
    simp [hc]
  obtain ⟨c1, c2⟩ := tracer_cases E T hL solve hs G P D M e hdt V count hc q ref U
  by_cases hx : e = false ∧ S.uniform = true
  · rw [c1 hx]
    simp [hc, hx]
  obtain ⟨d1, d2⟩ := c2 hx
  generalize hA : (S.levels + 2 ≤ 4 * S.order ∨ (e = false ∧ P.Beyond S)) = A at *
  generalize hB : (S.levels + 2 < 6 * S.order ∨ (e = false ∧ ¬ RegularTracers S G (P.other S) (windOld S G D))) = B at *
  by_cases h4 : A
  · rw [d1 h4]
    simp [hc, hx, h4]
  obtain ⟨d2, d3⟩ := d2 h4
  by_cases h6 : B
  · rw [d2 h6]
    simp [hc, hx, h4, h6]
  · obtain ⟨s, h, -⟩ := d3 h6
    rw [h]
    simp [hc, hx, h4, h6]

/-- **C139 (outside).**  On the other hand every implicit step of a column with tracers leaves the array of volume elements where the patch,
with its halo, is not wider in its first direction than the column has levels. -/
theorem C139_outside (E : Elements S node edge gauss lob) (T : Stencils S node edge sNode sEdge gauss lob) (hL : Lorenz S)
    (solve : BandSolver) (hs : Lapack solve) (G : Metric) (P : Schur.Site) (hP : P.a ≤ S.levels) (D : Data) (M : Memory)
    (hu : S.uniform = false) (hdt : S.dt ≠ 0) (V : Vdyn.State) (count : Nat) (hc : count ≠ 0) (q ref U : Nat → Nat → ℝ) :
    updateTracers S G P (setupColumn S D M) solve false D V count q ref U = .ub := by
  rw [(C139_refused E T hL solve hs G P D M false hdt V count q ref U).1]
  refine ⟨hc, by simp [hu], Or.inr ⟨rfl, ?_⟩⟩
  unfold Schur.Site.Beyond
  have h1 : P.a * P.b * (S.levels + 1) ≤ S.levels * P.b * (S.levels + 1) := by gcongr
  have h2 : S.levels * P.b * (S.levels + 1) ≤ (S.levels * P.b + P.iA) * (S.levels + 1) := by gcongr; omega
  omega

/-- The cases of a successful update. -/
theorem tracer_ok (E : Elements S node edge gauss lob) (T : Stencils S node edge sNode sEdge gauss lob) (hL : Lorenz S)
    (solve : BandSolver) (hs : Lapack solve) (G : Metric) (P : Schur.Site) (D : Data) (M : Memory) (e : Bool) (hdt : S.dt ≠ 0)
    (V : Vdyn.State) (count : Nat) (hc : count ≠ 0) (q ref U t : Nat → Nat → ℝ)
    (ht : updateTracers S G P (setupColumn S D M) solve e D V count q ref U = .ok t) :
    (e = false → S.uniform = false ∧ RegularTracers S G (P.other S) (windOld S G D)) ∧
    ∃ s : Nat → Nat → ℝ, t = (fun c k => if c < count ∧ k < S.levels then U c k - s c k else U c k) ∧
      ∀ c < count, ∀ k < S.levels, Vdyn.product (tracerUpdates S G P (setupColumn S D M) e) (s c) k =
        tracerRhs S G (setupColumn S D M) (if e then windOld S G D else windNew S G D V) (q c) (ref c) k := by
  obtain ⟨c1, c2⟩ := tracer_cases E T hL solve hs G P D M e hdt V count hc q ref U
  have hx : ¬ (e = false ∧ S.uniform = true) := fun h => by
    rw [c1 h] at ht
    simp at ht
  obtain ⟨d1, d2⟩ := c2 hx
  have h4 : ¬ (S.levels + 2 ≤ 4 * S.order ∨ (e = false ∧ P.Beyond S)) := fun h => by
    rw [d1 h] at ht
    simp at ht
  obtain ⟨d2, d3⟩ := d2 h4
  have h6 : ¬ (S.levels + 2 < 6 * S.order ∨ (e = false ∧ ¬ RegularTracers S G (P.other S) (windOld S G D))) := fun h => by
    rw [d2 h] at ht
    simp at ht
  obtain ⟨s, h1, h2⟩ := d3 h6
  rw [h1] at ht
  refine ⟨fun he => ⟨?_, ?_⟩, s, (TracerRes.ok.inj ht).symm, h2⟩
  · cases h : S.uniform with
    | false => rfl
    | true => exact absurd ⟨he, h⟩ hx
  · by_contra hr
    exact h6 (Or.inr ⟨he, hr⟩)

theorem carried_same (E : Elements S node edge gauss lob) (T : Stencils S node edge sNode sEdge gauss lob) (G : Metric)
    (v xi f g : Nat → ℝ) (h : ∀ j < S.levels, f j = g j) (k : Nat) (hk : k < S.levels) :
    Schur.carried S G v xi f k = Schur.carried S G v xi g k :=
  divergence_congr E T (withVolumes G v) xi xi f g (fun _ _ => rfl) h k hk

/-- **C139 (implicit step).**  The update changes every tracer by the one and only solution of the equations of the implicit step, in which
the change is transported with volume elements of other columns: those in the places `[m][iA][iB]` of the array. -/
theorem C139_step (E : Elements S node edge gauss lob) (T : Stencils S node edge sNode sEdge gauss lob) (hL : Lorenz S)
    (solve : BandSolver) (hs : Lapack solve) (G : Metric) (P : Schur.Site) (D : Data) (M : Memory) (hdt : S.dt ≠ 0) (V : Vdyn.State)
    (count : Nat) (q ref U t : Nat → Nat → ℝ) (ht : updateTracers S G P (setupColumn S D M) solve false D V count q ref U = .ok t)
    (c : Nat) (hc : c < count) (dq : Nat → ℝ) :
    (∀ k < S.levels, TracerStep S G (P.other S) (windOld S G D) (windNew S G D V) (q c) dq k) ↔
      ∀ k < S.levels, t c k = U c k + dq k := by
  obtain ⟨h0, s, rfl, h2⟩ := tracer_ok E T hL solve hs G P D M false hdt V count (by omega) q ref U t ht
  obtain ⟨hu, hreg⟩ := h0 rfl
  have hk : ∀ k < S.levels, s c k / S.dt + Schur.carried S G (P.other S) (windOld S G D) (s c) k =
      Schur.carried S G G.jacEdge (windNew S G D V) (q c) k := by
    intro k hk
    rw [← tracer_matrix hL G P D M (s c) k hk, ← rhs_implicit hu G D M V (q c) (ref c) k]
    exact h2 c hc k hk
  constructor
  · intro h
    have hz := hreg (fun j => 1 * s c j + 1 * dq j) fun k hk' => by
      have a1 := hk k hk'
      have a2 := h k hk'
      unfold TracerStep at a2
      rw [Schur.carried_lin]
      linear_combination a1 + a2
    intro k hk'
    have := hz k hk'
    show (if c < count ∧ k < S.levels then U c k - s c k else U c k) = _
    rw [if_pos ⟨hc, hk'⟩]
    linarith
  · intro h k hk'
    have hd : ∀ j < S.levels, dq j = -1 * s c j + 0 * s c j := by
      intro j hj
      have : (if c < count ∧ j < S.levels then U c j - s c j else U c j) = U c j + dq j := h j hj
      rw [if_pos ⟨hc, hj⟩] at this
      linarith
    unfold TracerStep
    rw [carried_same E T G _ _ dq _ hd k hk', hd k hk', Schur.carried_lin]
    have := hk k hk'
    linear_combination -this

/-- **C139 (explicit step).**  Under the fully explicit option the update changes every tracer by the explicit step. -/
theorem C139_explicit (E : Elements S node edge gauss lob) (T : Stencils S node edge sNode sEdge gauss lob) (hL : Lorenz S)
    (href : S.useRef = true) (solve : BandSolver) (hs : Lapack solve) (G : Metric) (P : Schur.Site) (D : Data) (M : Memory)
    (hdt : S.dt ≠ 0) (V : Vdyn.State) (count : Nat) (q ref U t : Nat → Nat → ℝ)
    (ht : updateTracers S G P (setupColumn S D M) solve true D V count q ref U = .ok t) (c : Nat) (hc : c < count) (k : Nat)
    (hk : k < S.levels) : ExplicitTracer S G D (q c) (ref c) (fun j => t c j - U c j) k := by
  obtain ⟨-, s, rfl, h2⟩ := tracer_ok E T hL solve hs G P D M true hdt V count (by omega) q ref U t ht
  have := h2 c hc k hk
  simp only [if_true] at this
  rw [tracer_identity G P _ _ k hk, rhs_data E T hL href G D M _ _ k hk] at this
  unfold ExplicitTracer
  dsimp only
  rw [if_pos ⟨hc, hk⟩, show U c k - s c k - U c k = -s c k by ring, neg_div, this]
  ring

/-- **C139 (untouched).**  The update leaves what is not a tracer, or above the top, as it was. -/
theorem C139_untouched (solve : BandSolver) (G : Metric) (P : Schur.Site) (D : Data) (M : Memory) (e : Bool) (V : Vdyn.State) (count : Nat)
    (q ref U t : Nat → Nat → ℝ) (ht : updateTracers S G P M solve e D V count q ref U = .ok t) (c k : Nat)
    (h : count ≤ c ∨ S.levels ≤ k) : t c k = U c k := by
  unfold updateTracers at ht
  dsimp only at ht
  split_ifs at ht
  · rw [TracerRes.ok.inj ht]
  all_goals
    rw [← TracerRes.ok.inj ht]
    exact if_neg (by omega)

/-- **C139 (mass).**  Neither update changes the mass of a tracer in the column, whatever volume elements are taken. -/
theorem C139_mass (E : Elements S node edge gauss lob) (T : Stencils S node edge sNode sEdge gauss lob) (hL : Lorenz S)
    (href : S.useRef = true) (solve : BandSolver) (hs : Lapack solve) (G : Metric) (hJ : ∀ k < S.levels, G.jac k ≠ 0) (P : Schur.Site)
    (D : Data) (M : Memory) (e : Bool) (hdt : S.dt ≠ 0) (V : Vdyn.State) (count : Nat) (q ref U t : Nat → Nat → ℝ)
    (ht : updateTracers S G P (setupColumn S D M) solve e D V count q ref U = .ok t) (c : Nat) :
    overLevels S edge gauss (fun k => G.jac k * t c k) = overLevels S edge gauss (fun k => G.jac k * U c k) := by
  by_cases hc : c < count
  swap
  · exact overLevels_congr S edge gauss _ _ fun k _ => by rw [C139_untouched solve G P D _ e V count q ref U t ht c k (Or.inl (by omega))]
  have w0 : windOld S G D 0 = 0 := wind_outside S _ _ 0 (by omega)
  have w1 : windOld S G D S.levels = 0 := if_pos (Or.inr le_rfl)
  have v0 : windNew S G D V 0 = 0 := wind_outside S _ _ 0 (by omega)
  have v1 : windNew S G D V S.levels = 0 := if_pos (Or.inr le_rfl)
  have hdiv : ∀ v xi z : Nat → ℝ, xi 0 = 0 → xi S.levels = 0 → overLevels S edge gauss (fun k => G.jac k * Schur.carried S G v xi z k) = 0 :=
    fun v xi z h0 h1 => divergence_total E G hJ _ (by rw [h0]; ring) (by rw [h1]; ring)
  have key : overLevels S edge gauss (fun k => G.jac k * (t c k - U c k)) = 0 := by
    cases e with
    | false =>
      have heq := (C139_step E T hL solve hs G P D M hdt V count q ref U t ht c hc (fun k => t c k - U c k)).2 fun k _ => by ring
      rw [overLevels_congr S edge gauss _ (fun k => S.dt * ((0 - G.jac k * Schur.carried S G G.jacEdge (windNew S G D V) (q c) k) -
          G.jac k * Schur.carried S G (P.other S) (windOld S G D) (fun k => t c k - U c k) k)) ?_,
        overLevels_mul, overLevels_sub, overLevels_sub, hdiv _ _ _ v0 v1, hdiv _ _ _ w0 w1]
      · have : overLevels S edge gauss (fun _ => 0) = 0 := by
          unfold overLevels
          simp
        rw [this]
        ring
      · intro k hk
        have := heq k hk
        unfold TracerStep at this
        dsimp only at this
        field_simp at this
        linear_combination G.jac k * this
    | true =>
      have heq := fun k hk => C139_explicit E T hL href solve hs G P D M hdt V count q ref U t ht c hc k hk
      have hmix := divergence_total E G hJ (mixing S D (q c) (ref c)) (if_neg (by omega)) (if_neg (by omega))
      rw [overLevels_congr S edge gauss _ (fun k => S.dt * (
          G.jac k * (applyRow S.diffEN (mixing S D (q c) (ref c)) k / G.jac k) -
          G.jac k * Schur.carried S G G.jacEdge (windOld S G D) (q c) k)) ?_,
        overLevels_mul, overLevels_sub, hmix, hdiv _ _ _ w0 w1]
      · ring
      · intro k hk
        have := heq k hk
        unfold ExplicitTracer at this
        dsimp only at this
        generalize applyRow S.diffEN (mixing S D (q c) (ref c)) k / G.jac k = z at *
        field_simp at this
        linear_combination G.jac k * this
  rw [overLevels_congr S edge gauss _ (fun k => G.jac k * t c k - G.jac k * U c k) (fun k _ => by ring), overLevels_sub] at key
  linarith

theorem carried_volumes (G : Metric) (v v' xi f : Nat → ℝ) (k : Nat) :
    Schur.carried S G v xi f k - Schur.carried S G v' xi f k = Schur.carried S G (fun m => v m - v' m) xi f k := by
  unfold Schur.carried
  rw [show (fun m => (v m - v' m) * (applyRow S.interpNE f m * xi m)) =
    fun m => 1 * (v m * (applyRow S.interpNE f m * xi m)) + -1 * (v' m * (applyRow S.interpNE f m * xi m)) from
    funext fun m => by ring, applyRow_lin]
  ring

/-- The density of the implicit step of the column obeys the equations of a tracer with the volume elements of the column. -/
theorem density_step (E : Elements S node edge gauss lob) (T : Stencils S node edge sNode sEdge gauss lob)
    (hNN : SecondOnLevels S node edge gauss lob) (hL : Lorenz S) (href : S.useRef = true) (solve : BandSolver) (hs : Lapack solve)
    (G : Metric) (D : Data) (M : Memory) (U V : Vdyn.State) (hV : implicitColumn solve S G D M U = some V) (k : Nat)
    (hk : k < S.levels) :
    TracerStep S G G.jacEdge (windOld S G D) (windNew S G D V) (D.node 4) (fun j => 1 * V.node 4 j + -1 * D.node 4 j) k := by
  have heq := (newton_equations E T hNN hL href solve hs G D M U V hV).1
  have hw : windChange S (physical G) (fun j => unknowns D.node D.edge j - unknowns V.node V.edge j) =
      fun m => windOld S G D m - windNew S G D V m := by
    funext m
    unfold windChange windOld windNew verticalWind
    split_ifs
    · ring
    · simp only [asColumn, unknowns_w]
      ring
  have h := heq (3 * k + 2) ⟨by omega, Or.inr (by omega)⟩
  rw [product_level E hL G D M _ _ k 2 (Or.inr rfl) hk, (C136_levels hL G D M _ href k hk).1, hw] at h
  simp only [unknowns_r, asColumn] at h
  have e1 : applyRow S.diffEN (fun m => G.jacEdge m * (applyRow S.interpNE (D.node 4) m * (windOld S G D m - windNew S G D V m) +
      applyRow S.interpNE (fun j => D.node 4 j - V.node 4 j) m * windOld S G D m)) k / G.jac k =
      divergence S G (windOld S G D) (D.node 4) k - divergence S G (windNew S G D V) (D.node 4) k +
        divergence S G (windOld S G D) (fun j => 1 * D.node 4 j + -1 * V.node 4 j) k := by
    unfold divergence
    rw [show (fun m => G.jacEdge m * (applyRow S.interpNE (D.node 4) m * (windOld S G D m - windNew S G D V m) +
      applyRow S.interpNE (fun j => D.node 4 j - V.node 4 j) m * windOld S G D m)) =
      fun m => 1 * (1 * (G.jacEdge m * (applyRow S.interpNE (D.node 4) m * windOld S G D m)) +
        -1 * (G.jacEdge m * (applyRow S.interpNE (D.node 4) m * windNew S G D V m))) +
        1 * (G.jacEdge m * (applyRow S.interpNE (fun j => 1 * D.node 4 j + -1 * V.node 4 j) m * windOld S G D m)) from
      funext fun m => by
        rw [show (fun j => 1 * D.node 4 j + -1 * V.node 4 j) = fun j => D.node 4 j - V.node 4 j from funext fun j => by ring]
        ring, applyRow_lin, applyRow_lin]
    ring
  have e4 : applyRow S.diffEN (flux S (physical G) (asColumn D (unknowns D.node D.edge)) (D.node 4)) k / G.jac k =
      divergence S G (windOld S G D) (D.node 4) k := by
    unfold divergence flux
    congr 2
    funext m
    rw [mul_assoc]
    rfl
  change applyRow S.diffEN (fun m => G.jacEdge m * (applyRow S.interpNE (D.node 4) m * (windOld S G D m - windNew S G D V m) +
      applyRow S.interpNE (fun j => D.node 4 j - V.node 4 j) m * windOld S G D m)) k / G.jac k + _ =
      applyRow S.diffEN (flux S (physical G) (asColumn D (unknowns D.node D.edge)) (D.node 4)) k / G.jac k + _ at h
  rw [e1, e4, divergence_lin] at h
  unfold TracerStep
  rw [carried_divergence, carried_divergence, divergence_lin]
  linear_combination -h

/-- **C139 (consistency).**  After the implicit step of a column, a tracer that was `r` times density is `r` times the new density, on every
level, if and only if the change of density carries nothing with the differences of the volume elements that are taken from those of the
column, or `r` is zero. -/
theorem C139_consistent (E : Elements S node edge gauss lob) (T : Stencils S node edge sNode sEdge gauss lob)
    (hNN : SecondOnLevels S node edge gauss lob) (hL : Lorenz S) (href : S.useRef = true) (solve : BandSolver) (hs : Lapack solve)
    (G : Metric) (P : Schur.Site) (D : Data) (M M' : Memory) (hdt : S.dt ≠ 0) (U0 V : Vdyn.State)
    (hV : implicitColumn solve S G D M' U0 = some V) (count : Nat) (q ref t : Nat → Nat → ℝ)
    (ht : updateTracers S G P (setupColumn S D M) solve false D V count q ref q = .ok t)
    (c : Nat) (hc : c < count) (r : ℝ) (hq : ∀ k < S.levels, q c k = r * D.node 4 k) :
    (∀ k < S.levels, t c k = r * V.node 4 k) ↔
      r = 0 ∨ ∀ k < S.levels,
        Schur.carried S G (fun m => P.other S m - G.jacEdge m) (windOld S G D) (fun j => V.node 4 j - D.node 4 j) k = 0 := by
  have hden := density_step E T hNN hL href solve hs G D M' U0 V hV
  have hstep := C139_step E T hL solve hs G P D M hdt V count q ref q t ht c hc (fun j => r * V.node 4 j + -r * D.node 4 j)
  have hiff : (∀ k < S.levels, t c k = r * V.node 4 k) ↔ ∀ k < S.levels, t c k = q c k + (r * V.node 4 k + -r * D.node 4 k) := by
    refine forall₂_congr fun k hk => ?_
    rw [hq k hk]
    constructor <;> intro h <;> linarith
  have hq' : ∀ j < S.levels, q c j = r * D.node 4 j + 0 * D.node 4 j := fun j hj => by rw [hq j hj]; ring
  have heach : ∀ k < S.levels, (TracerStep S G (P.other S) (windOld S G D) (windNew S G D V) (q c)
      (fun j => r * V.node 4 j + -r * D.node 4 j) k ↔
      r * Schur.carried S G (fun m => P.other S m - G.jacEdge m) (windOld S G D) (fun j => V.node 4 j - D.node 4 j) k = 0) := by
    intro k hk
    have h := hden k hk
    unfold TracerStep at h ⊢
    rw [carried_same E T G _ _ (q c) _ hq' k hk, Schur.carried_lin, Schur.carried_lin]
    rw [show (fun j => V.node 4 j - D.node 4 j) = fun j => 1 * V.node 4 j + -1 * D.node 4 j from funext fun j => by ring,
      ← carried_volumes, Schur.carried_lin, Schur.carried_lin] at *
    constructor
    · intro h'
      linear_combination h' - r * h
    · intro h'
      linear_combination h' + r * h
  rw [hiff, ← hstep]
  constructor
  · intro h
    by_cases hr : r = 0
    · exact Or.inl hr
    · exact Or.inr fun k hk => (mul_eq_zero.1 ((heach k hk).1 (h k hk))).resolve_left hr
  · intro h k hk
    rw [heach k hk]
    rcases h with h | h
    · rw [h, zero_mul]
    · rw [h k hk, mul_zero]

/-- **C139 (consistency; partial).**  Where the volume elements taken are those of the column, as on a grid with the same ones
everywhere, constant mixing ratios stay.  Missing: other volume elements, see `C139_consistent_false`. -/
theorem C139_consistent_partial (E : Elements S node edge gauss lob) (T : Stencils S node edge sNode sEdge gauss lob)
    (hNN : SecondOnLevels S node edge gauss lob) (hL : Lorenz S) (href : S.useRef = true) (solve : BandSolver) (hs : Lapack solve)
    (G : Metric) (P : Schur.Site) (hP : ∀ m, 0 < m → m < S.levels → P.other S m = G.jacEdge m) (D : Data) (M M' : Memory)
    (hdt : S.dt ≠ 0) (U0 V : Vdyn.State) (hV : implicitColumn solve S G D M' U0 = some V) (count : Nat) (q ref t : Nat → Nat → ℝ)
    (ht : updateTracers S G P (setupColumn S D M) solve false D V count q ref q = .ok t)
    (c : Nat) (hc : c < count) (r : ℝ) (hq : ∀ k < S.levels, q c k = r * D.node 4 k) (k : Nat) (hk : k < S.levels) :
    t c k = r * V.node 4 k := by
  refine (C139_consistent E T hNN hL href solve hs G P D M M' hdt U0 V hV count q ref t ht c hc r hq).2 (Or.inr fun k hk => ?_) k hk
  unfold Schur.carried
  rw [show (fun m => (P.other S m - G.jacEdge m) * (applyRow S.interpNE (fun j => V.node 4 j - D.node 4 j) m * windOld S G D m)) =
    fun _ => 0 from funext fun m => by
      by_cases h : 1 ≤ m ∧ m < S.levels
      · rw [hP m (by omega) h.2]
        ring
      · rw [show windOld S G D m = 0 from wind_outside S _ _ m h]
        ring, applyRow_zero, zero_div]

/-- **C139 (history).**  Whether the update is refused, and what it writes, depend on the data of the column and the array of volume
elements only and not on the columns before it. -/
theorem C139_history (E : Elements S node edge gauss lob) (T : Stencils S node edge sNode sEdge gauss lob) (hL : Lorenz S)
    (href : S.useRef = true) (solve : BandSolver) (hs : Lapack solve) (G : Metric) (P : Schur.Site) (D : Data) (M M' : Memory) (e : Bool)
    (hdt : S.dt ≠ 0) (V : Vdyn.State) (count : Nat) (q ref U : Nat → Nat → ℝ) :
    updateTracers S G P (setupColumn S D M) solve e D V count q ref U =
      updateTracers S G P (setupColumn S D M') solve e D V count q ref U := by
  obtain ⟨r1, r2, -⟩ := C139_refused E T hL solve hs G P D M e hdt V count q ref U
  obtain ⟨r1', r2', -⟩ := C139_refused E T hL solve hs G P D M' e hdt V count q ref U
  cases h : updateTracers S G P (setupColumn S D M) solve e D V count q ref U with
  | exc => exact (r2'.2 (r2.1 h)).symm
  | ub => exact (r1'.2 (r1.1 h)).symm
  | ok t =>
    cases h' : updateTracers S G P (setupColumn S D M') solve e D V count q ref U with
    | exc => rw [r2.2 (r2'.1 h')] at h; simp at h
    | ub => rw [r1.2 (r1'.1 h')] at h; simp at h
    | ok t' =>
      congr 1
      funext c k
      by_cases hck : count ≤ c ∨ S.levels ≤ k
      · rw [C139_untouched solve G P D _ e V count q ref U t h c k hck, C139_untouched solve G P D _ e V count q ref U t' h' c k hck]
      · have hc : c < count := by omega
        have hk : k < S.levels := by omega
        cases e with
        | false =>
          have heq := (C139_step E T hL solve hs G P D M' hdt V count q ref U t' h' c hc (fun k => t' c k - U c k)).2 fun k _ => by ring
          have := (C139_step E T hL solve hs G P D M hdt V count q ref U t h c hc _).1 heq k hk
          rw [this]
          ring
        | true =>
          have a1 := C139_explicit E T hL href solve hs G P D M hdt V count q ref U t h c hc k hk
          have a2 := C139_explicit E T hL href solve hs G P D M' hdt V count q ref U t' h' c hc k hk
          unfold ExplicitTracer at a1 a2
          dsimp only at a1 a2
          have : (t c k - U c k) / S.dt = (t' c k - U c k) / S.dt := by linear_combination a1 - a2
          field_simp at this
          linarith

end

end Verif.ColumnV2
