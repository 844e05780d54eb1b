/-
C93: the update of the tracers of a column solves the transport equation, conserves, keeps a tracer that is a multiple of density
a multiple of density, and is refused or writes outside its array exactly as stated.
-/
import Verif.Vdyn.TracerLemmas
import Verif.Vdyn.TracerSpec

namespace Verif.Vdyn

open Verif.Column Verif.Interp Finset Polynomial

theorem applyRow_lin (A : Op) (a b : ℝ) (f g : Nat → ℝ) (k : Nat) :
    applyRow A (fun j => a * f j + b * g j) k = a * applyRow A f k + b * applyRow A g k := by
  simp only [applyRow_eq]
  rw [mul_sum, mul_sum, ← sum_add_distrib]
  exact sum_congr rfl fun j _ => by ring

theorem divergence_lin (S : Setup) (G : Metric) (xi : Nat → ℝ) (a b : ℝ) (f g : Nat → ℝ) (k : Nat) :
    divergence S G xi (fun j => a * f j + b * g j) k = a * divergence S G xi f k + b * divergence S G xi g k := by
  unfold divergence
  simp only [applyRow_lin S.interpNE]
  rw [show (fun m => G.jacEdge m * ((a * applyRow S.interpNE f m + b * applyRow S.interpNE g m) * xi m)) =
    fun m => a * (G.jacEdge m * (applyRow S.interpNE f m * xi m)) + b * (G.jacEdge m * (applyRow S.interpNE g m * xi m)) from
    funext fun m => by ring, applyRow_lin]
  ring

section
variable {S : Setup} {node edge sNode sEdge : Nat → ℝ} {gauss lob : List ℝ × List ℝ}

theorem smoothing_lin (E : Elements S node edge gauss lob) (v : Nat → ℝ) (a b : ℝ) (f g : Nat → ℝ) (k : Nat) (hk : k < S.levels) :
    smoothing S v (fun j => a * f j + b * g j) k = a * smoothing S v f k + b * smoothing S v g k := by
  obtain ⟨hn, hN, hm, hone, -⟩ := penalty_facts E
  unfold smoothing
  by_cases h1 : S.levels / S.order = 1
  · rw [hone h1, hone h1, hone h1]
    ring
  · rw [penalty_form E (by omega) _ _ k hk, penalty_form E (by omega) _ _ k hk, penalty_form E (by omega) _ _ k hk, applyRow_lin, applyRow_lin]
    split_ifs <;> ring

theorem divergence_congr (E : Elements S node edge gauss lob) (T : Stencils S node edge sNode sEdge gauss lob) (G : Metric)
    (xi xi' f g : Nat → ℝ) (hx : ∀ j ≤ S.levels, xi j = xi' j) (h : ∀ j < S.levels, f j = g j) (k : Nat) (hk : k < S.levels) :
    divergence S G xi f k = divergence S G xi' g k := by
  unfold divergence
  rw [diffEN_congr E (fun m => G.jacEdge m * (applyRow S.interpNE f m * xi m)) (fun m => G.jacEdge m * (applyRow S.interpNE g m * xi' m))
    (fun j hj => by rw [interp_congr E T f g h j hj, hx j hj]) k hk]

theorem smoothing_congr (E : Elements S node edge gauss lob) (v f g : Nat → ℝ) (h : ∀ j < S.levels, f j = g j) (k : Nat)
    (hk : k < S.levels) : smoothing S v f k = smoothing S v g k := penalty_congr E _ _ f g (fun _ _ => rfl) h k hk

/-- The matrix of the implicit step. -/
theorem matrix_eq (E : Elements S node edge gauss lob) (hL : Lorenz S) (G : Metric) (D : Data) (M : Memory) (y : Nat → ℝ) (k : Nat)
    (hk : k < S.levels) : product (tracerUpdates S G (setupColumn S D M) false) y k =
      y k / S.dt + divergence S G (windBefore S G D) y k - smoothing S (fun m => |windBefore S G D m|) y k := by
  unfold tracerUpdates
  simp only [Bool.false_eq_true, if_false]
  rw [product_append, product_append, tracerTime_row S y k hk, tracerFlux_row S G _ y k hk, tracerUpwind_row E _ y k hk,
    show initialWind S G (setupColumn S D M) = windBefore S G D from funext (initialWind_eq hL G D M)]
  unfold divergence smoothing
  ring

theorem matrix_explicit (G : Metric) (M : Memory) (y : Nat → ℝ) (k : Nat)
    (hk : k < S.levels) : product (tracerUpdates S G M true) y k = y k / S.dt := by
  unfold tracerUpdates
  simp only [if_true, List.nil_append]
  exact tracerTime_row S y k hk

theorem inner_edge (E : Elements S node edge gauss lob) (a : Nat) (ha : a + 1 < S.levels / S.order) :
    0 < (a + 1) * S.order ∧ (a + 1) * S.order < S.levels := by
  obtain ⟨hn, hN, hm, -⟩ := penalty_facts E
  refine ⟨Nat.mul_pos (by omega) hn, ?_⟩
  have h := Nat.mul_lt_mul_of_pos_right ha hn
  omega

theorem wind_outside (S : Setup) (G : Metric) (C : Column) (k : Nat) (h : ¬ (1 ≤ k ∧ k < S.levels)) : verticalWind S G C k = 0 :=
  if_pos (by omega)

/-- The right hand side of the implicit step. -/
theorem rhs_eq (E : Elements S node edge gauss lob) (hL : Lorenz S) (hu : S.uniform = false) (G : Metric) (D : Data) (M : Memory)
    (V : State) (q ref : Nat → ℝ) (k : Nat) (hk : k < S.levels) :
    tracerRhs S G (setupColumn S D M) false (tracerWind S G (setupColumn S D M) (V.node 3) (V.edge 3)) (V.edge 3) q ref k =
      divergence S G (windAfter S G D V) q k - smoothing S (fun m => |windBefore S G D m|) q k -
        smoothing S (fun m => sgn (windBefore S G D m) * (windAfter S G D V m - windBefore S G D m)) q k := by
  have hper : perElement S = S.order := by simp [perElement, E.elements]
  unfold tracerRhs
  simp only [Bool.false_eq_true, if_false]
  rw [correction_eq E G _ _ q k hk, show initialWind S G (setupColumn S D M) = windBefore S G D from funext (initialWind_eq hL G D M), hper,
    show tracerWind S G (setupColumn S D M) (V.node 3) (V.edge 3) = windAfter S G D V from funext (updatedWind_eq hL G D M V)]
  have hf : tracerFlux S G (setupColumn S D M) (windAfter S G D V) q ref =
      fun m => G.jacEdge m * (applyRow S.interpNE q m * windAfter S G D V m) := by
    funext m
    unfold tracerFlux
    by_cases h : 1 ≤ m ∧ m < S.levels
    · rw [if_pos h, hu]
      simp only [Bool.false_eq_true, if_false]
      ring
    · rw [if_neg h, show windAfter S G D V m = 0 from wind_outside S G _ m h]
      ring
  rw [hf]
  unfold divergence smoothing
  congr 1
  refine penalty_congr E _ _ q q (fun a ha => ?_) (fun _ _ => rfl) k hk
  obtain ⟨h1, h2⟩ := inner_edge E a ha
  exact tracerJump_eq hL G D M V _ h1 h2

/-- The right hand side of the explicit step. -/
theorem rhs_explicit (E : Elements S node edge gauss lob) (T : Stencils S node edge sNode sEdge gauss lob) (hL : Lorenz S)
    (href : S.useRef = true) (G : Metric) (D : Data) (M : Memory) (w q ref : Nat → ℝ) (k : Nat) (hk : k < S.levels) :
    tracerRhs S G (setupColumn S D M) true (tracerWind S G (setupColumn S D M) (D.node 3) (D.edge 3)) w q ref k =
      divergence S G (windBefore S G D) q k - applyRow S.diffEN (mixing S D q ref) k / G.jac k -
        smoothing S (fun m => |windBefore S G D m|) q k := by
  have hper : perElement S = S.order := by simp [perElement, E.elements]
  unfold tracerRhs
  simp only [if_true]
  rw [hper, show tracerWind S G (setupColumn S D M) (D.node 3) (D.edge 3) = windBefore S G D from
    funext (updatedWind_eq hL G D M ⟨D.node, D.edge, fun _ _ => 0⟩)]
  have hf : ∀ m ≤ S.levels, tracerFlux S G (setupColumn S D M) (windBefore S G D) q ref m =
      1 * (G.jacEdge m * (applyRow S.interpNE q m * windBefore S G D m)) + -1 * mixing S D q ref m := by
    intro m hm
    unfold tracerFlux mixing
    by_cases h : 1 ≤ m ∧ m < S.levels
    · rw [if_pos h]
      by_cases hu : S.uniform = true
      · rw [if_pos hu, if_pos ⟨hu, h⟩]
        have hr : edgeState S (setupColumn S D M) (setupColumn S D M).state 4 m = applyRow S.interpNE (D.node 4) m := by
          unfold edgeState
          rw [if_neg (by omega), if_neg (by omega), if_pos rfl, if_pos hL.1]
          refine interp_congr E T _ _ (fun j hj => ?_) m hm
          unfold nodeState
          rw [if_neg (by omega), if_neg (by omega), if_pos rfl]
          exact (state_eq hL D M j hj).2
        rw [hr, diffNE_congr E _ (fun j => q j / D.node 4 j - ref j / D.refNode 4 j) (fun j hj => ?_) m (by omega) h.2]
        · ring
        · have h1 : nodeState S (setupColumn S D M) (setupColumn S D M).state 4 j = D.node 4 j := by
            unfold nodeState
            rw [if_neg (by omega), if_neg (by omega), if_pos rfl]
            exact (state_eq hL D M j hj).2
          have h2 : (setupColumn S D M).refNode 4 = D.refNode 4 := by
            unfold setupColumn
            dsimp only
            rw [if_pos ⟨⟨hu, href⟩, by omega, by omega⟩]
          rw [h1, h2]
      · rw [if_neg hu, if_neg (fun h => hu h.1)]
        ring
    · rw [if_neg h, if_neg (fun h' => h h'.2), show windBefore S G D m = 0 from wind_outside S G _ m h]
      ring
  rw [diffEN_congr E _ _ hf k hk, applyRow_lin]
  unfold divergence smoothing
  ring

/-- The matrix as the solver reads it. -/
theorem tracer_regular (E : Elements S node edge gauss lob) (T : Stencils S node edge sNode sEdge gauss lob) (hL : Lorenz S)
    (G : Metric) (D : Data) (M : Memory) (hlev : 6 * S.order ≤ S.levels + 2) :
    (Regular S.levels S.levels (2 * S.order - 1) (tracerStore S (tracerUpdates S G (setupColumn S D M) false)) ↔
      RegularTracers S G (windBefore S G D)) ∧
    (S.dt ≠ 0 → Regular S.levels S.levels (2 * S.order - 1) (tracerStore S (tracerUpdates S G (setupColumn S D M) true))) := by
  unfold Regular RegularTracers
  simp only [tracer_stored E T G _ _ hlev]
  constructor
  · constructor
    · intro h y hy
      exact h y fun k hk => by rw [matrix_eq E hL G D M y k hk]; exact hy k hk
    · intro h y hy
      exact h y fun k hk => by rw [← matrix_eq E hL G D M y k hk]; exact hy k hk
  · intro hdt y hy k hk
    have := hy k hk
    rw [matrix_explicit G _ y k hk] at this
    exact (div_eq_zero_iff.1 this).resolve_right hdt

/-- What an update ends in. -/
theorem tracer_cases (E : Elements S node edge gauss lob) (T : Stencils S node edge sNode sEdge gauss lob) (hL : Lorenz S)
    (solve : BandSolver) (hs : Lapack solve) (G : Metric) (D : Data) (M : Memory) (e : Bool) (hdt : S.dt ≠ 0) (V : State) (count : Nat)
    (hc : count ≠ 0) (q ref U : Nat → Nat → ℝ) :
    (e = false ∧ S.uniform = true → updateTracers S G (setupColumn S D M) solve e D V count q ref U = .exc) ∧
    (¬ (e = false ∧ S.uniform = true) →
      (S.levels + 2 ≤ 4 * S.order → updateTracers S G (setupColumn S D M) solve e D V count q ref U = .ub) ∧
      (4 * S.order < S.levels + 2 → S.levels + 2 < 6 * S.order ∨ (e = false ∧ ¬ RegularTracers S G (windBefore S G D)) →
        updateTracers S G (setupColumn S D M) solve e D V count q ref U = .exc) ∧
      (6 * S.order ≤ S.levels + 2 → (e = false → RegularTracers S G (windBefore S G D)) →
        ∃ s : Nat → Nat → ℝ, updateTracers S G (setupColumn S D M) solve e D V count q ref U =
            .ok (fun c k => if c < count ∧ k < S.levels then U c k - s c k else U c k) ∧
          ∀ c < count, ∀ k < S.levels, product (tracerUpdates S G (setupColumn S D M) e) (s c) k =
            tracerRhs S G (setupColumn S D M) e (if e then tracerWind S G (setupColumn S D M) (D.node 3) (D.edge 3)
              else tracerWind S G (setupColumn S D M) (V.node 3) (V.edge 3)) (V.edge 3) (q c) (ref c) k)) := by
  have hn := (penalty_facts E).1
  constructor
  · intro h
    unfold updateTracers
    rw [if_neg hc, if_pos h]
  intro hnot
  have hout := tracer_outside E T G (setupColumn S D M) e
  refine ⟨fun h => ?_, fun h h' => ?_, fun h hreg => ?_⟩
  · unfold updateTracers
    rw [if_neg hc, if_neg hnot]
    dsimp only
    rw [if_pos (hout.2 h)]
  · unfold updateTracers
    rw [if_neg hc, if_neg hnot]
    dsimp only
    rw [if_neg (fun hh => by have := hout.1 hh; omega), if_neg]
    intro hall
    rw [List.all_eq_true] at hall
    have h0 := hall 0 (List.mem_range.2 (by omega))
    obtain ⟨-, g2, g3⟩ := hs S.levels (2 * S.order - 1) S.levels (tracerStore S (tracerUpdates S G (setupColumn S D M) e))
      (tracerRhs S G (setupColumn S D M) e (if e then tracerWind S G (setupColumn S D M) (D.node 3) (D.edge 3)
        else tracerWind S G (setupColumn S D M) (V.node 3) (V.edge 3)) (V.edge 3) (q 0) (ref 0))
    by_cases hl : S.levels + 2 < 6 * S.order
    · rw [g3 (by omega)] at h0
      simp at h0
    · obtain ⟨rfl, hr⟩ := h'.resolve_left hl
      rw [g2 (by omega) (fun hR => hr ((tracer_regular E T hL G D M (by omega)).1.1 hR))] at h0
      simp at h0
  · have hR : Regular S.levels S.levels (2 * S.order - 1) (tracerStore S (tracerUpdates S G (setupColumn S D M) e)) := by
      cases e with
      | true => exact (tracer_regular E T hL G D M h).2 hdt
      | false => exact (tracer_regular E T hL G D M h).1.2 (hreg rfl)
    have hsol : ∀ c, ∃ s, solve S.levels (2 * S.order - 1) S.levels (tracerStore S (tracerUpdates S G (setupColumn S D M) e))
        (tracerRhs S G (setupColumn S D M) e (if e then tracerWind S G (setupColumn S D M) (D.node 3) (D.edge 3)
          else tracerWind S G (setupColumn S D M) (V.node 3) (V.edge 3)) (V.edge 3) (q c) (ref c)) = some s ∧
        ∀ k < S.levels, product (tracerUpdates S G (setupColumn S D M) e) s k =
          tracerRhs S G (setupColumn S D M) e (if e then tracerWind S G (setupColumn S D M) (D.node 3) (D.edge 3)
            else tracerWind S G (setupColumn S D M) (V.node 3) (V.edge 3)) (V.edge 3) (q c) (ref c) k := by
      intro c
      obtain ⟨s, h1, h2⟩ := (hs S.levels (2 * S.order - 1) S.levels (tracerStore S (tracerUpdates S G (setupColumn S D M) e))
        (tracerRhs S G (setupColumn S D M) e (if e then tracerWind S G (setupColumn S D M) (D.node 3) (D.edge 3)
          else tracerWind S G (setupColumn S D M) (V.node 3) (V.edge 3)) (V.edge 3) (q c) (ref c))).1 (by omega) hR
      refine ⟨s, h1, fun k hk => ?_⟩
      rw [← h2 k hk, tracer_stored E T G _ _ h]
    choose s h1 h2 using hsol
    refine ⟨s, ?_, fun c _ k hk => h2 c k hk⟩
    unfold updateTracers
    rw [if_neg hc, if_neg hnot]
    dsimp only
    rw [if_neg (fun hh => by have := hout.1 hh; omega)]
    simp only [h1, Option.isSome_some, Option.getD_some, List.all_eq_true, implies_true, if_true]

/-- **C93 (refused).**  With tracers, the update of a column throws for implicit steps with uniform diffusion; otherwise it writes
outside its array if the column has at most `4 p - 2` levels for order `p`, and it throws if it has more but fewer than `6 p - 2` or if
the step is implicit and its matrix singular.  In all other cases it succeeds.  Without tracers it does nothing. -/
theorem C93_refused (E : Elements S node edge gauss lob) (T : Stencils S node edge sNode sEdge gauss lob) (hL : Lorenz S)
    (solve : BandSolver) (hs : Lapack solve) (G : Metric) (D : Data) (M : Memory) (e : Bool) (hdt : S.dt ≠ 0) (V : State) (count : Nat)
    (q ref U : Nat → Nat → ℝ) :
    (updateTracers S G (setupColumn S D M) solve e D V count q ref U = .ub ↔
      count ≠ 0 ∧ ¬ (e = false ∧ S.uniform = true) ∧ S.levels + 2 ≤ 4 * S.order) ∧
    (updateTracers S G (setupColumn S D M) solve e D V count q ref U = .exc ↔
      count ≠ 0 ∧ ((e = false ∧ S.uniform = true) ∨ (4 * S.order < S.levels + 2 ∧
        (S.levels + 2 < 6 * S.order ∨ (e = false ∧ ¬ RegularTracers S G (windBefore S G D)))))) ∧
    (count = 0 → updateTracers S G (setupColumn S D M) solve e D V count q ref U = .ok U) := by
  have hn := (penalty_facts E).1
  by_cases hc : count = 0
  · have : updateTracers S G (setupColumn S D M) solve e D V count q ref U = .ok U := by
      unfold updateTracers
      rw [if_pos hc]
    rw [this]
    simp [hc]
  obtain ⟨c1, c2⟩ := tracer_cases E T hL solve hs G D M e hdt V count hc q ref U
  by_cases hx : e = false ∧ S.uniform = true
  · rw [c1 hx]
    simp [hc, hx]
  obtain ⟨d1, d2, d3⟩ := c2 hx
  by_cases h4 : S.levels + 2 ≤ 4 * S.order
  · rw [d1 h4]
    simp only [reduceCtorEq, false_iff, hc, true_iff, not_false_eq_true, ne_eq, true_and, hx, h4, false_or, IsEmpty.forall_iff, and_true]
    omega
  by_cases h6 : S.levels + 2 < 6 * S.order ∨ (e = false ∧ ¬ RegularTracers S G (windBefore S G D))
  · rw [d2 (by omega) h6]
    simp only [reduceCtorEq, false_iff, hc, true_iff, not_false_eq_true, ne_eq, true_and, hx, h4, false_or, IsEmpty.forall_iff, and_true]
    first | exact ⟨by omega, h6⟩ | exact h6 | (refine ⟨?_, h6⟩; omega)
  · rw [not_or] at h6
    obtain ⟨s, h, -⟩ := d3 (by omega) fun he => by
      by_contra hr
      exact h6.2 ⟨he, hr⟩
    rw [h]
    simp only [reduceCtorEq, false_iff, hc, true_iff, not_false_eq_true, ne_eq, true_and, hx, h4, false_or, IsEmpty.forall_iff, and_true]
    intro h
    rcases h.2 with h' | h'
    · exact h6.1 h'
    · exact h6.2 h'

/-- **C93 (implicit step).**  The update changes every tracer by the one and only solution of the equations of the implicit step. -/
theorem C93_implicit (E : Elements S node edge gauss lob) (T : Stencils S node edge sNode sEdge gauss lob) (hL : Lorenz S)
    (solve : BandSolver) (hs : Lapack solve) (G : Metric) (D : Data) (M : Memory) (hdt : S.dt ≠ 0) (V : State) (count : Nat)
    (q ref U t : Nat → Nat → ℝ) (ht : updateTracers S G (setupColumn S D M) solve false D V count q ref U = .ok t) (c : Nat)
    (hc : c < count) (dq : Nat → ℝ) :
    (∀ k < S.levels, ImplicitStep S G (windBefore S G D) (windAfter S G D V) (q c) dq k) ↔ ∀ k < S.levels, t c k = U c k + dq k := by
  obtain ⟨c1, c2⟩ := tracer_cases E T hL solve hs G D M false hdt V count (by omega) q ref U
  have hu : S.uniform = false := by
    by_contra h
    rw [c1 ⟨rfl, by simpa using h⟩] at ht
    simp at ht
  obtain ⟨d1, d2, d3⟩ := c2 (by simp [hu])
  have h4 : 4 * S.order < S.levels + 2 := by
    by_contra h
    rw [d1 (by omega)] at ht
    simp at ht
  have h6 : 6 * S.order ≤ S.levels + 2 := by
    by_contra h
    rw [d2 h4 (Or.inl (by omega))] at ht
    simp at ht
  have hreg : RegularTracers S G (windBefore S G D) := by
    by_contra h
    rw [d2 h4 (Or.inr ⟨rfl, h⟩)] at ht
    simp at ht
  obtain ⟨s, h1, h2⟩ := d3 h6 fun _ => hreg
  rw [h1] at ht
  obtain rfl := TracerRes.ok.inj ht
  have hk : ∀ k < S.levels, s c k / S.dt + divergence S G (windBefore S G D) (s c) k -
      smoothing S (fun m => |windBefore S G D m|) (s c) k = divergence S G (windAfter S G D V) (q c) k -
        smoothing S (fun m => |windBefore S G D m|) (q c) k -
        smoothing S (fun m => sgn (windBefore S G D m) * (windAfter S G D V m - windBefore S G D m)) (q c) k := by
    intro k hk
    rw [← matrix_eq E hL G D M (s c) k hk, ← rhs_eq E hL hu G D M V (q c) (ref c) k hk]
    exact h2 c hc k hk
  constructor
  · intro h
    have hz := hreg (fun j => 1 * s c j + 1 * dq j) fun k hk' => by
      have a1 := hk k hk'
      have a2 := h k hk'
      unfold ImplicitStep at a2
      rw [divergence_lin, smoothing_lin E _ _ _ _ _ k hk']
      linear_combination a1 + a2
    intro k hk'
    have := hz k hk'
    show (if c < count ∧ k < S.levels then U c k - s c k else U c k) = _
    rw [if_pos ⟨hc, hk'⟩]
    linarith
  · intro h k hk'
    have hd : ∀ j < S.levels, dq j = -1 * s c j + 0 * s c j := by
      intro j hj
      have : (if c < count ∧ j < S.levels then U c j - s c j else U c j) = U c j + dq j := h j hj
      rw [if_pos ⟨hc, hj⟩] at this
      linarith
    unfold ImplicitStep
    rw [divergence_congr E T G _ _ dq _ (fun _ _ => rfl) hd k hk', smoothing_congr E _ dq _ hd k hk', hd k hk', divergence_lin,
      smoothing_lin E _ _ _ _ _ k hk']
    have := hk k hk'
    linear_combination -this

/-- **C93 (explicit step).**  Under the fully explicit option the update changes every tracer by the explicit step. -/
theorem C93_explicit (E : Elements S node edge gauss lob) (T : Stencils S node edge sNode sEdge gauss lob) (hL : Lorenz S)
    (href : S.useRef = true) (solve : BandSolver) (hs : Lapack solve) (G : Metric) (D : Data) (M : Memory) (hdt : S.dt ≠ 0) (V : State)
    (count : Nat) (q ref U t : Nat → Nat → ℝ) (ht : updateTracers S G (setupColumn S D M) solve true D V count q ref U = .ok t) (c : Nat)
    (hc : c < count) (k : Nat) (hk : k < S.levels) : ExplicitStep S G D (q c) (ref c) (fun j => t c j - U c j) k := by
  obtain ⟨c1, c2⟩ := tracer_cases E T hL solve hs G D M true hdt V count (by omega) q ref U
  obtain ⟨d1, d2, d3⟩ := c2 (by simp)
  have h4 : 4 * S.order < S.levels + 2 := by
    by_contra h
    rw [d1 (by omega)] at ht
    simp at ht
  have h6 : 6 * S.order ≤ S.levels + 2 := by
    by_contra h
    rw [d2 h4 (Or.inl (by omega))] at ht
    simp at ht
  obtain ⟨s, h1, h2⟩ := d3 h6 (by simp)
  rw [h1] at ht
  obtain rfl := TracerRes.ok.inj ht
  have := h2 c hc k hk
  simp only [if_true] at this
  rw [matrix_explicit G _ _ k hk, rhs_explicit E T hL href G D M _ _ _ k hk] at this
  unfold ExplicitStep
  dsimp only
  rw [if_pos ⟨hc, hk⟩, show U c k - s c k - U c k = -s c k by ring, neg_div, this]
  ring

/-- **C93 (untouched).**  The update leaves what is not a tracer, or above the top, as it was. -/
theorem C93_untouched (solve : BandSolver) (G : Metric) (D : Data) (M : Memory) (e : Bool) (V : State) (count : Nat)
    (q ref U t : Nat → Nat → ℝ) (ht : updateTracers S G M solve e D V count q ref U = .ok t) (c k : Nat)
    (h : count ≤ c ∨ S.levels ≤ k) : t c k = U c k := by
  unfold updateTracers at ht
  dsimp only at ht
  split_ifs at ht
  · rw [TracerRes.ok.inj ht]
  all_goals
    rw [← TracerRes.ok.inj ht]
    exact if_neg (by omega)

theorem divergence_total (E : Elements S node edge gauss lob) (G : Metric) (hJ : ∀ k < S.levels, G.jac k ≠ 0) (f : Nat → ℝ)
    (h0 : f 0 = 0) (h1 : f S.levels = 0) : overLevels S edge gauss (fun k => G.jac k * (applyRow S.diffEN f k / G.jac k)) = 0 := by
  rw [overLevels_congr S edge gauss _ (applyRow S.diffEN f) (fun k hk => by have := hJ k hk; field_simp), derivative_total E, h0, h1, sub_zero]

/-- **C93 (mass; partial).**  Where the volume element does not jump over element edges, neither update changes the mass of a
tracer in the column.  Missing: volume elements that jump, see `C90_conserved_false`. -/
theorem C93_mass_partial (E : Elements S node edge gauss lob) (T : Stencils S node edge sNode sEdge gauss lob) (hL : Lorenz S)
    (href : S.useRef = true) (solve : BandSolver) (hs : Lapack solve) (G : Metric) (hJ : ∀ k < S.levels, G.jac k ≠ 0) (D : Data)
    (M : Memory) (e : Bool) (hdt : S.dt ≠ 0) (V : State) (count : Nat) (q ref U t : Nat → Nat → ℝ)
    (ht : updateTracers S G (setupColumn S D M) solve e D V count q ref U = .ok t) (pJ : Nat → ℝ[X]) (hpJ : Fits S node pJ G.jac)
    (hjoin : ∀ a < S.levels / S.order - 1, jump S.order edge pJ a = 0) (c : Nat) :
    overLevels S edge gauss (fun k => G.jac k * t c k) = overLevels S edge gauss (fun k => G.jac k * U c k) := by
  by_cases hc : c < count
  swap
  · exact overLevels_congr S edge gauss _ _ fun k _ => by rw [C93_untouched solve G D _ e V count q ref U t ht c k (Or.inl (by omega))]
  have w0 : windBefore S G D 0 = 0 := wind_outside S G _ 0 (by omega)
  have w1 : windBefore S G D S.levels = 0 := if_pos (Or.inr le_rfl)
  have v0 : windAfter S G D V 0 = 0 := wind_outside S G _ 0 (by omega)
  have v1 : windAfter S G D V S.levels = 0 := if_pos (Or.inr le_rfl)
  have hdiv : ∀ xi z : Nat → ℝ, xi 0 = 0 → xi S.levels = 0 → overLevels S edge gauss (fun k => G.jac k * divergence S G xi z k) = 0 :=
    fun xi z h0 h1 => divergence_total E G hJ _ (by rw [h0]; ring) (by rw [h1]; ring)
  have hsm : ∀ v z : Nat → ℝ, overLevels S edge gauss (fun k => G.jac k * smoothing S v z k) = 0 := fun v z => penalty_total E _ pJ hpJ hjoin _ _
  have key : overLevels S edge gauss (fun k => G.jac k * (t c k - U c k)) = 0 := by
    cases e with
    | false =>
      have heq := (C93_implicit E T hL solve hs G D M hdt V count q ref U t ht c hc (fun k => t c k - U c k)).2 fun k _ => by ring
      rw [overLevels_congr S edge gauss _ (fun k => S.dt * (G.jac k * smoothing S (fun m => |windBefore S G D m|) (q c) k +
          G.jac k * smoothing S (fun m => |windBefore S G D m|) (fun k => t c k - U c k) k +
          G.jac k * smoothing S (fun m => sgn (windBefore S G D m) * (windAfter S G D V m - windBefore S G D m)) (q c) k -
          G.jac k * divergence S G (windAfter S G D V) (q c) k - G.jac k * divergence S G (windBefore S G D) (fun k => t c k - U c k) k)) ?_,
        overLevels_mul, overLevels_sub, overLevels_sub, overLevels_add, overLevels_add, hsm, hsm, hsm, hdiv _ _ v0 v1, hdiv _ _ w0 w1]
      · ring
      · intro k hk
        have := heq k hk
        unfold ImplicitStep at this
        dsimp only at this
        field_simp at this
        linear_combination G.jac k * this
    | true =>
      have heq := fun k hk => C93_explicit E T hL href solve hs G D M hdt V count q ref U t ht c hc k hk
      have hmix := divergence_total E G hJ (mixing S D (q c) (ref c)) (if_neg (by omega)) (if_neg (by omega))
      rw [overLevels_congr S edge gauss _ (fun k => S.dt * (G.jac k * smoothing S (fun m => |windBefore S G D m|) (q c) k +
          G.jac k * (applyRow S.diffEN (mixing S D (q c) (ref c)) k / G.jac k) - G.jac k * divergence S G (windBefore S G D) (q c) k)) ?_,
        overLevels_mul, overLevels_sub, overLevels_add, hsm, hmix, hdiv _ _ w0 w1]
      · ring
      · intro k hk
        have := heq k hk
        unfold ExplicitStep at this
        dsimp only at this
        generalize applyRow S.diffEN (mixing S D (q c) (ref c)) k / G.jac k = z at *
        field_simp at this
        linear_combination G.jac k * this
  rw [overLevels_congr S edge gauss _ (fun k => G.jac k * t c k - G.jac k * U c k) (fun k _ => by ring), overLevels_sub] at key
  linarith

/-- **C93 (consistency).**  After the implicit step of a column, a tracer that was a multiple of density is the same multiple of the
new density: a constant mixing ratio stays constant. -/
theorem C93_consistent (E : Elements S node edge gauss lob) (T : Stencils S node edge sNode sEdge gauss lob)
    (hNN : SecondOnLevels S node edge gauss lob) (hL : Lorenz S) (href : S.useRef = true) (solve : BandSolver) (hs : Lapack solve)
    (G : Metric) (D : Data) (M M' : Memory) (hdt : S.dt ≠ 0) (U0 V : State) (hV : implicitColumn solve S G D M' U0 = some V)
    (count : Nat) (q ref t : Nat → Nat → ℝ) (ht : updateTracers S G (setupColumn S D M) solve false D V count q ref q = .ok t)
    (c : Nat) (hc : c < count) (r : ℝ) (hq : ∀ k < S.levels, q c k = r * D.node 4 k) (k : Nat) (hk : k < S.levels) :
    t c k = r * V.node 4 k := by
  have u2 : ∀ (node edge : Nat → Nat → ℝ) (k : Nat), unknowns node edge (3 * k + 2) = node 4 k := fun node edge k => by
    unfold unknowns
    rw [if_neg (by omega), if_neg (by omega), show (3 * k + 2) / 3 = k by omega]
  have u1 : ∀ (node edge : Nat → Nat → ℝ) (k : Nat), unknowns node edge (3 * k + 1) = edge 3 k := fun node edge k => by
    unfold unknowns
    rw [if_neg (by omega), if_pos (by omega), show (3 * k + 1) / 3 = k by omega]
  have heq := (newton_equations E T hNN hL href solve hs G D M' U0 V hV).1
  have hw : windChange S G (fun j => unknowns D.node D.edge j - unknowns V.node V.edge j) =
      fun m => windBefore S G D m - windAfter S G D V m := by
    funext m
    unfold windChange windBefore windAfter verticalWind
    split_ifs
    · ring
    · simp only [asColumn, u1]
      ring
  have hden : ∀ k < S.levels, ImplicitStep S G (windBefore S G D) (windAfter S G D V) (q c)
      (fun j => r * V.node 4 j + -r * D.node 4 j) k := by
    intro k hk
    have h := heq (3 * k + 2) ⟨by omega, Or.inr (by omega)⟩
    rw [product_level E hL G D M' _ _ k 2 (Or.inr rfl) hk, (C90_levels hL E.elements G D M' _ href k hk).1, hw] at h
    simp only [u2, asColumn] at h
    have e1 : applyRow S.diffEN (fun m => G.jacEdge m * (applyRow S.interpNE (D.node 4) m * (windBefore S G D m - windAfter S G D V m) +
        applyRow S.interpNE (fun j => D.node 4 j - V.node 4 j) m * windBefore S G D m)) k / G.jac k =
        divergence S G (windBefore S G D) (D.node 4) k - divergence S G (windAfter S G D V) (D.node 4) k +
          divergence S G (windBefore S G D) (fun j => 1 * D.node 4 j + -1 * V.node 4 j) k := by
      unfold divergence
      rw [show (fun m => G.jacEdge m * (applyRow S.interpNE (D.node 4) m * (windBefore S G D m - windAfter S G D V m) +
        applyRow S.interpNE (fun j => D.node 4 j - V.node 4 j) m * windBefore S G D m)) =
        fun m => 1 * (1 * (G.jacEdge m * (applyRow S.interpNE (D.node 4) m * windBefore S G D m)) +
          -1 * (G.jacEdge m * (applyRow S.interpNE (D.node 4) m * windAfter S G D V m))) +
          1 * (G.jacEdge m * (applyRow S.interpNE (fun j => 1 * D.node 4 j + -1 * V.node 4 j) m * windBefore S G D m)) from
        funext fun m => by
          rw [show (fun j => 1 * D.node 4 j + -1 * V.node 4 j) = fun j => D.node 4 j - V.node 4 j from funext fun j => by ring]
          ring, applyRow_lin, applyRow_lin]
      ring
    have e2 : penaltyApply S.penalty (fun a => |windBefore S G D ((a + 1) * S.order)|) (fun j => D.node 4 j - V.node 4 j) (fun _ => 0) 1 1 k =
        smoothing S (fun m => |windBefore S G D m|) (fun j => 1 * D.node 4 j + -1 * V.node 4 j) k := by
      unfold smoothing
      rw [show (fun j => 1 * D.node 4 j + -1 * V.node 4 j) = fun j => D.node 4 j - V.node 4 j from funext fun j => by ring]
    have e3 : penaltyApply S.penalty (fun a => sgn (windBefore S G D ((a + 1) * S.order)) *
        (windBefore S G D ((a + 1) * S.order) - windAfter S G D V ((a + 1) * S.order))) (D.node 4) (fun _ => 0) 1 1 k =
        -smoothing S (fun m => sgn (windBefore S G D m) * (windAfter S G D V m - windBefore S G D m)) (D.node 4) k := by
      obtain ⟨hn, hN, hm, hone, -⟩ := penalty_facts E
      unfold smoothing
      by_cases h1 : S.levels / S.order = 1
      · rw [hone h1, hone h1, neg_zero]
      · rw [penalty_form E (by omega) _ _ k hk, penalty_form E (by omega) _ _ k hk]
        split_ifs <;> ring
    have e4 : applyRow S.diffEN (flux S G (asColumn D (unknowns D.node D.edge)) (D.node 4)) k / G.jac k =
        divergence S G (windBefore S G D) (D.node 4) k := by
      unfold divergence flux
      congr 2
      funext m
      rw [mul_assoc]
      rfl
    change _ - penaltyApply S.penalty (fun a => |windBefore S G D ((a + 1) * S.order)|) (fun j => D.node 4 j - V.node 4 j) (fun _ => 0) 1 1 k -
      penaltyApply S.penalty (fun a => sgn (windBefore S G D ((a + 1) * S.order)) *
        (windBefore S G D ((a + 1) * S.order) - windAfter S G D V ((a + 1) * S.order))) (D.node 4) (fun _ => 0) 1 1 k + _ =
      applyRow S.diffEN (flux S G (asColumn D (unknowns D.node D.edge)) (D.node 4)) k / G.jac k -
        smoothing S (fun m => |windBefore S G D m|) (D.node 4) k + _ at h
    have e1' := e1
    rw [e2, e3, e4] at h
    change applyRow S.diffEN (fun m => G.jacEdge m * (applyRow S.interpNE (D.node 4) m * (windBefore S G D m - windAfter S G D V m) +
        applyRow S.interpNE (fun j => D.node 4 j - V.node 4 j) m * windBefore S G D m)) k / G.jac k - _ - _ + _ = _ at h
    rw [e1, divergence_lin, smoothing_lin E _ _ _ _ _ k hk] at h
    unfold ImplicitStep
    have hq' : ∀ j < S.levels, q c j = r * D.node 4 j + 0 * D.node 4 j := fun j hj => by rw [hq j hj]; ring
    rw [divergence_congr E T G _ _ (q c) _ (fun _ _ => rfl) hq' k hk, smoothing_congr E _ (q c) _ hq' k hk,
      smoothing_congr E _ (q c) _ hq' k hk, divergence_lin, divergence_lin, smoothing_lin E _ _ _ _ _ k hk, smoothing_lin E _ _ _ _ _ k hk,
      smoothing_lin E _ _ _ _ _ k hk]
    linear_combination -r * h
  have := (C93_implicit E T hL solve hs G D M hdt V count q ref q t ht c hc _).1 hden k hk
  rw [this, hq k hk]
  ring

/-- **C93 (history).**  Whether the update is refused, and what it writes, depend on the data of the column only and not on the
columns before it. -/
theorem C93_history (E : Elements S node edge gauss lob) (T : Stencils S node edge sNode sEdge gauss lob) (hL : Lorenz S)
    (href : S.useRef = true) (solve : BandSolver) (hs : Lapack solve) (G : Metric) (D : Data) (M M' : Memory) (e : Bool) (hdt : S.dt ≠ 0)
    (V : State) (count : Nat) (q ref U : Nat → Nat → ℝ) :
    updateTracers S G (setupColumn S D M) solve e D V count q ref U = updateTracers S G (setupColumn S D M') solve e D V count q ref U := by
  obtain ⟨r1, r2, -⟩ := C93_refused E T hL solve hs G D M e hdt V count q ref U
  obtain ⟨r1', r2', -⟩ := C93_refused E T hL solve hs G D M' e hdt V count q ref U
  cases h : updateTracers S G (setupColumn S D M) solve e D V count q ref U with
  | exc => exact (r2'.2 (r2.1 h)).symm
  | ub => exact (r1'.2 (r1.1 h)).symm
  | ok t =>
    cases h' : updateTracers S G (setupColumn S D M') solve e D V count q ref U with
    | exc => rw [r2.2 (r2'.1 h')] at h; simp at h
    | ub => rw [r1.2 (r1'.1 h')] at h; simp at h
    | ok t' =>
      congr 1
      funext c k
      by_cases hck : count ≤ c ∨ S.levels ≤ k
      · rw [C93_untouched solve G D _ e V count q ref U t h c k hck, C93_untouched solve G D _ e V count q ref U t' h' c k hck]
      · have hc : c < count := by omega
        have hk : k < S.levels := by omega
        cases e with
        | false =>
          have heq := (C93_implicit E T hL solve hs G D M' hdt V count q ref U t' h' c hc (fun k => t' c k - U c k)).2 fun k _ => by ring
          have := (C93_implicit E T hL solve hs G D M hdt V count q ref U t h c hc _).1 heq k hk
          rw [this]
          ring
        | true =>
          have a1 := C93_explicit E T hL href solve hs G D M hdt V count q ref U t h c hc k hk
          have a2 := C93_explicit E T hL href solve hs G D M' hdt V count q ref U t' h' c hc k hk
          unfold ExplicitStep at a1 a2
          dsimp only at a1 a2
          have : (t c k - U c k) / S.dt = (t' c k - U c k) / S.dt := by linear_combination a1 - a2
          field_simp at this
          linarith

end

end Verif.Vdyn
