/-
C143: the explicit step of method v2 under the fully explicit option.
-/
import Verif.VertV2.TermsExamples
import Verif.VertV2.Explicit
import Verif.VertV2.ExplicitSpec

namespace Verif.ColumnV2

open Verif.Column Verif.Vdyn Verif.Interp Finset

section
variable {S : Setup} {node edge sNode sEdge : Nat → ℝ} {gauss lob : List ℝ × List ℝ}

theorem fullWind_eq (hL : Lorenz S) (href : S.useRef = true) (G : Metric) (D : Data) (M : Memory) (count : Nat)
    (E : Elements S node edge gauss lob) (T : Stencils S node edge sNode sEdge gauss lob) :
    fullWind S G D M count = windOld S G D := by
  unfold fullWind
  dsimp only
  split
  · rw [← initial_wind hL G D M]
    unfold initialWind
    funext k
    unfold xiDotEdge tracerWind
    have h3 : edgeState S (setupColumn S D M) (setupColumn S D M).state 3 k = (setupColumn S D M).state (vec 1 k) := by
      simp [edgeState, wEdge, hL.1]
    have h0 : edgeState S (setupColumn S D M) (setupColumn S D M).state 0 k = (setupColumn S D M).edge 0 k := by
      simp [edgeState]
    have h1 : edgeState S (setupColumn S D M) (setupColumn S D M).state 1 k = (setupColumn S D M).edge 1 k := by
      simp [edgeState]
    rw [h0, h1, h3, hL.1]
    simp
  · exact data_wind hL G D M

theorem windDelta_eq (A : Schur.Site) (area xi : Nat → ℝ) (G : Metric) (D : Data) (M : Memory) (c k : Nat) (hc : c = 0 ∨ c = 1)
    (hxi : xi = windOld S G D) :
    windDelta S A area xi D M c k = advection S G (A.other S) area D c k := by
  have hn : (setupColumn S D M).node c = D.node c := by simp [setupColumn, hc]
  have hf : ∀ (L : List Nat) (z : ℝ) (f : Nat → ℝ), L.foldl (fun d l => d - f l) z = z - (L.map f).sum := by
    intro L
    induction L with
    | nil => intro z f; simp
    | cons x L ih => intro z f; rw [List.foldl_cons, ih, List.map_cons, List.sum_cons]; ring
  unfold windDelta advection
  rw [hf, hn, Vdyn.sum_range, zero_sub, hxi]
  congr 2
  refine sum_congr rfl fun l _ => ?_
  have : A.data (A.address S l A.iA A.iB) = A.other S l := by
    unfold Schur.Site.other Schur.Site.address
    congr 1
    ring
  rw [this]
  ring

theorem reads_behind (A : Schur.Site) (hN : 0 < S.levels) :
    ((List.range S.levels).any fun l => decide (A.a * A.b * (S.levels + 1) ≤ A.address S l A.iA A.iB)) = true ↔ Behind A S := by
  rw [List.any_eq_true]
  unfold Behind Schur.Site.address
  simp only [decide_eq_true_eq, List.mem_range]
  constructor
  · rintro ⟨l, hl, h⟩
    refine le_trans h ?_
    have : l * A.b ≤ (S.levels - 1) * A.b := Nat.mul_le_mul_right _ (by omega)
    have := Nat.mul_le_mul_right (S.levels + 1) this
    rw [Nat.add_mul]
    omega
  · intro h
    refine ⟨S.levels - 1, by omega, le_trans h ?_⟩
    rw [Nat.add_mul]

/-- What a step that succeeds consists of. -/
theorem full_parts (solve : BandSolver) (G : Metric) (P A : Schur.Site) (area : Nat → ℝ) (D : Data) (M : Memory) (count : Nat)
    (q ref : Nat → Nat → ℝ) (U V : Vdyn.State) (h : fullColumn solve S G P A area D M count q ref U = .ok V) :
    ∃ W, termsColumn solve S G P true D M count q ref U = .ok W ∧ V = { W with
      node := fun c k =>
        if (c = 0 ∨ c = 1) ∧ k < S.levels then
          W.node c k + S.dt * windDelta S A area (fullWind S G D M count) D M c k + windSmooth S D M c k
        else W.node c k } := by
  unfold fullColumn at h
  cases ht : termsColumn solve S G P true D M count q ref U with
  | exc => rw [ht] at h; simp at h
  | ub => rw [ht] at h; simp at h
  | ok W =>
    rw [ht] at h
    dsimp only at h
    split at h
    · simp at h
    · exact ⟨W, rfl, (ColumnRes.ok.inj h).symm⟩

/-- **C143 (step).**  Under the option the explicit step changes density, density times potential temperature and vertical velocity by
transport, pressure gradient, gravity and diffusion of the initial data, horizontal velocity by vertical advection, with the areas in the
places that are read, and diffusion, tracers by the explicit step; everything else stays. -/
theorem C143_step (E : Elements S node edge gauss lob) (T : Stencils S node edge sNode sEdge gauss lob)
    (hNN : SecondOnLevels S node edge gauss lob) (hL : Lorenz S) (href : S.useRef = true) (solve : BandSolver) (hs : Lapack solve)
    (hdt : S.dt ≠ 0) (G : Metric) (P A : Schur.Site) (area : Nat → ℝ) (D : Data) (M : Memory) (count : Nat) (q ref : Nat → Nat → ℝ)
    (U V : Vdyn.State) (h : fullColumn solve S G P A area D M count q ref U = .ok V) (k : Nat) :
    (k < S.levels → V.node 4 k = U.node 4 k - S.dt * divergence S G (windOld S G D) (D.node 4) k) ∧
    (k < S.levels → V.node 2 k = U.node 2 k - S.dt * (divergence S G (windOld S G D) (D.node 2) k -
      diffuse S S.diffDiffNN S.nuScalar (D.node 2) (D.refNode 2) k)) ∧
    (0 < k → k < S.levels → V.edge 3 k = U.edge 3 k - S.dt * force S G D k) ∧
    (∀ c, c = 0 ∨ c = 1 → k < S.levels → V.node c k = U.node c k + S.dt * (advection S G (A.other S) area D c k +
      diffuse S S.diffDiffNN S.nuVector (D.node c) (D.refNode c) k)) ∧
    (∀ c < count, k < S.levels → ExplicitTracer S G D (q c) (ref c) (fun j => V.tracer c j - U.tracer c j) k) ∧
    (k = 0 ∨ S.levels ≤ k → V.edge 3 k = U.edge 3 k) ∧
    (∀ c, c = 3 ∨ 4 < c ∨ S.levels ≤ k → V.node c k = U.node c k) ∧
    (∀ c, c ≠ 3 → V.edge c k = U.edge c k) ∧
    (∀ c, count ≤ c ∨ S.levels ≤ k → V.tracer c k = U.tracer c k) := by
  obtain ⟨W, hW, rfl⟩ := full_parts solve G P A area D M count q ref U V h
  obtain ⟨t1, t2, t3, t4, t5, t6, t7⟩ := C140_terms E T hNN hL href solve G P true D M count q ref U W hW k
  refine ⟨fun hk => ?_, fun hk => ?_, t3, fun c hc hk => ?_, fun c hc hk => ?_, t4, fun c hc => ?_, t6, t7⟩
  · rw [← t1 hk]; simp
  · rw [← t2 hk]; simp
  · dsimp only
    rw [if_pos ⟨hc, hk⟩, t5 c (Or.inl ⟨by omega, by omega⟩), windDelta_eq A area _ G D M c k hc (fullWind_eq hL href G D M count E T)]
    have hn : (setupColumn S D M).node c = D.node c := by simp [setupColumn, hc]
    unfold windSmooth diffuse
    rw [hn]
    split_ifs <;> ring
  · exact (C140_tracers E T hL href solve hs hdt G P true D M count q ref U W hW c hc).1 rfl k hk
  · dsimp only
    rw [if_neg (by omega), t5 c (by omega)]

/-- **C143 (refused).**  The step of a column fails exactly if the matrix of tracers leaves its array or is not solved, or the area of the
uppermost interface but one is read behind the end of the array of areas. -/
theorem C143_refused (E : Elements S node edge gauss lob) (T : Stencils S node edge sNode sEdge gauss lob) (hL : Lorenz S)
    (hN : 0 < S.levels) (solve : BandSolver) (hs : Lapack solve) (hdt : S.dt ≠ 0) (G : Metric) (P A : Schur.Site) (area : Nat → ℝ)
    (D : Data) (M : Memory) (count : Nat) (q ref : Nat → Nat → ℝ) (U : Vdyn.State) :
    (fullColumn solve S G P A area D M count q ref U = .exc ↔
      count ≠ 0 ∧ 4 * S.order < S.levels + 2 ∧ S.levels + 2 < 6 * S.order) ∧
    (fullColumn solve S G P A area D M count q ref U = .ub ↔
      (count ≠ 0 ∧ S.levels + 2 ≤ 4 * S.order) ∨ (Behind A S ∧ (count = 0 ∨ 6 * S.order ≤ S.levels + 2))) := by
  obtain ⟨r1, r2⟩ := C140_refused E T hL solve hs hdt G P true D M count q ref U
  simp only [Bool.true_eq_false, false_and, or_false, not_false_eq_true, true_and, false_or] at r1 r2
  have hb := reads_behind A hN
  unfold fullColumn
  cases ht : termsColumn solve S G P true D M count q ref U with
  | exc =>
    have := r2.1 ht
    simp
    omega
  | ub =>
    have := r1.1 ht
    simp
    omega
  | ok W =>
    rw [ht] at r1 r2
    simp only [reduceCtorEq, false_iff] at r1 r2
    dsimp only
    split
    · next hc =>
      have := hb.1 hc
      simp only [reduceCtorEq, false_iff, true_iff]
      refine ⟨by omega, Or.inr ⟨this, by omega⟩⟩
    · next hc =>
      have := fun h => hc (hb.2 h)
      simp only [reduceCtorEq, false_iff]
      refine ⟨by omega, ?_⟩
      rintro (h | h)
      · omega
      · exact this h.1

/-- **C143 (mass).**  The step changes neither the mass of a column nor, without uniform diffusion, the integral of density times potential
temperature, nor the mass of tracers. -/
theorem C143_mass (E : Elements S node edge gauss lob) (T : Stencils S node edge sNode sEdge gauss lob)
    (hNN : SecondOnLevels S node edge gauss lob) (hL : Lorenz S) (href : S.useRef = true) (solve : BandSolver) (hs : Lapack solve)
    (hdt : S.dt ≠ 0) (G : Metric) (hJ : ∀ k < S.levels, G.jac k ≠ 0) (P A : Schur.Site) (area : Nat → ℝ) (D : Data) (M : Memory)
    (count : Nat) (q ref : Nat → Nat → ℝ) (U V : Vdyn.State) (h : fullColumn solve S G P A area D M count q ref U = .ok V) :
    overLevels S edge gauss (fun k => G.jac k * V.node 4 k) = overLevels S edge gauss (fun k => G.jac k * U.node 4 k) ∧
    (S.uniform = false →
      overLevels S edge gauss (fun k => G.jac k * V.node 2 k) = overLevels S edge gauss (fun k => G.jac k * U.node 2 k)) ∧
    ∀ c, overLevels S edge gauss (fun k => G.jac k * V.tracer c k) = overLevels S edge gauss (fun k => G.jac k * U.tracer c k) := by
  obtain ⟨W, hW, rfl⟩ := full_parts solve G P A area D M count q ref U V h
  have := C140_mass E T hNN hL href solve hs hdt G hJ P true D M count q ref U W hW
  simpa using this

/-- **C143 (constant mixing ratio).**  Without uniform diffusion, a tracer that is a constant times density, in the initial data and in the
data to update, stays that constant times density. -/
theorem C143_constant (E : Elements S node edge gauss lob) (T : Stencils S node edge sNode sEdge gauss lob)
    (hNN : SecondOnLevels S node edge gauss lob) (hL : Lorenz S) (href : S.useRef = true) (hu : S.uniform = false) (solve : BandSolver)
    (hs : Lapack solve) (hdt : S.dt ≠ 0) (G : Metric) (P A : Schur.Site) (area : Nat → ℝ) (D : Data) (M : Memory) (count : Nat)
    (q ref : Nat → Nat → ℝ) (U V : Vdyn.State) (h : fullColumn solve S G P A area D M count q ref U = .ok V) (c : Nat) (hc : c < count)
    (r : ℝ) (hq : ∀ k < S.levels, q c k = r * D.node 4 k) (hU : ∀ k < S.levels, U.tracer c k = r * U.node 4 k) (k : Nat)
    (hk : k < S.levels) : V.tracer c k = r * V.node 4 k := by
  obtain ⟨W, hW, rfl⟩ := full_parts solve G P A area D M count q ref U V h
  simpa using C140_constant_partial E T hNN hL href hu solve hs hdt G P D M count q ref U W hW c hc r hq hU k hk

/-- **C143 (balance).**  Without uniform diffusion a column at rest in hydrostatic balance adds nothing to the state. -/
theorem C143_balance (E : Elements S node edge gauss lob) (T : Stencils S node edge sNode sEdge gauss lob)
    (hNN : SecondOnLevels S node edge gauss lob) (hL : Lorenz S) (href : S.useRef = true) (hu : S.uniform = false) (solve : BandSolver)
    (hs : Lapack solve) (hdt : S.dt ≠ 0) (G : Metric) (P A : Schur.Site) (area : Nat → ℝ) (D : Data) (M : Memory) (count : Nat)
    (q ref : Nat → Nat → ℝ) (U V : Vdyn.State) (h : fullColumn solve S G P A area D M count q ref U = .ok V)
    (h0 : ∀ k, D.node 0 k = 0 ∧ D.node 1 k = 0 ∧ D.edge 3 k = 0)
    (hbal : ∀ k, 0 < k → k < S.levels →
      applyRow S.interpNE (D.node 2) k / applyRow S.interpNE (D.node 4) k *
        applyRow S.diffNE (fun j => S.phys.cp * Real.exp (S.phys.r / (S.phys.cp - S.phys.r) *
          Real.log (S.phys.r / S.phys.p0 * D.node 2 j))) k / G.derivREdge k = -S.phys.g) :
    V.node = U.node ∧ V.edge = U.edge := by
  have hst := fun k => (C143_step E T hNN hL href solve hs hdt G P A area D M count q ref U V h k).2.2.2.1
  obtain ⟨W, hW, rfl⟩ := full_parts solve G P A area D M count q ref U V h
  obtain ⟨b1, b2⟩ := C140_balance E T hL href hu solve G P true D M count q ref U W hW h0 hbal
  refine ⟨?_, b2⟩
  funext c k
  by_cases hck : (c = 0 ∨ c = 1) ∧ k < S.levels
  · rw [hst k c hck.1 hck.2]
    have hz : D.node c = fun _ => 0 := by
      funext j
      rcases hck.1 with rfl | rfl
      · exact (h0 j).1
      · exact (h0 j).2.1
    have ha : ∀ l, applyRow S.diffNE (fun _ => (0 : ℝ)) l = 0 := fun l => by rw [Vdyn.applyRow_eq]; simp
    unfold advection diffuse
    rw [hz, hu]
    simp [ha]
  · dsimp only
    rw [if_neg hck, b1]

/-- The derivative on inner interfaces of what does not change with height. -/
theorem constant_slope (E : Elements S node edge gauss lob) (z : ℝ) (l : Nat) (h0 : 0 < l) (hl : l < S.levels) :
    applyRow S.diffNE (fun _ => z) l = 0 := by
  obtain ⟨solve, hs, h, -⟩ := E.setup
  obtain ⟨hn, hN, hm, -⟩ := flux_cases h
  have := C88_exact solve hs .levels S.order S.levels (S.levels + 1) node edge (S.levels + 1) edge true S.diffNE h E.separated
    E.apartNodes (Polynomial.C z) (lt_of_le_of_lt Polynomial.degree_C_le (by exact_mod_cast hn)) (fun _ => z) (fun k _ => by simp) l ?_
  · rw [this]
    simp
  · have hd := Nat.div_add_mod l S.order
    have hmod := Nat.mod_lt l hn
    have hlt : l / S.order < S.levels / S.order := by
      rw [Nat.div_lt_iff_lt_mul hn, ← hN]
      exact hl
    rw [mul_comm] at hd
    by_cases hz : l % S.order = 0
    · right
      have hp : 0 < l / S.order := by
        rcases Nat.eq_zero_or_pos (l / S.order) with h | h
        · rw [h] at hd
          omega
        · exact h
      refine ⟨l / S.order - 1, by omega, ?_⟩
      rw [Nat.sub_add_cancel hp]
      congr 1
      omega
    · left
      refine ⟨l / S.order, ?_⟩
      have := E.insideEdges (l / S.order) hlt (l % S.order) (by omega) hmod
      rwa [hd] at this

/-- **C143 (uniform wind).**  Without uniform diffusion a component of the wind that does not change with height stays. -/
theorem C143_uniform (E : Elements S node edge gauss lob) (T : Stencils S node edge sNode sEdge gauss lob)
    (hNN : SecondOnLevels S node edge gauss lob) (hL : Lorenz S) (href : S.useRef = true) (hu : S.uniform = false) (solve : BandSolver)
    (hs : Lapack solve) (hdt : S.dt ≠ 0) (G : Metric) (P A : Schur.Site) (area : Nat → ℝ) (D : Data) (M : Memory) (count : Nat)
    (q ref : Nat → Nat → ℝ) (U V : Vdyn.State) (h : fullColumn solve S G P A area D M count q ref U = .ok V) (c : Nat)
    (hc : c = 0 ∨ c = 1) (z : ℝ) (hz : ∀ k, D.node c k = z) (k : Nat) : V.node c k = U.node c k := by
  obtain ⟨-, -, -, s4, -, -, s7, -⟩ := C143_step E T hNN hL href solve hs hdt G P A area D M count q ref U V h k
  by_cases hk : k < S.levels
  · rw [s4 c hc hk]
    have hz' : D.node c = fun _ => z := funext hz
    have : advection S G (A.other S) area D c k = 0 := by
      unfold advection
      rw [sum_eq_zero fun l hl => ?_, neg_zero, zero_div]
      rcases Nat.eq_zero_or_pos l with rfl | h0
      · rw [show windOld S G D 0 = 0 from wind_outside S _ _ 0 (by omega)]
        ring
      · rw [hz', constant_slope E z l h0 (mem_range.1 hl)]
        ring
    rw [this]
    unfold diffuse
    rw [hu]
    simp
  · exact s7 c (by omega)

/-- **C143 (history).**  The step does not depend on the columns before it. -/
theorem C143_history (E : Elements S node edge gauss lob) (T : Stencils S node edge sNode sEdge gauss lob)
    (hNN : SecondOnLevels S node edge gauss lob) (hL : Lorenz S) (href : S.useRef = true) (solve : BandSolver) (hs : Lapack solve)
    (hdt : S.dt ≠ 0) (G : Metric) (P A : Schur.Site) (area : Nat → ℝ) (D : Data) (M M' : Memory) (count : Nat) (q ref : Nat → Nat → ℝ)
    (U : Vdyn.State) : fullColumn solve S G P A area D M count q ref U = fullColumn solve S G P A area D M' count q ref U := by
  unfold fullColumn
  rw [C140_history E T hNN hL href solve hs hdt G P true D M M' count q ref U, fullWind_eq hL href G D M count E T,
    fullWind_eq hL href G D M' count E T]
  cases termsColumn solve S G P true D M' count q ref U with
  | exc => rfl
  | ub => rfl
  | ok V =>
    dsimp only
    split
    · rfl
    · congr 2
      funext c k
      split_ifs with hc
      · rw [windDelta_eq A area _ G D M c k hc.1 rfl, windDelta_eq A area _ G D M' c k hc.1 rfl]
        have hn : ∀ M, (setupColumn S D M).node c = D.node c := fun M => by simp [setupColumn, hc.1]
        unfold windSmooth
        rw [hn, hn]
      · rfl

/-- **C143 (patch).**  The step of a patch succeeds if and only if the step of every column of the interior does; then every column of the
interior is stepped, from its own data and whatever the order, and everything else stays. -/
theorem C143_patch (E : Elements S node edge gauss lob) (T : Stencils S node edge sNode sEdge gauss lob)
    (hNN : SecondOnLevels S node edge gauss lob) (hL : Lorenz S) (href : S.useRef = true) (solve : BandSolver) (hs : Lapack solve)
    (hdt : S.dt ≠ 0) (F : Fixed) (a b : Nat) (volumes areas : Nat → ℝ) (area : Place → Nat → ℝ) (count : Nat) (B : Box) (init : Columns)
    (leave : Place → Memory → Memory) (M M0 : Memory) (C : Columns) :
    ((∃ C', fullPatch solve S F a b volumes areas area count B init leave M C = .ok C') ↔ ∀ x, B.Inside x → ∃ V,
      fullColumn solve S (F.metric x) ⟨a, b, x.1, x.2, volumes⟩ ⟨a, b, x.1, x.2, areas⟩ (area x)
        ⟨(init x).node, (init x).edge, F.refNode x, F.refEdge x⟩ M0 count (init x).tracer (F.refTracer x) (C x) = .ok V) ∧
    ∀ C', fullPatch solve S F a b volumes areas area count B init leave M C = .ok C' → ∀ x,
      (B.Inside x → fullColumn solve S (F.metric x) ⟨a, b, x.1, x.2, volumes⟩ ⟨a, b, x.1, x.2, areas⟩ (area x)
        ⟨(init x).node, (init x).edge, F.refNode x, F.refEdge x⟩ M0 count (init x).tracer (F.refTracer x) (C x) = .ok (C' x)) ∧
      (¬ B.Inside x → C' x = C x) := by
  have h := sweep_columns (fun M x U => fullColumn solve S (F.metric x) (site a b volumes x) (site a b areas x) (area x)
    (columnData F x (init x)) M count (init x).tracer (F.refTracer x) U)
    (fun M M' x U => C143_history E T hNN hL href solve hs hdt (F.metric x) (site a b volumes x) (site a b areas x) (area x)
      (columnData F x (init x)) M M' count (init x).tracer (F.refTracer x) U) leave (interior B) (interior_nodup B) _
    (mem_interior B) M M0 C
  exact h

/-- **C143, where the code does something else.**  In a patch that has, with its halo, fewer columns in the first direction than levels,
the step never succeeds. -/
theorem C143_outside (E : Elements S node edge gauss lob) (T : Stencils S node edge sNode sEdge gauss lob)
    (hNN : SecondOnLevels S node edge gauss lob) (hL : Lorenz S) (href : S.useRef = true) (solve : BandSolver) (hs : Lapack solve)
    (hdt : S.dt ≠ 0) (F : Fixed) (a b : Nat) (volumes areas : Nat → ℝ) (area : Place → Nat → ℝ) (count : Nat) (B : Box) (init : Columns)
    (leave : Place → Memory → Memory) (M : Memory) (C : Columns) (ha : a < S.levels) (hB : ∃ x, B.Inside x) (C' : Columns) :
    fullPatch solve S F a b volumes areas area count B init leave M C ≠ .ok C' := by
  intro h
  obtain ⟨x, hx⟩ := hB
  obtain ⟨V, hV⟩ := (C143_patch E T hNN hL href solve hs hdt F a b volumes areas area count B init leave M M C).1.1 ⟨C', h⟩ x hx
  have hbh : Behind ⟨a, b, x.1, x.2, areas⟩ S := by
    unfold Behind
    dsimp only
    have h1 : a * b ≤ (S.levels - 1) * b := Nat.mul_le_mul_right _ (by omega)
    have := Nat.mul_le_mul_right (S.levels + 1) (le_trans h1 (Nat.le_add_right _ x.1))
    omega
  obtain ⟨r1, r2⟩ := C143_refused E T hL (by omega) solve hs hdt (F.metric x) ⟨a, b, x.1, x.2, volumes⟩ ⟨a, b, x.1, x.2, areas⟩ (area x)
    ⟨(init x).node, (init x).edge, F.refNode x, F.refEdge x⟩ M count (init x).tracer (F.refTracer x) (C x)
  rw [hV] at r1 r2
  simp only [reduceCtorEq, false_iff] at r1 r2
  apply r2
  by_cases h0 : count = 0
  · exact Or.inr ⟨hbh, Or.inl h0⟩
  · by_cases h1 : S.levels + 2 ≤ 4 * S.order
    · exact Or.inl ⟨h0, h1⟩
    · exact Or.inr ⟨hbh, Or.inr (by omega)⟩

end

/-! ### Examples -/

/-- A column of ten levels in a patch of twelve by eight columns: the step succeeds with any metric, state and number of tracers. -/
example (phys : Thermo.Constants) (solve : BandSolver) (hs : Lapack solve) (G : Metric) (area : Nat → ℝ) (D : Data) (M : Memory)
    (count : Nat) (q ref : Nat → Nat → ℝ) (U : Vdyn.State) : ∃ S : Setup, ∃ V,
    Elements S (fun k => (k : ℝ) + 1 / 2) (fun k => (k : ℝ)) ([0], [2]) ([-1, 1], [1, 1]) ∧
    Stencils S (fun k => (k : ℝ) + 1 / 2) (fun k => (k : ℝ)) (fun k => (k : ℝ) + 1 / 2) (fun k => (k : ℝ)) ([0], [2]) ([-1, 1], [1, 1]) ∧
    SecondOnLevels S (fun k => (k : ℝ) + 1 / 2) (fun k => (k : ℝ)) ([0], [2]) ([-1, 1], [1, 1]) ∧ Lorenz S ∧ S.useRef = true ∧
    S.uniform = false ∧ S.levels = 10 ∧ S.dt ≠ 0 ∧
    fullColumn solve S G ⟨12, 8, 3, 4, fun _ => 1⟩ ⟨12, 8, 3, 4, fun _ => 1⟩ area D M count q ref U = .ok V := by
  obtain ⟨S0, E, T, hL, hN, hn, href, hu, hp, -⟩ := unit_setup 10 (by omega) phys
  obtain ⟨S, hS⟩ : ∃ S, S = { S0 with dt := 1 } := ⟨_, rfl⟩
  have E := elements_dt E 1
  have T := stencils_dt T 1
  rw [← hS] at E T
  have hL : Lorenz S := hS ▸ hL
  have hdt : S.dt ≠ 0 := by rw [hS]; exact one_ne_zero
  have hN : S.levels = 10 := hS ▸ hN
  have hn : S.order = 1 := hS ▸ hn
  have hu : S.uniform = false := hS ▸ hu
  obtain ⟨r1, r2⟩ := C143_refused E T hL (by omega) solve hs hdt G ⟨12, 8, 3, 4, fun _ => 1⟩ ⟨12, 8, 3, 4, fun _ => 1⟩ area D M count q ref U
  cases hV : fullColumn solve S G ⟨12, 8, 3, 4, fun _ => 1⟩ ⟨12, 8, 3, 4, fun _ => 1⟩ area D M count q ref U with
  | exc =>
    have := r1.1 hV
    omega
  | ub =>
    have := r2.1 hV
    simp only [Behind, hN, hn] at this
    omega
  | ok V =>
    exact ⟨S, V, E, T, fun h => by rw [hu] at h; simp at h, hL, hS ▸ href, hu, hN, hdt, hV⟩

end Verif.ColumnV2
