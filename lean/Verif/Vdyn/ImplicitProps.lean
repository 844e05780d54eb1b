/-
C92: the implicit step of a column is one step of Newton's method; it conserves, keeps the ends and keeps hydrostatic balance.
-/
import Verif.Vdyn.ImplicitLemmas

namespace Verif.Vdyn

open Verif.Column Verif.Interp Finset Polynomial

/-- The Jacobian of the column maps no vector but zero to zero. -/
def RegularColumn (S : Setup) (G : Metric) (D : Data) (M : Memory) : Prop :=
  ∀ c : Nat → ℝ,
    (∀ i < 3 * (S.levels + 1), product (jacobianUpdates S G (setupColumn S D M) (setupColumn S D M).state) c i = 0) →
    ∀ i < 3 * (S.levels + 1), c i = 0

theorem bandEntry_banded (d : Nat) (m : Int → ℝ) (i j : Nat) : bandEntry (3 * d + 1) d m i j = banded d m i j := by
  unfold bandEntry banded
  push_cast
  rfl

theorem writeSoln_unknowns {S : Setup} (hL : Lorenz S) (s : Nat → ℝ) (U : State) :
    Agree S.levels (unknowns (writeSoln S s U).node (writeSoln S s U).edge) s := by
  obtain ⟨h1, h2, h3⟩ := hL
  constructor
  · intro i hi
    have hk : i / 3 < S.levels := by omega
    unfold unknowns
    obtain h | h | h : i % 3 = 0 ∨ i % 3 = 1 ∨ i % 3 = 2 := by omega
    · rw [if_pos h]
      simp only [writeSoln, h2, hk, vec]
      simp only [and_self, if_true]
      congr 1
      omega
    · rw [if_neg (by omega), if_pos h]
      simp only [writeSoln, h1, h2, vec]
      rw [if_neg (by simp), if_pos (by refine ⟨?_, ?_, ?_⟩ <;> first | trivial | omega)]
      congr 1
      omega
    · rw [if_neg (by omega), if_neg (by omega)]
      simp only [writeSoln, h1, h2, vec]
      rw [if_neg (by omega), if_neg (by omega), if_pos (by refine ⟨?_, ?_⟩ <;> first | trivial | omega)]
      congr 1
      omega
  · unfold unknowns
    rw [if_neg (by omega), if_pos (by omega)]
    simp only [writeSoln, h1, h2, vec]
    rw [if_neg (by simp), if_pos (by refine ⟨?_, ?_, ?_⟩ <;> first | trivial | omega)]
    congr 1
    omega

theorem state_unknowns {S : Setup} (hL : Lorenz S) (D : Data) (M : Memory) :
    Agree S.levels (setupColumn S D M).state (unknowns D.node D.edge) := by
  constructor
  · intro i hi
    have hk : i / 3 < S.levels := by omega
    have hs := state_eq hL D M (i / 3) hk
    have hw := state_w hL D M (i / 3)
    unfold unknowns
    obtain h | h | h : i = 3 * (i / 3) ∨ i = 3 * (i / 3) + 1 ∨ i = 3 * (i / 3) + 2 := by omega
    · rw [if_pos (by omega), ← hs.1, ← h]
    · rw [if_neg (by omega), if_pos (by omega), ← hw, ← h]
    · rw [if_neg (by omega), if_neg (by omega), ← hs.2, ← h]
  · unfold unknowns
    rw [if_neg (by omega), if_pos (by omega), state_w hL]
    congr 1
    omega

theorem agree_symm {N : Nat} {x y : Nat → ℝ} (h : Agree N x y) : Agree N y x := ⟨fun i hi => (h.1 i hi).symm, h.2.symm⟩

theorem agree_trans {N : Nat} {x y z : Nat → ℝ} (h : Agree N x y) (h' : Agree N y z) : Agree N x z :=
  ⟨fun i hi => (h.1 i hi).trans (h'.1 i hi), h.2.trans h'.2⟩

theorem agree_sub {N : Nat} {x y x' y' : Nat → ℝ} (h : Agree N x x') (h' : Agree N y y') :
    Agree N (fun i => x i - y i) (fun i => x' i - y' i) :=
  ⟨fun i hi => by show x i - y i = x' i - y' i; rw [h.1 i hi, h'.1 i hi], by show x _ - y _ = x' _ - y' _; rw [h.2, h'.2]⟩

section
variable {S : Setup} {node edge sNode sEdge : Nat → ℝ} {gauss lob : List ℝ × List ℝ}

/-- The residual of the column itself has no entries besides those of the unknowns. -/
theorem residual_unused (hL : Lorenz S) (G : Metric) (M : Memory) (c : Nat) (hc : c = 0 ∨ c = 2) :
    residual S G M M.state (3 * S.levels + c) = 0 := by
  rw [residual_at S G M M.state c S.levels (by omega), sub_self, zero_mul, add_zero]
  unfold tendency onEdge
  rw [if_neg (by omega), if_neg (by omega), hL.2.1]
  rcases hc with rfl | rfl <;> simp

/-- When the step succeeds and what it computes. -/
theorem newton_cases (E : Elements S node edge gauss lob) (T : Stencils S node edge sNode sEdge gauss lob) (hL : Lorenz S)
    (solve : BandSolver) (hs : Lapack solve) (G : Metric) (D : Data) (M : Memory) {d : Nat} (hd : offDiagonals S = some d) :
    (newtonStep solve S G D M = none ↔ S.levels < d ∨ ¬ RegularColumn S G D M) ∧
    ∀ s, newtonStep solve S G D M = some s → ∀ i < 3 * (S.levels + 1),
      product (jacobianUpdates S G (setupColumn S D M) (setupColumn S D M).state)
        (fun j => (setupColumn S D M).state j - s j) i =
      residual S G (setupColumn S D M) (setupColumn S D M).state i := by
  unfold newtonStep dgbsv
  dsimp only
  rw [(C91_refused S G _ _).2.1 hL, hd]
  dsimp only
  set M1 := setupColumn S D M with hM1
  obtain ⟨g1, g2, -⟩ := hs (3 * (S.levels + 1)) d (3 * d + 1) (store d (jacobianUpdates S G M1 M1.state))
    (residual S G M1 M1.state)
  have hst := C91_stored E T hL hd G M1 M1.state
  have hreg : Regular (3 * (S.levels + 1)) (3 * d + 1) d (store d (jacobianUpdates S G M1 M1.state)) ↔ RegularColumn S G D M := by
    unfold Regular RegularColumn
    simp only [bandEntry_banded, hst, ← hM1]
  by_cases hlt : S.levels < d
  · rw [if_pos (by omega)]
    simp [hlt]
  · rw [if_neg (by omega)]
    by_cases hr : RegularColumn S G D M
    · obtain ⟨s, h1, h2⟩ := g1 le_rfl (hreg.2 hr)
      rw [h1]
      simp only [Option.map_some, hlt, hr, not_true_eq_false, or_self, reduceCtorEq, true_and]
      intro t ht i hi
      obtain rfl := Option.some.inj ht
      have := h2 i hi
      simp only [bandEntry_banded, hst] at this
      rw [← this]
      simp
    · rw [g2 le_rfl (fun h => hr (hreg.1 h))]
      simp [hr]

/-- **C92 (refused).**  The step is refused if density times potential temperature is on interfaces or vertical velocity on levels.
Otherwise, for finite elements, it is refused if and only if the order is above five, the column has fewer levels than the band has
diagonals on one side, or its Jacobian is singular. -/
theorem C92_refused (E : Elements S node edge gauss lob) (T : Stencils S node edge sNode sEdge gauss lob) 
    (solve : BandSolver) (hs : Lapack solve) (G : Metric) (D : Data) (M : Memory) (U : State) :
    (S.pOnEdge = true ∨ S.wOnEdge = false → implicitColumn solve S G D M U = none) ∧
    (Lorenz S → (implicitColumn solve S G D M U = none ↔
      5 < S.order ∨ (∃ d, offDiagonals S = some d ∧ S.levels < d) ∨ ¬ RegularColumn S G D M)) := by
  constructor
  · intro h
    have := (C91_refused S G (setupColumn S D M) (setupColumn S D M).state).1.2 h
    unfold implicitColumn newtonStep
    simp only [this, Option.map_none]
  · intro hL
    unfold implicitColumn
    rw [Option.map_eq_none_iff]
    have hn := (penalty_facts E).1
    have hoff := (C91_refused S G (setupColumn S D M) (setupColumn S D M).state).2.2 E.elements
    cases hd : offDiagonals S with
    | none =>
      have h5 := hoff.1 hd
      have : newtonStep solve S G D M = none := by
        unfold newtonStep
        simp only [hd]
        cases jacobian S G (setupColumn S D M) (setupColumn S D M).state <;> rfl
      rw [this]
      constructor
      · intro _
        left
        omega
      · exact fun _ => rfl
    | some d =>
      rw [(newton_cases E T hL solve hs G D M hd).1]
      have h5 : ¬ 5 < S.order := fun h => by
        have := hoff.2 (Or.inr h)
        rw [hd] at this
        simp at this
      simp [h5]

/-- The equations that the step solves, for the data. -/
theorem newton_equations (E : Elements S node edge gauss lob) (T : Stencils S node edge sNode sEdge gauss lob)
    (hNN : SecondOnLevels S node edge gauss lob) (hL : Lorenz S) (href : S.useRef = true) (solve : BandSolver) (hs : Lapack solve)
    (G : Metric) (D : Data) (M : Memory) (U V : State) (hV : implicitColumn solve S G D M U = some V) :
    (∀ i, IsUnknown S i →
      product (jacobianUpdates S G (setupColumn S D M) (unknowns D.node D.edge))
        (fun j => unknowns D.node D.edge j - unknowns V.node V.edge j) i =
      residual S G (setupColumn S D M) (unknowns D.node D.edge) i) ∧ RegularColumn S G D M := by
  unfold implicitColumn at hV
  obtain ⟨s, h1, rfl⟩ := Option.map_eq_some_iff.1 hV
  cases hd : offDiagonals S with
  | none =>
    unfold newtonStep at h1
    simp only [hd] at h1
    simp at h1
  | some d =>
    obtain ⟨hnone, hsome⟩ := newton_cases E T hL solve hs G D M hd
    have ha := state_unknowns hL D M
    have hb := writeSoln_unknowns hL s U
    refine ⟨fun i hi => ?_, ?_⟩
    · rw [← residual_congr E T hNN hL href G D M M ha i hi, ← hsome s h1 i hi.1]
      exact product_congr E T hL G D M M (agree_symm ha) (agree_sub (agree_symm ha) hb) i hi
    · by_contra hr
      rw [hnone.2 (Or.inr hr)] at h1
      simp at h1

theorem unknown_of {S : Setup} {i : Nat} (hi : i < 3 * (S.levels + 1)) (h : ¬ IsUnknown S i) :
    i = 3 * S.levels + 0 ∨ i = 3 * S.levels + 2 := by
  unfold IsUnknown at h
  omega

theorem agree_of {S : Setup} {x y : Nat → ℝ} (h : ∀ i, IsUnknown S i → x i = y i) : Agree S.levels x y :=
  ⟨fun i hi => h i ⟨by omega, Or.inr hi⟩, h _ ⟨by omega, Or.inl (by omega)⟩⟩

/-- **C92 (Newton's method).**  The step takes the state of the column `x` to the one and only `x'` with
`J (x - x') = F x`, for the residual `F` and the Jacobian `J` at `x`, in the equation of every unknown. -/
theorem C92_newton (E : Elements S node edge gauss lob) (T : Stencils S node edge sNode sEdge gauss lob)
    (hNN : SecondOnLevels S node edge gauss lob) (hL : Lorenz S) (href : S.useRef = true) (solve : BandSolver) (hs : Lapack solve)
    (G : Metric) (D : Data) (M : Memory) (U V : State) (hV : implicitColumn solve S G D M U = some V) (x' : Nat → ℝ) :
    (∀ i, IsUnknown S i →
      product (jacobianUpdates S G (setupColumn S D M) (unknowns D.node D.edge)) (fun j => unknowns D.node D.edge j - x' j) i =
      residual S G (setupColumn S D M) (unknowns D.node D.edge) i) ↔ Agree S.levels x' (unknowns V.node V.edge) := by
  obtain ⟨heq, hreg⟩ := newton_equations E T hNN hL href solve hs G D M U V hV
  have ha := state_unknowns hL D M
  constructor
  · intro h
    classical
    let c : Nat → ℝ := fun i => if IsUnknown S i then unknowns V.node V.edge i - x' i else 0
    have hc : Agree S.levels c (fun i => unknowns V.node V.edge i - x' i) := agree_of fun i hi => if_pos hi
    have hz := hreg c fun i hi => by
      by_cases hu : IsUnknown S i
      · rw [product_congr E T hL G D M M ha hc i hu]
        have e : ∀ us : List Update, product us (fun j => unknowns V.node V.edge j - x' j) i =
            product us (fun j => unknowns D.node D.edge j - x' j) i -
              product us (fun j => unknowns D.node D.edge j - unknowns V.node V.edge j) i := by
          intro us
          unfold product
          induction us with
          | nil => simp
          | cons u us ih =>
            simp only [List.map_cons, List.sum_cons]
            rw [ih]
            split_ifs <;> ring
        rw [e, h i hu, heq i hu, sub_self]
      · have hci : c i = 0 := if_neg hu
        rcases unknown_of hi hu with h0 | h0
        · rw [h0] at hci ⊢
          rw [product_unused hL G _ _ _ E 0 (Or.inl rfl), hci, mul_zero]
        · rw [h0] at hci ⊢
          rw [product_unused hL G _ _ _ E 2 (Or.inr rfl), hci, mul_zero]
    refine agree_of fun i hi => ?_
    have := hz i hi.1
    have hci : c i = unknowns V.node V.edge i - x' i := if_pos hi
    linarith
  · intro h i hi
    rw [← heq i hi]
    exact product_congr E T hL G D M M ⟨fun _ _ => rfl, rfl⟩ (agree_sub ⟨fun _ _ => rfl, rfl⟩ h) i hi

/-- **C92 (Newton's method, derivative).**  Where the Jacobian is the derivative, the residual starts to fall along the step at the
rate at which it would vanish at its end. -/
theorem C92_derivative_partial (E : Elements S node edge gauss lob) (T : Stencils S node edge sNode sEdge gauss lob)
    (hNN : SecondOnLevels S node edge gauss lob) (hL : Lorenz S) (href : S.useRef = true) (solve : BandSolver) (hs : Lapack solve)
    (G : Metric) (D : Data) (M : Memory) (U V : State) (hV : implicitColumn solve S G D M U = some V)
    (hsym : ∀ k < S.levels, G.conA k 2 = G.conXi k 0 ∧ G.conB k 2 = G.conXi k 1) (hp0 : S.phys.r / S.phys.p0 ≠ 0)
    (hp : ∀ k < S.levels, D.node 2 k ≠ 0)
    (hr : ∀ k, 0 < k → k < S.levels → applyRow S.interpNE (D.node 4) k ≠ 0)
    (hwind : ∀ k, 0 < k → k < S.levels → verticalWind S G (asColumn D (unknowns D.node D.edge)) k ≠ 0)
    (hu : S.uniform = false) (hslope : ∀ k, 0 < k → k < S.levels → slope S G D k = 0) (i : Nat) (hi : IsUnknown S i) :
    HasDerivAt (fun t => residual S G (setupColumn S D M)
        (fun i => unknowns D.node D.edge i + t * (unknowns V.node V.edge i - unknowns D.node D.edge i)) i)
      (-residual S G (setupColumn S D M) (unknowns D.node D.edge) i) 0 := by
  have h := C91_derivative_partial E hL G hsym D M href (unknowns D.node D.edge)
    (fun i => unknowns V.node V.edge i - unknowns D.node D.edge i) hp0
    (fun k hk => by unfold unknowns; rw [if_pos (by omega), show 3 * k / 3 = k by omega]; exact hp k hk)
    (fun k h0 hk => by
      have : (asColumn D (unknowns D.node D.edge)).r = D.node 4 := by
        funext j
        show unknowns D.node D.edge (3 * j + 2) = _
        unfold unknowns
        rw [if_neg (by omega), if_neg (by omega), show (3 * j + 2) / 3 = j by omega]
      rw [this]
      exact hr k h0 hk) hwind hu hslope i hi
  refine h.congr_deriv ?_
  rw [← (newton_equations E T hNN hL href solve hs G D M U V hV).1 i hi]
  unfold product
  generalize jacobianUpdates S G (setupColumn S D M) (unknowns D.node D.edge) = us
  induction us with
  | nil => simp
  | cons u us ih =>
    simp only [List.map_cons, List.sum_cons]
    rw [ih]
    split_ifs <;> ring

/-- **C92 (untouched).**  The step writes density, density times potential temperature and vertical velocity and nothing else. -/
theorem C92_untouched (hL : Lorenz S) (solve : BandSolver) (G : Metric) (D : Data) (M : Memory) (U V : State)
    (hV : implicitColumn solve S G D M U = some V) (c k : Nat) :
    (c ≠ 2 → c ≠ 4 → V.node c k = U.node c k) ∧ (c ≠ 3 → V.edge c k = U.edge c k) ∧ V.tracer = U.tracer ∧
    (S.levels ≤ k → V.node c k = U.node c k) ∧ (S.levels < k → V.edge c k = U.edge c k) := by
  unfold implicitColumn at hV
  obtain ⟨s, h1, rfl⟩ := Option.map_eq_some_iff.1 hV
  obtain ⟨l1, l2, l3⟩ := hL
  simp only [writeSoln, l1, l2]
  refine ⟨fun h2 h4 => ?_, fun h3 => ?_, trivial, fun h => ?_, fun h => ?_⟩
  · simp [h2, h4]
  · simp [h3]
  · rw [if_neg (by omega), if_neg (by omega), if_neg (by omega)]
  · rw [if_neg (by simp), if_neg (by omega)]

/-- **C92 (ends).**  The step leaves the vertical velocity at the bottom and the top as it was. -/
theorem C92_ends (E : Elements S node edge gauss lob) (T : Stencils S node edge sNode sEdge gauss lob)
    (hNN : SecondOnLevels S node edge gauss lob) (hL : Lorenz S) (href : S.useRef = true) (solve : BandSolver) (hs : Lapack solve)
    (G : Metric) (D : Data) (M : Memory) (U V : State) (hV : implicitColumn solve S G D M U = some V) (hdt : S.dt ≠ 0) :
    V.edge 3 0 = D.edge 3 0 ∧ V.edge 3 S.levels = D.edge 3 S.levels := by
  have heq := (newton_equations E T hNN hL href solve hs G D M U V hV).1
  have key : ∀ k, k = 0 ∨ k = S.levels → V.edge 3 k = D.edge 3 k := by
    intro k hk
    have h := heq (3 * k + 1) ⟨by omega, Or.inl (by omega)⟩
    have hu : ∀ node edge : Nat → Nat → ℝ, unknowns node edge (3 * k + 1) = edge 3 k := fun node edge => by
      unfold unknowns
      rw [if_neg (by omega), if_pos (by omega), show (3 * k + 1) / 3 = k by omega]
    rw [product_end hL G D M _ _ k hk, (C90_velocity hL G D M _ href k).2 hk, hu, hu, sub_self, zero_div] at h
    have := (div_eq_zero_iff.1 h).resolve_right hdt
    linarith
  exact ⟨key 0 (Or.inl rfl), key _ (Or.inr rfl)⟩

/-- Where the volume element does not jump, penalties add nothing to the column. -/
theorem penalty_total (E : Elements S node edge gauss lob) (J : Nat → ℝ) (pJ : Nat → ℝ[X]) (hpJ : Fits S node pJ J)
    (hjoin : ∀ a < S.levels / S.order - 1, jump S.order edge pJ a = 0) (w z : Nat → ℝ) :
    overLevels S edge gauss (fun k => J k * penaltyApply S.penalty w z (fun _ => 0) 1 1 k) = 0 := by
  obtain ⟨hn, hN, hm, hone, -⟩ := penalty_facts E
  obtain ⟨solve, hs, -, -, hP⟩ := E.setup
  by_cases h1 : S.levels / S.order = 1
  · simp [hone h1, overLevels]
  · have hfit : ∃ p : Nat → ℝ[X], Fits S node p z := by
      have : ∀ a, ∃ p : ℝ[X], a < S.levels / S.order → p.degree < (S.order : ℕ) ∧ Through p node z (a * S.order) S.order := by
        intro a
        by_cases ha : a < S.levels / S.order
        · obtain ⟨p, h1, h2⟩ := lagrange_exists S.order (a * S.order) node z (apart_distinct (E.apartNodes a ha))
          exact ⟨p, fun _ => ⟨h1, h2⟩⟩
        · exact ⟨0, fun h => absurd h ha⟩
      choose p hp using this
      exact ⟨p, hp⟩
    obtain ⟨p, hp⟩ := hfit
    have key := C87_energy solve hs S.order S.levels (S.levels + 1) node edge S.penalty hP (by omega) gauss E.gaussRule E.onGauss
      w z (fun _ => 0) J 1 1 one_pos p pJ (fun a ha => (hp a ha).1) (fun a ha => (hpJ a ha).1)
      (fun a ha => by simpa using (hp a ha).2) (fun a ha => (hpJ a ha).2)
    simp only [mul_one, sub_zero] at key
    unfold overLevels
    rw [sum_congr rfl (fun k _ => (mul_assoc _ _ _).symm), key, sum_eq_zero, mul_zero]
    intro a ha
    rw [hjoin a (mem_range.1 ha)]
    ring

/-- **C92 (conservation; partial).**  Where the volume element does not jump over element edges, the step leaves the mass of the
column as it was and, without uniform diffusion, the integral of density times potential temperature.  Missing: volume elements
that jump, see `C90_conserved_false`, and uniform diffusion. -/
theorem C92_conserved_partial (E : Elements S node edge gauss lob) (T : Stencils S node edge sNode sEdge gauss lob)
    (hNN : SecondOnLevels S node edge gauss lob) (hL : Lorenz S) (href : S.useRef = true) (solve : BandSolver) (hs : Lapack solve)
    (G : Metric) (hJ : ∀ k < S.levels, G.jac k ≠ 0) (D : Data) (M : Memory) (U V : State)
    (hV : implicitColumn solve S G D M U = some V) (hdt : S.dt ≠ 0) (pJ : Nat → ℝ[X]) (hpJ : Fits S node pJ G.jac)
    (hjoin : ∀ a < S.levels / S.order - 1, jump S.order edge pJ a = 0) :
    overLevels S edge gauss (fun k => G.jac k * V.node 4 k) = overLevels S edge gauss (fun k => G.jac k * D.node 4 k) ∧
    (S.uniform = false →
      overLevels S edge gauss (fun k => G.jac k * V.node 2 k) = overLevels S edge gauss (fun k => G.jac k * D.node 2 k)) := by
  have heq := (newton_equations E T hNN hL href solve hs G D M U V hV).1
  set x := unknowns D.node D.edge with hx
  set y : Nat → ℝ := fun j => x j - unknowns V.node V.edge j with hy
  have key : ∀ c, c = 0 ∨ c = 2 → (∀ k < S.levels, residual S G (setupColumn S D M) x (3 * k + c) =
      applyRow S.diffEN (flux S G (asColumn D x) (fun j => x (3 * j + c))) k / G.jac k -
        penaltyApply S.penalty (fun a => |verticalWind S G (asColumn D x) ((a + 1) * S.order)|) (fun j => x (3 * j + c))
          (fun _ => 0) 1 1 k) → overLevels S edge gauss (fun k => G.jac k * y (3 * k + c)) = 0 := by
    intro c hc hres
    have hpt : ∀ k < S.levels, G.jac k * y (3 * k + c) = S.dt *
        ((applyRow S.diffEN (flux S G (asColumn D x) (fun j => x (3 * j + c))) k -
          applyRow S.diffEN (fun m => G.jacEdge m * (applyRow S.interpNE (fun n => x (3 * n + c)) m * windChange S G y m +
            applyRow S.interpNE (fun n => y (3 * n + c)) m * verticalWind S G (asColumn D x) m)) k) -
          G.jac k * penaltyApply S.penalty (fun a => |verticalWind S G (asColumn D x) ((a + 1) * S.order)|)
            (fun j => x (3 * j + c)) (fun _ => 0) 1 1 k +
          (G.jac k * penaltyApply S.penalty (fun a => |verticalWind S G (asColumn D x) ((a + 1) * S.order)|)
            (fun l => y (3 * l + c)) (fun _ => 0) 1 1 k +
          G.jac k * penaltyApply S.penalty (fun a => sgn (verticalWind S G (asColumn D x) ((a + 1) * S.order)) *
            windChange S G y ((a + 1) * S.order)) (fun l => x (3 * l + c)) (fun _ => 0) 1 1 k)) := by
      intro k hk
      have h := heq (3 * k + c) ⟨by omega, Or.inr (by omega)⟩
      rw [product_level E hL G D M x y k c hc hk, hres k hk] at h
      have := hJ k hk
      field_simp at h ⊢
      linear_combination h
    rw [overLevels_congr S edge gauss _ _ hpt, overLevels_mul, overLevels_add, overLevels_sub, overLevels_sub, overLevels_add,
      penalty_total E _ pJ hpJ hjoin, penalty_total E _ pJ hpJ hjoin, penalty_total E _ pJ hpJ hjoin, derivative_total E,
      derivative_total E, flux_ends _ _ _ _ _ (Or.inr le_rfl), flux_ends _ _ _ _ _ (Or.inl rfl)]
    have w0 : windChange S G y 0 = 0 := if_pos (Or.inl rfl)
    have w1 : windChange S G y S.levels = 0 := if_pos (Or.inr le_rfl)
    have v0 : verticalWind S G (asColumn D x) 0 = 0 := if_pos (Or.inl rfl)
    have v1 : verticalWind S G (asColumn D x) S.levels = 0 := if_pos (Or.inr le_rfl)
    rw [w0, w1, v0, v1]
    ring
  have hval : ∀ (a b : Nat → ℝ), overLevels S edge gauss (fun k => G.jac k * (a k - b k)) = 0 →
      overLevels S edge gauss (fun k => G.jac k * b k) = overLevels S edge gauss (fun k => G.jac k * a k) := by
    intro a b h
    rw [overLevels_congr S edge gauss _ (fun k => G.jac k * a k - G.jac k * b k) (fun k _ => by ring), overLevels_sub] at h
    linarith
  have u2 : ∀ (node edge : Nat → Nat → ℝ) (k : Nat), unknowns node edge (3 * k + 2) = node 4 k := fun node edge k => by
    unfold unknowns
    rw [if_neg (by omega), if_neg (by omega), show (3 * k + 2) / 3 = k by omega]
  have u0 : ∀ (node edge : Nat → Nat → ℝ) (k : Nat), unknowns node edge (3 * k) = node 2 k := fun node edge k => by
    unfold unknowns
    rw [if_pos (by omega), show 3 * k / 3 = k by omega]
  constructor
  · apply hval
    have := key 2 (Or.inr rfl) fun k hk => by
      rw [(C90_levels hL E.elements G D M x href k hk).1, hx, u2, sub_self, zero_div, add_zero]
      rfl
    rw [← this]
    apply overLevels_congr
    intro k _
    rw [hy, hx]
    simp only [u2]
  · intro hu
    apply hval
    have := key 0 (Or.inl rfl) fun k hk => by
      have hd : ∀ nu f g, diffuse S S.diffDiffNN nu f g k = 0 := fun nu f g => by
        unfold diffuse
        rw [hu]
        simp
      rw [Nat.add_zero, (C90_levels hL E.elements G D M x href k hk).2, hd, hx, u0, sub_self, zero_div, add_zero, sub_zero]
      rfl
    rw [← this]
    apply overLevels_congr
    intro k _
    rw [hy, hx]
    simp only [u0, Nat.add_zero]

/-- **C92 (balance).**  The step leaves a column at rest in hydrostatic balance as it was, without uniform diffusion. -/
theorem C92_balance (E : Elements S node edge gauss lob) (T : Stencils S node edge sNode sEdge gauss lob) (hL : Lorenz S)
    (hn : 0 < S.penalty.n) (href : S.useRef = true) (hu : S.uniform = false) (solve : BandSolver) (hs : Lapack solve)
    (G : Metric) (D : Data) (M : Memory) (U V : State) (hV : implicitColumn solve S G D M U = some V)
    (h0 : ∀ k, D.node 0 k = 0 ∧ D.node 1 k = 0 ∧ D.edge 3 k = 0)
    (hbal : ∀ k, 0 < k → k < S.levels →
      applyRow S.interpNE (D.node 2) k / applyRow S.interpNE (D.node 4) k *
        applyRow S.diffNE (fun j => S.phys.cp * Real.exp (S.phys.r / (S.phys.cp - S.phys.r) *
          Real.log (S.phys.r / S.phys.p0 * D.node 2 j))) k = -(S.phys.g * G.derivREdge k)) :
    (∀ k < S.levels, V.node 2 k = D.node 2 k ∧ V.node 4 k = D.node 4 k) ∧ ∀ k ≤ S.levels, V.edge 3 k = 0 := by
  have hNN : SecondOnLevels S node edge gauss lob := fun h => by rw [hu] at h; simp at h
  have ha := state_unknowns hL D M
  have hbal' : ∀ k, 0 < k → k < S.levels →
        theta S (asColumn D (setupColumn S D M).state) k *
          applyRow S.diffNE (exner S (asColumn D (setupColumn S D M).state)) k = -(S.phys.g * G.derivREdge k) := by
    intro k hk0 hk
    rw [← hbal k hk0 hk]
    unfold theta
    rw [interp_congr E T (asColumn D (setupColumn S D M).state).p (D.node 2) (fun j hj => (state_eq hL D M j hj).1) k (by omega),
      interp_congr E T (asColumn D (setupColumn S D M).state).r (D.node 4) (fun j hj => (state_eq hL D M j hj).2) k (by omega)]
    congr 1
    refine diffNE_congr E _ _ (fun j hj => ?_) k hk0 hk
    unfold exner asColumn
    dsimp only
    rw [(state_eq hL D M j hj).1]
  have hrest := (C90_rest hL E.elements hn href hu G D M h0).2 hbal'
  have hN := (C92_newton E T hNN hL href solve hs G D M U V hV (unknowns D.node D.edge)).1 fun i hi => by
    have hz : residual S G (setupColumn S D M) (unknowns D.node D.edge) i = 0 := by
      rw [← residual_congr E T hNN hL href G D M M ha i hi]
      apply hrest
      obtain ⟨h1, h2⟩ := hi
      omega
    rw [hz]
    unfold product
    apply List.sum_eq_zero
    intro v hv
    obtain ⟨u, -, rfl⟩ := List.mem_map.1 hv
    simp
  refine ⟨fun k hk => ⟨?_, ?_⟩, fun k hk => ?_⟩
  · have := agree_p hN k hk
    unfold unknowns at this
    rw [if_pos (by omega), if_pos (by omega), show 3 * k / 3 = k by omega] at this
    exact this.symm
  · have := agree_r hN k hk
    unfold unknowns at this
    rw [if_neg (by omega), if_neg (by omega), if_neg (by omega), if_neg (by omega), show (3 * k + 2) / 3 = k by omega] at this
    exact this.symm
  · have := agree_w hN k hk
    unfold unknowns at this
    rw [if_neg (by omega), if_pos (by omega), if_neg (by omega), if_pos (by omega), show (3 * k + 1) / 3 = k by omega,
      (h0 k).2.2] at this
    exact this.symm

/-- **C92 (history).**  Whether the step is refused, and what it writes, depend on the data of the column only and not on the
columns before it. -/
theorem C92_history (E : Elements S node edge gauss lob) (T : Stencils S node edge sNode sEdge gauss lob)
    (hNN : SecondOnLevels S node edge gauss lob) (hL : Lorenz S) (href : S.useRef = true) (solve : BandSolver) (hs : Lapack solve)
    (G : Metric) (D : Data) (M M' : Memory) (U : State) :
    implicitColumn solve S G D M U = implicitColumn solve S G D M' U := by
  have hregular : ∀ M M', RegularColumn S G D M → RegularColumn S G D M' := by
    intro M M' h c hc
    apply h c
    intro i hi
    by_cases hu : IsUnknown S i
    · rw [product_congr E T hL G D M M' (agree_trans (state_unknowns hL D M) (agree_symm (state_unknowns hL D M')))
        (y' := c) ⟨fun _ _ => rfl, rfl⟩ i hu]
      exact hc i hi
    · have := hc i hi
      rcases unknown_of hi hu with h0 | h0
      · rw [h0] at this ⊢
        rw [product_unused hL G _ _ _ E 0 (Or.inl rfl)] at this ⊢
        exact this
      · rw [h0] at this ⊢
        rw [product_unused hL G _ _ _ E 2 (Or.inr rfl)] at this ⊢
        exact this
  have hnone : ∀ M M', implicitColumn solve S G D M U = none → implicitColumn solve S G D M' U = none := by
    intro M M' h
    rw [(C92_refused E T solve hs G D _ U).2 hL] at h ⊢
    rcases h with h | h | h
    · exact Or.inl h
    · exact Or.inr (Or.inl h)
    · exact Or.inr (Or.inr fun h' => h (hregular M' M h'))
  cases h : implicitColumn solve S G D M U with
  | none => exact (hnone M M' h).symm
  | some V =>
    cases h' : implicitColumn solve S G D M' U with
    | none => rw [hnone M' M h'] at h; simp at h
    | some V' =>
      have e := newton_equations E T hNN hL href solve hs G D M' U V' h'
      have hA := (C92_newton E T hNN hL href solve hs G D M U V h (unknowns V'.node V'.edge)).1 fun i hi => by
        have hself : ∀ z : Nat → ℝ, Agree S.levels z z := fun z => ⟨fun _ _ => rfl, rfl⟩
        rw [residual_congr E T hNN hL href G D M M' (hself _) i hi, ← e.1 i hi]
        exact product_congr E T hL G D M M' (hself _) (hself _) i hi
      unfold implicitColumn at h h'
      obtain ⟨s, h1, rfl⟩ := Option.map_eq_some_iff.1 h
      obtain ⟨s', h1', rfl⟩ := Option.map_eq_some_iff.1 h'
      have hss := agree_trans (agree_symm (writeSoln_unknowns hL s U)) (agree_trans (agree_symm hA) (writeSoln_unknowns hL s' U))
      congr 1
      obtain ⟨l1, l2, l3⟩ := hL
      unfold writeSoln
      congr 1
      · funext c k
        by_cases hk : k < S.levels
        · have a1 := agree_p hss k hk
          have a2 := agree_r hss k hk
          have a3 := agree_w hss k (by omega)
          simp only [vec, Nat.add_zero, a1, a2, a3]
        · simp [hk]
      · funext c k
        by_cases hk : k ≤ S.levels
        · have a3 := agree_w hss k hk
          simp only [vec, l2, a3]
          simp
        · simp [hk]

end

/-- There is such a solver. -/
theorem lapack_exists : ∃ solve : BandSolver, Lapack solve := by
  classical
  obtain ⟨dgesv, hg⟩ := solver_exists
  refine ⟨fun n d lda m b => if 3 * d + 1 ≤ lda ∧ Regular n lda d m then some (dgesv n (fun i j => bandEntry lda d m j i) b) else none,
    fun n d lda m b => ⟨fun h1 h2 => ⟨_, if_pos ⟨h1, h2⟩, fun i hi => ?_⟩, fun _ h2 => if_neg fun h => h2 h.2, fun h1 => if_neg fun h => by omega⟩⟩
  exact hg n (fun i j => bandEntry lda d m j i) b h2 i hi

end Verif.Vdyn
