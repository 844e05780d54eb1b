/-
C90: a column of two elements with one level each; a column whose mass the equations change.
-/
import Verif.Vdyn.Energy

namespace Verif.Vdyn

open Verif.Column Verif.Interp Finset Polynomial

/-- The means of the two levels. -/
noncomputable def sampleMean : Op := ⟨3, 2, fun _ => ⟨fun _ => 1 / 2, 0, 2⟩⟩

/-- Two elements of length one with one level each. -/
theorem sample_setup : ∃ S : Setup, Elements S (fun k => (k : ℝ) + 1 / 2) (fun k => (k : ℝ)) ([0], [2]) ([-1, 1], [1, 1]) ∧
    Lorenz S ∧ S.levels = 2 ∧ S.order = 1 ∧ S.useRef = true ∧ S.uniform = false ∧ S.dt = 1 ∧ S.interpNE = sampleMean ∧
    S.interpEN = sampleMean ∧ 0 < S.penalty.n := by
  obtain ⟨solve, hs⟩ := solver_exists
  have hne : fluxInit solve .levels 1 2 3 (fun k => (k : ℝ) + 1 / 2) (fun k => (k : ℝ)) 3 (fun k => (k : ℝ)) true ≠ .exc := by
    rw [Ne, (C88_refused solve .levels 1 2 3 (fun k => (k : ℝ) + 1 / 2) (fun k => (k : ℝ)) 3 (fun k => (k : ℝ)) true one_pos).1]
    simp only [not_or, not_exists]
    refine ⟨by omega, by omega, by simp, fun l hl => ?_⟩
    obtain ⟨hl1, hl2⟩ := hl
    obtain rfl | rfl | rfl : l = 0 ∨ l = 1 ∨ l = 2 := by omega
    · norm_num at hl2
    · norm_num at hl2
    · norm_num at hl2
  obtain ⟨A, hA⟩ := (C88_refused solve .levels 1 2 3 (fun k => (k : ℝ) + 1 / 2) (fun k => (k : ℝ)) 3 (fun k => (k : ℝ)) true one_pos).2 hne
  have hB : ∃ B, diffInterfaceInit .interfaces 1 2 3 (fun k => (k : ℝ) + 1 / 2) (fun k => (k : ℝ)) 2 (fun k => (k : ℝ) + 1 / 2) false = .ok B := by
    unfold diffInterfaceInit
    rw [if_neg (by decide), if_neg (by decide), if_neg (by decide)]
    exact ⟨_, rfl⟩
  obtain ⟨B, hB⟩ := hB
  have hP : ∃ P : Penalty, penaltyInit solve 1 2 3 (fun k => (k : ℝ) + 1 / 2) (fun k => (k : ℝ)) = .ok P ∧ 0 < P.n := by
    obtain ⟨-, -, -, f, hf, -⟩ := flux_cases hA
    unfold penaltyInit
    rw [if_neg (by decide), if_neg (by decide), if_neg (by decide), if_neg (by decide), if_neg (by decide), hf]
    exact ⟨_, rfl, one_pos⟩
  obtain ⟨P, hP, hPn⟩ := hP
  let S : Setup :=
    { levels := 2, order := 1, volumes := false, wOnEdge := true, pOnEdge := false, massOnLevels := false, uniform := false,
      useRef := true, nuScalar := 0, nuVector := 0, ztop := 1, dt := 1,
      phys := ⟨1, 1, 1, 1, 1, 3, 1, 1, 1, 1, 1, 1, 1, 1, 1⟩, interpNE := sampleMean, interpEN := sampleMean, diffNN := sampleMean,
      diffNNZero := sampleMean, diffNE := A, diffEN := B, diffDiffNN := sampleMean, diffDiffEE := sampleMean, penalty := P }
  refine ⟨S, ⟨rfl, ⟨solve, hs, hA, hB, hP⟩, ?_, ?_, ?_, midpoint_gauss, ?_, trapezoid_lobatto, ?_, ?_, ?_⟩,
    ⟨rfl, rfl, rfl⟩, rfl, rfl, rfl, rfl, rfl, rfl, rfl, hPn⟩
  · intro a _
    dsimp only
    push_cast
    norm_num [eps, S]
  · intro b _ i j hi hj hij
    have h1 : S.order = 1 := rfl
    omega
  · intro b _ i j hi hj hij
    have h1 : S.order = 1 := rfl
    have hd : (1 : ℝ) ≤ |(i : ℝ) - j| := by
      obtain ⟨rfl, rfl⟩ | ⟨rfl, rfl⟩ : (i = 0 ∧ j = 1) ∨ (i = 1 ∧ j = 0) := by omega
      · norm_num
      · norm_num
    have : ((b * S.order + i : ℕ) : ℝ) - ((b * S.order + j : ℕ) : ℝ) = (i : ℝ) - j := by push_cast; ring
    rw [this]
    refine le_trans ?_ hd
    norm_num
  · intro a ha
    have h1 : S.order = 1 := rfl
    rw [h1]
    refine ⟨by push_cast; linarith, fun i hi => ?_⟩
    obtain rfl : i = 0 := by omega
    push_cast
    norm_num
  · intro a ha
    have h1 : S.order = 1 := rfl
    rw [h1]
    refine ⟨by push_cast; linarith, fun i hi => ?_⟩
    obtain rfl | rfl : i = 0 ∨ i = 1 := by omega
    · push_cast
      norm_num
    · push_cast
      norm_num
  · intro a ha j h0 h1
    have h2 : S.order = 1 := rfl
    omega
  · intro a ha i hi
    have h1 : S.order = 1 := rfl
    have h2 : S.levels = 2 := rfl
    rw [h1] at hi ⊢
    rw [h1, h2] at ha
    rw [h2]
    obtain rfl : i = 0 := by omega
    obtain rfl | rfl : a = 0 ∨ a = 1 := by omega
    · refine ⟨by omega, Or.inl rfl, Or.inr (by norm_num [eps])⟩
    · refine ⟨by omega, Or.inr (by norm_num [eps]), Or.inl rfl⟩

/-- A metric with volume elements `J` and a vertical wind that is the vertical velocity. -/
noncomputable def sampleMetric (J : Nat → ℝ) : Metric :=
  ⟨J, fun _ => 1, fun _ => 1, fun _ => 1, fun _ _ => 0, fun _ _ => 0, fun _ c => if c = 2 then 1 else 0, fun _ _ => 0, fun _ _ => 0,
    fun _ c => if c = 2 then 1 else 0⟩

/-- Density 1 below and 2 above, both moving up. -/
noncomputable def sampleData : Data :=
  ⟨fun c k => if c = 2 ∨ c = 4 then (k : ℝ) + 1 else 0, fun c _ => if c = 3 then 1 else 0, fun _ _ => 0, fun _ _ => 0⟩

/-- Constants in elements of one level. -/
theorem sample_fits (S : Setup) (hN : S.levels = 2) (hn : S.order = 1) (node y : Nat → ℝ) : Fits S node (fun a => C (y a)) y := by
  intro a ha
  rw [hn]
  refine ⟨lt_of_le_of_lt degree_C_le (by norm_num), fun i hi => ?_⟩
  obtain rfl : i = 0 := by omega
  simp

/-- **C90, where the code does something else.**  Where the volume element jumps, upwinding changes the mass of a column
although nothing moves through its bottom and top: the integral of the residual of density of this column is not zero. -/
theorem C90_conserved_false : ∃ (S : Setup) (node edge : Nat → ℝ) (gauss lob : List ℝ × List ℝ) (G : Metric) (D : Data)
    (M : Memory), Elements S node edge gauss lob ∧ Lorenz S ∧ (∀ k, 0 < G.jac k) ∧
    overLevels S edge gauss
      (fun k => G.jac k * residual S G (setupColumn S D M) (setupColumn S D M).state (3 * k + 2)) = 1 / 2 := by
  obtain ⟨S, E, hL, hN, hn, href, hu, hdt, hi, -, -⟩ := sample_setup
  refine ⟨S, _, _, _, _, sampleMetric fun k => (k : ℝ) + 1, sampleData,
    ⟨fun _ _ => 0, fun _ _ => 0, fun _ _ => 0, fun _ _ => 0, fun _ => 0, fun _ => 0, fun _ => 0⟩, E, hL,
    fun k => by show (0 : ℝ) < (k : ℝ) + 1; positivity, ?_⟩
  generalize hM : (⟨fun _ _ => 0, fun _ _ => 0, fun _ _ => 0, fun _ _ => 0, fun _ => 0, fun _ => 0, fun _ => 0⟩ : Memory) = M
  rw [C90_mass E hL _ (fun k _ => by show (k : ℝ) + 1 ≠ 0; positivity) sampleData M _ _ _
    (sample_fits S hN hn _ _) (sample_fits S hN hn _ _)]
  have h0 : overLevels S (fun k => (k : ℝ)) ([0], [2]) (fun k => (sampleMetric fun k => (k : ℝ) + 1).jac k *
      (((setupColumn S sampleData M).state (3 * k + 2) - sampleData.node 4 k) / S.dt)) = 0 := by
    rw [overLevels_congr S _ _ _ (fun _ => 0) (fun k hk => by rw [(state_eq hL _ _ k hk).2]; simp)]
    simp [overLevels]
  rw [h0]
  have s0 := (state_eq hL sampleData M 0 (by omega)).2
  have s1 := (state_eq hL sampleData M 1 (by omega)).2
  unfold jumps
  rw [hN, hn]
  simp only [show 2 / 1 - 1 = 1 from rfl, sum_range_one, jump, eval_C]
  rw [show 3 * 0 + 2 = 2 from rfl] at s0
  simp only [zero_add, one_mul, mul_one, mul_zero] at s0 s1 ⊢
  rw [s0, s1]
  have hw : verticalWind S (sampleMetric fun k => (k : ℝ) + 1) (asColumn sampleData (setupColumn S sampleData M).state) 1 = 1 := by
    have hst := state_w hL sampleData M 1
    rw [verticalWind, if_neg (by omega)]
    simp only [asColumn, hst]
    simp [sampleMetric, sampleData]
  rw [hw]
  norm_num [sampleMetric, sampleData]

/-- A column with volume elements that do not jump meets the hypotheses of `C90_conserved_partial`, and one of one size those of
`C90_energy_partial`. -/
example : ∃ S : Setup, Elements S (fun k => (k : ℝ) + 1 / 2) (fun k => (k : ℝ)) ([0], [2]) ([-1, 1], [1, 1]) ∧ Lorenz S ∧
    S.useRef = true ∧ S.uniform = false ∧ (∀ k < S.levels, (sampleMetric fun _ => 3).jac k ≠ 0) ∧
    Fits S (fun k => (k : ℝ) + 1 / 2) (fun _ => C 3) (sampleMetric fun _ => 3).jac ∧
    (∀ a < S.levels / S.order - 1, jump S.order (fun k => (k : ℝ)) (fun _ => C 3) a = 0) ∧
    (∀ a < S.levels / S.order, (((a + 1) * S.order : ℕ) : ℝ) - ((a * S.order : ℕ) : ℝ) = (S.order : ℝ) - (0 : ℕ)) ∧
    (∀ x : Nat → ℝ, (∀ i, 0 < x i) → ∀ k, 0 < k → k < S.levels → applyRow S.interpNE (asColumn sampleData x).r k ≠ 0) := by
  obtain ⟨S, E, hL, hN, hn, href, hu, hdt, hi, -, -⟩ := sample_setup
  refine ⟨S, E, hL, href, hu, fun k _ => by simp [sampleMetric], sample_fits S hN hn _ (fun _ => 3), fun a _ => by simp [jump],
    fun a _ => by push_cast; ring, fun x hx k _ _ => ?_⟩
  rw [hi, applyRow, rowLoop_eq]
  have h0 := hx 2
  have h1 := hx 5
  have : ∑ j ∈ Ico 0 2, (1 / 2 : ℝ) * x (3 * j + 2) = 1 / 2 * x 2 + 1 / 2 * x 5 := by
    rw [← range_eq_Ico, sum_range_succ, sum_range_one]
  simp only [sampleMean, asColumn, this]
  linarith

/-- A column at rest of constant density times potential temperature without gravity is in balance. -/
example : ∃ S : Setup, Lorenz S ∧ S.volumes = false ∧ 0 < S.penalty.n ∧ S.useRef = true ∧ S.uniform = false ∧ 0 < S.levels := by
  obtain ⟨S, E, hL, hN, hn, href, hu, hdt, hi, -, hp⟩ := sample_setup
  exact ⟨S, hL, E.elements, hp, href, hu, by omega⟩

end Verif.Vdyn
