/-
C91: a column over sloping interfaces with shear, and the column without.
-/
import Verif.Vdyn.Band
import Verif.Vdyn.Examples

namespace Verif.Vdyn

open Verif.Column Verif.Interp Finset Polynomial

/-- The flux correction function of order two. -/
theorem sample_correction : IsCorrection 2 2 (X ^ 2) := by
  refine ⟨by simp, by simp, dvd_refl _, fun p hp => ?_⟩
  have : p = 0 := by
    by_contra h0
    rw [degree_eq_natDegree h0] at hp
    exact absurd (Nat.cast_lt.1 hp) (by simp)
  simp [this]

/-- The derivative between two levels. -/
theorem sample_derivative {S : Setup} (E : Elements S (fun k => (k : ℝ) + 1 / 2) (fun k => (k : ℝ)) ([0], [2]) ([-1, 1], [1, 1]))
    (hN : S.levels = 2) (hn : S.order = 1) (u : Nat → ℝ) : applyRow S.diffNE u 1 = u 1 - u 0 := by
  obtain ⟨solve, hs, hA, -, -⟩ := E.setup
  have hfit := sample_fits S hN hn (fun k => (k : ℝ) + 1 / 2) u
  have := (C88_value solve hs .levels S.order S.levels (S.levels + 1) _ _ (S.levels + 1) _ true S.diffNE hA E.separated E.apartNodes
    u (fun a => C (u a)) (fun b hb => (hfit b hb).1) (fun b hb => (hfit b hb).2) (X ^ 2) (by rw [hn]; exact sample_correction) 1 0).2.2.2
    (by rw [hN, hn]; norm_num) (by rw [hn])
  rw [this, hn]
  simp [jump]
  ring

/-- A metric with sloping interfaces. -/
noncomputable def slopingMetric : Metric :=
  { sampleMetric (fun _ => 1) with conAEdge := fun _ c => if c = 2 then 1 else 0 }

/-- Wind that grows with height. -/
noncomputable def shearData : Data :=
  { sampleData with node := fun c k => if c = 0 then (k : ℝ) else (k : ℝ) + 1 }

/-- **C91, where the code does something else.**  Over sloping interfaces, with wind that grows with height, the Jacobian is not
the derivative of the residual: in this column of two levels moving up, the derivative of the residual of vertical velocity along
vertical velocity exists and differs from the Jacobian. -/
theorem C91_derivative_false : ∃ (S : Setup) (node edge : Nat → ℝ) (gauss lob : List ℝ × List ℝ) (G : Metric) (D : Data)
    (M : Memory) (x y : Nat → ℝ) (d : ℝ), Elements S node edge gauss lob ∧ Lorenz S ∧ S.uniform = false ∧ (∀ i, 0 < x i) ∧
    HasDerivAt (fun t => residual S G (setupColumn S D M) (fun i => x i + t * y i) 4) d 0 ∧
    product (jacobianUpdates S G (setupColumn S D M) x) y 4 = d + 1 := by
  obtain ⟨S, E, hL, hN, hn, href, hu, hdt, hi, -, -⟩ := sample_setup
  let S' : Setup := { S with phys := ⟨1, 1, 1, 1, 1, 3, 1, 1, 1, 1, 1, 1, 1, 1, 1⟩ }
  have E' : Elements S' (fun k => (k : ℝ) + 1 / 2) (fun k => (k : ℝ)) ([0], [2]) ([-1, 1], [1, 1]) := ⟨E.elements, E.setup, E.separated, E.apartNodes, E.apartEdges, E.gaussRule,
    E.onGauss, E.lobattoRule, E.onLobatto, E.insideEdges, E.insideNodes⟩
  let M : Memory := ⟨fun _ _ => 0, fun _ _ => 0, fun _ _ => 0, fun _ _ => 0, fun _ => 0, fun _ => 0, fun _ => 0⟩
  have h := C91_interfaces E' hL slopingMetric (fun k _ => by simp [slopingMetric, sampleMetric]) shearData M href (fun _ => 1)
    (fun i => if i = 4 then 1 else 0) (by norm_num [S']) (fun k _ => one_ne_zero) 1 one_pos (by show 1 < S.levels; omega)
    (by
      show applyRow S.interpNE (fun _ => (1 : ℝ)) 1 ≠ 0
      rw [hi, applyRow_eq]
      simp only [sampleMean]
      norm_num)
    (by
      rw [verticalWind, if_neg (by show ¬ (1 = 0 ∨ S.levels ≤ 1); omega)]
      simp [slopingMetric, sampleMetric, asColumn])
  have hs : slope S' slopingMetric shearData 1 = 1 := by
    unfold slope
    rw [sample_derivative E' hN hn]
    simp [slopingMetric, sampleMetric, shearData]
  have hd : diffuse S' S'.diffDiffEE S'.nuVector (fun j => if 3 * j + 1 = 4 then (1 : ℝ) else 0) (fun _ => 0) 1 = 0 := by
    unfold diffuse
    rw [if_neg (by show ¬ S.uniform = true; rw [hu]; simp)]
  refine ⟨S', _, _, _, _, slopingMetric, shearData, M, fun _ => 1, fun i => if i = 4 then 1 else 0, _, E', hL, hu,
    fun _ => one_pos, h, ?_⟩
  rw [hs, hd]
  norm_num

/-- A column over level ground meets the hypotheses of `C91_derivative_partial`. -/
example : ∃ S : Setup, Elements S (fun k => (k : ℝ) + 1 / 2) (fun k => (k : ℝ)) ([0], [2]) ([-1, 1], [1, 1]) ∧ Lorenz S ∧
    S.useRef = true ∧ S.uniform = false ∧
    (∀ k < S.levels, (sampleMetric fun _ => 1).conA k 2 = (sampleMetric fun _ => 1).conXi k 0 ∧
      (sampleMetric fun _ => 1).conB k 2 = (sampleMetric fun _ => 1).conXi k 1) ∧
    (∀ k, 0 < k → k < S.levels → applyRow S.interpNE (asColumn shearData fun _ => 1).r k ≠ 0) ∧
    (∀ k, 0 < k → k < S.levels → verticalWind S (sampleMetric fun _ => 1) (asColumn shearData fun _ => 1) k ≠ 0) ∧
    (∀ k, 0 < k → k < S.levels → slope S (sampleMetric fun _ => 1) shearData k = 0) := by
  obtain ⟨S, E, hL, hN, hn, href, hu, hdt, hi, -, -⟩ := sample_setup
  refine ⟨S, E, hL, href, hu, fun k _ => by simp [sampleMetric], fun k _ _ => ?_, fun k h0 hk => ?_, fun k _ _ => ?_⟩
  · rw [hi, applyRow_eq]
    simp only [sampleMean, asColumn]
    norm_num
  · rw [verticalWind, if_neg (by omega)]
    simp [sampleMetric, asColumn]
  · simp [slope, sampleMetric]

/-- The operators of two elements of one level each: the hypotheses of `C91_in_band` and `C91_stored`. -/
example : ∃ S : Setup, Elements S (fun k => (k : ℝ) + 1 / 2) (fun k => (k : ℝ)) ([0], [2]) ([-1, 1], [1, 1]) ∧
    Stencils S (fun k => (k : ℝ) + 1 / 2) (fun k => (k : ℝ)) (fun k => (k : ℝ) + 1 / 2) (fun k => (k : ℝ)) ([0], [2]) ([-1, 1], [1, 1]) ∧
    Lorenz S ∧ offDiagonals S = some 4 := by
  obtain ⟨S, E, hL, hN, hn, href, hu, hdt, hi, -, -⟩ := sample_setup
  obtain ⟨solve, hs⟩ := solver_exists
  have hsep : Separated (fun b => ((b * 1 : ℕ) : ℝ)) 2 := fun a _ => by
    push_cast
    norm_num [eps]
  have f0 : findElement (fun b => ((b * 1 : ℕ) : ℝ)) 2 ((0 : ℕ) : ℝ) = (0, false) :=
    find_in hsep ⟨by omega, Or.inl rfl, Or.inr (by norm_num [eps])⟩
  have f1 : findElement (fun b => ((b * 1 : ℕ) : ℝ)) 2 ((1 : ℕ) : ℝ) = (0, true) :=
    find_on hsep ⟨by omega, by norm_num [eps], by norm_num [eps]⟩
  have f2 : findElement (fun b => ((b * 1 : ℕ) : ℝ)) 2 ((2 : ℕ) : ℝ) = (1, false) :=
    find_in hsep ⟨by omega, Or.inr (by norm_num [eps]), Or.inl rfl⟩
  obtain ⟨A, hA⟩ : ∃ A, interpInit .levels 1 2 3 (fun k => (k : ℝ) + 1 / 2) (fun k => (k : ℝ)) 3 (fun k => (k : ℝ)) false = .ok A := by
    unfold interpInit
    rw [if_neg (by decide), if_neg (by decide), if_neg (by decide)]
    simp only [Bool.false_eq_true, false_and, if_false]
    refine fill_of fun l hl _ _ => ?_
    obtain rfl | rfl | rfl : l = 0 ∨ l = 1 ∨ l = 2 := by omega
    · unfold levelRow levelBase
      rw [show 2 / 1 = 2 from rfl, f0]
      simp
    · unfold levelRow levelBase
      rw [show 2 / 1 = 2 from rfl, f1]
      simp
    · unfold levelRow levelBase
      rw [show 2 / 1 = 2 from rfl, f2]
      simp
  obtain ⟨B, hB⟩ : ∃ B, interpInit .interfaces 1 2 3 (fun k => (k : ℝ) + 1 / 2) (fun k => (k : ℝ)) 2 (fun k => (k : ℝ) + 1 / 2) false =
      .ok B := by
    unfold interpInit
    rw [if_neg (by decide), if_neg (by decide), if_neg (by decide)]
    simp only [Bool.false_eq_true, false_and, if_false]
    exact fill_of fun l hl _ _ => rfl
  obtain ⟨K, hK⟩ : ∃ K, diffDiffInit solve .interfaces 1 2 3 (fun k => (k : ℝ) + 1 / 2) (fun k => (k : ℝ)) ([0], [2]) ([-1, 1], [1, 1]) =
      .ok K := by
    unfold diffDiffInit
    rw [if_neg (by decide), if_neg (by decide), if_neg (by decide), if_neg (by decide)]
    exact ⟨_, rfl⟩
  refine ⟨{ S with interpNE := A, interpEN := B, diffDiffEE := K },
    ⟨E.elements, E.setup, E.separated, E.apartNodes, E.apartEdges, E.gaussRule, E.onGauss, E.lobattoRule, E.onLobatto, E.insideEdges,
      E.insideNodes⟩, ⟨?_, ?_, ⟨solve, ?_⟩, E.separated, E.insideEdges, E.insideNodes⟩, hL, ?_⟩
  · dsimp only
    rw [hN, hn]
    exact hA
  · dsimp only
    rw [hN, hn]
    exact hB
  · dsimp only
    rw [hN, hn]
    exact hK
  · simp [offDiagonals, E.elements, hn]

/-- Statements in a band of two diagonals: one below, one above. -/
example : banded 1 (store 1 [⟨1, 0, 3⟩, ⟨0, 1, 4⟩, ⟨1, 0, 2⟩]) 1 0 = 5 := by
  rw [C91_band 1 _ (by intro u hu; fin_cases hu <;> simp)]
  norm_num [total]

end Verif.Vdyn
