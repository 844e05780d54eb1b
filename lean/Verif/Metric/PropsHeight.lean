import Verif.Metric.HeightLemmas
import Verif.Metric.Samples

/-!
# C80: heights of levels and the strength of Rayleigh friction
-/

namespace Verif.Metric

open Real Verif.Horiz

/-- **C80 (heights).**  After the initial state is set every level and interface of every node, halo included, is at the
height of its terrain-following surface above the ground of that node, on both grids; for two-dimensional equations on
the cubed sphere the level is at zero and the interfaces at zero and one. -/
theorem C80_heights (na nb levels : Nat) (ztop : ℝ) (topo : Nat × Nat → ℝ) (level interface : Nat → ℝ) (H : Heights)
    (i j : Nat) (hi : i < na) (hj : j < nb) :
    (∀ k < levels, (sphereHeights na nb levels false ztop topo level interface H).level i j k =
      sphereHeight ztop (topo (i, j)) (level k)) ∧
    (∀ k ≤ levels, (sphereHeights na nb levels false ztop topo level interface H).interface i j k =
      sphereHeight ztop (topo (i, j)) (interface k)) ∧
    (∀ k < levels, (planeHeights na nb levels ztop topo level interface H).level i j k =
      planeHeight ztop (topo (i, j)) (level k)) ∧
    (∀ k ≤ levels, (planeHeights na nb levels ztop topo level interface H).interface i j k =
      planeHeight ztop (topo (i, j)) (interface k)) ∧
    (sphereHeights na nb levels true ztop topo level interface H).level i j 0 = 0 ∧
    (sphereHeights na nb levels true ztop topo level interface H).interface i j 0 = 0 ∧
    (sphereHeights na nb levels true ztop topo level interface H).interface i j 1 = 1 := by
  unfold sphereHeights planeHeights
  simp only [Bool.false_eq_true, if_false, if_true]
  refine ⟨fun k hk => ?_, fun k hk => ?_, fun k hk => ?_, fun k hk => ?_, ?_, ?_, ?_⟩
  · rw [(columns (fun H : Heights => H.level) _ (fun i j k => topo (i, j) + level k * (ztop - topo (i, j)))
      (fun k => k < levels) (fun _ => True) (fun _ _ _ _ => trivial)
      (fun i j H x y z _ => by simp only [put3_loop]; by_cases h : x = i ∧ y = j ∧ z < levels
                               · rw [if_pos h, if_pos h, h.1, h.2.1]
                               · rw [if_neg h, if_neg h]) na nb H trivial).2, if_pos ⟨hi, hj, hk⟩]
    rfl
  · rw [(columns (fun H : Heights => H.interface) _ (fun i j k => topo (i, j) + interface k * (ztop - topo (i, j)))
      (fun k => k < levels + 1) (fun _ => True) (fun _ _ _ _ => trivial)
      (fun i j H x y z _ => by simp only [put3_loop]; by_cases h : x = i ∧ y = j ∧ z < levels + 1
                               · rw [if_pos h, if_pos h, h.1, h.2.1]
                               · rw [if_neg h, if_neg h]) na nb H trivial).2,
      if_pos ⟨hi, hj, Nat.lt_succ_of_le hk⟩]
    rfl
  · rw [(columns (fun H : Heights => H.level) _ (fun i j k => ztop * level k + decay (level k) * topo (i, j))
      (fun k => k < levels) (fun _ => True) (fun _ _ _ _ => trivial)
      (fun i j H x y z _ => by simp only [put3_loop]; by_cases h : x = i ∧ y = j ∧ z < levels
                               · rw [if_pos h, if_pos h, h.1, h.2.1]
                               · rw [if_neg h, if_neg h]) na nb H trivial).2, if_pos ⟨hi, hj, hk⟩, planeHeight_eq]
  · rw [(columns (fun H : Heights => H.interface) _ (fun i j k => ztop * interface k + decay (interface k) * topo (i, j))
      (fun k => k < levels + 1) (fun _ => True) (fun _ _ _ _ => trivial)
      (fun i j H x y z _ => by simp only [put3_loop]; by_cases h : x = i ∧ y = j ∧ z < levels + 1
                               · rw [if_pos h, if_pos h, h.1, h.2.1]
                               · rw [if_neg h, if_neg h]) na nb H trivial).2,
      if_pos ⟨hi, hj, Nat.lt_succ_of_le hk⟩, planeHeight_eq]
  · rw [(columns (fun H : Heights => H.level) _ (fun _ _ _ => 0)
      (fun k => k = 0) (fun _ => True) (fun _ _ _ _ => trivial)
      (fun i j H x y z _ => by simp only [put3]) na nb H trivial).2, if_pos ⟨hi, hj, rfl⟩]
  · rw [(columns (fun H : Heights => H.interface) _ (fun _ _ k => if k = 0 then 0 else 1)
      (fun k => k = 0 ∨ k = 1) (fun _ => True) (fun _ _ _ _ => trivial)
      (fun i j H x y z _ => by
        simp only [put3]
        by_cases h0 : x = i ∧ y = j <;> by_cases h1 : z = 0 <;> by_cases h2 : z = 1 <;> simp_all) na nb H trivial).2,
      if_pos ⟨hi, hj, Or.inl rfl⟩, if_pos rfl]
  · rw [(columns (fun H : Heights => H.interface) _ (fun _ _ k => if k = 0 then 0 else 1)
      (fun k => k = 0 ∨ k = 1) (fun _ => True) (fun _ _ _ _ => trivial)
      (fun i j H x y z _ => by
        simp only [put3]
        by_cases h0 : x = i ∧ y = j <;> by_cases h1 : z = 0 <;> by_cases h2 : z = 1 <;> simp_all) na nb H trivial).2,
      if_pos ⟨hi, hj, Or.inr rfl⟩, if_neg (by decide)]

/-- **C80 (ground and top).**  The lowest surface is the ground and the highest is the top of the model, on both grids. -/
theorem C80_ends (ztop zs : ℝ) : sphereHeight ztop zs 0 = zs ∧ sphereHeight ztop zs 1 = ztop ∧
    planeHeight ztop zs 0 = zs ∧ planeHeight ztop zs 1 = ztop := by
  refine ⟨?_, ?_, ?_, ?_⟩
  · simp [sphereHeight]
  · simp [sphereHeight]
  · simp [planeHeight]
  · simp [planeHeight]

/-- **C80 (order, cubed sphere).**  Where the ground is below the top, a surface with greater coordinate is higher, at
every node of the cubed sphere. -/
theorem C80_ordered_sphere (ztop zs η η' : ℝ) (hz : zs < ztop) : sphereHeight ztop zs η < sphereHeight ztop zs η' ↔
    η < η' := by
  unfold sphereHeight
  constructor
  · intro h
    by_contra hc
    have : η' * (ztop - zs) ≤ η * (ztop - zs) := mul_le_mul_of_nonneg_right (not_lt.1 hc) (by linarith)
    linarith
  · intro h
    have : η * (ztop - zs) < η' * (ztop - zs) := mul_lt_mul_of_pos_right h (by linarith)
    linarith

/-- **C80 (order, Cartesian grid; partial).**  Where the ground is no higher than a quarter of the top (and no deeper than
the top is high), a surface with greater coordinate is higher.  What is missing is ground between a quarter of the top
and the top, which the model accepts; see `C80_false_ordered`. -/
theorem C80_ordered_plane_partial (ztop zs η η' : ℝ) (hz : 0 < ztop) (h1 : -ztop ≤ zs) (h2 : zs ≤ ztop / 4)
    (h0 : 0 ≤ η) (h : η < η') (h3 : η' ≤ 1) : planeHeight ztop zs η < planeHeight ztop zs η' :=
  planeHeight_strictMono ztop zs hz h1 h2 ⟨h0, by linarith⟩ ⟨by linarith, h3⟩ h

theorem decay_third : decay (1 / 3) = 89 / 288 := by
  unfold decay
  rw [show (0.5 : ℝ) * π * (1 / 3) = π / 6 by ring, Real.cos_pi_div_six, Real.sin_pi_div_six]
  have : (√3 / 2) ^ 6 = (27 / 64 : ℝ) := by
    have h3 : √(3 : ℝ) ^ 2 = 3 := Real.sq_sqrt (by norm_num)
    rw [div_pow, show √(3 : ℝ) ^ 6 = (√3 ^ 2) ^ 3 by ring, h3]; norm_num
  rw [this]; norm_num

/-- **C80 is false of the Cartesian grid.**  Ground at six tenths of the top is accepted, and yet the first of three
equally spaced layers ends below the ground it begins at: the interface numbered one is lower than the one numbered
zero. -/
theorem C80_false_ordered : ∃ (B : Basis) (T T' : Topography) (H : Heights),
    planeTopography ⟨1, 1, 1, 3, 0, 0⟩ B 1 1 1 1 10000 (fun _ => 0) (fun _ => 0) (fun _ _ => 6000) T = some T' ∧
    (planeHeights 1 1 3 10000 T'.value (fun k => (k + 1 / 2) / 3) (fun k => k / 3) H).interface 0 0 1 <
      (planeHeights 1 1 3 10000 T'.value (fun k => (k + 1 / 2) / 3) (fun k => k / 3) H).interface 0 0 0 := by
  refine ⟨⟨fun _ _ => 0, fun _ _ => 0⟩, ⟨fun _ => 0, fun _ => 0, fun _ => 0⟩,
    slopes ⟨1, 1, 1, 3, 0, 0⟩ ⟨fun _ _ => 0, fun _ _ => 0⟩ 1 1 ⟨fill 1 1 (fun _ _ => 6000) (fun _ => 0), fun _ => 0, fun _ => 0⟩,
    ⟨fun _ _ _ => 0, fun _ _ _ => 0, fun _ _ _ => 0, fun _ _ _ => 0⟩, ?_, ?_⟩
  · unfold planeTopography
    rw [if_neg (by norm_num)]
  · have e := fun topo => (C80_heights 1 1 3 10000 topo (fun k => (k + 1 / 2) / 3) (fun k => k / 3)
      ⟨fun _ _ _ => 0, fun _ _ _ => 0, fun _ _ _ => 0, fun _ _ _ => 0⟩ 0 0 (by omega) (by omega)).2.2.2.1
    rw [e _ 1 (by omega), e _ 0 (by omega)]
    have v : ∀ T : Topography, (slopes ⟨1, 1, 1, 3, 0, 0⟩ ⟨fun _ _ => 0, fun _ _ => 0⟩ 1 1 T).value = T.value := by
      intro T; rfl
    rw [v]
    dsimp only
    rw [fill_at, if_pos ⟨by omega, by omega⟩, planeHeight_eq, planeHeight_eq]
    norm_num
    rw [decay_third]
    norm_num [decay]

/-- **C80 is false of the cubed sphere too.**  There ground above the top of the model is not refused: the geometric terms
are computed, and the volumes of the levels are negative. -/
theorem C80_false_top : ∃ (P : Setup) (F F' : Nat × Nat → Point), P.topo 0 0 > P.ztop ∧
    sphereGeometry P F = some F' ∧ ((F' (0, 0)).node 0).area < 0 := by
  let P : Setup := { sampleSetup with S := ⟨1, 1, 1, 2, 0, 0⟩, topo := fun _ _ => 20000 }
  have hb : ¬ badAreas P := sample_areas
  have h : sphereGeometry P blank = some (overNodes P.S (spherePoint P) blank) := by
    unfold sphereGeometry
    rw [if_neg (by simp [P, sampleSetup]), if_neg hb]
  refine ⟨P, blank, _, ?_, h, ?_⟩
  · norm_num [P, sampleSetup]
  · have hi : Interior P.S 0 0 := by unfold Interior; simp [P]
    rw [sphere_node h hi (by simp [P])]
    have hJ := (sphereFlat_facts P.radius (P.x 0) (P.y 0) (by norm_num [P, sampleSetup])).1
    simp only [sphereLevel]
    have e1 : P.ztop - ground P P.topo 0 0 = -10000 := by norm_num [P, sampleSetup, ground]
    have e2 : baseArea P 0 0 * P.wNode 0 = 1 / 800 := by norm_num [P, sampleSetup, baseArea]
    rw [e1, e2]
    nlinarith

/-- **C80 (refusal).**  The Cartesian grid refuses topography exactly when it reaches the top at some node of a patch,
halo included. -/
theorem C80_refuses (S : Shape) (B : Basis) (dA dB : ℝ) (na nb : Nat) (ztop : ℝ) (α β : Nat → ℝ) (f : ℝ → ℝ → ℝ)
    (T : Topography) : planeTopography S B dA dB na nb ztop α β f T = none ↔
      ∃ i < na, ∃ j < nb, ztop ≤ f (α i) (β j) := by
  unfold planeTopography
  by_cases h : ∃ i < na, ∃ j < nb, f (α i) (β j) ≥ ztop
  · rw [if_pos h]; exact ⟨fun _ => h, fun _ => rfl⟩
  · rw [if_neg h]; exact ⟨fun e => by simp at e, fun e => absurd e h⟩

theorem damping_at (na nb n m : Nat) (f : ℝ → Nat → Nat → ℝ) (H : Heights) (i j k : Nat) :
    (loop na (fun i H => loop nb (fun j H => dampColumn n m f i j H) H) H).dampNode i j k =
      (if i < na ∧ j < nb ∧ k < n then f (H.level i j k) i j else H.dampNode i j k) ∧
    (loop na (fun i H => loop nb (fun j H => dampColumn n m f i j H) H) H).dampEdge i j k =
      if i < na ∧ j < nb ∧ k < m then f (H.interface i j k) i j else H.dampEdge i j k := by
  constructor
  · refine (columns (fun H : Heights => H.dampNode) (dampColumn n m f) (fun i j k => f (H.level i j k) i j)
      (fun k => k < n) (fun s => s.level = H.level ∧ s.interface = H.interface) (fun _ _ _ h => h)
      (fun i j s x y z hs => ?_) na nb H ⟨rfl, rfl⟩).2 i j k
    simp only [dampColumn, put3_loop, hs.1]
    by_cases h : x = i ∧ y = j ∧ z < n
    · rw [if_pos h, if_pos h, h.1, h.2.1]
    · rw [if_neg h, if_neg h]
  · refine (columns (fun H : Heights => H.dampEdge) (dampColumn n m f) (fun i j k => f (H.interface i j k) i j)
      (fun k => k < m) (fun s => s.level = H.level ∧ s.interface = H.interface) (fun _ _ _ h => h)
      (fun i j s x y z hs => ?_) na nb H ⟨rfl, rfl⟩).2 i j k
    simp only [dampColumn, put3_loop, hs.2]
    by_cases h : x = i ∧ y = j ∧ z < m
    · rw [if_pos h, if_pos h, h.1, h.2.1]
    · rw [if_neg h, if_neg h]

/-- **C80 (friction, cubed sphere).**  With Rayleigh friction the strength at every level and every interface of every
node is the one the test case gives for the height of that level or interface. -/
theorem C80_damping_sphere (na nb levels : Nat) (f : ℝ → Nat → Nat → ℝ) (H : Heights) (i j : Nat) (hi : i < na)
    (hj : j < nb) :
    (∀ k < levels, (sphereDamping na nb levels true f H).dampNode i j k = f (H.level i j k) i j) ∧
    ∀ k ≤ levels, (sphereDamping na nb levels true f H).dampEdge i j k = f (H.interface i j k) i j := by
  unfold sphereDamping
  rw [if_pos rfl]
  refine ⟨fun k hk => ?_, fun k hk => ?_⟩
  · rw [(damping_at na nb levels (levels + 1) f H i j k).1, if_pos ⟨hi, hj, hk⟩]
  · rw [(damping_at na nb levels (levels + 1) f H i j k).2, if_pos ⟨hi, hj, Nat.lt_succ_of_le hk⟩]

theorem planeDamping_at (na nb levels : Nat) (f : ℝ → Nat → Nat → ℝ) (H : Heights) (i j k : Nat) :
    (planeDamping na nb levels true f H).dampNode i j k =
      (if i < na ∧ j < nb ∧ k < levels then f (H.level i j k) i j else H.dampNode i j k) ∧
    (planeDamping na nb levels true f H).dampEdge i j k =
      if i < na ∧ j < nb ∧ k < levels then f (H.interface i j k) i j else H.dampEdge i j k := by
  unfold planeDamping
  rw [if_pos rfl]
  exact damping_at na nb levels levels f H i j k

/-- **C80 (friction, Cartesian grid; partial).**  On the Cartesian grid this holds of every level and of every interface
except the highest. -/
theorem C80_damping_plane_partial (na nb levels : Nat) (f : ℝ → Nat → Nat → ℝ) (H : Heights) (i j : Nat) (hi : i < na)
    (hj : j < nb) :
    (∀ k < levels, (planeDamping na nb levels true f H).dampNode i j k = f (H.level i j k) i j) ∧
    ∀ k < levels, (planeDamping na nb levels true f H).dampEdge i j k = f (H.interface i j k) i j := by
  refine ⟨fun k hk => ?_, fun k hk => ?_⟩
  · rw [(planeDamping_at na nb levels f H i j k).1, if_pos ⟨hi, hj, hk⟩]
  · rw [(planeDamping_at na nb levels f H i j k).2, if_pos ⟨hi, hj, hk⟩]

/-- **C80 is false of friction on the Cartesian grid.**  The strength at the highest interface is left as it was, whatever
the test case asks for there. -/
theorem C80_false_damping (na nb levels : Nat) (f : ℝ → Nat → Nat → ℝ) (H : Heights) (i j : Nat) :
    (planeDamping na nb levels true f H).dampEdge i j levels = H.dampEdge i j levels := by
  rw [(planeDamping_at na nb levels f H i j levels).2, if_neg (by omega)]

/-- Ground at 1000 of 10000, three surfaces: the statements about order apply. -/
example : planeHeight 10000 1000 0 < planeHeight 10000 1000 (1 / 2) ∧ sphereHeight 10000 1000 0 < sphereHeight 10000 1000 (1 / 2) :=
  ⟨C80_ordered_plane_partial _ _ _ _ (by norm_num) (by norm_num) (by norm_num) le_rfl (by norm_num) (by norm_num),
    (C80_ordered_sphere _ _ _ _ (by norm_num)).2 (by norm_num)⟩

end Verif.Metric
