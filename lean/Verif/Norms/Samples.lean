import Verif.Norms.Props
import Verif.Init.Samples

/-!
# Two processes that meet the hypotheses of C103
-/

namespace Verif.Norms

open Verif.Init

/-- Five components, the vertical velocity on interfaces and the others on levels. -/
def sampleSetup : Checksum.Setup where
  nR := 2
  components := 5
  tracers := 1
  loc := fun c => if c = 3 then .rEdge else .node

/-- Air of density one, at rest, that is its own reference state if it has one. -/
noncomputable def still (ref : Bool) : Test where
  ztop := 10
  hasRayleigh := false
  hasReference := ref
  diffusion := (0, 0)
  topography := fun _ _ => 0
  rayleigh := fun _ _ _ => 0
  state := fun _ _ _ _ => ⟨fun c => if c < 2 then 0 else 1, fun _ => 0⟩
  reference6 := none
  reference5 := some (fun _ _ _ _ c => if c < 2 then 0 else 1)
  perturbation := none

/-- A patch of the plane that holds three instances of a state, of which the first is `x` everywhere. -/
noncomputable def sampleTile (x : ℝ) : Tile where
  site := { sampleSite 0 .nonhydro .rhoTheta with instances := 3 }
  arrays := { zeros with node := fun _ _ _ _ _ => x, edge := fun _ _ _ _ _ => x }
  hasData := true
  aBegin := 0
  aEnd := 2
  bBegin := 0
  bEnd := 1
  areaNode := fun _ _ _ => 1
  areaREdge := fun _ _ _ => 1

/-- Combine from the left. -/
def fromLeft : List (Nat → ℝ) → Checksum.Tree (Nat → ℝ)
  | [] => .leaf (fun _ => 0)
  | [x] => .leaf x
  | x :: y :: l => .node (.leaf x) (fromLeft (y :: l))

theorem fromLeft_leaves : ∀ l, l ≠ [] → (fromLeft l).leaves = l
  | [], h => absurd rfl h
  | [_], _ => rfl
  | x :: y :: l, _ => by
    show [x] ++ (fromLeft (y :: l)).leaves = _
    rw [fromLeft_leaves (y :: l) (by simp)]; rfl

theorem sample_reduces : Reduces (fun _ => fromLeft) := fun _ l h => by rw [fromLeft_leaves l h]

theorem still_ok (ref : Bool) (x : ℝ) : ∃ A, evaluate .plane (sampleTile x).site (still ref) (still ref).ztop
    (still ref).hasReference 1 (sampleTile x).arrays = .ok A :=
  (C100_defined_plane (by show 0 < 2; omega) (by show 0 < 2; omega)).2
    ⟨by show 1 < 3; omega, fun _ => rfl, fun i _ j _ => by show (0 : ℝ) < 10; norm_num, fun _ => rfl⟩

/-- Two processes with a patch each print a table. -/
theorem sample_run (ref : Bool) (x y : ℝ) : ∃ procs' table, errorNorms .plane sampleSetup (fun _ => fromLeft)
    (some (still ref)) (some [[sampleTile x], [sampleTile y]]) = .ok (some (procs', table)) := by
  rw [C103_defined]
  · intro t ht
    simp only [List.flatten_cons, List.flatten_nil, List.append_nil, List.cons_append, List.nil_append, List.mem_cons,
      List.not_mem_nil, or_false] at ht
    rcases ht with rfl | rfl
    · exact ⟨le_refl 3, still_ok ref x⟩
    · exact ⟨le_refl 3, still_ok ref y⟩
  · intro c _
    unfold sampleSetup
    dsimp only
    split_ifs <;> simp
  · intro t ht
    simp only [List.flatten_cons, List.flatten_nil, List.append_nil, List.cons_append, List.nil_append, List.mem_cons,
      List.not_mem_nil, or_false] at ht
    rcases ht with rfl | rfl <;> rfl

/-- The exact density is one on every patch, and the reference density if there is one. -/
theorem still_density (ref : Bool) (x : ℝ) (A : Arrays) (h : evaluate .plane (sampleTile x).site (still ref) (still ref).ztop
    (still ref).hasReference 1 (sampleTile x).arrays = .ok A) (i j k : Nat) (hi : i < 2) (hj : j < 2) (hk : k < 2) :
    A.node 1 4 i j k = 1 ∧ (ref = true → A.refNode 4 i j k = 1) := by
  constructor
  · have := (C100_plane h rfl (fun _ _ _ c => if c < 2 then 0 else 1) (fun _ _ _ _ _ _ => rfl) i j hi hj
      (fun _ => Air.of (fun c => if c < 2 then 0 else 1)) (fun _ => rfl)).1 k hk
    have e := this.density
    simpa [Air.of] using e
  · rintro rfl
    have := (C100_reference_plane_partial h rfl (fun _ _ _ c => if c < 2 then 0 else 1) ⟨_, rfl, fun _ _ _ _ _ _ => rfl⟩
      i j hi hj (fun _ => Air.of (fun c => if c < 2 then 0 else 1)) (fun _ => rfl)).1 k hk
    have e := this.density
    simpa [Air.of] using e

/-- Without a reference state: densities of zero and three where one is exact are printed as errors of three halves. -/
example : ∃ procs' table E, errorNorms .plane sampleSetup (fun _ => fromLeft)
      (some (still false)) (some [[sampleTile 0], [sampleTile 3]]) = .ok (some (procs', table)) ∧
    Exact .plane (still false) [sampleTile 0, sampleTile 3] E ∧
    NoReference sampleSetup 4 (still false) [sampleTile 0, sampleTile 3] ∧ table.l1 4 = 3 / 2 := by
  obtain ⟨procs', table, h⟩ := sample_run false 0 3
  obtain ⟨E, hE⟩ := C103_exact h
  have hn : NoReference sampleSetup 4 (still false) [sampleTile 0, sampleTile 3] := by
    refine Or.inr ⟨rfl, fun t ht i j k _ => ?_⟩
    simp only [List.mem_cons, List.not_mem_nil, or_false] at ht
    rcases ht with rfl | rfl <;> rfl
  refine ⟨procs', table, E, h, hE, hn, ?_⟩
  rw [(C103_norms_partial h (by simp) sample_reduces hE 4 (by show 4 < 5; omega) hn).1]
  have e0 := hE (sampleTile 0) (by simp)
  have e3 := hE (sampleTile 3) (by simp)
  have d0 := fun i j k hi hj hk => (still_density false 0 _ e0 i j k hi hj hk).1
  have d3 := fun i j k hi hj hk => (still_density false 3 _ e3 i j k hi hj hk).1
  have a : ∀ t i j k, area sampleSetup 4 t i j k = t.areaNode i j k := fun _ _ _ _ => rfl
  have v : ∀ n A i j k, value sampleSetup 4 n A i j k = A.node n 4 i j k := fun _ _ _ _ _ => rfl
  have ht : height sampleSetup 4 = 2 := rfl
  simp only [normL1, integral, error, exact, v, a, ht, List.flatten_cons, List.flatten_nil, List.append_nil,
    List.cons_append, List.nil_append, List.map_cons, List.map_nil, List.sum_cons, List.sum_nil]
  have t0 : ∀ q : Nat → Nat → Nat → ℝ, Checksum.total (sampleTile 0).aBegin (sampleTile 0).aEnd (sampleTile 0).bBegin
      (sampleTile 0).bEnd 2 q = q 0 0 0 + q 0 0 1 + (q 1 0 0 + q 1 0 1) := by
    intro q
    simp [Checksum.total, sampleTile, Finset.sum_range_succ]
  have t3 : ∀ q : Nat → Nat → Nat → ℝ, Checksum.total (sampleTile 3).aBegin (sampleTile 3).aEnd (sampleTile 3).bBegin
      (sampleTile 3).bEnd 2 q = q 0 0 0 + q 0 0 1 + (q 1 0 0 + q 1 0 1) := by
    intro q
    simp [Checksum.total, sampleTile, Finset.sum_range_succ]
  rw [t0, t3, t0, t3]
  simp only [d0 0 0 0 (by omega) (by omega) (by omega), d0 0 0 1 (by omega) (by omega) (by omega),
    d0 1 0 0 (by omega) (by omega) (by omega), d0 1 0 1 (by omega) (by omega) (by omega),
    d3 0 0 0 (by omega) (by omega) (by omega), d3 0 0 1 (by omega) (by omega) (by omega),
    d3 1 0 0 (by omega) (by omega) (by omega), d3 1 0 1 (by omega) (by omega) (by omega)]
  simp only [sampleTile]
  unfold relative
  norm_num [abs_of_neg]

/-- With the reference state: the same errors are printed as three quarters. -/
theorem C103_sample_false : ∃ procs' table E, errorNorms .plane sampleSetup (fun _ => fromLeft)
      (some (still true)) (some [[sampleTile 0], [sampleTile 3]]) = .ok (some (procs', table)) ∧
    Exact .plane (still true) [sampleTile 0, sampleTile 3] E ∧
    table.l1 4 = 3 / 4 ∧ relative (normL1 sampleSetup 4 [sampleTile 0, sampleTile 3] (error sampleSetup 4 E))
      (normL1 sampleSetup 4 [sampleTile 0, sampleTile 3] (exact sampleSetup 4 E)) = 3 / 2 := by
  obtain ⟨procs', table, h⟩ := sample_run true 0 3
  obtain ⟨E, hE⟩ := C103_exact h
  have e0 := hE (sampleTile 0) (by simp)
  have e3 := hE (sampleTile 3) (by simp)
  have d0 := fun i j k hi hj hk => still_density true 0 _ e0 i j k hi hj hk
  have d3 := fun i j k hi hj hk => still_density true 3 _ e3 i j k hi hj hk
  have a : ∀ t i j k, area sampleSetup 4 t i j k = t.areaNode i j k := fun _ _ _ _ => rfl
  have v : ∀ n A i j k, value sampleSetup 4 n A i j k = A.node n 4 i j k := fun _ _ _ _ _ => rfl
  have ht : height sampleSetup 4 = 2 := rfl
  have t0 : ∀ q : Nat → Nat → Nat → ℝ, Checksum.total (sampleTile 0).aBegin (sampleTile 0).aEnd (sampleTile 0).bBegin
      (sampleTile 0).bEnd 2 q = q 0 0 0 + q 0 0 1 + (q 1 0 0 + q 1 0 1) := by
    intro q
    simp [Checksum.total, sampleTile, Finset.sum_range_succ]
  have t3 : ∀ q : Nat → Nat → Nat → ℝ, Checksum.total (sampleTile 3).aBegin (sampleTile 3).aEnd (sampleTile 3).bBegin
      (sampleTile 3).bEnd 2 q = q 0 0 0 + q 0 0 1 + (q 1 0 0 + q 1 0 1) := by
    intro q
    simp [Checksum.total, sampleTile, Finset.sum_range_succ]
  have hx : normL1 sampleSetup 4 [sampleTile 0, sampleTile 3] (exact sampleSetup 4 E) = 8 := by
    simp only [normL1, integral, exact, v, a, ht, List.map_cons, List.map_nil, List.sum_cons, List.sum_nil]
    rw [t0, t3]
    simp only [(d0 0 0 0 (by omega) (by omega) (by omega)).1, (d0 0 0 1 (by omega) (by omega) (by omega)).1,
      (d0 1 0 0 (by omega) (by omega) (by omega)).1, (d0 1 0 1 (by omega) (by omega) (by omega)).1,
      (d3 0 0 0 (by omega) (by omega) (by omega)).1, (d3 0 0 1 (by omega) (by omega) (by omega)).1,
      (d3 1 0 0 (by omega) (by omega) (by omega)).1, (d3 1 0 1 (by omega) (by omega) (by omega)).1]
    simp only [sampleTile]
    norm_num
  have hr : relative (normL1 sampleSetup 4 [sampleTile 0, sampleTile 3] (error sampleSetup 4 E))
      (normL1 sampleSetup 4 [sampleTile 0, sampleTile 3] (exact sampleSetup 4 E)) = 3 / 2 := by
    rw [hx]
    simp only [normL1, integral, error, v, a, ht, List.map_cons, List.map_nil, List.sum_cons, List.sum_nil]
    rw [t0, t3]
    simp only [(d0 0 0 0 (by omega) (by omega) (by omega)).1, (d0 0 0 1 (by omega) (by omega) (by omega)).1,
      (d0 1 0 0 (by omega) (by omega) (by omega)).1, (d0 1 0 1 (by omega) (by omega) (by omega)).1,
      (d3 0 0 0 (by omega) (by omega) (by omega)).1, (d3 0 0 1 (by omega) (by omega) (by omega)).1,
      (d3 1 0 0 (by omega) (by omega) (by omega)).1, (d3 1 0 1 (by omega) (by omega) (by omega)).1]
    simp only [sampleTile]
    unfold relative
    norm_num [abs_of_neg]
  refine ⟨procs', table, E, h, hE, ?_, hr⟩
  have hf := (C103_reference_false h (by simp) sample_reduces hE 4 (by show 4 < 5; omega) (by simp [sampleSetup])
    (fun t ht i j k ho => by
      obtain ⟨_, h2, _, h4, h5⟩ := ho
      simp only [List.flatten_cons, List.flatten_nil, List.append_nil, List.cons_append, List.nil_append, List.mem_cons,
        List.not_mem_nil, or_false] at ht
      unfold exact
      rw [v]
      rcases ht with rfl | rfl
      · have h2' : i < 2 := h2
        have h4' : j < 1 := h4
        have q := d0 i j k h2' (by omega) h5
        rw [q.1, q.2 rfl]
      · have h2' : i < 2 := h2
        have h4' : j < 1 := h4
        have q := d3 i j k h2' (by omega) h5
        rw [q.1, q.2 rfl])).1 (by
      show normL1 sampleSetup 4 [sampleTile 0, sampleTile 3] (exact sampleSetup 4 E) ≠ 0
      rw [hx]; norm_num)
  rw [hf]
  show relative (normL1 sampleSetup 4 [sampleTile 0, sampleTile 3] (error sampleSetup 4 E))
      (normL1 sampleSetup 4 [sampleTile 0, sampleTile 3] (exact sampleSetup 4 E)) / 2 = 3 / 4
  rw [hr]; norm_num

/-- The areas of the sample are positive. -/
example : ∀ t ∈ [sampleTile 0, sampleTile 3], ∀ i j k, Own sampleSetup 4 t i j k → 0 < area sampleSetup 4 t i j k := by
  intro t ht i j k _
  simp only [List.mem_cons, List.not_mem_nil, or_false] at ht
  rcases ht with rfl | rfl <;> exact one_pos

/-- The same patches on one process and on two. -/
example : [[sampleTile 3, sampleTile 0]].flatten.Perm [[sampleTile 0], [sampleTile 3]].flatten := List.Perm.swap _ _ _

end Verif.Norms
