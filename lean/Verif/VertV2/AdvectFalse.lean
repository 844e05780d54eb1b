/-
C135: where the vertical advection of vertical method v2 is not that of the column, and where it is counted twice.
-/
import Verif.VertV2.AdvectProps
import Verif.HorizV2.Samples

namespace Verif.VertV2

open Finset Column

/-! ### Two levels -/

namespace Pair

/-- Interpolation to interfaces: the level next to the bottom, the mean, the level next to the top. -/
noncomputable def interp : Op :=
  ⟨3, 2, fun l => if l = 1 then ⟨fun k => if k < 2 then 1 / 2 else 0, 0, 2⟩ else if l = 0 then ⟨fun k => if k = 0 then 1 else 0, 0, 1⟩
    else ⟨fun k => if k = 1 then 1 else 0, 1, 2⟩⟩

/-- The difference of the two levels. -/
noncomputable def diff : Op := ⟨3, 2, fun _ => ⟨fun k => if k = 0 then -1 else if k = 1 then 1 else 0, 0, 2⟩⟩

/-- Two by two columns with a halo; one volume element, the middle interface of column (1, 1) being number 16, is another. -/
noncomputable def patch : Patch where
  aTotal := 4
  bTotal := 4
  aBegin := 1
  aEnd := 3
  bBegin := 1
  bEnd := 3
  levels := 2
  areaEdge := fun x => if x = 17 then 2 else 1
  areaNode := fun _ _ _ => 1
  conXiEdge := fun _ _ _ c => if c = 2 then 1 else 0
  derivREdge := fun _ _ _ => 1
  interpNE := interp
  diffNE := diff
  diffDiffNN := diff
  uniform := false
  nu := 0
  ztop := 1
  refNode := fun _ _ _ _ => 0

/-- Air of density one that rises by one, with a wind that grows by one. -/
noncomputable def state : State where
  node := fun c _ _ k => if c = 0 then k else if c = 4 then 1 else 0
  edge := fun c _ _ _ => if c = 3 then 1 else 0

theorem runs (t : State) (dt : ℝ) : ∃ t', stepExplicit patch state dt t = .ok t' := by
  rcases h : stepExplicit patch state dt t with _ | t'
  · obtain ⟨i, j, hij, hle⟩ := (C135_outside (P := patch) (by simp [patch]) state t dt).1.1 h
    simp only [Patch.Inside, Patch.taken, patch] at hij hle
    omega
  · exact ⟨t', rfl⟩

theorem advected (area : Nat → ℝ) (i j k : Nat) (hk : k < 2) : patch.advection state area 0 i j k = -(area 1 / 2) := by
  have h : k = 0 ∨ k = 1 := by omega
  unfold Patch.advection Patch.passing Patch.wind
  simp only [patch, sum_range_succ, sum_range_zero, Vdyn.applyRow_eq, interp, diff, state]
  rcases h with rfl | rfl <;> norm_num [sum_range_succ] <;> ring

theorem stencils : patch.Stencils := by
  intro l hl
  change l < 2 at hl
  simp only [patch, interp]
  rcases (by omega : l = 0 ∨ l = 1) with rfl | rfl
  all_goals
    simp
    omega

end Pair

/-- **C135 (false).**  The change of the wind in a column is not vertical advection in that column: other columns' volume elements enter,
with positive density and volume elements, and without diffusion. -/
theorem C135_false : ¬ ∀ (P : Patch) (s t t' : State) (dt : ℝ), P.uniform = false → P.Stencils →
    (∀ x, 0 < P.areaEdge x) → (∀ i j k, 0 < P.areaNode i j k ∧ 0 < s.node 4 i j k) → stepExplicit P s dt t = .ok t' →
    ∀ c i j k, c < 2 → P.Inside i j → k < P.levels →
      t'.node c i j k = t.node c i j k + dt * P.advection s (fun l => P.areaEdge (P.place i j l)) c i j k := by
  intro H
  obtain ⟨t', h⟩ := Pair.runs Pair.state 1
  have hin : Pair.patch.Inside 1 2 := by simp [Patch.Inside, Pair.patch]
  have key := H Pair.patch Pair.state Pair.state t' 1 rfl
    Pair.stencils
    (fun x => by
      simp only [Pair.patch]
      split_ifs <;> norm_num) (fun i j k => by simp [Pair.patch, Pair.state]) h 0 1 2 0 (by omega) hin (by simp [Pair.patch])
  rw [C135_step (P := Pair.patch) Pair.state Pair.state t' 1 h 0 1 2 0 (by omega) hin (by simp [Pair.patch]),
    Pair.advected _ _ _ _ (by omega), Pair.advected _ _ _ _ (by omega)] at key
  norm_num [Patch.place, Patch.taken, Pair.patch] at key

/-- The hypotheses of `C135_step`, `C135_momentum_partial` and `C135_energy_partial` are met, and the wind changes. -/
example : ∃ t', stepExplicit Pair.patch Pair.state 1 Pair.state = .ok t' ∧ t'.node 0 1 2 0 = -1 ∧ Pair.patch.Stencils ∧
    (∀ k < 2, Pair.state.node 4 1 2 k * Pair.patch.areaNode 1 2 k ≠ 0) ∧
    ∀ l < 2, applyRow Pair.patch.interpNE (fun _ => 1) l = 1 := by
  obtain ⟨t', h⟩ := Pair.runs Pair.state 1
  have hin : Pair.patch.Inside 1 2 := by simp [Patch.Inside, Pair.patch]
  refine ⟨t', h, ?_, Pair.stencils, fun k _ => by simp [Pair.patch, Pair.state], fun l hl => ?_⟩
  · rw [C135_step (P := Pair.patch) Pair.state Pair.state t' 1 h 0 1 2 0 (by omega) hin (by simp [Pair.patch]),
      Pair.advected _ _ _ _ (by omega)]
    simp [Patch.taken, Pair.patch, Pair.state]
  · rw [Vdyn.applyRow_eq]
    rcases (by omega : l = 0 ∨ l = 1) with rfl | rfl <;> norm_num [Pair.patch, Pair.interp, sum_range_succ]

/-- Seven everywhere. -/
noncomputable def Pair.steady : State := ⟨fun c _ _ _ => if c = 0 then 7 else 1, fun _ _ _ _ => 1⟩

/-- The hypotheses of `C135_uniform` are met. -/
example : ∃ t', stepExplicit Pair.patch Pair.steady 1 Pair.state = .ok t' ∧ (∀ k, Pair.steady.node 0 1 1 k = 7) ∧
    ∀ l < 2, applyRow Pair.patch.diffNE (fun _ => 7) l = 0 := by
  rcases h : stepExplicit Pair.patch Pair.steady 1 Pair.state with _ | t'
  · obtain ⟨i, j, hij, hle⟩ := (C135_outside (P := Pair.patch) (by simp [Pair.patch]) _ _ _).1.1 h
    simp only [Patch.Inside, Patch.taken, Pair.patch] at hij hle
    omega
  · refine ⟨t', rfl, fun k => by simp [Pair.steady], fun l _ => ?_⟩
    rw [Vdyn.applyRow_eq]
    norm_num [Pair.patch, Pair.diff, sum_range_succ]

/-- With five levels in the same patch of four by four columns the array is left. -/
example (s t : State) : stepExplicit { Pair.patch with levels := 5 } s 1 t = .ub :=
  (C135_outside (P := { Pair.patch with levels := 5 }) (by simp [Pair.patch]) s t 1).2 (by simp [Pair.patch])
    ⟨1, 1, by simp [Patch.Inside, Pair.patch]⟩

/-! ### Both parts of the dynamics -/

/-- The horizontal step of a state that does not vary along levels, over flat ground and without rotation: all that changes the wind is
its vertical advection. -/
theorem push_uniform (A : Nonhydro.Air) (init : Horiz.Data) (a b k i j : Nat) (hi : i < 4) (hj : j < 4) (z : ℝ)
    (hdx : ∀ i < 4, A.B.dx 0 i + A.B.dx 1 i + A.B.dx 2 i + A.B.dx 3 i = 0)
    (hA : ∀ iA iB m, A.conA iA iB k m = if m = 0 then 1 else 0) (hB : ∀ iA iB m, A.conB iA iB k m = if m = 1 then 1 else 0)
    (hX : ∀ iA iB m, A.conXi iA iB k m = if m = 2 then z else 0)
    (hR : ∀ iA iB, A.derivR iA iB k 0 = 0) (hf : ∀ iA iB, A.G.coriolis iA iB = 0)
    (q : Nat → ℝ) (hq : ∀ c i j, HorizV2.cell A.G init a b k c i j = q c) :
    HorizV2.pushA A init a b k i j = -(z * q 3) * HorizV2.vertSlope A init a b k 0 i j := by
  have hs : ∀ (f : Nat → Nat → ℝ) (v : ℝ), (∀ i j, f i j = v) → HorizV2.slopeA A.G A.B f i j = 0 := by
    intro f v h
    unfold HorizV2.slopeA
    rw [h, h, h, h]
    linear_combination (1 / A.G.deltaA * v) * hdx i hi
  have hs' : ∀ (f : Nat → Nat → ℝ) (v : ℝ), (∀ i j, f i j = v) → HorizV2.slopeB A.G A.B f i j = 0 := by
    intro f v h
    unfold HorizV2.slopeB
    rw [h, h, h, h]
    linear_combination (1 / A.G.deltaB * v) * hdx j hj
  have hwa : ∀ i j, HorizV2.windA A init a b k i j = q 0 := fun i j => by
    unfold HorizV2.windA
    rw [hA, hA, hA, hq]
    norm_num
  have hwb : ∀ i j, HorizV2.windB A init a b k i j = q 1 := fun i j => by
    unfold HorizV2.windB
    rw [hB, hB, hB, hq]
    norm_num [hq]
  have hwx : ∀ i j, HorizV2.windX A init a b k i j = z * q 3 := fun i j => by
    unfold HorizV2.windX
    rw [hX, hX, hX]
    norm_num [hq]
  unfold HorizV2.pushA HorizV2.swirlA
  dsimp only
  rw [hs (HorizV2.exnerAt A init a b k) (Nonhydro.exnerOf A (q 2)) (fun i j => by unfold HorizV2.exnerAt; rw [hq]),
    hs (HorizV2.energy A init a b k) (0.5 * (q 0 * q 0 + q 1 * q 1 + z * q 3 * q 3))
      (fun i j => by unfold HorizV2.energy; rw [hwa, hwb, hwx, hq, hq, hq]),
    hs (HorizV2.cell A.G init a b k 1) (q 1) (fun i j => hq 1 i j), hs (HorizV2.cell A.G init a b k 3) (q 3) (fun i j => hq 3 i j),
    hs' (HorizV2.cell A.G init a b k 0) (q 0) (fun i j => hq 0 i j), hR, hf, hwx]
  ring

/-- **C135 (twice).**  Air whose state does not vary along levels over flat ground, with the same density and volume elements on all
levels, rises with the wind `ξ` through levels and inner interfaces, and its wind changes by `slope` across them.  In one time step the
horizontal and the vertical part together change the wind of an inner level by twice the time step times `-ξ * slope`. -/
theorem C135_twice (A : Nonhydro.Air) (init : Horiz.Data) (a b k i j : Nat) (hi : i < 4) (hj : j < 4) (z : ℝ)
    (hdx : ∀ i < 4, A.B.dx 0 i + A.B.dx 1 i + A.B.dx 2 i + A.B.dx 3 i = 0)
    (hA : ∀ iA iB m, A.conA iA iB k m = if m = 0 then 1 else 0) (hB : ∀ iA iB m, A.conB iA iB k m = if m = 1 then 1 else 0)
    (hX : ∀ iA iB m, A.conXi iA iB k m = if m = 2 then z else 0)
    (hR : ∀ iA iB, A.derivR iA iB k 0 = 0) (hf : ∀ iA iB, A.G.coriolis iA iB = 0)
    (q : Nat → ℝ) (hq : ∀ c i j, HorizV2.cell A.G init a b k c i j = q c)
    (P : Patch) (s t t' : State) (dt : ℝ) (hu : P.uniform = false) (h : stepExplicit P s dt t = .ok t') (I J : Nat) (hI : P.Inside I J)
    (hk : k < P.levels) (slope ξ ρ v : ℝ) (hρ : ρ ≠ 0) (hv : v ≠ 0) (hξ : z * q 3 = ξ)
    (hslope : HorizV2.vertSlope A init a b k 0 i j = slope) (hnode : s.node 4 I J k = ρ ∧ P.areaNode I J k = v)
    (hin : ∀ l < P.levels, l ≠ 0 → P.wind s I J l = ξ ∧ applyRow P.interpNE (s.node 4 I J) l = ρ ∧
      applyRow P.diffNE (s.node 0 I J) l = slope)
    (hvol : ∀ x, P.areaEdge x = v) (hcol : ∑ l ∈ Ico 1 P.levels, (P.interpNE.row l).coeff k = 1) :
    dt * HorizV2.pushA A init a b k i j + (t'.node 0 I J k - t.node 0 I J k) = 2 * (dt * -(ξ * slope)) := by
  rw [push_uniform A init a b k i j hi hj z hdx hA hB hX hR hf q hq, hslope, hξ, C135_step s t t' dt h 0 I J k (by omega) hI hk, hu]
  have e : P.advection s (fun l => P.areaEdge (P.taken I J l)) 0 I J k = -(ξ * slope) := by
    unfold Patch.advection Patch.passing
    rw [hnode.1, hnode.2, range_eq_Ico, sum_eq_sum_Ico_succ_bot (by omega)]
    rw [show P.wind s I J 0 = 0 by unfold Patch.wind; rw [if_pos rfl]]
    have : ∑ l ∈ Ico (0 + 1) P.levels, (P.interpNE.row l).coeff k *
        (P.areaEdge (P.taken I J l) * applyRow P.interpNE (s.node 4 I J) l * P.wind s I J l * applyRow P.diffNE (s.node 0 I J) l) =
        (∑ l ∈ Ico 1 P.levels, (P.interpNE.row l).coeff k) * (v * ρ * ξ * slope) := by
      rw [sum_mul]
      apply sum_congr rfl
      intro l hl
      have hl := mem_Ico.1 hl
      obtain ⟨h1, h2, h3⟩ := hin l hl.2 (by omega)
      rw [hvol, h1, h2, h3]
    rw [this, hcol]
    field_simp
    ring
  rw [e]
  simp only [Bool.false_eq_true, if_false]
  ring

/-! ### Three levels of air that rises -/

namespace Triple

/-- Flat ground, no rotation, one element of four by four nodes, three levels. -/
noncomputable def air : Nonhydro.Air :=
  { HorizV2.steep false with
    G := { (HorizV2.steep false).G with S := ⟨4, 1, 1, 3, 0, 1⟩
                                        coriolis := fun _ _ => 0 }
    conA := fun _ _ _ m => if m = 0 then 1 else 0
    conB := fun _ _ _ m => if m = 1 then 1 else 0
    conXi := fun _ _ _ m => if m = 2 then 1 else 0
    derivR := fun _ _ _ m => if m = 2 then 1 else 0
    diff := fun k l => if l = k + 1 then 1 / 2 else if l + 1 = k then -1 / 2 else 0 }

/-- The wind grows by one from level to level, and the air rises by one. -/
noncomputable def init : Horiz.Data := fun x =>
  match x.v with
  | .state 0 => x.k
  | .state 2 => 300
  | .state 3 => 1
  | .state 4 => 1
  | _ => 0

/-- The same state on levels and interfaces. -/
noncomputable def state : State where
  node := fun c i j k => init ⟨.state c, i, j, k⟩
  edge := fun c _ _ _ => if c = 3 then 1 else 0

/-- The mean of the levels below and above. -/
noncomputable def interp : Op :=
  ⟨4, 3, fun l => ⟨fun k => if k = l ∨ k + 1 = l then 1 / 2 else 0, l - 1, l + 1⟩⟩

/-- The difference of the levels above and below. -/
noncomputable def diff : Op := ⟨4, 3, fun l => ⟨fun k => if k = l then 1 else if k + 1 = l then -1 else 0, l - 1, l + 1⟩⟩

/-- The patch of the element with its halo. -/
noncomputable def patch : Patch where
  aTotal := 6
  bTotal := 6
  aBegin := 1
  aEnd := 5
  bBegin := 1
  bEnd := 5
  levels := 3
  areaEdge := fun _ => 1
  areaNode := fun _ _ _ => 1
  conXiEdge := fun _ _ _ c => if c = 2 then 1 else 0
  derivREdge := fun _ _ _ => 1
  interpNE := interp
  diffNE := diff
  diffDiffNN := diff
  uniform := false
  nu := 0
  ztop := 1
  refNode := fun _ _ _ _ => 0

end Triple

/-- The hypotheses of `C135_twice` are met: the wind of the middle level falls by two per unit of time, not by one. -/
example : ∃ t', stepExplicit Triple.patch Triple.state 1 Triple.state = .ok t' ∧
    1 * HorizV2.pushA Triple.air Triple.init 0 0 1 0 0 + (t'.node 0 1 1 1 - Triple.state.node 0 1 1 1) = -2 := by
  rcases h : stepExplicit Triple.patch Triple.state 1 Triple.state with _ | t'
  · obtain ⟨i, j, hij, hle⟩ := (C135_outside (P := Triple.patch) (by simp [Triple.patch]) _ _ _).1.1 h
    simp only [Patch.Inside, Patch.taken, Triple.patch] at hij hle
    omega
  · refine ⟨t', rfl, ?_⟩
    rw [C135_twice Triple.air Triple.init 0 0 1 0 0 (by omega) (by omega) 1
      (fun i hi => by
        change HorizV2.cubicDx 0 i + HorizV2.cubicDx 1 i + HorizV2.cubicDx 2 i + HorizV2.cubicDx 3 i = 0
        interval_cases i <;> norm_num [HorizV2.cubicDx])
      (fun _ _ _ => rfl) (fun _ _ _ => rfl) (fun _ _ _ => rfl) (fun _ _ => by simp [Triple.air]) (fun _ _ => rfl)
      (fun c => Triple.init ⟨.state c, 0, 0, 1⟩) (fun c i j => by unfold HorizV2.cell Triple.init; rfl)
      Triple.patch Triple.state Triple.state t' 1 rfl h 1 1 (by simp [Patch.Inside, Triple.patch]) (by simp [Triple.patch]) 1 1 1 1
      one_ne_zero one_ne_zero (by simp [Triple.init])
      (by
        unfold HorizV2.vertSlope Nonhydro.row
        norm_num [Triple.air, Triple.init, Horiz.loop, List.range_succ])
      (by simp [Triple.state, Triple.init, Triple.patch])
      (fun l hl h0 => by
        change l < 3 at hl
        unfold Patch.wind
        simp only [Vdyn.applyRow_eq]
        rcases (by omega : l = 1 ∨ l = 2) with rfl | rfl <;>
          norm_num [Triple.patch, Triple.state, Triple.init, Triple.interp, Triple.diff, sum_Ico_succ_top, sum_range_succ])
      (fun _ => rfl) (by norm_num [Triple.patch, Triple.interp, sum_Ico_succ_top])]
    norm_num

end Verif.VertV2
