/-
C133: a column of ten levels next to one with another volume element: what goes wrong, and examples.
-/
import Verif.Schur.TracerProps
import Verif.Column.PenaltyProps

namespace Verif.Schur.Ten

open Verif.Column Verif.Vdyn Verif.Interp Finset Polynomial

/-- Levels one apart, interfaces between them. -/
noncomputable def node (k : Nat) : ℝ := k + 1 / 2
noncomputable def edge (k : Nat) : ℝ := k

/-- Second order, ten levels, a step of one. -/
noncomputable def setup (A B E : Op) (P : Penalty) : Setup where
  levels := 10
  order := 2
  volumes := true
  wOnEdge := true
  pOnEdge := false
  massOnLevels := false
  uniform := false
  useRef := true
  nuScalar := 0
  nuVector := 0
  ztop := 10
  dt := 1
  phys := ⟨1, 0, 0, 0, 1, 2, 1, 1, 1, 1, 1, 1, 1, 1, 1⟩
  interpNE := A
  interpEN := A
  diffNN := A
  diffNNZero := A
  diffNE := B
  diffEN := E
  diffDiffNN := A
  diffDiffEE := A
  penalty := P

/-- A volume element of two on the second level and one elsewhere; horizontal wind crosses the first inner interface. -/
noncomputable def metric : Metric where
  jac := fun k => if k = 1 then 2 else 1
  jacEdge := fun _ => 1
  derivR := fun _ => 1
  derivREdge := fun _ => 1
  conA := fun _ _ => 0
  conB := fun _ _ => 0
  conXi := fun _ _ => 0
  conAEdge := fun _ _ => 0
  conBEdge := fun _ _ => 0
  conXiEdge := fun m c => if m = 1 ∧ c = 0 then 1 else 0

/-- Horizontal wind, density and density times potential temperature one. -/
noncomputable def data : Data where
  node := fun c _ => if c = 0 ∨ c = 2 ∨ c = 4 then 1 else 0
  edge := fun _ _ => 0
  refNode := fun _ _ => 0
  refEdge := fun _ _ => 0

/-- Eleven columns in a row, of which this is the first; volume elements one, `o` on the bottom of the second column. -/
noncomputable def site (o : ℝ) : Site := ⟨11, 1, 0, 0, fun n => if n = 11 then o else 1⟩

theorem exists_ops : ∃ A B E P, Volumes (setup A B E P) node edge := by
  obtain ⟨A, hA⟩ := ((C71_refused .levels .interfaces 2 10 11 node edge).2.2 rfl (by omega) (by omega) (by omega)).1 (by decide)
  obtain ⟨B, hB⟩ := ((C71_refused .levels .interfaces 2 10 11 node edge).2.2 rfl (by omega) (by omega) (by omega)).2
  obtain ⟨E, hE⟩ := ((C71_refused .interfaces .levels 2 10 11 node edge).2.2 rfl (by omega) (by omega) (by omega)).2
  obtain ⟨P, hP⟩ : ∃ P, penaltyReconInit 2 10 11 node edge = .ok P := by
    unfold penaltyReconInit
    rw [if_neg (by omega), if_neg (by omega), if_neg (by omega)]
    exact ⟨_, rfl⟩
  refine ⟨A, B, E, P, rfl, hA, hB, hE, hP, fun k _ => ?_, fun i j _ _ hij h => hij ?_⟩
  · unfold edge
    push_cast
    linarith
  · unfold node at h
    have : (i : ℝ) = j := by linarith
    exact_mod_cast this

theorem site_holds (A B E : Op) (P : Penalty) (o : ℝ) : (site o).Holds (setup A B E P) metric := by
  refine ⟨by simp [site], by simp [site], fun m hm => ?_⟩
  change m ≤ 10 at hm
  simp only [site, setup, metric]
  rw [if_neg (by omega)]

theorem site_other (A B E : Op) (P : Penalty) (o : ℝ) (m : Nat) : (site o).other (setup A B E P) m = if m = 1 then o else 1 := by
  simp only [Site.other, site, setup]
  congr 1
  simp only [eq_iff_iff]
  omega

theorem site_inside (A B E : Op) (P : Penalty) (o : ℝ) : ¬ (site o).Beyond (setup A B E P) := by
  simp [Site.Beyond, site, setup]

theorem lorenz (A B E : Op) (P : Penalty) : Lorenz (setup A B E P) := ⟨rfl, rfl, rfl⟩

section
variable {A B E : Op} {P : Penalty} (V : Volumes (setup A B E P) node edge)
include V

theorem interp_at (y : Nat → ℝ) (k : Nat) (h1 : 1 ≤ k) (h5 : k < 10) : applyRow A y k = (y (k - 1) + y k) / 2 := by
  have := C71_to_interfaces 1 10 11 node edge A V.toInterfaces V.distinct y k (by omega) (C (y (k - 1))) (C (y k)) (fun _ => ?_) (fun _ => ?_)
  · rw [this, if_neg (by omega), if_neg (by omega)]
    simp
  · refine ⟨lt_of_le_of_lt degree_C_le ?_, fun j _ a b => ?_⟩
    · norm_cast
      omega
    · rw [show j = k - 1 by omega]
      simp
  · refine ⟨lt_of_le_of_lt degree_C_le ?_, fun j _ a b => ?_⟩
    · norm_cast
      omega
    · rw [show j = k by omega]
      simp

theorem divergence_at (y : Nat → ℝ) (k : Nat) : applyRow E y k = y (k + 1) - y k := by
  rw [((C71_to_levels 2 10 11 node edge E E y k).2 V.divergence).2.2.2]
  simp [edge]

theorem penalty_at (v x : Nat → ℝ) (k : Nat) (hk : k < 10) : penaltyApply P v x (fun _ => 0) 1 1 k =
    1 / 2 * ((if k + 1 < 10 then v k * (x (k + 1) - x k) else 0) - if 1 ≤ k then v (k - 1) * (x k - x (k - 1)) else 0) := by
  have key := C87_volumes 1 10 11 one_pos node edge P V.jumps (by omega) V.increasing V.distinct v x (fun _ => 0)
    (fun j => if j = k then 1 else 0) 1 1 one_pos (fun j => C (x (j - 1))) (fun j => C (x j)) (fun j h1 h2 => by
      have e : min (j + 1 - 1) 10 - (j - 1) = 1 := by omega
      rw [e]
      refine ⟨lt_of_le_of_lt degree_C_le (by norm_num), fun i hi => ?_⟩
      obtain rfl : i = 0 := by omega
      simp) (fun j h1 h2 => by
      have e : min (j + 1) 10 - (j + 1 - 1) = 1 := by omega
      rw [e]
      refine ⟨lt_of_le_of_lt degree_C_le (by norm_num), fun i hi => ?_⟩
      obtain rfl : i = 0 := by omega
      simp)
  simp only [edge, mul_one, eval_C, sub_zero, Nat.cast_add, Nat.cast_one, add_sub_cancel_left, one_mul, Nat.add_sub_cancel] at key
  rw [sum_eq_single_of_mem k (mem_range.2 hk) (fun j _ h => by rw [if_neg h, zero_mul]), if_pos rfl, one_mul] at key
  rw [key]
  simp only [Nat.reduceSub, sum_range_succ, sum_range_zero]
  interval_cases k <;> norm_num <;> ring

theorem wind_here (m : Nat) (hm : m ≤ 10) (w : Nat → ℝ) : windAfter (setup A B E P) metric data w m = if m = 1 then 1 else 0 := by
  unfold windAfter
  rw [wind_at]
  change (if 1 ≤ m ∧ m < 10 then metric.conXiEdge m 0 * applyRow A (data.node 0) m + metric.conXiEdge m 1 * applyRow A (data.node 1) m +
    metric.conXiEdge m 2 * metric.derivREdge m * w m else 0) = _
  by_cases h : m = 1
  · subst h
    rw [if_pos (by omega), interp_at V _ 1 (le_refl _) (by omega)]
    simp [metric, data]
  · rw [if_neg h]
    simp [metric, h]

theorem wind_before (m : Nat) (hm : m ≤ 10) : wind (setup A B E P) metric (column data) m = if m = 1 then 1 else 0 :=
  wind_here V m hm (column data).w

/-- Transport of `q` with volume element `o` on the first inner interface. -/
theorem carried_at (v xi q : Nat → ℝ) (hx : ∀ m ≤ 10, xi m = if m = 1 then 1 else 0) (k : Nat) (hk : k < 10) :
    carried (setup A B E P) metric v xi q k =
      (if k = 0 then v 1 * ((q 0 + q 1) / 2) else if k = 1 then -(v 1 * ((q 0 + q 1) / 2)) / 2 else 0) := by
  unfold carried
  change applyRow E _ k / metric.jac k = _
  rw [divergence_at V, hx (k + 1) (by omega), hx k (by omega)]
  change (v (k + 1) * (applyRow A q (k + 1) * _) - v k * (applyRow A q k * _)) / _ = _
  by_cases h0 : k = 0
  · subst h0
    rw [interp_at V q (0 + 1) (by omega) (by omega)]
    simp [metric]
  · by_cases h1 : k = 1
    · subst h1
      rw [interp_at V q 1 (by omega) (by omega)]
      simp [metric]
    · simp [h0, h1]

theorem jumps_at (v q : Nat → ℝ) (k : Nat) (hk : k < 10) : jumps (setup A B E P) v q k =
    1 / 2 * ((if k + 1 < 10 then v (k + 1) * (q (k + 1) - q k) else 0) - if 1 ≤ k then v k * (q k - q (k - 1)) else 0) := by
  unfold jumps
  change penaltyApply P _ q _ 1 1 k = _
  rw [penalty_at V _ q k hk]
  by_cases h : 1 ≤ k
  · simp only [if_pos h, show k - 1 + 1 = k by omega]
  · simp only [if_neg h]

theorem upwind_at (q : Nat → ℝ) (k : Nat) (hk : k < 10) :
    jumps (setup A B E P) (fun m => |wind (setup A B E P) metric (column data) m|) q k =
      (if k = 0 then (q 1 - q 0) / 2 else if k = 1 then -(q 1 - q 0) / 2 else 0) := by
  rw [jumps_at V _ q k hk, wind_before V (k + 1) (by omega), wind_before V k (by omega)]
  by_cases h0 : k = 0
  · subst h0
    simp
    ring
  · by_cases h1 : k = 1
    · subst h1
      simp
      ring
    · simp [h0, h1]

theorem jumps_same (v q : Nat → ℝ) (hq : ∀ j < 10, q j = 1) (k : Nat) (hk : k < 10) : jumps (setup A B E P) v q k = 0 := by
  rw [jumps_at V v q k hk, hq k hk]
  by_cases h : k + 1 < 10
  · rw [hq (k + 1) h, hq (k - 1) (by omega)]
    simp
  · rw [hq (k - 1) (by omega)]
    simp [h]

/-- The equations of levels. -/
theorem level_side (q : Nat → ℝ) (hq : ∀ j < 10, q j = 1) (w r : Nat → ℝ) (k : Nat) (hk : k < 10) :
    levelSide (setup A B E P) metric (column data) q w r k =
      (if k = 0 then r 0 + r 0 else if k = 1 then r 1 - (r 0 + r 1) / 4 + (r 1 - r 0) / 2 else r k) := by
  have e1 : applyRow (setup A B E P).diffEN (fluxChange (setup A B E P) metric (wind (setup A B E P) metric (column data)) q w r) k /
      metric.jac k = carried (setup A B E P) metric (fun _ => 1) (wind (setup A B E P) metric (column data)) r k := by
    unfold carried
    congr 2
    funext m
    unfold fluxChange
    by_cases h : 1 ≤ m ∧ m < (setup A B E P).levels
    · rw [if_pos h]
      simp [metric]
    · rw [if_neg h, wind_ends _ _ m h]
      ring
  have e2 : penaltyApply (setup A B E P).penalty
      (fun a => sgn (wind (setup A B E P) metric (column data) (a + 1)) / metric.derivREdge (a + 1) * w (a + 1)) q (fun _ => 0) 1 1 k = 0 :=
    jumps_same V (fun m => sgn (wind (setup A B E P) metric (column data) m) / metric.derivREdge m * w m) q hq k hk
  have e3 := upwind_at V r k hk
  unfold jumps at e3
  unfold levelSide
  rw [e1, e2, e3, carried_at V _ _ r (wind_before V) k hk]
  change _ + r k / 1 = _
  by_cases h0 : k = 0
  · subst h0
    simp
    ring
  · by_cases h1 : k = 1
    · subst h1
      simp
      ring
    · simp [h0, h1]

theorem level_tend (q : Nat → ℝ) (hq : ∀ j < 10, q j = 1) (k : Nat) (hk : k < 10) :
    levelTend (setup A B E P) metric (column data) q k = if k = 0 then 1 else if k = 1 then -1 / 2 else 0 := by
  have e1 : applyRow (setup A B E P).diffEN (flux (setup A B E P) (physical metric) (column data) q) k / metric.jac k =
      carried (setup A B E P) metric (fun _ => 1) (wind (setup A B E P) metric (column data)) q k := by
    unfold carried flux
    congr 2
    funext m
    rw [mul_assoc]
    rfl
  have e3 := jumps_same V (fun m => |wind (setup A B E P) metric (column data) m|) q hq k hk
  unfold jumps at e3
  unfold levelTend
  rw [e1, e3, carried_at V _ _ q (wind_before V) k hk, hq 0 (by omega), hq 1 (by omega)]
  split_ifs <;> norm_num

theorem no_stray (k : Nat) (hk : k < 10) : strayFactor (setup A B E P) metric (column data) k = 0 := by
  unfold strayFactor
  split_ifs with h
  · rw [level_side V _ (fun j _ => by simp [column, data]) _ _ (k - 2) (by omega)]
    simp
  · rfl

theorem regular : ¬ Singular (setup A B E P) metric data (strayFactor (setup A B E P) metric (column data)) := by
  rintro ⟨p, w, r, ⟨hl, hi⟩, hz⟩
  apply hz
  have side : ∀ z q : Nat → ℝ, (∀ j < 10, q j = 1) →
      (∀ k < 10, levelSide (setup A B E P) metric (column data) q w z k = 0) → ∀ k < 10, z k = 0 := by
    intro z q hq h
    have z0 := h 0 (by omega)
    have z1 := h 1 (by omega)
    rw [level_side V q hq w z _ (by omega)] at z0 z1
    simp at z0 z1
    intro k hk
    by_cases h0 : k = 0
    · rw [h0, z0]
    · by_cases h1 : k = 1
      · rw [h1]
        linarith
      · have := h k hk
        rwa [level_side V q hq w z k hk, if_neg h0, if_neg h1] at this
  have hp := side p _ (fun j _ => by simp [column, data]) fun k hk => (hl k hk).1
  have hr := side r (column data).r (fun j _ => by simp [column, data]) fun k hk => by
    have := (hl k hk).2
    rwa [no_stray V k hk, zero_mul, add_zero] at this
  refine ⟨fun k hk => ⟨hp k hk, hr k hk⟩, fun k hk => ?_⟩
  have := hi k hk
  unfold interfaceSide at this
  change k ≤ 10 at hk
  by_cases h : 1 ≤ k ∧ k < (setup A B E P).levels
  · rw [if_pos h] at this
    have a1 : applyRow (setup A B E P).interpNE p k = 0 := by
      change applyRow A p k = 0
      rw [interp_at V p k h.1 h.2, hp k h.2, hp (k - 1) (by have := h.2; change k < 10 at this; omega)]
      norm_num
    have a2 : applyRow (setup A B E P).interpNE r k = 0 := by
      change applyRow A r k = 0
      rw [interp_at V r k h.1 h.2, hr k h.2, hr (k - 1) (by have := h.2; change k < 10 at this; omega)]
      norm_num
    have a3 : applyRow (setup A B E P).diffNE (fun m => exner (setup A B E P) (column data) m / (column data).p m * p m) k = 0 := by
      rw [gradient_levels V (fun m => exner (setup A B E P) (column data) m / (column data).p m * p m) (fun _ => 0)
        (fun j hj => by rw [hp j hj, mul_zero]) k, applyRow_eq]
      simp
    rw [a1, a2, a3] at this
    simpa [setup] using this
  · rw [if_neg h] at this
    simpa [setup] using this

/-- The equations of the tracer. -/
theorem tracer_side (o : ℝ) (y : Nat → ℝ) (k : Nat) (hk : k < 10) :
    y k / (setup A B E P).dt + carried (setup A B E P) metric ((site o).other (setup A B E P)) (wind (setup A B E P) metric (column data)) y k -
      jumps (setup A B E P) (fun m => |wind (setup A B E P) metric (column data) m|) y k =
      (if k = 0 then y 0 + o * ((y 0 + y 1) / 2) - (y 1 - y 0) / 2
        else if k = 1 then y 1 - o * ((y 0 + y 1) / 4) + (y 1 - y 0) / 2 else y k) := by
  rw [carried_at V _ _ y (wind_before V) k hk, upwind_at V y k hk, site_other, if_pos rfl, show (setup A B E P).dt = 1 from rfl]
  by_cases h0 : k = 0
  · subst h0
    simp
  · by_cases h1 : k = 1
    · subst h1
      simp
      ring
    · simp [h0, h1]

theorem tracer_regular (o : ℝ) (ho : o = 1 ∨ o = 3) : ¬ SingularTracers (setup A B E P) metric data ((site o).other (setup A B E P)) := by
  rintro ⟨y, hy, k, hk, hz⟩
  apply hz
  have y0 := hy 0 (by change 0 < 10; omega)
  have y1 := hy 1 (by change 1 < 10; omega)
  rw [tracer_side V o y _ (by omega)] at y0 y1
  simp only [if_true, one_ne_zero, if_false] at y0 y1
  by_cases h0 : k = 0
  · rw [h0]
    rcases ho with rfl | rfl <;> linarith
  · by_cases h1 : k = 1
    · rw [h1]
      rcases ho with rfl | rfl <;> linarith
    · have := hy k hk
      rwa [tracer_side V o y k hk, if_neg h0, if_neg h1] at this

/-- The step takes half of what is on the lowest level. -/
theorem density (solve : BandSolver) (hs : Lapack solve) (M : Memory) (U W : State)
    (hW : implicitColumn (setup A B E P) metric M solve data U = some W) : W.node 4 0 = 1 / 2 ∧ W.node 4 1 = 11 / 10 := by
  obtain ⟨hn, -, -⟩ := step_solves V (lorenz A B E P) solve hs (by simp [setup]) rfl (by simp [setup]) metric data M U W hW
  have h0 := (hn.1 0 (by change 0 < 10; omega)).2
  have h1 := (hn.1 1 (by change 1 < 10; omega)).2
  rw [no_stray V _ (by omega), zero_mul, add_zero, level_tend V _ (fun j _ => by simp [column, data]) _ (by omega)] at h0 h1
  rw [level_side V (column data).r (fun j _ => by simp [column, data]) _ _ _ (by omega)] at h0 h1
  simp only [if_true, one_ne_zero, if_false, data] at h0 h1
  norm_num at h0 h1
  constructor <;> linarith

end

/-- There is such a column, and neither the step nor the update of its tracers refuses it. -/
theorem steps (o : ℝ) (ho : o = 1 ∨ o = 3) (M : Memory) (U : State) (ref : Nat → Nat → ℝ) : ∃ A B E P solve W t,
    Volumes (setup A B E P) node edge ∧ Lapack solve ∧ implicitColumn (setup A B E P) metric M solve data U = some W ∧
    updateTracers (setup A B E P) metric (site o) (setupColumn (setup A B E P) data M) solve W 1 (fun _ _ => 1) ref (fun _ _ => 1) = .ok t := by
  obtain ⟨A, B, E, P, V⟩ := exists_ops
  obtain ⟨solve, hs⟩ := lapack_exists
  rcases h : implicitColumn (setup A B E P) metric M solve data U with _ | W
  · rcases ((C131_refused V solve hs (by simp [setup]) metric data M U).2 (lorenz A B E P)).1 h with h | h | h
    · simp [setup] at h
    · simp [setup] at h
    · exact absurd h (regular V)
  · obtain ⟨r1, r2, -⟩ := C133_refused V (by simp [setup]) (lorenz A B E P) solve hs metric (site o) data M W 1 (fun _ _ => 1) ref (fun _ _ => 1)
    rcases ht : updateTracers (setup A B E P) metric (site o) (setupColumn (setup A B E P) data M) solve W 1 (fun _ _ => 1) ref
      (fun _ _ => 1) with _ | _ | t
    · obtain ⟨-, h | ⟨-, h | h⟩⟩ := r2.1 ht
      · simp [setup] at h
      · simp [setup] at h
      · exact absurd h (tracer_regular V o ho)
    · obtain ⟨-, -, h | h⟩ := r1.1 ht
      · simp [setup] at h
      · exact absurd h (site_inside A B E P o)
    · exact ⟨A, B, E, P, solve, W, t, V, hs, h, ht⟩

/-- **C133 (consistency; false).**  After a step of the column, a tracer that was equal to density need not be equal to the new density,
although the volume elements of the column are where they belong, because those of other columns are read: even where the factors
that do not belong to the equation for density vanish. -/
theorem C133_consistent_false : ¬ ∀ (S : Setup) (node edge : Nat → ℝ), Volumes S node edge → Lorenz S → S.dt ≠ 0 → S.useRef = true →
    ∀ (solve : BandSolver), Lapack solve → ∀ (G : Metric) (P : Site), P.Holds S G → ∀ (D : Data) (M : Memory) (U W : State),
    implicitColumn S G M solve D U = some W → (∀ k < S.levels, strayFactor S G (column D) k = 0) →
    ∀ (count : Nat) (q ref t : Nat → Nat → ℝ), updateTracers S G P (setupColumn S D M) solve W count q ref q = .ok t →
    ∀ c < count, (∀ k < S.levels, q c k = D.node 4 k) → ∀ k < S.levels, t c k = W.node 4 k := by
  intro H
  obtain ⟨A, B, E, P, solve, W, t, V, hs, hW, ht⟩ := steps 3 (Or.inr rfl)
    ⟨fun _ _ => 0, fun _ _ => 0, fun _ _ => 0, fun _ _ => 0, fun _ => 0, fun _ => 0, fun _ => 0⟩
    ⟨fun _ _ => 0, fun _ _ => 0, fun _ _ => 0⟩ (fun _ _ => 0)
  have h := H _ node edge V (lorenz A B E P) (by simp [setup]) rfl solve hs metric (site 3) (site_holds A B E P 3) data _ _ W hW
    (no_stray V) 1 _ _ t ht 0 one_pos (fun k _ => by simp [data])
  obtain ⟨d0, d1⟩ := density V solve hs _ _ W hW
  have hstep := (C133_step V (by simp [setup]) (lorenz A B E P) solve hs metric (site 3) data _ W 1 _ _ _ t ht 0 one_pos
    (fun k => t 0 k - 1)).2 (fun k _ => by ring) 0 (by change 0 < 10; omega)
  unfold TracerStep at hstep
  have h0 := h 0 (by change 0 < 10; omega)
  have h1 := h 1 (by change 1 < 10; omega)
  rw [carried_at V _ _ _ (fun m hm => wind_here V m hm _) 0 (by omega), jumps_same V _ (fun _ => 1) (fun _ _ => rfl) 0 (by omega),
    jumps_same V _ (fun _ => 1) (fun _ _ => rfl) 0 (by omega)] at hstep
  have := tracer_side V 3 (fun k => t 0 k - 1) 0 (by omega)
  rw [if_pos rfl] at this
  rw [if_pos rfl] at hstep
  dsimp only at this hstep
  rw [h0, h1, d0, d1] at this
  rw [h0, d0] at hstep
  simp only [metric] at hstep this
  linarith

/-- The hypotheses of `C133_step`, `C133_untouched` are met, and the volume element read is not that of the column. -/
example (M : Memory) (U : State) : ∃ A B E P solve W t, Volumes (setup A B E P) node edge ∧ Lapack solve ∧
    implicitColumn (setup A B E P) metric M solve data U = some W ∧
    updateTracers (setup A B E P) metric (site 3) (setupColumn (setup A B E P) data M) solve W 1 (fun _ _ => 1) (fun _ _ => 0)
      (fun _ _ => 1) = .ok t := steps 3 (Or.inr rfl) M U _

/-- The hypotheses of `C133_consistent_partial` are met where all columns have the same volume elements, and density changes. -/
example (M : Memory) (U : State) : ∃ A B E P solve W t, Volumes (setup A B E P) node edge ∧ Lapack solve ∧
    implicitColumn (setup A B E P) metric M solve data U = some W ∧
    updateTracers (setup A B E P) metric (site 1) (setupColumn (setup A B E P) data M) solve W 1 (fun _ _ => 1) (fun _ _ => 0)
      (fun _ _ => 1) = .ok t ∧ (∀ k < 10, t 0 k = 1 * W.node 4 k) ∧ W.node 4 0 = 1 / 2 := by
  obtain ⟨A, B, E, P, solve, W, t, V, hs, hW, ht⟩ := steps 1 (Or.inl rfl) M U (fun _ _ => 0)
  refine ⟨A, B, E, P, solve, W, t, V, hs, hW, ht, ?_, (density V solve hs M U W hW).1⟩
  exact C133_consistent_partial V (by simp [setup]) (lorenz A B E P) solve hs (by simp [setup]) rfl metric (site 1) data M M U W hW 1 _ _ t ht
    (fun m _ _ => by rw [site_other]; simp [metric]) (no_stray V) 0 one_pos 1 (fun k _ => by simp [data])

/-- With more columns than levels, or fewer: an access outside the array, or not. -/
example : ∃ A B E P, Volumes (setup A B E P) node edge ∧ ¬ (site 1).Beyond (setup A B E P) ∧
    Site.Beyond ⟨10, 10, 0, 0, fun _ => 1⟩ (setup A B E P) := by
  obtain ⟨A, B, E, P, V⟩ := exists_ops
  exact ⟨A, B, E, P, V, site_inside A B E P 1, by simp [Site.Beyond, setup]⟩

/-- The hypotheses of `C133_mass_partial` are met: the same column with a volume element of one on all levels, next to one with three. -/
example (M : Memory) (W : State) : ∃ A B E P solve t, Volumes (setup A B E P) node edge ∧ Lapack solve ∧
    updateTracers (setup A B E P) { metric with jac := fun _ => 1 } (site 3) (setupColumn (setup A B E P) data M) solve W 1
      (fun _ k => k) (fun _ _ => 0) (fun _ k => k) = .ok t ∧ ∑ k ∈ range 10, t 0 k = 45 := by
  obtain ⟨A, B, E, P, V⟩ := exists_ops
  obtain ⟨solve, hs⟩ := lapack_exists
  have hreg : ¬ SingularTracers (setup A B E P) { metric with jac := fun _ => 1 } data ((site 3).other (setup A B E P)) := by
    have hc : ∀ (v xi q : Nat → ℝ) (k : Nat), carried (setup A B E P) { metric with jac := fun _ => 1 } v xi q k =
        carried (setup A B E P) metric v xi q k * metric.jac k := by
      intro v xi q k
      have : metric.jac k ≠ 0 := by
        simp only [metric]
        split_ifs <;> norm_num
      unfold carried
      field_simp
    rintro ⟨y, hy, k, hk, hz⟩
    apply hz
    have hy' : ∀ k < 10, y k / 1 + carried (setup A B E P) metric ((site 3).other (setup A B E P))
        (wind (setup A B E P) metric (column data)) y k * metric.jac k -
        jumps (setup A B E P) (fun m => |wind (setup A B E P) metric (column data) m|) y k = 0 := fun k hk => by
      rw [← hc]
      exact hy k hk
    have e : ∀ k < 10, _ := fun k hk => by
      have := hy' k hk
      rw [carried_at V _ _ y (wind_before V) k hk, upwind_at V y k hk, site_other, if_pos rfl] at this
      exact this
    have y0 := e 0 (by omega)
    have y1 := e 1 (by omega)
    simp [metric] at y0 y1
    by_cases h0 : k = 0
    · rw [h0]
      linarith
    · by_cases h1 : k = 1
      · rw [h1]
        linarith
      · have := e k hk
        simpa [h0, h1] using this
  obtain ⟨r1, r2, -⟩ := C133_refused V (by simp [setup]) (lorenz A B E P) solve hs { metric with jac := fun _ => 1 } (site 3) data M W 1
    (fun _ k => (k : ℝ)) (fun _ _ => 0) (fun _ k => (k : ℝ))
  rcases ht : updateTracers (setup A B E P) { metric with jac := fun _ => 1 } (site 3) (setupColumn (setup A B E P) data M) solve W 1
    (fun _ k => (k : ℝ)) (fun _ _ => 0) (fun _ k => (k : ℝ)) with _ | _ | t
  · obtain ⟨-, h | ⟨-, h | h⟩⟩ := r2.1 ht
    · simp [setup] at h
    · simp [setup] at h
    · exact absurd h hreg
  · obtain ⟨-, -, h | h⟩ := r1.1 ht
    · simp [setup] at h
    · exact absurd h (site_inside A B E P 3)
  · refine ⟨A, B, E, P, solve, t, V, hs, ht, ?_⟩
    have := C133_mass_partial V (by simp [setup]) (lorenz A B E P) solve hs (by simp [setup]) { metric with jac := fun _ => 1 } 1 one_ne_zero
      (fun _ _ => rfl) (site 3) data M W 1 _ _ _ t ht 0
    unfold amount at this
    simp [edge, setup, sum_range_succ] at this ⊢
    norm_num at this
    linarith

/-- The hypotheses of `C133_outside` are met by a patch of ten by ten columns. -/
example : ∃ A B E P, Volumes (setup A B E P) node edge ∧ Lorenz (setup A B E P) ∧ (setup A B E P).uniform = false ∧
    Site.a ⟨10, 10, 0, 0, fun _ => 1⟩ ≤ (setup A B E P).levels := by
  obtain ⟨A, B, E, P, V⟩ := exists_ops
  exact ⟨A, B, E, P, V, lorenz A B E P, rfl, le_refl _⟩

end Verif.Schur.Ten
