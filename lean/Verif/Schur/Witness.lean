/-
A column of five levels for the step by a Schur complement at second order: examples, and what goes wrong.
-/
import Verif.Schur.Props
import Verif.Column.PenaltyProps

namespace Verif.Schur.Witness

open Verif.Column Verif.Vdyn Verif.Interp Finset Polynomial

/-- Levels one apart, interfaces between them. -/
noncomputable def node (k : Nat) : ℝ := k + 1 / 2
noncomputable def edge (k : Nat) : ℝ := k

/-- Second order, five levels, gravity `g` and a gas with the Exner pressure twice density times potential temperature. -/
noncomputable def setup (g : ℝ) (A B E : Op) (P : Penalty) : Setup where
  levels := 5
  order := 2
  volumes := true
  wOnEdge := true
  pOnEdge := false
  massOnLevels := false
  uniform := false
  useRef := true
  nuScalar := 0
  nuVector := 0
  ztop := 5
  dt := 1
  phys := ⟨1, g, 0, 0, 1, 2, 1, 1, 1, 1, 1, 1, 1, 1, 1⟩
  interpNE := A
  interpEN := A
  diffNN := A
  diffNNZero := A
  diffNE := B
  diffEN := E
  diffDiffNN := A
  diffDiffEE := A
  penalty := P

/-- Volume elements of interfaces that make the flux of a velocity of one 1, 1, 1 and 2. -/
noncomputable def metric : Metric where
  jac := fun _ => 1
  jacEdge := fun k => (if k = 4 then 2 else 1) / (205 / 2 - 5 * k)
  derivR := fun _ => 1
  derivREdge := fun _ => 1
  conA := fun _ _ => 0
  conB := fun _ _ => 0
  conXi := fun _ c => if c = 2 then 1 else 0
  conAEdge := fun _ _ => 0
  conBEdge := fun _ _ => 0
  conXiEdge := fun _ c => if c = 2 then 1 else 0

/-- A column at rest with potential temperature one, density falling by five from level to level. -/
noncomputable def data : Data where
  node := fun c k => if c = 2 ∨ c = 4 then 100 - 5 * k else 0
  edge := fun _ _ => 0
  refNode := fun _ _ => 0
  refEdge := fun _ _ => 0

theorem exists_ops (g : ℝ) : ∃ A B E P, Volumes (setup g A B E P) node edge := by
  obtain ⟨A, hA⟩ := ((C71_refused .levels .interfaces 2 5 6 node edge).2.2 rfl (by omega) (by omega) (by omega)).1 (by decide)
  obtain ⟨B, hB⟩ := ((C71_refused .levels .interfaces 2 5 6 node edge).2.2 rfl (by omega) (by omega) (by omega)).2
  obtain ⟨E, hE⟩ := ((C71_refused .interfaces .levels 2 5 6 node edge).2.2 rfl (by omega) (by omega) (by omega)).2
  obtain ⟨P, hP⟩ : ∃ P, penaltyReconInit 2 5 6 node edge = .ok P := by
    unfold penaltyReconInit
    rw [if_neg (by omega), if_neg (by omega), if_neg (by omega)]
    exact ⟨_, rfl⟩
  refine ⟨A, B, E, P, rfl, hA, hB, hE, hP, fun k _ => ?_, fun i j _ _ hij h => hij ?_⟩
  · unfold edge
    push_cast
    linarith
  · unfold node at h
    have : (i : ℝ) = j := by linarith
    exact_mod_cast this

section
variable {g : ℝ} {A B E : Op} {P : Penalty} (V : Volumes (setup g A B E P) node edge)
include V

theorem interp_at (y : Nat → ℝ) (k : Nat) (h1 : 1 ≤ k) (h5 : k < 5) : applyRow A y k = (y (k - 1) + y k) / 2 := by
  have := C71_to_interfaces 1 5 6 node edge A V.toInterfaces V.distinct y k (by omega) (C (y (k - 1))) (C (y k)) (fun _ => ?_) (fun _ => ?_)
  · rw [this, if_neg (by omega), if_neg (by omega)]
    simp
  · refine ⟨lt_of_le_of_lt degree_C_le ?_, fun j _ a b => ?_⟩
    · norm_cast
      omega
    · rw [show j = k - 1 by omega]
      simp
  · refine ⟨lt_of_le_of_lt degree_C_le ?_, fun j _ a b => ?_⟩
    · norm_cast
      omega
    · rw [show j = k by omega]
      simp

theorem gradient_at (y : Nat → ℝ) (k : Nat) (h1 : 1 ≤ k) (h5 : k < 5) : applyRow B y k = y k - y (k - 1) := by
  obtain ⟨F, hF⟩ := ((C71_refused .interfaces .interfaces 2 5 6 node edge).2.2 rfl (by omega) (by omega) (by omega)).2
  have := (C71_diff_interfaces 1 5 6 node edge F B hF V.gradient y k (by omega)
    (C (y k - y (k - 1)) * X + C ((y k + y (k - 1)) / 2 - (y k - y (k - 1)) * k))).2.2.2.2.2.2.2 ?_ ?_ ?_
  · rw [this]
    simp
  · intro i j _ _ hij
    unfold node
    have h : (1 : ℝ) ≤ |(i : ℝ) - j| := by
      have : (1 : ℤ) ≤ |(i : ℤ) - j| := Int.one_le_abs (by omega)
      exact_mod_cast this
    rw [show (i : ℝ) + 1 / 2 - (j + 1 / 2) = i - j by ring]
    norm_num at h ⊢
    linarith
  · rw [show (min (k + 1) 5 - (k - 1) : ℕ) = 2 by omega]
    refine lt_of_le_of_lt degree_linear_le ?_
    norm_num
  · intro j _ a b
    have : ((k - 1 : ℕ) : ℝ) = k - 1 := by
      push_cast [h1]
      ring
    obtain rfl | rfl : j = k ∨ j = k - 1 := by omega
    · simp [node]
      ring
    · simp only [node, eval_add, eval_mul, eval_C, eval_X, this]
      ring

theorem divergence_at (y : Nat → ℝ) (k : Nat) : applyRow E y k = y (k + 1) - y k := by
  rw [((C71_to_levels 2 5 6 node edge E E y k).2 V.divergence).2.2.2]
  simp [edge]

omit V in
theorem no_wind (m : Nat) : wind (setup g A B E P) metric (column data) m = 0 := by
  have hz : applyRow A (fun _ => (0 : ℝ)) m = 0 := by
    rw [applyRow_eq]
    simp
  unfold wind verticalWind
  split_ifs
  · rfl
  · simp [physical, metric, column, data]

/-- The flux through interface `m` for a change `w` of vertical velocity. -/
noncomputable def through (w : Nat → ℝ) (m : Nat) : ℝ := if 1 ≤ m ∧ m < 5 then (if m = 4 then 2 else 1) * w m else 0

theorem interp_data (m : Nat) (h1 : 1 ≤ m) (h5 : m < 5) (c : Nat) (hc : c = 2 ∨ c = 4) :
    applyRow A (data.node c) m = 205 / 2 - 5 * m := by
  rw [interp_at V _ m h1 h5]
  have : ((m - 1 : ℕ) : ℝ) = m - 1 := by
    push_cast [h1]
    ring
  simp only [data, hc, if_true, this]
  ring

omit V in
theorem positive (m : Nat) (h5 : m < 5) : (0 : ℝ) < 205 / 2 - 5 * m := by
  have : (m : ℝ) < 5 := by exact_mod_cast h5
  linarith

theorem level_side (c : Nat) (hc : c = 2 ∨ c = 4) (w r : Nat → ℝ) (k : Nat) (hk : k < 5) :
    levelSide (setup g A B E P) metric (column data) (data.node c) w r k = through w (k + 1) - through w k + r k := by
  have hf : fluxChange (setup g A B E P) metric (wind (setup g A B E P) metric (column data)) (data.node c) w r = through w := by
    funext m
    unfold fluxChange through
    rw [show (setup g A B E P).levels = 5 from rfl]
    by_cases h : 1 ≤ m ∧ m < 5
    · rw [if_pos h, if_pos h, no_wind]
      have e := interp_data V m h.1 h.2 c hc
      have hp := positive m h.2
      simp only [setup, metric, e]
      generalize (205 : ℝ) / 2 - 5 * m = z at hp ⊢
      field_simp
      simp
    · rw [if_neg h, if_neg h]
  unfold levelSide
  rw [hf, penalty_volumes V (by simp [setup]) _ _ k hk, penalty_volumes V (by simp [setup]) _ _ k hk]
  simp only [no_wind]
  rw [show (setup g A B E P).diffEN = E from rfl, show (setup g A B E P).dt = 1 from rfl, divergence_at V]
  simp [metric, sgn]

theorem level_tend (c k : Nat) (hk : k < 5) : levelTend (setup g A B E P) metric (column data) (data.node c) k = 0 := by
  have hf : flux (setup g A B E P) (physical metric) (column data) (data.node c) = fun _ => 0 := by
    funext m
    have := no_wind (g := g) (A := A) (B := B) (E := E) (P := P) m
    unfold wind at this
    unfold flux
    rw [this, mul_zero]
  unfold levelTend
  rw [hf, penalty_volumes V (by simp [setup]) _ _ k hk]
  simp only [no_wind]
  rw [show (setup g A B E P).diffEN = E from rfl, divergence_at V]
  simp

theorem exner_data (m : Nat) (hm : m < 5) : exner (setup g A B E P) (column data) m = 2 * data.node 2 m := by
  have : (m : ℝ) < 5 := by exact_mod_cast hm
  unfold exner
  simp only [setup, column, data]
  norm_num
  rw [Real.exp_log (by linarith)]

theorem exner_gradient (k : Nat) (h1 : 1 ≤ k) (h5 : k < 5) : applyRow B (exner (setup g A B E P) (column data)) k = -10 := by
  rw [gradient_at V _ k h1 h5, exner_data V k h5, exner_data V (k - 1) (by omega)]
  have : ((k - 1 : ℕ) : ℝ) = k - 1 := by
    push_cast [h1]
    ring
  simp only [data, true_or, if_true, this]
  ring

theorem interface_side (p w r : Nat → ℝ) (k : Nat) (h1 : 1 ≤ k) (h5 : k < 5) :
    interfaceSide (setup g A B E P) metric (column data) p w r k =
      2 * (p k - p (k - 1)) - 10 / (205 / 2 - 5 * k) * ((p (k - 1) + p k) / 2 - (r (k - 1) + r k) / 2) + w k := by
  have hd : ∀ m : Nat, m < 5 → exner (setup g A B E P) (column data) m / (column data).p m * p m = 2 * p m := by
    intro m hm
    rw [exner_data V m hm]
    have : (m : ℝ) < 5 := by exact_mod_cast hm
    have h : data.node 2 m ≠ 0 := by
      simp only [data, true_or, if_true]
      linarith
    simp only [column]
    field_simp
  unfold interfaceSide
  rw [if_pos ⟨h1, h5⟩]
  have e1 : applyRow A (column data).p k = 205 / 2 - 5 * k := interp_data V k h1 h5 2 (Or.inl rfl)
  have e2 : applyRow A (column data).r k = 205 / 2 - 5 * k := interp_data V k h1 h5 4 (Or.inr rfl)
  have e3 := exner_gradient V k h1 h5
  have hp := positive k h5
  have e4 : applyRow B (fun m => exner (setup g A B E P) (column data) m / (column data).p m * p m) k = 2 * p k - 2 * p (k - 1) := by
    rw [gradient_at V _ k h1 h5, hd k h5, hd (k - 1) (by omega)]
  change applyRow A (column data).p k * 1 / (1 * applyRow A (column data).r k * (2 - 1)) *
    applyRow B (fun m => exner (setup g A B E P) (column data) m / (column data).p m * p m) k +
    1 / 1 / (applyRow A (column data).r k * applyRow A (column data).r k) * applyRow B (exner (setup g A B E P) (column data)) k *
      (applyRow A p k * applyRow A (column data).r k - applyRow A r k * applyRow A (column data).p k) + w k / 1 = _
  rw [e1, e2, e3, e4, interp_at V p k h1 h5, interp_at V r k h1 h5]
  generalize (205 : ℝ) / 2 - 5 * k = z at hp ⊢
  field_simp
  ring

theorem stray_at (k : Nat) (h2 : 2 ≤ k) (h5 : k < 5) : strayFactor (setup g A B E P) metric (column data) k = 1 := by
  unfold strayFactor
  rw [if_pos ⟨rfl, h2⟩]
  have := level_side V 2 (Or.inl rfl) (fun m => if m = k - 1 then 1 else 0) (fun _ => 0) (k - 2) (by omega)
  have e : (column data).p = data.node 2 := rfl
  rw [e, this]
  unfold through
  obtain rfl | rfl | rfl : k = 2 ∨ k = 3 ∨ k = 4 := by omega
  all_goals norm_num

/-- The equations of the column, one by one. -/
theorem equations {p w r : Nat → ℝ} {h : ℝ} {b : Nat → ℝ} (hb : ∀ k, b k = if 1 ≤ k ∧ k < 5 then h else 0)
    (hl : Linear (setup g A B E P) metric (column data) (strayFactor (setup g A B E P) metric (column data)) p w r (fun _ => 0) b (fun _ => 0)) :
    (w 0 = 0 ∧ w 5 = 0 ∧ w 1 + p 0 = 0 ∧ w 2 - w 1 + p 1 = 0 ∧ w 3 - w 2 + p 2 = 0 ∧ 2 * w 4 - w 3 + p 3 = 0 ∧ -(2 * w 4) + p 4 = 0) ∧
    (w 1 + r 0 = 0 ∧ w 2 - w 1 + r 1 = 0 ∧ w 3 - w 2 + r 2 + p 1 = 0 ∧ 2 * w 4 - w 3 + r 3 + p 2 = 0 ∧ -(2 * w 4) + r 4 + p 3 = 0) ∧
    (2 * (p 1 - p 0) - 4 / 39 * ((p 0 + p 1) / 2 - (r 0 + r 1) / 2) + w 1 = h ∧
      2 * (p 2 - p 1) - 4 / 37 * ((p 1 + p 2) / 2 - (r 1 + r 2) / 2) + w 2 = h ∧
      2 * (p 3 - p 2) - 4 / 35 * ((p 2 + p 3) / 2 - (r 2 + r 3) / 2) + w 3 = h ∧
      2 * (p 4 - p 3) - 4 / 33 * ((p 3 + p 4) / 2 - (r 3 + r 4) / 2) + w 4 = h) := by
  obtain ⟨l, i⟩ := hl
  have lp : ∀ k, k < 5 → through w (k + 1) - through w k + p k = 0 := fun k hk => by
    rw [← level_side V 2 (Or.inl rfl) w p k hk]
    exact (l k hk).1
  have lr : ∀ k, k < 5 → through w (k + 1) - through w k + r k + strayFactor (setup g A B E P) metric (column data) k * p (k - 1) = 0 :=
    fun k hk => by
    rw [← level_side V 4 (Or.inr rfl) w r k hk]
    exact (l k hk).2
  have li : ∀ k, 1 ≤ k → k < 5 → _ := fun k h1 h5 => (interface_side V p w r k h1 h5).symm.trans (i k (by change k ≤ 5; omega))
  have z0 : strayFactor (setup g A B E P) metric (column data) 0 = 0 := by
    unfold strayFactor
    rw [if_neg (by omega)]
  have z1 : strayFactor (setup g A B E P) metric (column data) 1 = 0 := by
    unfold strayFactor
    rw [if_neg (by omega)]
  have w0 := i 0 (Nat.zero_le _)
  have w5 := i 5 (le_refl _)
  unfold interfaceSide at w0 w5
  rw [if_neg (by omega), hb, if_neg (by omega)] at w0
  rw [if_neg (by change ¬ (1 ≤ 5 ∧ 5 < 5); omega), hb, if_neg (by omega)] at w5
  simp only [setup, div_one, zero_add] at w0 w5
  have a0 := lp 0 (by omega)
  have a1 := lp 1 (by omega)
  have a2 := lp 2 (by omega)
  have a3 := lp 3 (by omega)
  have a4 := lp 4 (by omega)
  have r0 := lr 0 (by omega)
  have r1 := lr 1 (by omega)
  have r2 := lr 2 (by omega)
  have r3 := lr 3 (by omega)
  have r4 := lr 4 (by omega)
  have i1 := li 1 (by omega) (by omega)
  have i2 := li 2 (by omega) (by omega)
  have i3 := li 3 (by omega) (by omega)
  have i4 := li 4 (by omega) (by omega)
  rw [z0] at r0
  rw [z1] at r1
  rw [stray_at V 2 (by omega) (by omega)] at r2
  rw [stray_at V 3 (by omega) (by omega)] at r3
  rw [stray_at V 4 (by omega) (by omega)] at r4
  rw [hb] at i1 i2 i3 i4
  simp [through] at a0 a1 a2 a3 a4 r0 r1 r2 r3 r4
  norm_num at i1 i2 i3 i4
  refine ⟨⟨w0, w5, ?_, ?_, ?_, ?_, ?_⟩, ⟨?_, ?_, ?_, ?_, ?_⟩, ?_, ?_, ?_, ?_⟩ <;> linarith

theorem regular : ¬ Singular (setup g A B E P) metric data (strayFactor (setup g A B E P) metric (column data)) := by
  rintro ⟨p, w, r, h1, h2⟩
  apply h2
  obtain ⟨⟨w0, w5, a0, a1, a2, a3, a4⟩, ⟨r0, r1, r2, r3, r4⟩, i1, i2, i3, i4⟩ := equations V (h := 0) (by simp) h1
  have e1 : w 1 = 0 := by linarith
  have e2 : w 2 = 0 := by linarith
  have e3 : w 3 = 0 := by linarith
  have e4 : w 4 = 0 := by linarith
  refine ⟨fun k hk => ?_, fun k hk => ?_⟩
  · change k < 5 at hk
    interval_cases k <;> constructor <;> linarith
  · change k ≤ 5 at hk
    interval_cases k <;> linarith

omit V in
theorem lorenz : Lorenz (setup g A B E P) := ⟨rfl, rfl, rfl⟩

end

/-- There is such a column, and the step does not refuse it. -/
theorem steps (g : ℝ) (M : Memory) (U : State) : ∃ A B E P solve W, Volumes (setup g A B E P) node edge ∧ Lapack solve ∧
    implicitColumn (setup g A B E P) metric M solve data U = some W := by
  obtain ⟨A, B, E, P, V⟩ := exists_ops g
  obtain ⟨solve, hs⟩ := lapack_exists
  rcases h : implicitColumn (setup g A B E P) metric M solve data U with _ | W
  · rcases ((C131_refused V solve hs (by simp [setup]) metric data M U).2 lorenz).1 h with h | h | h
    · simp [setup] at h
    · simp [setup] at h
    · exact absurd h (regular V)
  · exact ⟨A, B, E, P, solve, W, V, hs, h⟩

end Verif.Schur.Witness
