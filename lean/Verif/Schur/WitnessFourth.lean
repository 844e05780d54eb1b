/-
A column of eight levels for the step by a Schur complement at fourth order.
-/
import Verif.Schur.Witness

namespace Verif.Schur.WitnessFourth

open Verif.Column Verif.Vdyn Verif.Interp Finset Polynomial
open Verif.Schur.Witness (node edge)

/-- Fourth order, eight levels. -/
noncomputable def setup (A B E : Op) (P : Penalty) : Setup :=
  { Witness.setup 10 A B E P with levels := 8, order := 4 }

/-- A column in which vertical velocity carries through interface 4 only. -/
noncomputable def metric : Metric :=
  { Witness.metric with
    jacEdge := fun _ => 1
    conXiEdge := fun k c => if k = 4 ∧ c = 2 then 1 else 0 }

/-- At rest, with density and potential temperature one. -/
noncomputable def data : Data where
  node := fun c _ => if c = 2 ∨ c = 4 then 1 else 0
  edge := fun _ _ => 0
  refNode := fun _ _ => 0
  refEdge := fun _ _ => 0

theorem exists_ops : ∃ A B E P, Volumes (setup A B E P) node edge := by
  obtain ⟨A, hA⟩ := ((C71_refused .levels .interfaces 4 8 9 node edge).2.2 rfl (by omega) (by omega) (by omega)).1 (by decide)
  obtain ⟨B, hB⟩ := ((C71_refused .levels .interfaces 4 8 9 node edge).2.2 rfl (by omega) (by omega) (by omega)).2
  obtain ⟨E, hE⟩ := ((C71_refused .interfaces .levels 4 8 9 node edge).2.2 rfl (by omega) (by omega) (by omega)).2
  obtain ⟨P, hP⟩ : ∃ P, penaltyReconInit 4 8 9 node edge = .ok P := by
    unfold penaltyReconInit
    rw [if_neg (by omega), if_neg (by omega), if_neg (by omega)]
    exact ⟨_, rfl⟩
  refine ⟨A, B, E, P, rfl, hA, hB, hE, hP, fun k _ => ?_, fun i j _ _ hij h => hij ?_⟩
  · unfold edge
    push_cast
    linarith
  · unfold node at h
    have : (i : ℝ) = j := by linarith
    exact_mod_cast this

section
variable {A B E : Op} {P : Penalty} (V : Volumes (setup A B E P) node edge)
include V

theorem interp_one (m : Nat) (hm : m ≤ 8) : applyRow A (fun _ => (1 : ℝ)) m = 1 := by
  have := C71_polynomial 2 8 9 node edge A V.toInterfaces V.distinct 1 (fun _ => 1) (fun j _ => by simp) m hm
    (Or.inl ⟨by omega, by simp⟩)
  simpa using this

omit V in
theorem apart : ApartNodes 8 node := by
  intro i j _ _ hij
  unfold node
  have h : (1 : ℝ) ≤ |(i : ℝ) - j| := by
    have : (1 : ℤ) ≤ |(i : ℤ) - j| := Int.one_le_abs (by omega)
    exact_mod_cast this
  rw [show (i : ℝ) + 1 / 2 - (j + 1 / 2) = i - j by ring]
  norm_num at h ⊢
  linarith

theorem gradient_const (c : ℝ) (m : Nat) (hm : m ≤ 8) : applyRow B (fun _ => c) m = 0 := by
  obtain ⟨F, hF⟩ := ((C71_refused .interfaces .interfaces 4 8 9 node edge).2.2 rfl (by omega) (by omega) (by omega)).2
  have := (C71_diff_interfaces 2 8 9 node edge F B hF V.gradient (fun _ => c) m hm (C c)).2.2.2.2.2.2.2 apart ?_ (by simp)
  · rw [this]
    simp
  · refine lt_of_le_of_lt degree_C_le ?_
    norm_cast
    omega

theorem gradient_four (y : Nat → ℝ) (z : ℝ) (h2 : y 2 = 0) (h3 : y 3 = -z) (h4 : y 4 = z) (h5 : y 5 = 0) :
    applyRow B y 4 = 9 / 4 * z := by
  obtain ⟨F, hF⟩ := ((C71_refused .interfaces .interfaces 4 8 9 node edge).2.2 rfl (by omega) (by omega) (by omega)).2
  have := (C71_diff_interfaces 2 8 9 node edge F B hF V.gradient y 4 (by omega)
    (C (-z) * X ^ 3 + C (12 * z) * X ^ 2 + C (-(183 / 4) * z) * X + C (55 * z))).2.2.2.2.2.2.2 apart ?_ ?_
  · rw [this]
    simp [edge]
    ring
  · refine lt_of_le_of_lt degree_cubic_le ?_
    norm_num
  · intro j _ a b
    obtain rfl | rfl | rfl | rfl : j = 2 ∨ j = 3 ∨ j = 4 ∨ j = 5 := by omega
    · simp [node, h2]
      ring
    · simp [node, h3]
      ring
    · simp [node, h4]
      ring
    · simp [node, h5]
      ring

theorem divergence_at (y : Nat → ℝ) (k : Nat) : applyRow E y k = y (k + 1) - y k := by
  rw [((C71_to_levels 4 8 9 node edge E E y k).2 V.divergence).2.2.2]
  simp [edge]

omit V in
theorem no_wind (m : Nat) : wind (setup A B E P) metric (column data) m = 0 := by
  have hz : applyRow A (fun _ => (0 : ℝ)) m = 0 := by
    rw [applyRow_eq]
    simp
  unfold wind verticalWind
  split_ifs
  · rfl
  · simp [physical, metric, column, data]

theorem level_side (c : Nat) (hc : c = 2 ∨ c = 4) (w r : Nat → ℝ) (k : Nat) (hk : k < 8) :
    levelSide (setup A B E P) metric (column data) (data.node c) w r k =
      (if k + 1 = 4 then w 4 else 0) - (if k = 4 then w 4 else 0) + r k := by
  have hf : fluxChange (setup A B E P) metric (wind (setup A B E P) metric (column data)) (data.node c) w r =
      fun m => if m = 4 then w 4 else 0 := by
    funext m
    unfold fluxChange
    rw [show (setup A B E P).levels = 8 from rfl]
    by_cases h : m = 4
    · subst h
      rw [if_pos (by omega), no_wind]
      have e := interp_one V 4 (by omega)
      simp only [data, hc, if_true]
      rw [show (setup A B E P).interpNE = A from rfl, e]
      simp [metric, Witness.metric]
    · rw [no_wind, if_neg h]
      simp [metric, h]
  unfold levelSide
  rw [hf, penalty_volumes V (by simp [setup]) _ _ k hk, penalty_volumes V (by simp [setup]) _ _ k hk]
  simp only [no_wind]
  rw [show (setup A B E P).diffEN = E from rfl, show (setup A B E P).dt = 1 from rfl, divergence_at V]
  simp [metric, Witness.metric, sgn]

theorem interface_side (p w r : Nat → ℝ) (k : Nat) (h1 : 1 ≤ k) (h8 : k < 8) :
    interfaceSide (setup A B E P) metric (column data) p w r k = applyRow B (fun m => 2 * p m) k + w k := by
  have he : exner (setup A B E P) (column data) = fun _ => 2 := by
    funext m
    simp [exner, setup, Witness.setup, column, data]
  unfold interfaceSide
  rw [if_pos ⟨h1, h8⟩, he]
  have ep : (column data).p = fun _ => 1 := by
    funext m
    simp [column, data]
  have er : (column data).r = fun _ => 1 := by
    funext m
    simp [column, data]
  rw [ep, er, show (setup A B E P).interpNE = A from rfl, show (setup A B E P).diffNE = B from rfl, gradient_const V 2 k (by omega),
    interp_one V k (by omega)]
  simp [setup, Witness.setup, metric, Witness.metric]
  norm_num

theorem regular : ¬ Singular (setup A B E P) metric data (strayFactor (setup A B E P) metric (column data)) := by
  rintro ⟨p, w, r, ⟨l, i⟩, hne⟩
  apply hne
  have hp : ∀ k < 8, p k = (if k = 4 then w 4 else 0) - (if k + 1 = 4 then w 4 else 0) := by
    intro k hk
    have h := (level_side V 2 (Or.inl rfl) w p k hk).symm.trans (l k hk).1
    linarith
  have hr : ∀ k < 8, r k = (if k = 4 then w 4 else 0) - (if k + 1 = 4 then w 4 else 0) := by
    intro k hk
    have h := (l k hk).2
    have z : strayFactor (setup A B E P) metric (column data) k = 0 := by
      unfold strayFactor
      rw [if_neg (fun h => absurd h.1 (by simp [setup]))]
    rw [z, zero_mul, add_zero] at h
    have h := (level_side V 4 (Or.inr rfl) w r k hk).symm.trans h
    linarith
  have hi : ∀ k, 1 ≤ k → k < 8 → applyRow B (fun m => 2 * p m) k + w k = 0 := fun k h1 h8 =>
    (interface_side V p w r k h1 h8).symm.trans (i k (by change k ≤ 8; omega))
  have w4 : w 4 = 0 := by
    have h := hi 4 (by omega) (by omega)
    rw [gradient_four V _ (2 * w 4) (by simp [hp 2]) (by simp [hp 3]) (by simp [hp 4]) (by simp [hp 5])] at h
    linarith
  have hp0 : ∀ k < 8, p k = 0 := fun k hk => by simp [hp k hk, w4]
  refine ⟨fun k hk => ⟨hp0 k hk, ?_⟩, fun k hk => ?_⟩
  · rw [hr k hk, w4]
    simp
  · change k ≤ 8 at hk
    by_cases h : 1 ≤ k ∧ k < 8
    · have e := hi k h.1 h.2
      have hz : applyRow B (fun m => 2 * p m) k = applyRow B (fun _ => 0) k := by
        rw [applyRow_eq, applyRow_eq]
        refine sum_congr rfl fun n hn => ?_
        obtain ⟨F, hF⟩ := ((C71_refused .interfaces .interfaces 4 8 9 node edge).2.2 rfl (by omega) (by omega) (by omega)).2
        have hR := (C71_diff_interfaces 2 8 9 node edge F B hF V.gradient p k (by omega) 0)
        have := hR.2.1 k (by rw [hR.2.2.2.2.1]; omega)
        rw [hR.2.2.2.2.2.1] at this
        rw [mem_Ico] at hn
        rw [hp0 n (by omega), mul_zero]
      rw [hz, gradient_const V 0 k (by omega)] at e
      linarith
    · have e := i k hk
      unfold interfaceSide at e
      rw [show (setup A B E P).levels = 8 from rfl, if_neg h] at e
      simpa [setup, Witness.setup] using e

end

theorem steps (M : Memory) (U : State) : ∃ A B E P solve W, Volumes (setup A B E P) node edge ∧ Lapack solve ∧
    implicitColumn (setup A B E P) metric M solve data U = some W := by
  obtain ⟨A, B, E, P, V⟩ := exists_ops
  obtain ⟨solve, hs⟩ := lapack_exists
  rcases h : implicitColumn (setup A B E P) metric M solve data U with _ | W
  · rcases ((C131_refused V solve hs (by simp [setup, Witness.setup]) metric data M U).2 ⟨rfl, rfl, rfl⟩).1 h with h | h | h
    · simp [setup] at h
    · simp [setup] at h
    · exact absurd h (regular V)
  · exact ⟨A, B, E, P, solve, W, V, hs, h⟩

end Verif.Schur.WitnessFourth
