import Verif.Physics.KesslerProps

/-!
# C115: warm rain in a patch
-/

namespace Verif.Physics

open Real

/-! ### Vocabulary -/

/-- A column of moist air: positive densities of dry and of all air, positive potential temperature, increasing heights
of at least two levels, a positive pressure for positive products of density and potential temperature, and a positive
time step. -/
structure Rain.ProperColumn (P : Rain) (s : Fields) (i j : Nat) : Prop where
  levels : 2 ≤ P.levels
  dt : 0 < P.dt
  gas : 0 < P.gasR
  pressure : ∀ x, 0 < x → 0 < P.pressure x
  dry : ∀ k < P.levels, 0 < s.dry i j k
  density : ∀ k < P.levels, 0 < s.state 4 i j k
  theta : ∀ k < P.levels, 0 < s.state 2 i j k
  height : ∀ k, k + 1 < P.levels → P.height i j k < P.height i j (k + 1)

/-! ### Lemmas -/

theorem ratio_nonneg (a b : ℝ) : 0 ≤ ratio a b := by
  unfold ratio
  split
  · exact le_rfl
  · rename_i h
    exact not_lt.1 h

theorem columnWet_nonneg (s : Fields) (i j n : Nat) : (columnWet s i j).Nonneg n :=
  ⟨fun _ _ => ratio_nonneg _ _, fun _ _ => ratio_nonneg _ _, fun _ _ => ratio_nonneg _ _⟩

theorem columnAir_proper (P : Rain) (s : Fields) (i j : Nat) (h : P.ProperColumn s i j) : (columnAir P s i j).Proper := by
  refine ⟨h.levels, fun k hk => ?_, fun k hk => ?_, fun k hk => h.height k hk, h.dt⟩
  · have := h.dry k hk
    unfold Fields.dry at this
    show 0 < s.state 4 i j k - s.tracer 0 i j k - s.tracer 1 i j k - s.tracer 2 i j k
    linarith
  · have h1 := h.density k hk
    have h2 := h.theta k hk
    have h3 : 0 < thetaV s i j k := div_pos h2 h1
    have h4 := h.pressure (s.state 4 i j k * thetaV s i j k) (by positivity)
    have h5 := h.gas
    show 0 < P.pressure (s.state 4 i j k * thetaV s i j k) / (s.state 4 i j k * P.gasR) / thetaV s i j k
    positivity

theorem SameColumn.refl (s : Fields) (i j : Nat) : SameColumn s s i j := ⟨fun _ _ => rfl, fun _ _ => rfl, rfl⟩

theorem SameColumn.trans {s t u : Fields} {i j : Nat} (h1 : SameColumn s t i j) (h2 : SameColumn t u i j) :
    SameColumn s u i j :=
  ⟨fun c k => (h1.state c k).trans (h2.state c k), fun c k => (h1.tracer c k).trans (h2.tracer c k),
    h1.fallen.trans h2.fallen⟩

/-- A column does not change when another one is computed. -/
theorem rainColumn_other (P : Rain) (s : Fields) (i j x y : Nat) (h : ¬(x = i ∧ y = j)) :
    SameColumn (rainColumn P s i j) s x y := by
  refine ⟨fun c k => ?_, fun c k => ?_, ?_⟩
  · show (if x = i ∧ y = j ∧ k < P.levels then _ else _) = _
    rw [if_neg (fun e => h ⟨e.1, e.2.1⟩)]
  · show (if x = i ∧ y = j ∧ k < P.levels then _ else _) = _
    rw [if_neg (fun e => h ⟨e.1, e.2.1⟩)]
  · show (if x = i ∧ y = j then _ else _) = _
    rw [if_neg h]

/-- A column is computed from itself. -/
theorem rainColumn_same (P : Rain) (s t : Fields) (i j : Nat) (h : SameColumn s t i j) :
    SameColumn (rainColumn P s i j) (rainColumn P t i j) i j := by
  have e1 : columnAir P s i j = columnAir P t i j := by
    unfold columnAir thetaV
    simp only [h.state, h.tracer]
  have e2 : columnWet s i j = columnWet t i j := by
    unfold columnWet thetaV
    simp only [h.state, h.tracer]
  unfold rainColumn
  rw [e1, e2]
  refine ⟨fun c k => ?_, fun c k => ?_, ?_⟩
  · simp only [h.state]
  · simp only [h.tracer]
  · simp only [h.fallen]

theorem columns_nodup (P : Rain) : P.columns.Nodup := by
  unfold Rain.columns
  rw [List.nodup_flatMap]
  constructor
  · intro i _
    refine List.Nodup.map (fun a b e => (Prod.mk.inj e).2) ?_
    exact List.Nodup.map (fun a b e => Nat.add_left_cancel e) List.nodup_range
  · refine List.Pairwise.map _ (R := fun a b => a ≠ b) ?_ List.nodup_range
    intro a b hab
    intro t h1 h2
    obtain ⟨_, _, rfl⟩ := List.mem_map.1 h1
    obtain ⟨_, _, e⟩ := List.mem_map.1 h2
    have := (Prod.mk.inj e).1
    omega

theorem mem_columns (P : Rain) (i j : Nat) : (i, j) ∈ P.columns ↔ P.Inside i j := by
  unfold Rain.columns Rain.Inside
  constructor
  · intro h
    obtain ⟨i', hi, h⟩ := List.mem_flatMap.1 h
    obtain ⟨j', hj, e⟩ := List.mem_map.1 h
    obtain ⟨a, ha, rfl⟩ := List.mem_map.1 hi
    obtain ⟨b, hb, rfl⟩ := List.mem_map.1 hj
    rw [List.mem_range] at ha hb
    cases e
    omega
  · rintro ⟨h1, h2, h3, h4⟩
    refine List.mem_flatMap.2 ⟨i, List.mem_map.2 ⟨i - P.aBegin, List.mem_range.2 (by omega), by omega⟩, ?_⟩
    exact List.mem_map.2 ⟨j, List.mem_map.2 ⟨j - P.bBegin, List.mem_range.2 (by omega), by omega⟩, rfl⟩

theorem fold_columns (P : Rain) (l : List (Nat × Nat)) (hl : l.Nodup) (s : Fields) (x y : Nat) :
    ((x, y) ∉ l → SameColumn (l.foldl (fun s t => rainColumn P s t.1 t.2) s) s x y) ∧
      ((x, y) ∈ l → SameColumn (l.foldl (fun s t => rainColumn P s t.1 t.2) s) (rainColumn P s x y) x y) := by
  induction l generalizing s with
  | nil => exact ⟨fun _ => SameColumn.refl _ _ _, fun h => absurd h (by simp)⟩
  | cons t l ih =>
    obtain ⟨i1, i2⟩ := ih (List.nodup_cons.1 hl).2 (rainColumn P s t.1 t.2)
    rw [List.foldl_cons]
    constructor
    · intro h
      refine (i1 (fun h' => h (List.mem_cons_of_mem _ h'))).trans ?_
      refine rainColumn_other P s _ _ x y (fun e => h ?_)
      rw [e.1, e.2]
      exact List.mem_cons_self ..
    · intro h
      rcases List.mem_cons.1 h with e | h
      · subst e
        exact i1 (List.nodup_cons.1 hl).1
      · have hne : ¬(x = t.1 ∧ y = t.2) := by
          rintro ⟨rfl, rfl⟩
          exact (List.nodup_cons.1 hl).1 h
        refine (i2 h).trans (rainColumn_same P _ _ x y (rainColumn_other P s _ _ x y hne))

theorem rain_inside (P : Rain) (s : Fields) (i j : Nat) (h : P.Inside i j) :
    SameColumn (rain P s) (rainColumn P s i j) i j :=
  (fold_columns P P.columns (columns_nodup P) s i j).2 ((mem_columns P i j).2 h)

theorem rainColumn_rho (P : Rain) (s : Fields) (i j k : Nat) (hk : k < P.levels) :
    (rainColumn P s i j).state 4 i j k =
      moist (s.state 4 i j k - s.tracer 0 i j k - s.tracer 1 i j k - s.tracer 2 i j k)
        (((columnAir P s i j).kessler (columnWet s i j)).1.qv k) (((columnAir P s i j).kessler (columnWet s i j)).1.qc k)
        (((columnAir P s i j).kessler (columnWet s i j)).1.qr k) := by
  simp [rainColumn, hk, columnAir]

theorem rainColumn_tracers (P : Rain) (s : Fields) (i j k : Nat) (hk : k < P.levels) :
    (rainColumn P s i j).tracer 0 i j k =
      ((columnAir P s i j).kessler (columnWet s i j)).1.qv k * (rainColumn P s i j).state 4 i j k ∧
    (rainColumn P s i j).tracer 1 i j k =
      ((columnAir P s i j).kessler (columnWet s i j)).1.qc k * (rainColumn P s i j).state 4 i j k ∧
    (rainColumn P s i j).tracer 2 i j k =
      ((columnAir P s i j).kessler (columnWet s i j)).1.qr k * (rainColumn P s i j).state 4 i j k := by
  simp [rainColumn, hk]

/-! ### Theorems -/

/-- **C115 (what the process leaves alone).**  Columns that are not in the interior stay as they are, and in the interior
so do the components other than potential temperature and density and the tracers other than the first three. -/
theorem C115_untouched (P : Rain) (s : Fields) (i j : Nat) :
    (¬P.Inside i j → SameColumn (rain P s) s i j) ∧
      (∀ c k, c ≠ 2 → c ≠ 4 → (rain P s).state c i j k = s.state c i j k) ∧
      ∀ c k, 3 ≤ c → (rain P s).tracer c i j k = s.tracer c i j k := by
  have h0 : ¬P.Inside i j → SameColumn (rain P s) s i j := fun h =>
    (fold_columns P P.columns (columns_nodup P) s i j).1 (fun h' => h ((mem_columns P i j).1 h'))
  refine ⟨h0, fun c k h2 h4 => ?_, fun c k h3 => ?_⟩
  · by_cases h : P.Inside i j
    · rw [(rain_inside P s i j h).state]
      simp [rainColumn, h2, h4]
    · exact (h0 h).state c k
  · by_cases h : P.Inside i j
    · rw [(rain_inside P s i j h).tracer]
      simp [rainColumn, show c ≠ 0 by omega, show c ≠ 1 by omega, show c ≠ 2 by omega]
    · exact (h0 h).tracer c k

/-- **C115 (dry air is conserved).**  At every node whose density is not zero after the process, the density of the dry
air is what it was; also where tracers were negative. -/
theorem C115_dry (P : Rain) (s : Fields) (i j k : Nat) (h : (rain P s).state 4 i j k ≠ 0) :
    (rain P s).dry i j k = s.dry i j k := by
  by_cases hi : P.Inside i j
  · have hc := rain_inside P s i j hi
    by_cases hk : k < P.levels
    · obtain ⟨t0, t1, t2⟩ := rainColumn_tracers P s i j k hk
      have hr := rainColumn_rho P s i j k hk
      unfold Fields.dry
      rw [hc.state] at h
      rw [hc.state, hc.tracer, hc.tracer, hc.tracer, t0, t1, t2]
      rw [hr] at h ⊢
      unfold moist at h ⊢
      have hne := (div_ne_zero_iff.1 h).2
      field_simp
      ring
    · unfold Fields.dry
      rw [hc.state, hc.tracer, hc.tracer, hc.tracer]
      simp [rainColumn, hk]
  · have hc := (C115_untouched P s i j).1 hi
    unfold Fields.dry
    rw [hc.state, hc.tracer, hc.tracer, hc.tracer]

/-- **C115 (no negative tracers).**  In a proper column of the interior no density of water is negative after the process
where the density of the air is positive, even where it was before. -/
theorem C115_tracers (P : Rain) (s : Fields) (i j k : Nat) (hi : P.Inside i j) (hk : k < P.levels)
    (hp : P.ProperColumn s i j) (h : 0 < (rain P s).state 4 i j k) (c : Nat) (hc : c < 3) :
    0 ≤ (rain P s).tracer c i j k := by
  have hs := rain_inside P s i j hi
  have hn := C115_nonnegative _ (columnAir_proper P s i j hp) _ (columnWet_nonneg s i j _)
  obtain ⟨t0, t1, t2⟩ := rainColumn_tracers P s i j k hk
  rw [hs.state] at h
  rw [hs.tracer]
  have hc' : c = 0 ∨ c = 1 ∨ c = 2 := by omega
  rcases hc' with rfl | rfl | rfl
  · rw [t0]; exact mul_nonneg (hn.qv k hk) h.le
  · rw [t1]; exact mul_nonneg (hn.qc k hk) h.le
  · rw [t2]; exact mul_nonneg (hn.qr k hk) h.le

/-! ### What is false -/

/-- A column of two levels a metre apart, with rain at the upper one. -/
noncomputable def thin : Air := { nz := 2, rho := fun _ => 1000, pk := fun _ => 1, z := fun k => k, dt := 1 }

/-- See `thin`. -/
noncomputable def above : Wet := { theta := fun _ => 300, qv := fun _ => 0, qc := fun _ => 0, qr := fun k => k }

theorem thin_proper : thin.Proper := by
  refine ⟨le_rfl, fun _ _ => by norm_num [thin], fun _ _ => one_pos, fun k _ => ?_, one_pos⟩
  show (k : ℝ) < ((k + 1 : ℕ) : ℝ)
  push_cast
  linarith

theorem above_nonneg (n : Nat) : above.Nonneg n :=
  ⟨fun _ _ => le_rfl, fun _ _ => le_rfl, fun k _ => Nat.cast_nonneg k⟩

/-- **C115 (water, false).**  There is a column that ends with more water than it had, without any rain: the limit of the
time step does not consider the highest layer, out of which more rain falls than there is in it. -/
theorem C115_water_false : ∃ (F : Air) (w : Wet), F.Proper ∧ w.Nonneg F.nz ∧ (F.kessler w).2 = 0 ∧
    depth F.nz F.rho F.z w < depth F.nz F.rho F.z (F.kessler w).1 := by
  have v0 : fall 1000 1000 (((0 : ℕ) : ℝ)) = 0 := by
    unfold fall
    rw [Nat.cast_zero, zero_mul, zero_rpow (by norm_num), mul_zero, zero_mul]
  have v1 : fall 1000 1000 (((1 : ℕ) : ℝ)) = 36.34 := by
    unfold fall
    rw [show (((1 : ℕ) : ℝ) * (0.001 * 1000)) = 1 by norm_num, one_rpow, div_self (by norm_num), sqrt_one]
    norm_num
  have h1 := kessler_once thin thin_proper above (above_nonneg _) (fun k hk => by
    have : k = 0 := by have : k + 1 < 2 := hk; omega
    subst this
    show (1 : ℝ) * fall 1000 1000 ((0 : ℕ) : ℝ) ≤ 0.8 * (((0 + 1 : ℕ) : ℝ) - ((0 : ℕ) : ℝ))
    rw [v0]
    norm_num)
  refine ⟨thin, above, thin_proper, above_nonneg _, ?_, ?_⟩
  · rw [h1]
    show (1000 : ℝ) * ((0 : ℕ) : ℝ) * _ / 1000 = 0
    simp
  · rw [h1]
    simp only
    set w' := thin.adjusted thin.dt (thin.velqr above.qr) above with hw'
    have hn := (adjusted_spec thin thin_proper thin.dt thin_proper.dt.le (thin.velqr above.qr) above (above_nonneg _)).1
    have hA := (adjust_spec thin.dt (thin.r 0) (thin.pc 0) (thin.pk 0) (thin.sed thin.dt (thin.velqr above.qr) above.qr 0)
      (above.theta 0) (above.qv 0) (above.qc 0) (above.qr 0) thin_proper.dt.le (by norm_num [Air.r, thin])
      (pc_pos thin 0 one_pos) one_pos le_rfl).1.water
    have hsed : thin.sed thin.dt (thin.velqr above.qr) above.qr 0 = 36.34 := by
      have e0 : thin.velqr above.qr 0 = 0 := v0
      have e1 : thin.velqr above.qr 1 = 36.34 := v1
      unfold Air.sed
      rw [if_pos (by show (0 + 1 < 2); norm_num), e0, Nat.zero_add, e1]
      norm_num [thin, Air.r, above]
    have hA' : 36.34 ≤ w'.water 0 := by
      have hz : above.qv 0 + above.qc 0 + above.qr 0 + thin.sed thin.dt (thin.velqr above.qr) above.qr 0 = 36.34 := by
        rw [hsed]
        norm_num [above]
      rw [hz] at hA
      exact hA
    have hB : 0 ≤ w'.water 1 := by
      have a1 := hn.qv 1 (by show (1 < 2); norm_num)
      have a2 := hn.qc 1 (by show (1 < 2); norm_num)
      have a3 := hn.qr 1 (by show (1 < 2); norm_num)
      show 0 ≤ w'.qv 1 + w'.qc 1 + w'.qr 1
      linarith
    unfold depth
    have nz : thin.nz = 2 := rfl
    rw [nz, Finset.sum_range_succ, Finset.sum_range_one, Finset.sum_range_succ, Finset.sum_range_one]
    have t0 : thickness 2 thin.z 0 = 1 := by norm_num [thickness, thin]
    have t1 : thickness 2 thin.z 1 = 1 / 2 := by norm_num [thickness, thin]
    have r0 : ∀ k, thin.rho k = 1000 := fun _ => rfl
    have u0 : above.water 0 = 0 := by norm_num [Wet.water, above]
    have u1 : above.water 1 = 1 := by norm_num [Wet.water, above]
    rw [t0, t1, r0, r0, u0, u1]
    linarith

/-- A patch of one column. -/
noncomputable def single : Rain :=
  { levels := 2, aBegin := 0, aEnd := 1, bBegin := 0, bEnd := 1, height := fun _ _ k => 72.68 * k
    pressure := fun x => x, gasR := 1, dt := 1 }

/-- Rain in the lower layer. -/
noncomputable def below : Fields :=
  { state := fun c _ _ k => if c = 4 then (if k = 0 then 4000 else 2000) else 1
    tracer := fun c _ _ k => if c = 2 ∧ k = 0 then 2000 else 0
    fallen := fun _ _ => 0 }

theorem single_proper : single.ProperColumn below 0 0 := by
  refine ⟨le_rfl, one_pos, one_pos, fun x h => h, fun k hk => ?_, fun k hk => ?_, fun k hk => ?_, fun k hk => ?_⟩
  · by_cases h : k = 0 <;> norm_num [Fields.dry, below, h]
  · by_cases h : k = 0 <;> norm_num [below, h]
  · norm_num [below]
  · show (72.68 : ℝ) * k < 72.68 * ((k + 1 : ℕ) : ℝ)
    push_cast
    linarith

theorem single_inside : single.Inside 0 0 := ⟨le_rfl, one_pos, le_rfl, one_pos⟩

theorem single_slow : (columnAir single below 0 0).Slow (columnWet below 0 0) ∧
    (columnAir single below 0 0).velqr (columnWet below 0 0).qr 0 = 36.34 ∧
    (columnAir single below 0 0).velqr (columnWet below 0 0).qr 1 = 0 := by
  have q0 : (columnWet below 0 0).qr 0 = 1 / 2 := by norm_num [columnWet, ratio, below]
  have q1 : (columnWet below 0 0).qr 1 = 0 := by norm_num [columnWet, ratio, below]
  have r0 : (columnAir single below 0 0).rho 0 = 2000 := by norm_num [columnAir, below]
  have r1 : (columnAir single below 0 0).rho 1 = 2000 := by norm_num [columnAir, below]
  have v0 : fall 2000 2000 (1 / 2) = 36.34 := by
    unfold fall
    rw [show ((1 : ℝ) / 2 * (0.001 * 2000)) = 1 by norm_num, one_rpow, div_self (by norm_num), sqrt_one]
    norm_num
  have v1 : fall 2000 2000 0 = 0 := by
    unfold fall
    rw [zero_mul, zero_rpow (by norm_num), mul_zero, zero_mul]
  refine ⟨⟨fun k hk => ?_, ?_⟩, ?_, ?_⟩
  · have : k = 0 := by have : k + 1 < 2 := hk; omega
    subst this
    rw [r0, q0, v0]
    norm_num [columnAir, single]
  · show _ * fall _ ((columnAir single below 0 0).rho 1) ((columnWet below 0 0).qr 1) ≤ _
    rw [r0, r1, q1, v1]
    norm_num [columnAir, single]
  · rw [velqr_eq, r0, q0, v0]
  · rw [velqr_eq, r0, r1, q1, v1]

set_option maxHeartbeats 1000000 in
/-- **C115 (rain, false).**  There is a column of the interior out of which more water is lost than has fallen as rain:
the process gives ratios to all air to a subroutine that needs ratios to dry air. -/
theorem C115_rain_false : ∃ (P : Rain) (s : Fields), P.ProperColumn s 0 0 ∧ P.Inside 0 0 ∧
    (∀ k < P.levels, 0 < (rain P s).state 4 0 0 k) ∧
    (rain P s).fallen 0 0 - s.fallen 0 0 < s.depth P 0 0 - (rain P s).depth P 0 0 := by
  obtain ⟨hs, v0, v1⟩ := single_slow
  set F := columnAir single below 0 0 with hF
  set w := columnWet below 0 0 with hw
  have hFp : F.Proper := columnAir_proper _ _ _ _ single_proper
  have hwn : w.Nonneg F.nz := columnWet_nonneg _ _ _ _
  have hk := kessler_once F hFp w hwn hs.1
  have hlev : ∀ k < 2, (F.kessler w).1.water k = w.water k + F.sed F.dt (F.velqr w.qr) w.qr k := by
    intro k hk2
    rw [hk]
    exact (adjust_spec F.dt (F.r k) (F.pc k) (F.pk k) (F.sed F.dt (F.velqr w.qr) w.qr k) (w.theta k) (w.qv k) (w.qc k)
      (w.qr k) hFp.dt.le (by unfold Air.r; have := hFp.rho k hk2; positivity) (pc_pos F k (hFp.pk k hk2)) (hFp.pk k hk2)
      (hwn.qv k hk2)).2 (hwn.qc k hk2) (hwn.qr k hk2) (by norm_num [hF, columnAir, single])
      (slow_stays F hFp w hwn hs k hk2)
  have q0 : w.qr 0 = 1 / 2 := by norm_num [hw, columnWet, ratio, below]
  have q1 : w.qr 1 = 0 := by norm_num [hw, columnWet, ratio, below]
  have r0 : F.rho 0 = 2000 := by norm_num [hF, columnAir, below]
  have r1 : F.rho 1 = 2000 := by norm_num [hF, columnAir, below]
  have w0 : w.water 0 = 1 / 2 := by norm_num [Wet.water, hw, columnWet, ratio, below]
  have w1 : w.water 1 = 0 := by norm_num [Wet.water, hw, columnWet, ratio, below]
  have dt : F.dt = 1 := rfl
  have z0 : F.z 0 = 0 := by norm_num [hF, columnAir, single]
  have z1 : F.z 1 = 72.68 := by norm_num [hF, columnAir, single]
  have s0 : F.sed F.dt (F.velqr w.qr) w.qr 0 = -(1 / 4) := by
    unfold Air.sed Air.r
    rw [if_pos (by show (0 + 1 < 2); norm_num), Nat.zero_add, v0, v1, q0, q1, r0, r1, z0, z1, dt]
    norm_num
  have s1 : F.sed F.dt (F.velqr w.qr) w.qr 1 = 0 := by
    unfold Air.sed
    rw [if_neg (by show ¬(1 + 1 < 2); norm_num), v1]
    simp
  have a0 : (F.kessler w).1.water 0 = 1 / 4 := by rw [hlev 0 (by norm_num), w0, s0]; norm_num
  have a1 : (F.kessler w).1.water 1 = 0 := by rw [hlev 1 (by norm_num), w1, s1]; norm_num
  have hc := rain_inside single below 0 0 single_inside
  have m0 : (rain single below).state 4 0 0 0 = 8000 / 3 := by
    rw [hc.state, rainColumn_rho single below 0 0 0 (by show 0 < 2; norm_num)]
    have e : (1 : ℝ) - (F.kessler w).1.qv 0 - (F.kessler w).1.qc 0 - (F.kessler w).1.qr 0 = 3 / 4 := by
      unfold Wet.water at a0; linarith
    unfold moist
    rw [e]
    norm_num [below]
  have m1 : (rain single below).state 4 0 0 1 = 2000 := by
    rw [hc.state, rainColumn_rho single below 0 0 1 (by show 1 < 2; norm_num)]
    have e : (1 : ℝ) - (F.kessler w).1.qv 1 - (F.kessler w).1.qc 1 - (F.kessler w).1.qr 1 = 1 := by
      unfold Wet.water at a1; linarith
    unfold moist
    rw [e]
    norm_num [below]
  refine ⟨single, below, single_proper, single_inside, fun k hk2 => ?_, ?_⟩
  · have : k = 0 ∨ k = 1 := by have : k < 2 := hk2; omega
    rcases this with rfl | rfl
    · rw [m0]; norm_num
    · rw [m1]; norm_num
  · have d0 := C115_dry single below 0 0 0 (by rw [m0]; norm_num)
    have d1 := C115_dry single below 0 0 1 (by rw [m1]; norm_num)
    unfold Fields.dry at d0 d1
    rw [m0] at d0
    rw [m1] at d1
    have b0 : below.state 4 0 0 0 - (below.tracer 0 0 0 0 + below.tracer 1 0 0 0 + below.tracer 2 0 0 0) = 2000 := by
      norm_num [below]
    have b1 : below.state 4 0 0 1 - (below.tracer 0 0 0 1 + below.tracer 1 0 0 1 + below.tracer 2 0 0 1) = 2000 := by
      norm_num [below]
    rw [b0] at d0
    rw [b1] at d1
    have e0 : (rain single below).tracer 0 0 0 0 + (rain single below).tracer 1 0 0 0 + (rain single below).tracer 2 0 0 0
        = 2000 / 3 := by linarith
    have e1 : (rain single below).tracer 0 0 0 1 + (rain single below).tracer 1 0 0 1 + (rain single below).tracer 2 0 0 1
        = 0 := by linarith
    have f0 : below.tracer 0 0 0 0 + below.tracer 1 0 0 0 + below.tracer 2 0 0 0 = 2000 := by norm_num [below]
    have f1 : below.tracer 0 0 0 1 + below.tracer 1 0 0 1 + below.tracer 2 0 0 1 = 0 := by norm_num [below]
    have hfall : (rain single below).fallen 0 0 = 36.34 := by
      rw [hc.fallen]
      show (if (0 : ℕ) = 0 ∧ (0 : ℕ) = 0 then below.fallen 0 0 + (F.kessler w).2 * single.dt else below.fallen 0 0) = _
      rw [if_pos ⟨rfl, rfl⟩, hk]
      simp only
      rw [r0, q0, v0]
      norm_num [below, single]
    have hbf : below.fallen 0 0 = 0 := rfl
    rw [hfall, hbf]
    unfold Fields.depth
    have nz : single.levels = 2 := rfl
    have t0 : thickness 2 (single.height 0 0) 0 = 72.68 := by norm_num [thickness, single]
    rw [nz, Finset.sum_range_succ, Finset.sum_range_one, Finset.sum_range_succ, Finset.sum_range_one, e0, e1, f0, f1, t0]
    norm_num

/-- The hypotheses of the theorems about columns and processes are met by the examples. -/
example : (0 : ℝ) ≤ (rain single below).tracer 2 0 0 0 ∨ ¬0 < (rain single below).state 4 0 0 0 := by
  by_cases h : 0 < (rain single below).state 4 0 0 0
  · exact Or.inl (C115_tracers single below 0 0 0 single_inside (by show 0 < 2; norm_num) single_proper h 2 (by norm_num))
  · exact Or.inr h

example : depth 2 (columnAir single below 0 0).rho (columnAir single below 0 0).z (columnWet below 0 0) =
    depth 2 (columnAir single below 0 0).rho (columnAir single below 0 0).z
      ((columnAir single below 0 0).kessler (columnWet below 0 0)).1 +
      (columnAir single below 0 0).dt * ((columnAir single below 0 0).kessler (columnWet below 0 0)).2 :=
  C115_conserves _ (columnAir_proper _ _ _ _ single_proper) _ (columnWet_nonneg _ _ _ _) single_slow.1
    (by norm_num [columnAir, single])

end Verif.Physics
