import Verif.Physics.KesslerSpec
import Mathlib.Tactic.FieldSimp
import Mathlib.Tactic.Positivity
import Mathlib.Tactic.Linarith
import Mathlib.Tactic.LinearCombination

/-!
# C115: warm rain in a column
-/

namespace Verif.Physics

open Real

/-! ### One level -/

theorem qvs_pos (pc pk theta : ℝ) (hpc : 0 < pc) : 0 < qvs pc pk theta := mul_pos hpc (exp_pos _)

theorem pc_pos (F : Air) (k : Nat) (h : 0 < F.pk k) : 0 < F.pc k := by
  unfold Air.pc
  have : 0 < F.pk k ^ ((1 : ℝ) / 0.2875) := rpow_pos_of_pos h _
  positivity

theorem condensed_le (pc pk theta qv : ℝ) (hpc : 0 < pc) (hqv : 0 ≤ qv) : condensed pc pk theta qv ≤ qv := by
  have hq := qvs_pos pc pk theta hpc
  unfold condensed
  have hd : 1 ≤ 1 + qvs pc pk theta * (237.3 * 17.27 * 2500000 / 1003) / (pk * theta - 36) ^ 2 := by
    have : 0 ≤ qvs pc pk theta * (237.3 * 17.27 * 2500000 / 1003) / (pk * theta - 36) ^ 2 := by positivity
    linarith
  rw [div_le_iff₀ (by linarith)]
  nlinarith

theorem qrprod_nonneg (dt0 qc qr : ℝ) (hdt : 0 ≤ dt0) (hqc : 0 ≤ qc) (hqr : 0 ≤ qr) : 0 ≤ qrprod dt0 qc qr := by
  unfold qrprod
  have h1 : 0 ≤ dt0 * max (0.001 * (qc - 0.001)) 0 := mul_nonneg hdt (le_max_right _ _)
  have h2 : 0 ≤ dt0 * 2.2 * qr ^ (0.875 : ℝ) := by
    have := rpow_nonneg hqr (0.875 : ℝ)
    positivity
  rw [sub_nonneg, div_le_iff₀ (by linarith)]
  nlinarith

theorem qrprod_le (dt0 qc qr : ℝ) (hdt : 0 ≤ dt0) (hdt1 : dt0 ≤ 1000) (hqc : 0 ≤ qc) (hqr : 0 ≤ qr) :
    qrprod dt0 qc qr ≤ qc := by
  unfold qrprod
  have h2 : 0 ≤ dt0 * 2.2 * qr ^ (0.875 : ℝ) := by
    have := rpow_nonneg hqr (0.875 : ℝ)
    positivity
  have h1 : dt0 * max (0.001 * (qc - 0.001)) 0 ≤ qc := by
    rcases le_total (0.001 * (qc - 0.001)) 0 with h | h
    · rw [max_eq_right h, mul_zero]; exact hqc
    · rw [max_eq_left h]
      calc dt0 * (0.001 * (qc - 0.001)) ≤ 1000 * (0.001 * (qc - 0.001)) := mul_le_mul_of_nonneg_right hdt1 h
        _ ≤ qc := by norm_num; linarith
  have : 0 ≤ (qc - dt0 * max (0.001 * (qc - 0.001)) 0) / (1 + dt0 * 2.2 * qr ^ (0.875 : ℝ)) :=
    div_nonneg (by linarith) (by linarith)
  linarith

theorem ern_nonneg (dt0 r pc pk theta qv qc qr : ℝ) (hdt : 0 ≤ dt0) (hr : 0 < r) (hpc : 0 < pc) (hqr : 0 ≤ qr) :
    0 ≤ ern dt0 r pc pk theta qv qc qr := by
  have hq := qvs_pos pc pk theta hpc
  unfold ern
  have h1 : 0 ≤ (r * qr) ^ (0.2046 : ℝ) := rpow_nonneg (by positivity) _
  have h2 : 0 ≤ (r * qr) ^ (0.525 : ℝ) := rpow_nonneg (by positivity) _
  have h3 : 0 ≤ max (qvs pc pk theta - qv) 0 := le_max_right _ _
  refine le_min (le_min (by positivity) (le_max_right _ _)) hqr

theorem ern_le (dt0 r pc pk theta qv qc qr : ℝ) : ern dt0 r pc pk theta qv qc qr ≤ qr := min_le_right _ _

/-- What is known of a level after its adjustment. -/
structure Adjusted (pk theta qv qc qr sed : ℝ) (l : Level) : Prop where
  vapour : 0 ≤ l.qv
  cloud : 0 ≤ l.qc
  rain : 0 ≤ l.qr
  heat : 1003 * (pk * l.theta) + 2500000 * l.qv = 1003 * (pk * theta) + 2500000 * qv
  water : qv + qc + qr + sed ≤ l.qv + l.qc + l.qr

theorem adjust_spec (dt0 r pc pk sed theta qv qc qr : ℝ) (hdt : 0 ≤ dt0) (hr : 0 < r) (hpc : 0 < pc) (hpk : 0 < pk)
    (hqv : 0 ≤ qv) :
    Adjusted pk theta qv qc qr sed (adjust dt0 r pc pk sed theta qv qc qr) ∧
      (0 ≤ qc → 0 ≤ qr → dt0 ≤ 1000 → 0 ≤ qr + sed →
        (adjust dt0 r pc pk sed theta qv qc qr).qv + (adjust dt0 r pc pk sed theta qv qc qr).qc +
          (adjust dt0 r pc pk sed theta qv qc qr).qr = qv + qc + qr + sed) := by
  unfold adjust
  simp only
  set p := qrprod dt0 qc qr with hp
  set qc' := max (qc - p) 0 with hqc'
  set qr' := max (qr + p + sed) 0 with hqr'
  set prod := condensed pc pk theta qv with hprod
  set e := ern dt0 r pc pk theta qv qc' qr' with he
  have hqc0 : 0 ≤ qc' := le_max_right _ _
  have hqr0 : 0 ≤ qr' := le_max_right _ _
  have he0 : 0 ≤ e := ern_nonneg _ _ _ _ _ _ _ _ hdt hr hpc hqr0
  have he1 : e ≤ qr' := ern_le _ _ _ _ _ _ _ _
  have hpr : prod ≤ qv := condensed_le _ _ _ _ hpc hqv
  have hm : max prod (-qc') ≤ qv := max_le hpr (by linarith)
  have hm2 : -qc' ≤ max prod (-qc') := le_max_right _ _
  have hv : max (qv - max prod (-qc') + e) 0 = qv - max prod (-qc') + e := max_eq_left (by linarith)
  have h1 : qc - p ≤ qc' := le_max_left _ _
  have h2 : qr + p + sed ≤ qr' := le_max_left _ _
  rw [hv]
  refine ⟨⟨by simp only; linarith, by simp only; linarith, by simp only; linarith, ?_, by simp only; linarith⟩, ?_⟩
  · field_simp
    ring
  · intro k1 k2 k3 k4
    have l1 := qrprod_le dt0 qc qr hdt k3 k1 k2
    have l2 := qrprod_nonneg dt0 qc qr hdt k1 k2
    have c1 : qc' = qc - p := max_eq_left (by linarith)
    have c2 : qr' = qr + p + sed := max_eq_left (by linarith)
    rw [c1, c2]
    ring

/-! ### The column -/

theorem velqr_eq (F : Air) (qr : Nat → ℝ) (k : Nat) : F.velqr qr k = fall (F.rho 0) (F.rho k) (qr k) := rfl

theorem velqr_nonneg (F : Air) (hF : F.Proper) (qr : Nat → ℝ) (k : Nat) (hk : k < F.nz) (hq : 0 ≤ qr k) :
    0 ≤ F.velqr qr k := by
  have hr := hF.rho k hk
  unfold Air.velqr Air.r Air.rhalf
  have : 0 ≤ (qr k * (0.001 * F.rho k)) ^ (0.1364 : ℝ) := rpow_nonneg (by positivity) _
  have := sqrt_nonneg (F.rho 0 / F.rho k)
  positivity

open Classical in
theorem dtMax_spec (F : Air) (hF : F.Proper) (vel : Nat → ℝ) (hvel : ∀ k < F.nz, 0 ≤ vel k) (n : Nat)
    (hn : n ≤ F.nz - 1) :
    let m := (List.range n).foldl
      (fun m k => if vel k ≠ 0 then min m (0.8 * (F.z (k + 1) - F.z k) / vel k) else m) F.dt
    0 < m ∧ m ≤ F.dt ∧ (∀ k < n, m * vel k ≤ 0.8 * (F.z (k + 1) - F.z k)) ∧
      ((∀ k < n, F.dt * vel k ≤ 0.8 * (F.z (k + 1) - F.z k)) → m = F.dt) := by
  induction n with
  | zero => simp [hF.dt]
  | succ n ih =>
    obtain ⟨h1, h2, h3, h4⟩ := ih (by omega)
    simp only [List.range_succ, List.foldl_append, List.foldl_cons, List.foldl_nil]
    set m := (List.range n).foldl
      (fun m k => if vel k ≠ 0 then min m (0.8 * (F.z (k + 1) - F.z k) / vel k) else m) F.dt with hm
    have hz := hF.z n (by omega)
    have hv := hvel n (by omega)
    by_cases h : vel n = 0
    · simp only [h, ne_eq, not_true, if_false]
      refine ⟨h1, h2, fun k hk => ?_, fun hh => h4 (fun k hk => hh k (by omega))⟩
      rcases Nat.lt_succ_iff_lt_or_eq.1 hk with hk | rfl
      · exact h3 k hk
      · rw [h, mul_zero]; linarith
    · have hv' : 0 < vel n := lt_of_le_of_ne hv (Ne.symm h)
      simp only [ne_eq, h, not_false_iff, if_true]
      have hp : 0 < 0.8 * (F.z (n + 1) - F.z n) / vel n := div_pos (by linarith) hv'
      refine ⟨lt_min h1 hp, le_trans (min_le_left _ _) h2, fun k hk => ?_, fun hh => ?_⟩
      · rcases Nat.lt_succ_iff_lt_or_eq.1 hk with hk | rfl
        · exact le_trans (mul_le_mul_of_nonneg_right (min_le_left _ _) (hvel k (by omega))) (h3 k hk)
        · rw [← le_div_iff₀ hv']
          exact min_le_right _ _
      · rw [h4 (fun k hk => hh k (by omega))]
        refine min_eq_left ?_
        rw [le_div_iff₀ hv']
        exact hh n (by omega)

/-- The number of subcycles is positive. -/
theorem split_pos (F : Air) (hF : F.Proper) (vel : Nat → ℝ) (hvel : ∀ k < F.nz, 0 ≤ vel k) : 1 ≤ F.split vel := by
  obtain ⟨h1, h2, -, -⟩ := dtMax_spec F hF vel hvel _ le_rfl
  unfold Air.split
  have : 0 < ⌈F.dt / F.dtMax vel⌉ := Int.ceil_pos.2 (div_pos hF.dt h1)
  omega

/-- If rain is slow there is one subcycle. -/
theorem split_one (F : Air) (hF : F.Proper) (vel : Nat → ℝ) (hvel : ∀ k < F.nz, 0 ≤ vel k)
    (h : ∀ k, k + 1 < F.nz → F.dt * vel k ≤ 0.8 * (F.z (k + 1) - F.z k)) : F.split vel = 1 := by
  obtain ⟨h1, h2, -, h4⟩ := dtMax_spec F hF vel hvel _ le_rfl
  unfold Air.split
  have e : F.dtMax vel = F.dt := h4 (fun k hk => h k (by omega))
  rw [e, div_self hF.dt.ne', Int.ceil_one]

/-- The sedimentation of a layer is the difference of two fluxes. -/
theorem sed_eq (F : Air) (hF : F.Proper) (dt0 : ℝ) (vel qr : Nat → ℝ) (k : Nat) (hk : k < F.nz) :
    F.rho k / 1000 * thickness F.nz F.z k * F.sed dt0 vel qr k =
      dt0 * ((if k + 1 < F.nz then F.rho (k + 1) / 1000 * qr (k + 1) * vel (k + 1) else 0) - F.rho k / 1000 * qr k * vel k) := by
  have hr := hF.rho k hk
  unfold thickness Air.sed Air.r
  split
  · rename_i h
    have hz : F.z (k + 1) - F.z k ≠ 0 := by have := hF.z k h; linarith
    rw [show (0.001 : ℝ) = 1 / 1000 by norm_num]
    field_simp
  · rename_i h
    have e : k - 1 + 1 = k := by have := hF.levels; omega
    have hz' := hF.z (k - 1) (by omega)
    rw [e] at hz'
    have hz : F.z k - F.z (k - 1) ≠ 0 := by linarith
    rw [show (0.5 : ℝ) = 1 / 2 by norm_num]
    field_simp
    ring

/-- The fluxes cancel but for that at the ground. -/
theorem sum_sed (F : Air) (hF : F.Proper) (dt0 : ℝ) (vel qr : Nat → ℝ) :
    ∑ k ∈ Finset.range F.nz, F.rho k / 1000 * thickness F.nz F.z k * F.sed dt0 vel qr k =
      -(dt0 * (F.rho 0 * qr 0 * vel 0 / 1000)) := by
  rw [Finset.sum_congr rfl (fun k hk => sed_eq F hF dt0 vel qr k (Finset.mem_range.1 hk))]
  rw [← Finset.mul_sum]
  have key : ∀ n, n ≤ F.nz → ∑ k ∈ Finset.range n,
      ((if k + 1 < F.nz then F.rho (k + 1) / 1000 * qr (k + 1) * vel (k + 1) else 0) - F.rho k / 1000 * qr k * vel k) =
      (if n < F.nz then F.rho n / 1000 * qr n * vel n else 0) - (if 0 < F.nz then F.rho 0 / 1000 * qr 0 * vel 0 else 0) := by
    intro n
    induction n with
    | zero => intro _; simp
    | succ n ih =>
      intro hn
      rw [Finset.sum_range_succ, ih (by omega), if_pos (by omega : n < F.nz)]
      ring
  have h0 : 0 < F.nz := by have := hF.levels; omega
  rw [key F.nz le_rfl, if_neg (lt_irrefl _), if_pos h0]
  ring

theorem thickness_pos (F : Air) (hF : F.Proper) (k : Nat) (hk : k < F.nz) : 0 < thickness F.nz F.z k := by
  unfold thickness
  split
  · rename_i h
    have := hF.z k h
    linarith
  · have e : k - 1 + 1 = k := by have := hF.levels; omega
    have := hF.z (k - 1) (by omega)
    rw [e] at this
    linarith

/-- What is known after one subcycle. -/
theorem adjusted_spec (F : Air) (hF : F.Proper) (dt0 : ℝ) (hdt : 0 ≤ dt0) (vel : Nat → ℝ) (w : Wet)
    (hw : w.Nonneg F.nz) :
    (F.adjusted dt0 vel w).Nonneg F.nz ∧
      (∀ k < F.nz, 1003 * (F.pk k * (F.adjusted dt0 vel w).theta k) + 2500000 * (F.adjusted dt0 vel w).qv k =
        1003 * (F.pk k * w.theta k) + 2500000 * w.qv k) ∧
      depth F.nz F.rho F.z w ≤ depth F.nz F.rho F.z (F.adjusted dt0 vel w) + dt0 * (F.rho 0 * w.qr 0 * vel 0 / 1000) ∧
      (dt0 ≤ 1000 → (∀ k < F.nz, 0 ≤ w.qr k + F.sed dt0 vel w.qr k) →
        depth F.nz F.rho F.z w = depth F.nz F.rho F.z (F.adjusted dt0 vel w) + dt0 * (F.rho 0 * w.qr 0 * vel 0 / 1000)) := by
  have H : ∀ k < F.nz, _ := fun k hk => adjust_spec dt0 (F.r k) (F.pc k) (F.pk k) (F.sed dt0 vel w.qr k) (w.theta k)
    (w.qv k) (w.qc k) (w.qr k) hdt (by unfold Air.r; have := hF.rho k hk; positivity) (pc_pos F k (hF.pk k hk)) (hF.pk k hk)
    (hw.qv k hk)
  have hs := sum_sed F hF dt0 vel w.qr
  have hpos : ∀ k < F.nz, 0 ≤ F.rho k / 1000 * thickness F.nz F.z k := fun k hk => by
    have := hF.rho k hk
    have := thickness_pos F hF k hk
    positivity
  have e0 : depth F.nz F.rho F.z w - dt0 * (F.rho 0 * w.qr 0 * vel 0 / 1000) =
      ∑ k ∈ Finset.range F.nz, F.rho k / 1000 * thickness F.nz F.z k * (w.water k + F.sed dt0 vel w.qr k) := by
    rw [Finset.sum_congr rfl (fun k _ => mul_add _ _ _), Finset.sum_add_distrib, hs]
    rfl
  refine ⟨⟨fun k hk => (H k hk).1.vapour, fun k hk => (H k hk).1.cloud, fun k hk => (H k hk).1.rain⟩,
    fun k hk => (H k hk).1.heat, ?_, ?_⟩
  · rw [← sub_le_iff_le_add, e0]
    refine Finset.sum_le_sum (fun k hk => mul_le_mul_of_nonneg_left ?_ (hpos k (Finset.mem_range.1 hk)))
    exact (H k (Finset.mem_range.1 hk)).1.water
  · intro h1 h2
    rw [← sub_eq_iff_eq_add, e0]
    refine Finset.sum_congr rfl (fun k hk => ?_)
    have hk := Finset.mem_range.1 hk
    congr 1
    exact ((H k hk).2 (hw.qc k hk) (hw.qr k hk) h1 (h2 k hk)).symm

/-- What is known after the subcycles. -/
theorem cycle_spec (F : Air) (hF : F.Proper) (dt0 : ℝ) (hdt : 0 ≤ dt0) (n : Nat) (vel : Nat → ℝ) (s : Wet × ℝ)
    (hw : s.1.Nonneg F.nz) :
    (F.cycle dt0 n vel s).1.Nonneg F.nz ∧
      (∀ k < F.nz, 1003 * (F.pk k * (F.cycle dt0 n vel s).1.theta k) + 2500000 * (F.cycle dt0 n vel s).1.qv k =
        1003 * (F.pk k * s.1.theta k) + 2500000 * s.1.qv k) ∧
      depth F.nz F.rho F.z s.1 + dt0 * s.2 ≤
        depth F.nz F.rho F.z (F.cycle dt0 n vel s).1 + dt0 * (F.cycle dt0 n vel s).2 := by
  induction n generalizing vel s with
  | zero => exact ⟨hw, fun _ _ => rfl, le_refl _⟩
  | succ n ih =>
    obtain ⟨a1, a2, a3, -⟩ := adjusted_spec F hF dt0 hdt vel s.1 hw
    obtain ⟨b1, b2, b3⟩ := ih (if n = 0 then vel else F.velqr (F.adjusted dt0 vel s.1).qr)
      (F.adjusted dt0 vel s.1, s.2 + F.rho 0 * s.1.qr 0 * vel 0 / 1000) a1
    refine ⟨b1, fun k hk => (b2 k hk).trans (a2 k hk), le_trans ?_ b3⟩
    simp only
    linarith

theorem kessler_facts (F : Air) (hF : F.Proper) (w : Wet) (hw : w.Nonneg F.nz) :
    1 ≤ F.split (F.velqr w.qr) ∧ 0 < F.dt / (F.split (F.velqr w.qr) : ℝ) := by
  have h := split_pos F hF _ (fun k hk => velqr_nonneg F hF w.qr k hk (hw.qr k hk))
  refine ⟨h, div_pos hF.dt ?_⟩
  have : (1 : ℝ) ≤ (F.split (F.velqr w.qr) : ℝ) := by exact_mod_cast h
  linarith

/-- If rain is slow there is one subcycle. -/
theorem kessler_once (F : Air) (hF : F.Proper) (w : Wet) (hw : w.Nonneg F.nz)
    (hs : ∀ k, k + 1 < F.nz → F.dt * fall (F.rho 0) (F.rho k) (w.qr k) ≤ 0.8 * (F.z (k + 1) - F.z k)) :
    F.kessler w = (F.adjusted F.dt (F.velqr w.qr) w, F.rho 0 * w.qr 0 * F.velqr w.qr 0 / 1000) := by
  have hv := fun k (hk : k < F.nz) => velqr_nonneg F hF w.qr k hk (hw.qr k hk)
  have h1 : F.split (F.velqr w.qr) = 1 := split_one F hF _ hv (fun k hk => hs k hk)
  unfold Air.kessler
  simp only [h1, Int.cast_one, div_one]
  show ((F.cycle F.dt 1 _ _).1, (F.cycle F.dt 1 _ _).2) = _
  simp [Air.cycle]

/-- If rain is slow no layer loses more rain than it has. -/
theorem slow_stays (F : Air) (hF : F.Proper) (w : Wet) (hw : w.Nonneg F.nz) (hs : F.Slow w) (k : Nat) (hk : k < F.nz) :
    0 ≤ w.qr k + F.sed F.dt (F.velqr w.qr) w.qr k := by
  have hv := fun k (hk : k < F.nz) => velqr_nonneg F hF w.qr k hk (hw.qr k hk)
  have hr := hF.rho k hk
  have hvk := hv k hk
  have hq := hw.qr k hk
  have ht := thickness_pos F hF k hk
  have hsed := sed_eq F hF F.dt (F.velqr w.qr) w.qr k hk
  have hle : F.dt * F.velqr w.qr k ≤ thickness F.nz F.z k := by
    unfold thickness
    split
    · rename_i h
      have := hs.1 k h
      have := hF.z k h
      rw [velqr_eq]
      linarith
    · rename_i h
      have : k = F.nz - 1 := by omega
      subst this
      exact hs.2
  have hin : 0 ≤ (if k + 1 < F.nz then F.rho (k + 1) / 1000 * w.qr (k + 1) * F.velqr w.qr (k + 1) else 0) := by
    split
    · rename_i h
      have := hF.rho (k + 1) h
      have := hw.qr (k + 1) h
      have := hv (k + 1) h
      positivity
    · exact le_rfl
  have hc : 0 < F.rho k / 1000 * thickness F.nz F.z k := by positivity
  have : 0 ≤ F.rho k / 1000 * thickness F.nz F.z k * (w.qr k + F.sed F.dt (F.velqr w.qr) w.qr k) := by
    rw [mul_add, hsed]
    have a1 : 0 ≤ F.dt * (if k + 1 < F.nz then F.rho (k + 1) / 1000 * w.qr (k + 1) * F.velqr w.qr (k + 1) else 0) :=
      mul_nonneg hF.dt.le hin
    have a2 : F.rho k / 1000 * w.qr k * (F.dt * F.velqr w.qr k) ≤ F.rho k / 1000 * w.qr k * thickness F.nz F.z k :=
      mul_le_mul_of_nonneg_left hle (by positivity)
    nlinarith
  exact nonneg_of_mul_nonneg_right this hc

/-! ### Theorems -/

/-- **C115 (no negative amounts).**  Vapour, cloud water and rain are not negative after the process if they were not
before. -/
theorem C115_nonnegative (F : Air) (hF : F.Proper) (w : Wet) (hw : w.Nonneg F.nz) : (F.kessler w).1.Nonneg F.nz :=
  (cycle_spec F hF _ (kessler_facts F hF w hw).2.le _ _ _ hw).1

/-- **C115 (heat).**  Condensation and evaporation exchange heat with the air: at every level the sum of the heat of the
air, of 1003 J/kg/K, and of the latent heat of the vapour, of 2.5 MJ/kg, stays what it was. -/
theorem C115_heat (F : Air) (hF : F.Proper) (w : Wet) (hw : w.Nonneg F.nz) (k : Nat) (hk : k < F.nz) :
    1003 * (F.pk k * (F.kessler w).1.theta k) + 2500000 * (F.kessler w).1.qv k =
      1003 * (F.pk k * w.theta k) + 2500000 * w.qv k :=
  (cycle_spec F hF _ (kessler_facts F hF w hw).2.le _ _ _ hw).2.1 k hk

/-- **C115 (no water is lost).**  The column and the rain that is reported have together at least the water that the
column had. -/
theorem C115_water (F : Air) (hF : F.Proper) (w : Wet) (hw : w.Nonneg F.nz) :
    depth F.nz F.rho F.z w ≤ depth F.nz F.rho F.z (F.kessler w).1 + F.dt * (F.kessler w).2 := by
  have h := (cycle_spec F hF _ (kessler_facts F hF w hw).2.le (F.split (F.velqr w.qr)).toNat (F.velqr w.qr) (w, 0) hw).2.2
  simp only [mul_zero, add_zero] at h
  have e : F.dt * (F.kessler w).2 = F.dt / (F.split (F.velqr w.qr) : ℝ) *
      (F.cycle (F.dt / (F.split (F.velqr w.qr) : ℝ)) (F.split (F.velqr w.qr)).toNat (F.velqr w.qr) (w, 0)).2 := by
    unfold Air.kessler
    simp only
    ring
  rw [e]
  exact h

/-- **C115 (water is conserved).**  With slow rain and a step of at most 1000 seconds the column loses exactly the rain
that is reported. -/
theorem C115_conserves (F : Air) (hF : F.Proper) (w : Wet) (hw : w.Nonneg F.nz) (hs : F.Slow w) (hdt : F.dt ≤ 1000) :
    depth F.nz F.rho F.z w = depth F.nz F.rho F.z (F.kessler w).1 + F.dt * (F.kessler w).2 := by
  rw [kessler_once F hF w hw hs.1]
  exact (adjusted_spec F hF F.dt hF.dt.le _ w hw).2.2.2 hdt (slow_stays F hF w hw hs)

end Verif.Physics
