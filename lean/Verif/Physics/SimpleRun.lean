import Verif.Physics.SimpleProps
import Mathlib.Analysis.Complex.ExponentialBounds

/-!
# C116: the whole subroutine
-/

namespace Verif.Physics

open Real

/-! ### Vocabulary -/

/-- The share of vapour in moist air for a ratio to dry air. -/
noncomputable def specific (q : ℝ) : ℝ := q / (1 + q)

/-- The temperature of moist air from its pressure, the density of dry air and the ratio of vapour to dry air. -/
noncomputable def temperature (p rho q : ℝ) : ℝ := p / (rho * (1 + q) * 287 * (1 + (461.5 / 287 - 1) * q))

/-- The pressure of saturated vapour, times the quotient of the gas constants, at a temperature. -/
noncomputable def saturation (t : ℝ) : ℝ := 287 / 461.5 * 610.78 * exp (-(2.5e6 / 461.5) * (1 / t - 1 / 273.16))

/-- A state with positive pressure and no negative water. -/
structure Column.Proper (S : Setting) (c : Column) : Prop where
  p : ∀ k < S.nz, 0 < c.p k
  qv : ∀ k < S.nz, 0 ≤ c.qv k
  qc : ∀ k < S.nz, 0 ≤ c.qc k
  qr : ∀ k < S.nz, 0 ≤ c.qr k

/-- The ocean does not boil, if there is one: at its temperature the saturated vapour has less pressure than the weight of
the dry air. -/
def Setting.Cool (S : Setting) : Prop :=
  S.test ≠ 3 → ∀ t, tsurf S.test S.lat = some t →
    saturation t < 9.80616 * ∑ k ∈ Finset.range S.nz, S.rho k * (S.zi (k + 1) - S.zi k)

/-! ### Lemmas -/

theorem qsat_eq (p t : ℝ) : qsat p t = saturation t / p := by
  unfold qsat saturation epsilo rair rh2o latvap; ring

theorem saturation_pos (t : ℝ) : 0 < saturation t := by unfold saturation; positivity

theorem qsat_pos {p t : ℝ} (hp : 0 < p) : 0 < qsat p t := by
  rw [qsat_eq]; exact div_pos (saturation_pos t) hp

theorem fold_sum (n : Nat) (f : Nat → ℝ) :
    (List.range n).foldl (fun a k => a + f k) 0 = ∑ k ∈ Finset.range n, f k := by
  induction n with
  | zero => simp
  | succ n ih => rw [List.range_succ, List.foldl_append, ih, Finset.sum_range_succ]; simp

theorem zi_nonneg (S : Setting) (hS : S.Proper) (k : Nat) (hk : k ≤ S.nz) : 0 ≤ S.zi k := by
  induction k with
  | zero => exact hS.ground
  | succ k ih => exact (ih (by omega)).trans (hS.zi k (by omega)).le

theorem eddy_nonneg (S : Setting) (hS : S.Proper) (p : Nat → ℝ) (wind coef : ℝ) (hw : 0 ≤ wind) (hc : 0 ≤ coef)
    (K : Nat → ℝ) (h : eddy S p wind coef = some K) (k : Nat) (hk : k ≤ S.nz) : 0 ≤ K k := by
  have hz := hS.low
  unfold eddy at h
  split at h
  · cases h
    show 0 ≤ if k = 0 ∨ k = S.nz then (0 : ℝ) else
      if 0.5 * (p (k - 1) + p k) ≥ 85000 then coef * wind * S.z 0
      else coef * wind * S.z 0 * exp (-(85000 - 0.5 * (p (k - 1) + p k)) ^ 2 / 10000 ^ 2)
    split
    · exact le_rfl
    · split <;> positivity
  · split at h
    · cases h
      show 0 ≤ if k = 0 ∨ k = S.nz then (0 : ℝ) else
        if S.zi k ≤ 1000 then 0.4 * sqrt coef * wind * S.zi k * (1 - S.zi k / 1000) * (1 - S.zi k / 1000) else 0
      split
      · exact le_rfl
      · split
        · have := zi_nonneg S hS k hk
          have h1 : 0 ≤ 1 - S.zi k / 1000 := by linarith
          positivity
        · exact le_rfl
    · simp at h

theorem drag_nonneg (wind : ℝ) (hw : 0 ≤ wind) : 0 ≤ drag wind := by
  unfold drag; split <;> positivity

theorem bounded_below_one (n : Nat) (f : Nat → ℝ) (h : ∀ k < n, f k < 1) : ∃ b < 1, ∀ k < n, f k ≤ b := by
  induction n with
  | zero => exact ⟨0, by norm_num, fun k hk => absurd hk (by omega)⟩
  | succ n ih =>
    obtain ⟨b, hb, hf⟩ := ih (fun k hk => h k (by omega))
    refine ⟨max b (f n), max_lt hb (h n (by omega)), fun k hk => ?_⟩
    rcases Nat.lt_succ_iff_lt_or_eq.mp hk with h | h
    · exact (hf k h).trans (le_max_left _ _)
    · rw [h]; exact le_max_right _ _

theorem specific_bounds {q : ℝ} (h : 0 ≤ q) : 0 ≤ specific q ∧ specific q < 1 := by
  unfold specific
  exact ⟨by positivity, (div_lt_one (by linarith)).mpr (by linarith)⟩

/-- What holds between the parts of the subroutine. -/
structure Between (S : Setting) (c : Column) (s : Inner) : Prop where
  qsv : ∀ k < S.nz, 0 ≤ s.qsv k ∧ s.qsv k < 1
  rhom : ∀ k < S.nz, S.rho k ≤ s.rhom k
  qv : ∀ k < S.nz, 0 ≤ c.qv k
  qc : ∀ k < S.nz, 0 ≤ c.qc k
  qr : ∀ k < S.nz, 0 ≤ c.qr k

theorem le_quotient {r s : ℝ} (hr : 0 < r) (h0 : 0 ≤ s) (h1 : s < 1) : r ≤ r / (1 - s) := by
  rw [le_div_iff₀ (by linarith)]; nlinarith

theorem start_qsv (S : Setting) (hS : S.Proper) (c : Column) (k : Nat) (hk : k < S.nz) :
    (start S c).qsv k = specific (c.qv k) := by
  have := hS.rho k hk
  show c.qv k * S.rho k / (S.rho k * (1 + c.qv k)) = c.qv k / (1 + c.qv k)
  rw [mul_comm (c.qv k), mul_div_mul_left _ _ this.ne']

theorem start_t (S : Setting) (c : Column) (k : Nat) :
    (start S c).t k = temperature (c.p k) (S.rho k) (c.qv k) := rfl

theorem start_t_pos (S : Setting) (hS : S.Proper) (c : Column) (hc : c.Proper S) (k : Nat) (hk : k < S.nz) :
    0 < (start S c).t k := by
  rw [start_t]
  unfold temperature
  have h1 := hS.rho k hk
  have h2 := hc.p k hk
  have h3 := hc.qv k hk
  have : (0 : ℝ) < 461.5 / 287 - 1 := by norm_num
  positivity

theorem delta_bounds {p t qsv : ℝ} (hp : 0 < p) (ht : 0 < t) (h : qsat p t < qsv) :
    0 < deltaqsv p t qsv ∧ deltaqsv p t qsv < qsv - qsat p t := by
  have hq := qsat_pos (t := t) hp
  have hden : 0 < latvap / cpair * epsilo * latvap * qsat p t / (rair * t ^ 2) := by
    unfold latvap cpair epsilo rair rh2o; positivity
  unfold deltaqsv
  refine ⟨div_pos (by linarith) (by linarith), ?_⟩
  rw [div_lt_iff₀ (by linarith)]
  nlinarith

open Classical in
theorem largeScale_between (S : Setting) (hS : S.Proper) (c : Column) (hc : c.Proper S) :
    Between S (largeScale S c (start S c)).1 (largeScale S c (start S c)).2 := by
  have q : ∀ k < S.nz, 0 ≤ (largeScale S c (start S c)).2.qsv k ∧ (largeScale S c (start S c)).2.qsv k < 1 := by
    intro k hk
    obtain ⟨b0, b1⟩ := specific_bounds (hc.qv k hk)
    rw [← start_qsv S hS c k hk] at b0 b1
    have hq := qsat_pos (t := (start S c).t k) (hc.p k hk)
    unfold largeScale
    dsimp only
    by_cases h : (start S c).qsv k > qsat (c.p k) ((start S c).t k)
    · rw [if_pos h, if_pos h]
      obtain ⟨d0, d1⟩ := delta_bounds (hc.p k hk) (start_t_pos S hS c hc k hk) h
      exact ⟨by linarith, by linarith⟩
    · rw [if_neg h]
      exact ⟨b0, b1⟩
  refine ⟨q, ?_, ?_, hc.qc, hc.qr⟩
  · intro k hk
    have hq := q k hk
    have hr := hS.rho k hk
    revert hq
    unfold largeScale
    dsimp only
    intro hq
    by_cases h : (start S c).qsv k > qsat (c.p k) ((start S c).t k)
    · simp only [if_pos h] at hq ⊢
      exact le_quotient hr hq.1 hq.2
    · simp only [if_neg h]
      show S.rho k ≤ S.rho k * (1 + c.qv k)
      have := hc.qv k hk
      nlinarith
  · intro k hk
    have hq := q k hk
    revert hq
    unfold largeScale
    dsimp only
    intro hq
    by_cases h : (start S c).qsv k > qsat (c.p k) ((start S c).t k)
    · simp only [if_pos h] at hq ⊢
      exact div_nonneg hq.1 (by linarith [hq.2])
    · simp only [if_neg h]
      exact hc.qv k hk

theorem exner_pos {p : ℝ} (h : 0 < p) : 0 < exner p := by
  unfold exner pref; positivity

theorem warmRain_between (S : Setting) (hS : S.Proper) (h2 : 2 ≤ S.nz) (c : Column) (hc : c.Proper S) :
    Between S (warmRain S c (start S c)).1 (warmRain S c (start S c)).2 := by
  have hF : (Air.mk S.nz S.rho (fun k => exner (c.p k)) S.z S.dt).Proper :=
    ⟨h2, hS.rho, fun k hk => exner_pos (hc.p k hk), hS.z, hS.dt⟩
  have hn := C115_nonnegative _ hF ⟨fun k => (start S c).t k / exner (c.p k), c.qv, c.qc, c.qr⟩ ⟨hc.qv, hc.qc, hc.qr⟩
  refine ⟨fun k hk => specific_bounds (hn.qv k hk), fun k hk => ?_, hn.qv, hn.qc, hn.qr⟩
  obtain ⟨b0, b1⟩ := specific_bounds (hn.qv k hk)
  exact le_quotient (hS.rho k hk) b0 b1

theorem pressure_ge (S : Setting) (hS : S.Proper) (rhom : Nat → ℝ) (h : ∀ k < S.nz, S.rho k ≤ rhom k) :
    9.80616 * ∑ k ∈ Finset.range S.nz, S.rho k * (S.zi (k + 1) - S.zi k) ≤ surfacePressure S rhom := by
  unfold surfacePressure
  rw [fold_sum, Finset.mul_sum]
  refine Finset.sum_le_sum fun k hk => ?_
  rw [Finset.mem_range] at hk
  have h1 := h k hk
  have h2 := hS.zi k hk
  rw [← mul_assoc]
  refine mul_le_mul_of_nonneg_right ?_ (by linarith)
  show 9.80616 * S.rho k ≤ 9.80616 * rhom k
  linarith

theorem qs_bounds (S : Setting) (hS : S.Proper) (rhom : Nat → ℝ) (h : ∀ k < S.nz, S.rho k ≤ rhom k) (t : ℝ)
    (ht : saturation t < 9.80616 * ∑ k ∈ Finset.range S.nz, S.rho k * (S.zi (k + 1) - S.zi k)) :
    0 ≤ qsat (surfacePressure S rhom) t ∧ qsat (surfacePressure S rhom) t < 1 := by
  have hp := pressure_ge S hS rhom h
  have hs := saturation_pos t
  rw [qsat_eq]
  exact ⟨div_nonneg hs.le (by linarith), (div_lt_one (by linarith)).mpr (by linarith)⟩

theorem average_bounds {x y a : ℝ} (hx : 0 ≤ x ∧ x < 1) (hy : 0 ≤ y ∧ y < 1) (ha : 0 ≤ a) :
    0 ≤ (x + a * y) / (1 + a) ∧ (x + a * y) / (1 + a) < 1 := by
  refine ⟨div_nonneg (add_nonneg hx.1 (mul_nonneg ha hy.1)) (by linarith), ?_⟩
  rw [div_lt_one (by linarith)]
  nlinarith [mul_nonneg ha (sub_nonneg.mpr hy.2.le)]

theorem shrink_bounds {x a b d : ℝ} (ha : a ≤ 0) (hb : 0 ≤ b) (hx : a ≤ x ∧ x ≤ b) (hd : 0 ≤ d) :
    a ≤ x / (1 + d) ∧ x / (1 + d) ≤ b := by
  constructor
  · rw [le_div_iff₀ (by linarith)]; nlinarith
  · rw [div_le_iff₀ (by linarith)]; nlinarith

theorem boundaryLayer_spec (S : Setting) (hS : S.Proper) (ts : ℝ)
    (ht : saturation ts < 9.80616 * ∑ k ∈ Finset.range S.nz, S.rho k * (S.zi (k + 1) - S.zi k))
    (c : Column) (s : Inner) (hb : Between S c s) (c' : Column) (h : boundaryLayer S ts c s = some c') :
    (∀ k < S.nz, 0 ≤ c'.qv k) ∧ c'.qc = c.qc ∧ c'.qr = c.qr ∧
      (∀ a b, a ≤ 0 → 0 ≤ b → (∀ k < S.nz, a ≤ c.u k ∧ c.u k ≤ b) → ∀ k < S.nz, a ≤ c'.u k ∧ c'.u k ≤ b) ∧
      (∀ a b, a ≤ 0 → 0 ≤ b → (∀ k < S.nz, a ≤ c.v k ∧ c.v k ≤ b) → ∀ k < S.nz, a ≤ c'.v k ∧ c'.v k ≤ b) := by
  unfold boundaryLayer at h
  dsimp only at h
  have hw : 0 ≤ sqrt (c.u 0 ^ 2 + c.v 0 ^ 2) := sqrt_nonneg _
  have hCd := drag_nonneg _ hw
  split at h
  case h_2 => simp at h
  rename_i Km Ke hKm hKe
  have hKm0 := eddy_nonneg S hS _ _ _ hw hCd Km hKm
  have hKe0 := eddy_nonneg S hS _ _ _ hw (by norm_num) Ke hKe
  have h0 : 0 < S.nz := hS.levels
  have hz := hS.low
  have hdt := hS.dt
  have hq0 := average_bounds (hb.qsv 0 h0) (qs_bounds S hS s.rhom hb.rhom ts ht)
    (show 0 ≤ 0.0011 * sqrt (c.u 0 ^ 2 + c.v 0 ^ 2) * S.dt / S.z 0 by positivity)
  rw [show s.qsv 0 + 0.0011 * sqrt (c.u 0 ^ 2 + c.v 0 ^ 2) * S.dt / S.z 0 * qsat (surfacePressure S s.rhom) ts =
    s.qsv 0 + 0.0011 * sqrt (c.u 0 ^ 2 + c.v 0 ^ 2) * qsat (surfacePressure S s.rhom) ts * S.dt / S.z 0 by ring] at hq0
  set wind := sqrt (c.u 0 ^ 2 + c.v 0 ^ 2)
  set q0 := (s.qsv 0 + 0.0011 * wind * qsat (surfacePressure S s.rhom) ts * S.dt / S.z 0) / (1 + 0.0011 * wind * S.dt / S.z 0)
  have hqs : ∀ k < S.nz, 0 ≤ atGround s.qsv q0 k ∧ atGround s.qsv q0 k < 1 := by
    intro k hk
    unfold atGround
    split
    · exact hq0
    · exact hb.qsv k hk
  have hg : atGround s.qsv q0 0 = q0 := rfl
  have hrh : ∀ k < S.nz, 0 < atGround s.rhom (S.rho 0 / (1 - atGround s.qsv q0 0)) k := by
    intro k hk
    rw [hg]
    unfold atGround
    split
    · exact div_pos (hS.rho 0 h0) (by linarith [hq0.2])
    · exact (hS.rho k hk).trans_le (hb.rhom k hk)
  have hd : 0 ≤ S.dt * drag wind * wind / S.z 0 := by positivity
  have wb : ∀ (x : Nat → ℝ) (a b : ℝ), a ≤ 0 → 0 ≤ b → (∀ k < S.nz, a ≤ x k ∧ x k ≤ b) → ∀ k < S.nz,
      a ≤ atGround x (x 0 / (1 + S.dt * drag wind * wind / S.z 0)) k ∧
        atGround x (x 0 / (1 + S.dt * drag wind * wind / S.z 0)) k ≤ b := by
    intro x a b ha hb hx k hk
    unfold atGround
    split
    · exact shrink_bounds ha hb (hx 0 h0) hd
    · exact hx k hk
  cases h
  refine ⟨fun k hk => ?_, rfl, rfl, fun a b ha hb hx k hk => ?_, fun a b ha hb hx k hk => ?_⟩
  · obtain ⟨b, hb1, hbb⟩ := bounded_below_one S.nz _ (fun k hk => (hqs k hk).2)
    have := C116_bounds S hS _ Ke hrh hKe0 (atGround s.qsv q0) 0 b (fun k hk => ⟨(hqs k hk).1, hbb k hk⟩) k hk
    exact div_nonneg this.1 (by linarith [this.2])
  · exact C116_bounds S hS _ Km hrh hKm0 _ a b (wb c.u a b ha hb hx) k hk
  · exact C116_bounds S hS _ Km hrh hKm0 _ a b (wb c.v a b ha hb hx) k hk

/-! ### Theorems -/

theorem simple_spec (S : Setting) (hS : S.Proper) (hcool : S.Cool) (h2 : S.precType = 0 → 2 ≤ S.nz) (c : Column)
    (hc : c.Proper S) (c' : Column) (r : ℝ) (h : simplePhysics S c = some (c', r)) :
    (∀ k < S.nz, 0 ≤ c'.qv k ∧ 0 ≤ c'.qc k ∧ 0 ≤ c'.qr k) ∧
      (∀ a b, a ≤ 0 → 0 ≤ b → (∀ k < S.nz, a ≤ c.u k ∧ c.u k ≤ b) → ∀ k < S.nz, a ≤ c'.u k ∧ c'.u k ≤ b) ∧
      (∀ a b, a ≤ 0 → 0 ≤ b → (∀ k < S.nz, a ≤ c.v k ∧ c.v k ≤ b) → ∀ k < S.nz, a ≤ c'.v k ∧ c'.v k ≤ b) := by
  unfold simplePhysics at h
  split at h
  case h_1 => simp at h
  rename_i ts hts
  dsimp only at h
  split at h
  case h_1 => simp at h
  rename_i y hy
  have key : Between S y.1 y.2 ∧ y.1.u = c.u ∧ y.1.v = c.v := by
    split at hy
    · cases hy; exact ⟨largeScale_between S hS c hc, rfl, rfl⟩
    · split at hy
      · rename_i h0
        cases hy; exact ⟨warmRain_between S hS (h2 h0) c hc, rfl, rfl⟩
      · simp at hy
  obtain ⟨hb, hu, hv⟩ := key
  split at h
  · cases h
    refine ⟨fun k hk => ⟨hb.qv k hk, hb.qc k hk, hb.qr k hk⟩, ?_, ?_⟩
    · intro a b _ _ hx; rw [hu]; exact hx
    · intro a b _ _ hx; rw [hv]; exact hx
  · rename_i h3
    have ht := hcool h3 ts hts
    split at h
    · simp at h
    · rename_i c1 hc1
      cases h
      obtain ⟨s1, s2, s3, s4, s5⟩ := boundaryLayer_spec S hS ts ht _ _ hb _ hc1
      rw [hu] at s4; rw [hv] at s5
      exact ⟨fun k hk => ⟨s1 k hk, s2 ▸ hb.qc k hk, s3 ▸ hb.qr k hk⟩, s4, s5⟩

/-- **C116 (no negative water).**  A column that has no negative water has none after the subroutine. -/
theorem C116_nonnegative (S : Setting) (hS : S.Proper) (hcool : S.Cool) (h2 : S.precType = 0 → 2 ≤ S.nz) (c : Column)
    (hc : c.Proper S) (c' : Column) (r : ℝ) (h : simplePhysics S c = some (c', r)) (k : Nat) (hk : k < S.nz) :
    0 ≤ c'.qv k ∧ 0 ≤ c'.qc k ∧ 0 ≤ c'.qr k :=
  (simple_spec S hS hcool h2 c hc c' r h).1 k hk

/-- **C116 (wind is only slowed down and mixed).**  Bounds on the components of the wind in the column, with calm between
them, hold after the subroutine. -/
theorem C116_wind (S : Setting) (hS : S.Proper) (hcool : S.Cool) (h2 : S.precType = 0 → 2 ≤ S.nz) (c : Column)
    (hc : c.Proper S) (c' : Column) (r : ℝ) (h : simplePhysics S c = some (c', r)) (a b : ℝ) (ha : a ≤ 0) (hb : 0 ≤ b) :
    ((∀ k < S.nz, a ≤ c.u k ∧ c.u k ≤ b) → ∀ k < S.nz, a ≤ c'.u k ∧ c'.u k ≤ b) ∧
      ((∀ k < S.nz, a ≤ c.v k ∧ c.v k ≤ b) → ∀ k < S.nz, a ≤ c'.v k ∧ c'.v k ≤ b) :=
  ⟨(simple_spec S hS hcool h2 c hc c' r h).2.1 a b ha hb, (simple_spec S hS hcool h2 c hc c' r h).2.2 a b ha hb⟩

/-- **C116 (choices).**  The subroutine ends the program exactly if one of the choices it makes use of is unknown. -/
theorem C116_choices (S : Setting) (c : Column) :
    simplePhysics S c = none ↔
      ¬((S.test = 1 ∨ S.test = 2 ∨ S.test = 3) ∧ (S.precType = 0 ∨ S.precType = 1) ∧
        (S.test = 3 ∨ S.pblType = 0 ∨ S.pblType = 1)) := by
  unfold simplePhysics boundaryLayer eddy tsurf
  by_cases a1 : S.test = 1 <;> by_cases a2 : S.test = 2 <;> by_cases a3 : S.test = 3 <;>
    by_cases b0 : S.precType = 0 <;> by_cases b1 : S.precType = 1 <;>
    by_cases d0 : S.pblType = 0 <;> by_cases d1 : S.pblType = 1 <;> simp_all

/-! ### Large-scale precipitation -/

theorem alone (S : Setting) (c : Column) (ht : S.test = 3) (hp : S.precType = 1) (c' : Column) (r : ℝ)
    (h : simplePhysics S c = some (c', r)) :
    c' = (largeScale S c (start S c)).1 ∧ r = (largeScale S c (start S c)).2.precl := by
  unfold simplePhysics tsurf at h
  rw [if_neg (by omega), if_neg (by omega), if_pos ht] at h
  dsimp only at h
  rw [if_pos hp] at h
  dsimp only at h
  rw [if_pos ht] at h
  cases h
  exact ⟨rfl, rfl⟩

theorem specific_inv {s : ℝ} (h : s < 1) : specific (s / (1 - s)) = s := by
  have : 1 - s ≠ 0 := by linarith
  unfold specific
  rw [one_add_div this, show 1 - s + s = 1 by ring, div_div_div_cancel_right₀ this, div_one]

theorem temperature_inv {s rho t : ℝ} (h0 : 0 ≤ s) (h : s < 1) (hr : 0 < rho) :
    temperature (rho / (1 - s) * rair * t * (1 + zvir * (s / (1 - s)))) rho (s / (1 - s)) = t := by
  have h1 : 0 < 1 - s := by linarith
  unfold temperature zvir rh2o rair
  rw [one_add_div h1.ne', show 1 - s + s = 1 by ring]
  have h3 : (0 : ℝ) < 461.5 / 287 - 1 := by norm_num
  have h2 : 0 < rho * (1 / (1 - s)) * 287 * (1 + (461.5 / 287 - 1) * (s / (1 - s))) := by positivity
  rw [div_eq_iff h2.ne']
  ring

open Classical in
/-- What large-scale precipitation does at a level. -/
theorem largeScale_spec (S : Setting) (hS : S.Proper) (c : Column) (hc : c.Proper S) (k : Nat) (hk : k < S.nz) :
    let c' := (largeScale S c (start S c)).1
    let T := temperature (c.p k) (S.rho k) (c.qv k)
    if specific (c.qv k) > saturation T / c.p k then
      specific (c'.qv k) = specific (c.qv k) - deltaqsv (c.p k) T (specific (c.qv k)) ∧
      temperature (c'.p k) (S.rho k) (c'.qv k) = T + latvap / cpair * deltaqsv (c.p k) T (specific (c.qv k)) ∧
      0 ≤ c'.qv k
    else c'.p k = c.p k ∧ c'.qv k = c.qv k := by
  intro c' T
  have hcs : c' = (largeScale S c (start S c)).1 := rfl
  have hb := largeScale_between S hS c hc
  have hq := hb.qsv k hk
  have hv := hb.qv k hk
  have hr := hS.rho k hk
  rw [← hcs] at hv
  revert hq hv
  rw [hcs]
  unfold largeScale
  dsimp only
  rw [start_qsv S hS c k hk, start_t, qsat_eq]
  show _ → _ → (if specific (c.qv k) > saturation T / c.p k then _ else _)
  intro hq hv
  by_cases h : specific (c.qv k) > saturation T / c.p k
  · rw [if_pos h] at hq hv ⊢
    have h' : specific (c.qv k) > saturation (temperature (c.p k) (S.rho k) (c.qv k)) / c.p k := h
    simp only [if_pos h'] at hq hv ⊢
    exact ⟨specific_inv hq.2, temperature_inv hq.1 hq.2 hr, hv⟩
  · rw [if_neg h]
    have h' : ¬specific (c.qv k) > saturation (temperature (c.p k) (S.rho k) (c.qv k)) / c.p k := h
    simp only [if_neg h']
    exact ⟨trivial, trivial⟩

/-- **C116 (saturation).**  Precipitation without fluxes from the surface leaves wind, cloud water and rain as they are.
A level that is not oversaturated stays as it is.  At one that is, vapour condenses, but stays above what was the
saturation before the air was warmed, and the air is warmed by the latent heat of what condensed. -/
theorem C116_saturation (S : Setting) (hS : S.Proper) (c : Column) (hc : c.Proper S) (ht : S.test = 3)
    (hp : S.precType = 1) (c' : Column) (r : ℝ) (h : simplePhysics S c = some (c', r)) (k : Nat) (hk : k < S.nz) :
    c'.u k = c.u k ∧ c'.v k = c.v k ∧ c'.qc k = c.qc k ∧ c'.qr k = c.qr k ∧
      (specific (c.qv k) ≤ saturation (temperature (c.p k) (S.rho k) (c.qv k)) / c.p k →
        c'.p k = c.p k ∧ c'.qv k = c.qv k) ∧
      (saturation (temperature (c.p k) (S.rho k) (c.qv k)) / c.p k < specific (c.qv k) →
        saturation (temperature (c.p k) (S.rho k) (c.qv k)) / c.p k < specific (c'.qv k) ∧
        specific (c'.qv k) < specific (c.qv k)) ∧
      1004.5 * temperature (c'.p k) (S.rho k) (c'.qv k) + 2.5e6 * specific (c'.qv k) =
        1004.5 * temperature (c.p k) (S.rho k) (c.qv k) + 2.5e6 * specific (c.qv k) := by
  obtain ⟨e, -⟩ := alone S c ht hp c' r h
  have sp := largeScale_spec S hS c hc k hk
  rw [← e] at sp
  dsimp only at sp
  refine ⟨by rw [e]; rfl, by rw [e]; rfl, by rw [e]; rfl, by rw [e]; rfl, ?_, ?_, ?_⟩
  · intro hle
    rw [if_neg (by linarith)] at sp
    exact sp
  · intro hlt
    rw [if_pos hlt] at sp
    obtain ⟨s1, -, -⟩ := sp
    have hT := start_t_pos S hS c hc k hk
    rw [start_t] at hT
    rw [← qsat_eq] at hlt ⊢
    obtain ⟨d0, d1⟩ := delta_bounds (hc.p k hk) hT hlt
    exact ⟨by linarith, by linarith⟩
  · by_cases hlt : saturation (temperature (c.p k) (S.rho k) (c.qv k)) / c.p k < specific (c.qv k)
    · rw [if_pos hlt] at sp
      obtain ⟨s1, s2, -⟩ := sp
      rw [s1, s2]
      unfold latvap cpair
      ring
    · rw [if_neg hlt] at sp
      rw [sp.1, sp.2]

open Classical in
theorem fold_if (n : Nat) (P : Nat → Prop) (f : Nat → ℝ) :
    (List.range n).foldl (fun a k => if P k then a + f k else a) 0 =
      ∑ k ∈ Finset.range n, if P k then f k else 0 := by
  induction n with
  | zero => simp
  | succ n ih =>
    rw [List.range_succ, List.foldl_append, ih, Finset.sum_range_succ]
    simp only [List.foldl_cons, List.foldl_nil]
    split <;> simp

/-- **C116 (rain, partial).**  The rain that is reported, as a depth of liquid water, is the loss of vapour of every
layer, divided by the mass of moist air per mass of dry air that is left.  Missing: that it is the loss of vapour itself
(see `C116_rain_false`). -/
theorem C116_rain_partial (S : Setting) (hS : S.Proper) (c : Column) (hc : c.Proper S) (ht : S.test = 3)
    (hp : S.precType = 1) (c' : Column) (r : ℝ) (h : simplePhysics S c = some (c', r)) :
    r * S.dt = ∑ k ∈ Finset.range S.nz,
      S.rho k * (S.zi (k + 1) - S.zi k) / 1000 * (c.qv k - c'.qv k) / (1 + c'.qv k) := by
  obtain ⟨e, er⟩ := alone S c ht hp c' r h
  rw [er]
  unfold largeScale
  dsimp only
  rw [fold_if, Finset.sum_mul]
  refine Finset.sum_congr rfl fun k hk => ?_
  rw [Finset.mem_range] at hk
  have sp := largeScale_spec S hS c hc k hk
  rw [← e] at sp
  dsimp only at sp
  rw [start_qsv S hS c k hk, start_t, qsat_eq]
  have hd := hS.dt
  by_cases hlt : saturation (temperature (c.p k) (S.rho k) (c.qv k)) / c.p k < specific (c.qv k)
  · rw [if_pos hlt] at sp
    obtain ⟨s1, -, s3⟩ := sp
    rw [if_pos hlt, if_pos hlt]
    have hq := hc.qv k hk
    have e1 : deltaqsv (c.p k) (temperature (c.p k) (S.rho k) (c.qv k)) (specific (c.qv k)) =
        specific (c.qv k) - specific (c'.qv k) := by linarith
    rw [e1]
    show (specific (c.qv k) - specific (c'.qv k)) * (S.rho k * (1 + c.qv k)) * _ / _ * _ = _
    unfold specific
    have a1 : 1 + c.qv k ≠ 0 := by linarith
    have a2 : 1 + c'.qv k ≠ 0 := by linarith
    field_simp
    ring
  · rw [if_neg hlt] at sp
    rw [if_neg hlt, sp.2]
    simp

/-! ### Examples -/

/-- One layer of dry density one and thickness one. -/
noncomputable def oneLayer (test prec : Int) : Setting :=
  { test := test, nz := 1, rho := fun _ => 1, dt := 1, z := fun _ => 1, zi := fun k => k, lat := 0, pblType := 0,
    precType := prec }

theorem oneLayer_proper (test prec : Int) : (oneLayer test prec).Proper := by
  refine ⟨le_rfl, fun _ _ => one_pos, one_pos, fun k hk => absurd hk (by show ¬k + 1 < 1; omega), fun k _ => ?_, one_pos, ?_⟩
  · show (k : ℝ) < ((k + 1 : ℕ) : ℝ)
    push_cast; linarith
  · show 0 ≤ ((0 : ℕ) : ℝ)
    norm_num

/-- As much vapour as dry air, at 273.16 K. -/
noncomputable def steam : Column :=
  { u := fun _ => 0, v := fun _ => 0, p := fun _ => 273.16 * (2 * 287 * (461.5 / 287)), qv := fun _ => 1,
    qc := fun _ => 0, qr := fun _ => 0 }

theorem steam_proper (test prec : Int) : steam.Proper (oneLayer test prec) :=
  ⟨fun _ _ => by show (0 : ℝ) < 273.16 * (2 * 287 * (461.5 / 287)); norm_num, fun _ _ => zero_le_one, fun _ _ => le_rfl,
    fun _ _ => le_rfl⟩

theorem steam_temperature : temperature (steam.p 0) 1 (steam.qv 0) = 273.16 := by
  show (273.16 * (2 * 287 * (461.5 / 287)) : ℝ) / (1 * (1 + 1) * 287 * (1 + (461.5 / 287 - 1) * 1)) = 273.16
  norm_num

theorem steam_over : saturation (temperature (steam.p 0) 1 (steam.qv 0)) / steam.p 0 < specific (steam.qv 0) := by
  rw [steam_temperature]
  show saturation 273.16 / (273.16 * (2 * 287 * (461.5 / 287))) < (1 : ℝ) / (1 + 1)
  unfold saturation
  rw [sub_self, mul_zero, exp_zero]
  norm_num

/-- **C116 is false for the rain that is reported**: less than what the column loses. -/
theorem C116_rain_false : ∃ (S : Setting) (c c' : Column) (r : ℝ), S.Proper ∧ c.Proper S ∧
    simplePhysics S c = some (c', r) ∧
    r * S.dt < ∑ k ∈ Finset.range S.nz, S.rho k * (S.zi (k + 1) - S.zi k) / 1000 * (c.qv k - c'.qv k) := by
  have hS := oneLayer_proper 3 1
  have hc := steam_proper 3 1
  cases h : simplePhysics (oneLayer 3 1) steam with
  | none =>
    rw [C116_choices] at h
    exact absurd ⟨Or.inr (Or.inr rfl), Or.inr rfl, Or.inl rfl⟩ h
  | some y =>
    obtain ⟨c', r⟩ := y
    refine ⟨_, _, c', r, hS, hc, h, ?_⟩
    have h1 := C116_rain_partial _ hS _ hc rfl rfl c' r h
    have h2 := C116_saturation _ hS _ hc rfl rfl c' r h 0 one_pos
    have h3 := (h2.2.2.2.2.2.1 steam_over)
    rw [h1]
    show ∑ k ∈ Finset.range 1, _ < ∑ k ∈ Finset.range 1, _
    rw [Finset.sum_range_one, Finset.sum_range_one]
    show (1 : ℝ) * (((0 + 1 : ℕ) : ℝ) - ((0 : ℕ) : ℝ)) / 1000 * (1 - c'.qv 0) / (1 + c'.qv 0) <
      1 * (((0 + 1 : ℕ) : ℝ) - ((0 : ℕ) : ℝ)) / 1000 * (1 - c'.qv 0)
    have hn : 0 ≤ c'.qv 0 := by
      rw [(alone _ _ rfl rfl c' r h).1]
      exact (largeScale_between _ hS _ hc).qv 0 one_pos
    have hs := h3.1
    have hs0 : 0 < specific (c'.qv 0) := by
      refine lt_trans (div_pos (saturation_pos _) (hc.p 0 one_pos)) hs
    have hpos : 0 < c'.qv 0 := by
      rcases hn.lt_or_eq with h | h
      · exact h
      · rw [← h] at hs0; simp [specific] at hs0
    have hlt : c'.qv 0 < 1 := by
      have := h3.2
      unfold specific at this
      rw [show steam.qv 0 = 1 from rfl, div_lt_div_iff₀ (by linarith) (by norm_num)] at this
      linarith
    rw [div_lt_iff₀ (by linarith)]
    norm_num
    nlinarith

/-- A tall column over a warm ocean, with wind, in which the subroutine does something. -/
noncomputable def storm (prec : Int) : Setting :=
  { test := 2, nz := 3, rho := fun _ => 1, dt := 1, z := fun k => 4000 * k + 2000, zi := fun k => 4000 * k, lat := 0,
    pblType := 0, precType := prec }

theorem storm_proper (prec : Int) : (storm prec).Proper := by
  refine ⟨by show 1 ≤ 3; omega, fun _ _ => one_pos, one_pos, fun k _ => ?_, fun k _ => ?_, ?_, ?_⟩
  · show (4000 : ℝ) * k + 2000 < 4000 * ((k + 1 : ℕ) : ℝ) + 2000
    push_cast; linarith
  · show (4000 : ℝ) * k < 4000 * ((k + 1 : ℕ) : ℝ)
    push_cast; linarith
  · show (0 : ℝ) < 4000 * ((0 : ℕ) : ℝ) + 2000
    norm_num
  · show (0 : ℝ) ≤ 4000 * ((0 : ℕ) : ℝ)
    norm_num

theorem storm_cool (prec : Int) : (storm prec).Cool := by
  intro _ t h
  have : t = 302.15 := by
    unfold tsurf at h
    dsimp only at h
    rw [if_neg (by show ¬(2 : Int) = 1; omega), if_pos (by rfl)] at h
    cases h; rfl
  rw [this]
  show saturation 302.15 < 9.80616 * ∑ k ∈ Finset.range 3, (1 : ℝ) * (4000 * ((k + 1 : ℕ) : ℝ) - 4000 * (k : ℝ))
  have e : ∑ k ∈ Finset.range 3, (1 : ℝ) * (4000 * ((k + 1 : ℕ) : ℝ) - 4000 * (k : ℝ)) = 12000 := by
    rw [Finset.sum_range_succ, Finset.sum_range_succ, Finset.sum_range_one]
    norm_num
  rw [e]
  unfold saturation
  have hx : exp (-(2.5e6 / 461.5) * (1 / 302.15 - 1 / 273.16)) ≤ exp 2 := exp_le_exp.mpr (by norm_num)
  have h2 : exp (2 : ℝ) < 9 := by
    rw [show (2 : ℝ) = 1 + 1 by norm_num, exp_add]
    have := exp_one_lt_d9
    have := exp_pos (1 : ℝ)
    nlinarith
  nlinarith

/-- The hypotheses of the theorems about the whole subroutine are met. -/
example : ∃ c' r, (storm 0).Proper ∧ (storm 0).Cool ∧
    (Column.mk (fun _ => 10) (fun _ => -5) (fun _ => 90000) (fun _ => 0.01) (fun _ => 0) (fun _ => 0)).Proper (storm 0) ∧
    simplePhysics (storm 0) ⟨fun _ => 10, fun _ => -5, fun _ => 90000, fun _ => 0.01, fun _ => 0, fun _ => 0⟩ = some (c', r) := by
  cases h : simplePhysics (storm 0) ⟨fun _ => 10, fun _ => -5, fun _ => 90000, fun _ => 0.01, fun _ => 0, fun _ => 0⟩ with
  | none =>
    rw [C116_choices] at h
    exact absurd ⟨Or.inr (Or.inl rfl), Or.inl rfl, Or.inr (Or.inl rfl)⟩ h
  | some y =>
    exact ⟨y.1, y.2, storm_proper 0, storm_cool 0, ⟨fun _ _ => by norm_num, fun _ _ => by norm_num, fun _ _ => le_rfl,
      fun _ _ => le_rfl⟩, rfl⟩

end Verif.Physics
