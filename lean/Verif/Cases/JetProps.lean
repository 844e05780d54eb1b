import Verif.Cases.ChannelLemmas

/-!
# C112 and C113 for the test cases in pressure coordinates
-/

namespace Verif.Cases

open Verif.Thermo Real

variable {c : Constants}

/-- What a returned result of Newton's iteration is worth: it is one step of size less than 1e-13 away from an iterate at
which the geopotential differs from that of the height by less than 1e-13 times its slope; the temperature returned is
that of this iterate. -/
theorem newton_residual (column : ℝ → ℝ × ℝ) (z : ℝ) (n : Nat) (eta : ℝ) (r : ℝ × ℝ)
    (h : newton c column z n eta = some r) :
    ∃ last, |last - r.1| < 1e-13 ∧ r.2 = (column last).2 ∧
      (c.r * (column last).2 / last ≠ 0 →
        |(column last).1 - c.g * z| < 1e-13 * |c.r * (column last).2 / last|) := by
  obtain ⟨last, h1, h2, h3⟩ := newton_spec c column z n eta r h
  refine ⟨last, h3, h1, fun hne => ?_⟩
  have e : last - r.1 = -(((column last).1 - c.g * z) / (c.r * (column last).2 / last)) := by
    have e1 : -c.r / last * (column last).2 = -(c.r * (column last).2 / last) := by ring
    rw [h2, e1, div_neg]
    ring
  rw [e, abs_neg, abs_div, div_lt_iff₀ (abs_pos.2 hne)] at h3
  exact h3

section

variable (h : Proper c)

include h

theorem has_ofEta {u eta t : ℝ} (he : 0 < eta) (ht : 0 < t) :
    pressure c (ofEta c u eta t) = c.p0 * eta ∧ Has c t (ofEta c u eta t) := by
  have hr := h.r
  have h0 := h.p0
  exact ⟨pressure_ofPressure h (by positivity) (by positivity), has_ofPressure h (by positivity) ht⟩

/-- **C112 (baroclinic wave in pressure coordinates, what is returned).**  If the reference state is given at all, it is
that of a pressure coordinate within 1e-13 of one at which the geopotential is that of the height up to 1e-13
times its slope, with the temperature there. -/
theorem C112_jet (q : Jet) (z lat : ℝ) (a : Air) (hs : q.reference c z lat = some a) :
    ∃ eta last, |last - eta| < 1e-13 ∧ a.u = q.wind eta lat ∧
      (0 < eta → 0 < last → 0 < q.temperature c last lat →
        pressure c a = c.p0 * eta ∧ Has c (q.temperature c last lat) a ∧
        |q.geopotential c last lat - c.g * z| < 1e-13 * (c.r * q.temperature c last lat / last)) := by
  have hr := h.r
  unfold Jet.reference at hs
  rw [Option.map_eq_some_iff] at hs
  obtain ⟨r, hn, rfl⟩ := hs
  obtain ⟨last, h1, h2, h3⟩ := newton_residual _ z _ _ r hn
  refine ⟨r.1, last, h1, rfl, fun he hl ht => ?_⟩
  have hp : 0 < c.r * q.temperature c last lat / last := by positivity
  have h2' : r.2 = q.temperature c last lat := h2
  obtain ⟨k1, k2⟩ := has_ofEta h (u := q.wind r.1 lat) he (show 0 < r.2 by rw [h2']; exact ht)
  refine ⟨k1, by rw [← h2']; exact k2, ?_⟩
  have k3 := h3 hp.ne'
  rw [abs_of_pos hp] at k3
  exact k3

/-- **C112 (baroclinic wave in pressure coordinates, balance).**  With the exact pressure coordinate of the heights the
state is balanced, below, above and at the tropopause. -/
theorem C112_jet_balance (q : Jet) (eta : ℝ → ℝ) (z lat : ℝ) (hg : c.g ≠ 0) (hl : q.lapse ≠ 0) (ht : 0 < q.tropopause)
    (he : 0 < eta z) (hcos : 0 < cos (q.aux (eta z))) (hT : 0 < q.temperature c (eta z) lat)
    (hc : ContinuousAt eta z) (hsol : ∀ᶠ x in nhds z, q.geopotential c (eta x) lat = c.g * x) :
    Hydrostatic c (fun z => ofEta c (q.wind (eta z) lat) (eta z) (q.temperature c (eta z) lat)) z :=
  hydrostatic_ofEta h (fun z => q.wind (eta z) lat) eta (fun e => q.geopotential c e lat) (fun e => q.temperature c e lat) z hg
    he hT hc (q.temperature_continuous c (eta z) lat he hcos)
    (q.geopotential_deriv c h.r hg hl ht (eta z) lat he hcos) hsol

/-- **C112 (baroclinic wave in pressure coordinates, existence).**  Such an exact pressure coordinate exists near every
point of positive temperature. -/
theorem C112_jet_exists (q : Jet) (e lat : ℝ) (hg : c.g ≠ 0) (hl : q.lapse ≠ 0) (ht : 0 < q.tropopause) (he : 0 < e)
    (hcos : 0 < cos (q.aux e)) (hT : 0 < q.temperature c e lat) :
    ∃ eta : ℝ → ℝ, eta (q.geopotential c e lat / c.g) = e ∧ ContinuousAt eta (q.geopotential c e lat / c.g) ∧
      ∀ᶠ x in nhds (q.geopotential c e lat / c.g), q.geopotential c (eta x) lat = c.g * x := by
  refine exists_eta (fun e => q.geopotential c e lat) (fun e => q.temperature c e lat) e hg h.r he hT
    (q.temperature_continuous c e lat he hcos) ?_
  have hca : ContinuousAt (fun x => cos (q.aux x)) e := ((q.aux_deriv e).cos).continuousAt
  filter_upwards [lt_mem_nhds he, hca.eventually (lt_mem_nhds hcos)] with x hx hy
  exact q.geopotential_deriv c h.r hg hl ht x lat hx hy

omit h in
/-- **C112 (baroclinic wave in pressure coordinates, ground).**  On the topography of the case the geopotential is that
of the reference pressure: the pressure at the ground is the reference pressure everywhere. -/
theorem C112_jet_ground (q : Jet) (lat : ℝ) (hg : c.g ≠ 0) (ht : q.tropopause ≤ 1) :
    q.geopotential c 1 lat = c.g * q.topography c lat := by
  unfold Jet.geopotential Jet.avgGeopotential Jet.topography Jet.profile1 Jet.aux
  rw [if_neg (not_lt.2 ht), one_rpow]
  simp only
  field_simp
  ring

omit h in
/-- **C113 (baroclinic wave in pressure coordinates, on surfaces of constant pressure).**  Centrifugal and Coriolis force
and the gradient of geopotential add up to zero. -/
theorem C113_jet_isobaric (q : Jet) (eta lat : ℝ) (hr : 0 < c.r) (hg : c.g ≠ 0) (hl : q.lapse ≠ 0) (ht : 0 < q.tropopause)
    (he : 0 < eta) (hcos : 0 < cos (q.aux eta)) (ha : 0 < c.earthRadius) (hlat : cos lat ≠ 0) :
    ∃ slope, HasDerivAt (fun lat => q.geopotential c eta lat) slope lat ∧
      q.wind eta lat ^ 2 * tan lat / c.earthRadius + 2 * c.omega * sin lat * q.wind eta lat + slope / c.earthRadius = 0 := by
  refine ⟨_, q.geopotential_total c hr hg hl ht (fun _ => eta) 0 lat he hcos (hasDerivAt_const lat eta), ?_⟩
  have ew : q.wind eta lat = q.u0 * cos (q.aux eta) ^ (1.5 : ℝ) * (4 * sin lat ^ 2 * cos lat ^ 2) := by
    unfold Jet.wind Jet.aux
    rw [sin_two_mul]
    ring
  rw [ew, tan_eq_sin_div_cos]
  generalize cos (q.aux eta) ^ (1.5 : ℝ) = K
  field_simp
  ring

/-- **C113 (baroclinic wave in pressure coordinates, at constant height).**  With the exact pressure coordinate of a height
the flow is in balance along the meridian. -/
theorem C113_jet (q : Jet) (eta : ℝ → ℝ) (z lat : ℝ) (hg : c.g ≠ 0) (hl : q.lapse ≠ 0) (ht : 0 < q.tropopause)
    (he : 0 < eta lat) (hcos : 0 < cos (q.aux (eta lat))) (hT : 0 < q.temperature c (eta lat) lat)
    (ha : 0 < c.earthRadius) (hlat : cos lat ≠ 0) (hd : DifferentiableAt ℝ eta lat)
    (hTc : ContinuousAt (fun x => q.temperature c (eta x) x) lat)
    (hsol : ∀ᶠ x in nhds lat, q.geopotential c (eta x) x = c.g * z) :
    Meridional c (fun lat => ofEta c (q.wind (eta lat) lat) (eta lat) (q.temperature c (eta lat) lat)) lat := by
  have hr := h.r
  have h0 := h.p0
  have hD := hd.hasDerivAt
  have ht' := q.geopotential_total c hr hg hl ht eta _ lat he hcos hD
  have hz := ht'.unique ((hasDerivAt_const lat (c.g * z)).congr_of_eventuallyEq hsol)
  have hslope := slope_eta he hT hr hz
  refine meridional_ofPressure h (fun lat => q.wind (eta lat) lat) (fun lat => c.p0 * eta lat)
    (fun lat => q.temperature c (eta lat) lat) lat _ (by positivity) hT hTc (hD.const_mul c.p0) ?_
  have ew : q.wind (eta lat) lat =
      q.u0 * cos (q.aux (eta lat)) ^ (1.5 : ℝ) * (4 * sin lat ^ 2 * cos lat ^ 2) := by
    unfold Jet.wind Jet.aux
    rw [sin_two_mul]
    ring
  rw [hslope, ew, tan_eq_sin_div_cos]
  generalize cos (q.aux (eta lat)) ^ (1.5 : ℝ) = K
  generalize q.temperature c (eta lat) lat = T at hT
  field_simp
  ring

/-- **C112 (baroclinic wave in a channel, what is returned).** -/
theorem C112_channel (q : Channel) (z y : ℝ) (a : Air) (hs : q.reference c z y = some a) :
    ∃ eta last, |last - eta| < 1e-13 ∧ a.u = q.wind eta y ∧
      (0 < eta → 0 < last → 0 < q.temperature c c.earthRadius last y →
        pressure c a = c.p0 * eta ∧ Has c (q.temperature c c.earthRadius last y) a ∧
        |q.geopotential c c.earthRadius last y - c.g * z| <
          1e-13 * (c.r * q.temperature c c.earthRadius last y / last)) := by
  have hr := h.r
  unfold Channel.reference at hs
  rw [Option.map_eq_some_iff] at hs
  obtain ⟨r, hn, rfl⟩ := hs
  obtain ⟨last, h1, h2, h3⟩ := newton_residual _ z _ _ r hn
  refine ⟨r.1, last, h1, rfl, fun he hl ht => ?_⟩
  have hp : 0 < c.r * q.temperature c c.earthRadius last y / last := by positivity
  have h2' : r.2 = q.temperature c c.earthRadius last y := h2
  obtain ⟨k1, k2⟩ := has_ofEta h (u := q.wind r.1 y) he (show 0 < r.2 by rw [h2']; exact ht)
  refine ⟨k1, by rw [← h2']; exact k2, ?_⟩
  have k3 := h3 hp.ne'
  rw [abs_of_pos hp] at k3
  exact k3

/-- **C112 (baroclinic wave in a channel, balance).** -/
theorem C112_channel_balance (q : Channel) (eta : ℝ → ℝ) (z y : ℝ) (hg : c.g ≠ 0) (hl : q.lapse ≠ 0) (hb : q.b ≠ 0)
    (he : 0 < eta z) (hT : 0 < q.temperature c c.earthRadius (eta z) y) (hc : ContinuousAt eta z)
    (hsol : ∀ᶠ x in nhds z, q.geopotential c c.earthRadius (eta x) y = c.g * x) :
    Hydrostatic c (fun z => ofEta c (q.wind (eta z) y) (eta z) (q.temperature c c.earthRadius (eta z) y)) z :=
  hydrostatic_ofEta h (fun z => q.wind (eta z) y) eta (fun e => q.geopotential c c.earthRadius e y)
    (fun e => q.temperature c c.earthRadius e y) z hg he hT hc (q.temperature_continuous c hb c.earthRadius (eta z) y he)
    (q.geopotential_deriv c h.r hg hl hb c.earthRadius (eta z) y he) hsol

/-- **C112 (baroclinic wave in a channel, existence).** -/
theorem C112_channel_exists (q : Channel) (e y : ℝ) (hg : c.g ≠ 0) (hl : q.lapse ≠ 0) (hb : q.b ≠ 0) (he : 0 < e)
    (hT : 0 < q.temperature c c.earthRadius e y) :
    ∃ eta : ℝ → ℝ, eta (q.geopotential c c.earthRadius e y / c.g) = e ∧
      ContinuousAt eta (q.geopotential c c.earthRadius e y / c.g) ∧
      ∀ᶠ x in nhds (q.geopotential c c.earthRadius e y / c.g), q.geopotential c c.earthRadius (eta x) y = c.g * x := by
  refine exists_eta (fun e => q.geopotential c c.earthRadius e y) (fun e => q.temperature c c.earthRadius e y) e hg h.r he
    hT (q.temperature_continuous c hb c.earthRadius e y he) ?_
  filter_upwards [lt_mem_nhds he] with x hx
  exact q.geopotential_deriv c h.r hg hl hb c.earthRadius x y hx

omit h in
/-- **C112 (baroclinic wave in a channel, ground).**  At the ground, of height zero, the pressure is the reference pressure
and there is no wind. -/
theorem C112_channel_ground (q : Channel) (y : ℝ) :
    q.geopotential c c.earthRadius 1 y = 0 ∧ q.wind 1 y = 0 := by
  unfold Channel.geopotential Channel.wind
  rw [log_one, one_rpow]
  constructor <;> ring

/-- **C112 (channel with a ridge, false).**  The variant with a ridge lets the gradient of the Coriolis parameter depend on
the height, so that even with the exact pressure coordinate the state is not balanced: in the middle of the channel it
is not at any height where the pressure is not the reference pressure. -/
theorem C112_ridge_false (q : Channel) (eta : ℝ → ℝ) (z : ℝ) (hg : c.g ≠ 0) (hl : q.lapse ≠ 0) (hb : q.b ≠ 0)
    (hy : q.ymax - q.ymin ≠ 0) (hu : q.u0 ≠ 0) (ho : c.omega ≠ 0) (hf : cos q.refLat ≠ 0)
    (hR : c.earthRadius + z ≠ 0) (he : 0 < eta z) (h1 : eta z ≠ 1)
    (hT : ∀ᶠ x in nhds z, 0 < q.temperature c (c.earthRadius + x) (eta x) (q.ly / 2)) (hd : DifferentiableAt ℝ eta z)
    (hsol : ∀ᶠ x in nhds z, q.geopotential c (c.earthRadius + x) (eta x) (q.ly / 2) = c.g * x) :
    ¬ Hydrostatic c (fun z => ofEta c (q.wind (eta z) (q.ly / 2)) (eta z)
      (q.temperature c (c.earthRadius + z) (eta z) (q.ly / 2))) z := by
  intro hh
  have hr := h.r
  have h0 := h.p0
  have hTz := hT.self_of_nhds
  have hD := hd.hasDerivAt
  have hp : HasDerivAt (fun x => c.p0 * eta x) (-(c.p0 * eta z /
      (c.r * q.temperature c (c.earthRadius + z) (eta z) (q.ly / 2)) * c.g)) z := by
    refine HasDerivAt.congr_of_eventuallyEq hh ?_
    filter_upwards [hT, hd.continuousAt.eventually (lt_mem_nhds he)] with x hx hy'
    exact (has_ofEta h hy' hx).1.symm
  have e1 := hp.unique (hD.const_mul c.p0)
  have e2 := (q.ridge_total c hr hg hl hb hy eta _ z hR he hD).unique
    (((hasDerivAt_id z).const_mul c.g).congr_of_eventuallyEq hsol)
  have hlog : log (eta z) ≠ 0 := log_ne_zero_of_pos_of_ne_one he h1
  have hdec : q.decay (eta z) ≠ 0 := (exp_pos _).ne'
  have hL : q.ly ≠ 0 := hy
  have e3 : deriv eta z = -(eta z * c.g / (c.r * q.temperature c (c.earthRadius + z) (eta z) (q.ly / 2))) := by
    have : c.p0 * deriv eta z = c.p0 *
        -(eta z * c.g / (c.r * q.temperature c (c.earthRadius + z) (eta z) (q.ly / 2))) := by
      rw [← e1]
      ring
    exact mul_left_cancel₀ h0.ne' this
  rw [e3] at e2
  generalize q.temperature c (c.earthRadius + z) (eta z) (q.ly / 2) = T at hTz e2
  have e4 : -(c.r * T / eta z) * -(eta z * c.g / (c.r * T)) = c.g := by field_simp
  rw [e4, mul_one] at e2
  have e5 : c.omega * cos q.refLat * q.u0 * q.ly ^ 2 / (24 * (c.earthRadius + z) ^ 2) * log (eta z) *
      q.decay (eta z) = 0 := by linarith
  exact mul_ne_zero (mul_ne_zero (div_ne_zero (mul_ne_zero (mul_ne_zero (mul_ne_zero ho hf) hu) (pow_ne_zero 2 hL))
    (mul_ne_zero (by norm_num) (pow_ne_zero 2 hR))) hlog) hdec e5

omit h in
/-- **C113 (baroclinic wave in a channel, on surfaces of constant pressure).**  With the Coriolis parameter of the Cartesian
grid (`Metric.planeCoriolis`) for a channel that begins at zero, Coriolis force and the gradient of geopotential add up
to zero. -/
theorem C113_channel_isobaric (q : Channel) (eta y : ℝ) (hr : 0 < c.r) (hg : c.g ≠ 0) (hl : q.lapse ≠ 0) (hb : q.b ≠ 0)
    (he : 0 < eta) (hy : 0 < q.ymax - q.ymin) :
    ∃ slope, HasDerivAt (fun y => q.geopotential c c.earthRadius eta y) slope y ∧
      (2 * c.omega * sin q.refLat + 2 * c.omega * cos q.refLat / c.earthRadius * (y - 0.5 * |q.ymax - q.ymin|)) *
        q.wind eta y + slope = 0 := by
  refine ⟨_, q.geopotential_total c hr hg hl hb hy.ne' c.earthRadius (fun _ => eta) 0 y he (hasDerivAt_const y eta), ?_⟩
  rw [abs_of_pos hy]
  unfold Channel.wind
  rw [show (0.5 : ℝ) = 1 / 2 by norm_num]
  ring

/-- **C113 (baroclinic wave in a channel, at constant height).** -/
theorem C113_channel (q : Channel) (eta : ℝ → ℝ) (z y : ℝ) (hg : c.g ≠ 0) (hl : q.lapse ≠ 0) (hb : q.b ≠ 0)
    (hy : 0 < q.ymax - q.ymin) (he : 0 < eta y) (hT : 0 < q.temperature c c.earthRadius (eta y) y)
    (hd : DifferentiableAt ℝ eta y) (hTc : ContinuousAt (fun x => q.temperature c c.earthRadius (eta x) x) y)
    (hsol : ∀ᶠ x in nhds y, q.geopotential c c.earthRadius (eta x) x = c.g * z) :
    Crosswise c (2 * c.omega * sin q.refLat + 2 * c.omega * cos q.refLat / c.earthRadius *
      (y - 0.5 * |q.ymax - q.ymin|))
      (fun y => ofEta c (q.wind (eta y) y) (eta y) (q.temperature c c.earthRadius (eta y) y)) y := by
  have hr := h.r
  have h0 := h.p0
  have hD := hd.hasDerivAt
  have ht' := q.geopotential_total c hr hg hl hb hy.ne' c.earthRadius eta _ y he hD
  have hz := ht'.unique ((hasDerivAt_const y (c.g * z)).congr_of_eventuallyEq hsol)
  have hslope := slope_eta he hT hr hz
  refine ⟨c.p0 * deriv eta y, ?_, ?_⟩
  · refine (hD.const_mul c.p0).congr_of_eventuallyEq ?_
    filter_upwards [hTc.eventually (lt_mem_nhds hT), hd.continuousAt.eventually (lt_mem_nhds he)] with x hx hy'
    exact (has_ofEta h hy' hx).1
  · show _ * q.wind (eta y) y + c.p0 * deriv eta y / (c.p0 * eta y /
      (c.r * q.temperature c c.earthRadius (eta y) y)) = 0
    rw [hslope, abs_of_pos hy]
    unfold Channel.wind
    rw [show (0.5 : ℝ) = 1 / 2 by norm_num]
    generalize q.temperature c c.earthRadius (eta y) y = T at hT
    generalize (2 * c.omega * cos q.refLat / c.earthRadius) = B
    field_simp
    ring

end

/-! ### The hypotheses can be met -/

/-- At the ground of the standard case the temperature at the pole of a planet without rotation is positive. -/
example : 0 < cos (Jet.standard.aux 0.252) ∧ 0 < Jet.standard.temperature (after []) 0.252 0 := by
  have e : Jet.standard.aux 0.252 = 0 := by
    unfold Jet.aux Jet.standard
    norm_num
  constructor
  · rw [e, cos_zero]
    norm_num
  · unfold Jet.temperature Jet.avgTemperature
    rw [e, sin_zero, if_neg (by unfold Jet.standard; norm_num)]
    have : (0 : ℝ) < 0.252 ^ ((after []).r * Jet.standard.lapse / (after []).g) := rpow_pos_of_pos (by norm_num) _
    have ht : (0 : ℝ) < Jet.standard.t0 := by unfold Jet.standard; norm_num
    rw [mul_zero, zero_mul, zero_mul, add_zero, add_zero]
    exact mul_pos ht this

/-- A channel without wind at the ground: the temperature is positive in the middle. -/
example : 0 < ({ Channel.standard with u0 := 0 } : Channel).temperature (after []) (after []).earthRadius 1 3000000 := by
  unfold Channel.temperature Channel.across Channel.standard
  simp

end Verif.Cases
