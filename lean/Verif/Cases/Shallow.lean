import Mathlib.Analysis.SpecialFunctions.Pow.Deriv
import Mathlib.Analysis.SpecialFunctions.Trigonometric.Basic
import Verif.Thermo.Constants

/-!
# The states of the shallow water test cases on the sphere

Models `EvaluatePointwiseState` of classes in test/shallowwater_sphere.  Simplifications: `double` is the real numbers,
and tracers (off in the constructors) are left out.
-/

namespace Verif.Cases

open Verif.Thermo Real

/-- The three entries of `dState` of the shallow water equations: velocities and height of the surface. -/
structure Water where
  u : ℝ
  v : ℝ
  height : ℝ

open Classical in
/-- Latitudes within 1e-12 of a pole are moved, test/shallowwater_sphere/SWTest2.cpp:104-109 and the same lines of the
other tests. -/
noncomputable def offPole (lat : ℝ) : ℝ :=
  let lat := if |lat - 0.5 * π| < 1e-12 then lat - 1e-12 else lat
  if |lat + 0.5 * π| < 1e-12 then lat + 1e-12 else lat

/-- `dHTrig`, test/shallowwater_sphere/SWTest2.cpp:123-125. -/
noncomputable def heightTrig (alpha lon lat : ℝ) : ℝ := -cos lon * cos lat * sin alpha + sin lat * cos alpha

/-- `EvaluatePointwiseState`, test/shallowwater_sphere/SWTest2.cpp:95-129; the same text in
MountainRossbyTest.cpp:135-173. -/
noncomputable def zonal (c : Constants) (h0 u0 alpha lon lat : ℝ) : Water :=
  let lat := offPole lat
  { u := u0 * cos lat * (cos alpha + cos lon * tan lat * sin alpha)
    v := -u0 * sin lon * sin alpha
    height := h0 - (c.earthRadius * c.omega + 0.5 * u0) * u0 * heightTrig alpha lon lat * heightTrig alpha lon lat / c.g }

/-- `EvaluatePointwiseState`, test/shallowwater_sphere/RossbyHaurwitzWaveTest.cpp:95-165. -/
noncomputable def haurwitz (c : Constants) (h0 r w k lon lat : ℝ) : Water :=
  let lat := offPole lat
  let coeffA := 0.5 * w * (2 * c.omega + w) * cos lat * cos lat + 0.25 * k * k * cos lat ^ (2 * r) *
    ((r + 1) * cos lat * cos lat + (2 * r * r - r - 2) - 2 * r * r / (cos lat * cos lat))
  let coeffB := 2 * (c.omega + w) * k / ((r + 1) * (r + 2)) * cos lat ^ r *
    ((r * r + 2 * r + 2) - (r + 1) * (r + 1) * cos lat * cos lat)
  let coeffC := 0.25 * k * k * cos lat ^ (2 * r) * ((r + 1) * cos lat * cos lat - (r + 2))
  let gh := c.g * h0 + c.earthRadius * c.earthRadius * coeffA + c.earthRadius * c.earthRadius * coeffB * cos (r * lon) +
    c.earthRadius * c.earthRadius * coeffC * cos (2 * r * lon)
  { u := (w * cos lat + k * cos lat ^ (r - 1) * cos (r * lon) * (r * sin lat * sin lat - cos lat * cos lat)) * c.earthRadius
    v := (-k * r * cos lat ^ (r - 1) * sin lat * sin (r * lon)) * c.earthRadius
    height := gh / c.g }

/-! ### Vocabulary -/

/-- A flow of water of the given depth over a sphere that does not change in time at the point (`lon`, `lat`): the
momentum equations in longitude and latitude with the Coriolis parameter `f`, and conservation of mass. -/
def Steady (c : Constants) (f : ℝ) (flow : ℝ → ℝ → Water) (depth : ℝ → ℝ → ℝ) (lon lat : ℝ) : Prop :=
  ∃ ul up vl vp hl hp ml mp,
    HasDerivAt (fun lon => (flow lon lat).u) ul lon ∧ HasDerivAt (fun lat => (flow lon lat).u) up lat ∧
    HasDerivAt (fun lon => (flow lon lat).v) vl lon ∧ HasDerivAt (fun lat => (flow lon lat).v) vp lat ∧
    HasDerivAt (fun lon => (flow lon lat).height) hl lon ∧ HasDerivAt (fun lat => (flow lon lat).height) hp lat ∧
    HasDerivAt (fun lon => depth lon lat * (flow lon lat).u) ml lon ∧
    HasDerivAt (fun lat => depth lon lat * (flow lon lat).v * cos lat) mp lat ∧
    (flow lon lat).u / (c.earthRadius * cos lat) * ul + (flow lon lat).v / c.earthRadius * up -
      (flow lon lat).u * (flow lon lat).v * tan lat / c.earthRadius - f * (flow lon lat).v +
        c.g / (c.earthRadius * cos lat) * hl = 0 ∧
    (flow lon lat).u / (c.earthRadius * cos lat) * vl + (flow lon lat).v / c.earthRadius * vp +
      (flow lon lat).u ^ 2 * tan lat / c.earthRadius + f * (flow lon lat).u + c.g / c.earthRadius * hp = 0 ∧
    ml + mp = 0

/-- A wind on the sphere without divergence at a point. -/
def Solenoidal (flow : ℝ → ℝ → Water) (lon lat : ℝ) : Prop :=
  ∃ ul vp, HasDerivAt (fun lon => (flow lon lat).u) ul lon ∧
    HasDerivAt (fun lat => (flow lon lat).v * cos lat) vp lat ∧ ul + vp = 0

/-- The point is farther from both poles than the distance by which the test cases move latitudes. -/
structure AwayFromPoles (lat : ℝ) : Prop where
  north : 1e-12 < |lat - π / 2|
  south : 1e-12 < |lat + π / 2|

theorem offPole_eq {lat : ℝ} (h : AwayFromPoles lat) : offPole lat = lat := by
  have h1 := h.north
  have h2 := h.south
  have e : (0.5 : ℝ) * π = π / 2 := by ring
  unfold offPole
  simp only [e]
  rw [if_neg (not_lt.2 h1.le), if_neg (not_lt.2 h2.le)]

theorem offPole_near {lat : ℝ} (h : AwayFromPoles lat) : ∀ᶠ x in nhds lat, offPole x = x := by
  have c1 : ContinuousAt (fun x : ℝ => |x - π / 2|) lat := by fun_prop
  have c2 : ContinuousAt (fun x : ℝ => |x + π / 2|) lat := by fun_prop
  filter_upwards [c1.eventually (lt_mem_nhds h.north), c2.eventually (lt_mem_nhds h.south)] with x hx hy
  exact offPole_eq ⟨hx, hy⟩

/-- The flow away from the poles. -/
noncomputable def zonal' (c : Constants) (h0 u0 alpha lon lat : ℝ) : Water :=
  { u := u0 * cos lat * (cos alpha + cos lon * tan lat * sin alpha)
    v := -u0 * sin lon * sin alpha
    height := h0 - (c.earthRadius * c.omega + 0.5 * u0) * u0 * heightTrig alpha lon lat * heightTrig alpha lon lat / c.g }

theorem zonal_near (c : Constants) (h0 u0 alpha : ℝ) {lat : ℝ} (h : AwayFromPoles lat) :
    ∀ᶠ x in nhds lat, ∀ lon, zonal c h0 u0 alpha lon x = zonal' c h0 u0 alpha lon x := by
  filter_upwards [offPole_near h] with x hx
  intro lon
  unfold zonal zonal'
  rw [hx]

/-- Steadiness depends on the flow near the point only. -/
theorem Steady.congr {c : Constants} {f lon lat : ℝ} {flow flow' depth depth' : _}
    (h : ∀ᶠ x in nhds lat, ∀ lon, flow lon x = flow' lon x) (hd : ∀ᶠ x in nhds lat, ∀ lon, depth lon x = depth' lon x)
    (hs : Steady c f flow' depth' lon lat) : Steady c f flow depth lon lat := by
  obtain ⟨ul, up, vl, vp, hl, hp, ml, mp, k1, k2, k3, k4, k5, k6, k7, k8, e1, e2, e3⟩ := hs
  have hh := h.self_of_nhds
  have hdd := hd.self_of_nhds
  refine ⟨ul, up, vl, vp, hl, hp, ml, mp, ?_, ?_, ?_, ?_, ?_, ?_, ?_, ?_, ?_, ?_, e3⟩
  · simpa only [hh] using k1
  · refine k2.congr_of_eventuallyEq ?_
    filter_upwards [h] with x hx
    rw [hx]
  · simpa only [hh] using k3
  · refine k4.congr_of_eventuallyEq ?_
    filter_upwards [h] with x hx
    rw [hx]
  · simpa only [hh] using k5
  · refine k6.congr_of_eventuallyEq ?_
    filter_upwards [h] with x hx
    rw [hx]
  · simpa only [hh, hdd] using k7
  · refine k8.congr_of_eventuallyEq ?_
    filter_upwards [h, hd] with x hx hy
    rw [hx, hy]
  · rw [hh]
    exact e1
  · rw [hh]
    exact e2

theorem AwayFromPoles.cos_ne {lat : ℝ} (_h : AwayFromPoles lat) (h1 : -(π / 2) < lat) (h2 : lat < π / 2) : 0 < cos lat :=
  cos_pos_of_mem_Ioo ⟨h1, h2⟩

section

variable (c : Constants) (h0 u0 alpha lon lat : ℝ)

/-- The zonal wind without the tangent. -/
theorem zonal'_u (hl : cos lat ≠ 0) :
    (zonal' c h0 u0 alpha lon lat).u = u0 * (cos lat * cos alpha + cos lon * sin lat * sin alpha) := by
  show u0 * cos lat * (cos alpha + cos lon * tan lat * sin alpha) = _
  rw [tan_eq_sin_div_cos]
  field_simp

/-- The derivatives of the flow: for any Coriolis parameter, what is left over in the momentum equations is the
difference of that parameter from the rotated one, times the wind; mass is conserved. -/
theorem zonal'_steady (f : ℝ) (hl : 0 < cos lat) (ha : 0 < c.earthRadius) (hg : c.g ≠ 0) :
    ∃ ul up vl vp hl hp ml mp,
      HasDerivAt (fun lon => (zonal' c h0 u0 alpha lon lat).u) ul lon ∧
      HasDerivAt (fun lat => (zonal' c h0 u0 alpha lon lat).u) up lat ∧
      HasDerivAt (fun lon => (zonal' c h0 u0 alpha lon lat).v) vl lon ∧
      HasDerivAt (fun lat => (zonal' c h0 u0 alpha lon lat).v) vp lat ∧
      HasDerivAt (fun lon => (zonal' c h0 u0 alpha lon lat).height) hl lon ∧
      HasDerivAt (fun lat => (zonal' c h0 u0 alpha lon lat).height) hp lat ∧
      HasDerivAt (fun lon => (zonal' c h0 u0 alpha lon lat).height * (zonal' c h0 u0 alpha lon lat).u) ml lon ∧
      HasDerivAt (fun lat => (zonal' c h0 u0 alpha lon lat).height * (zonal' c h0 u0 alpha lon lat).v * cos lat) mp lat ∧
      (zonal' c h0 u0 alpha lon lat).u / (c.earthRadius * cos lat) * ul +
        (zonal' c h0 u0 alpha lon lat).v / c.earthRadius * up -
        (zonal' c h0 u0 alpha lon lat).u * (zonal' c h0 u0 alpha lon lat).v * tan lat / c.earthRadius -
        f * (zonal' c h0 u0 alpha lon lat).v + c.g / (c.earthRadius * cos lat) * hl =
          (2 * c.omega * heightTrig alpha lon lat - f) * (zonal' c h0 u0 alpha lon lat).v ∧
      (zonal' c h0 u0 alpha lon lat).u / (c.earthRadius * cos lat) * vl +
        (zonal' c h0 u0 alpha lon lat).v / c.earthRadius * vp +
        (zonal' c h0 u0 alpha lon lat).u ^ 2 * tan lat / c.earthRadius + f * (zonal' c h0 u0 alpha lon lat).u +
        c.g / c.earthRadius * hp =
          (f - 2 * c.omega * heightTrig alpha lon lat) * (zonal' c h0 u0 alpha lon lat).u ∧
      ml + mp = 0 := by
  have hul : HasDerivAt (fun lon => (zonal' c h0 u0 alpha lon lat).u) (-(u0 * sin lon * sin lat * sin alpha)) lon := by
    have e : (fun lon => (zonal' c h0 u0 alpha lon lat).u) =
        fun lon => u0 * (cos lat * cos alpha + cos lon * sin lat * sin alpha) :=
      funext fun x => zonal'_u c h0 u0 alpha x lat hl.ne'
    rw [e]
    refine (((((hasDerivAt_cos lon).mul_const (sin lat)).mul_const (sin alpha)).const_add
      (cos lat * cos alpha)).const_mul u0).congr_deriv ?_
    ring
  have hcos : ∀ᶠ x in nhds lat, 0 < cos x := (continuous_cos.continuousAt).eventually (lt_mem_nhds hl)
  have hup : HasDerivAt (fun lat => (zonal' c h0 u0 alpha lon lat).u)
      (u0 * (-sin lat * cos alpha + cos lon * cos lat * sin alpha)) lat := by
    have k := ((((hasDerivAt_cos lat).mul_const (cos alpha)).add
      (((hasDerivAt_sin lat).const_mul (cos lon)).mul_const (sin alpha))).const_mul u0)
    refine k.congr_of_eventuallyEq ?_
    filter_upwards [hcos] with x hx
    exact zonal'_u c h0 u0 alpha lon x hx.ne'
  have hvl : HasDerivAt (fun lon => (zonal' c h0 u0 alpha lon lat).v) (-u0 * cos lon * sin alpha) lon :=
    ((hasDerivAt_sin lon).const_mul (-u0)).mul_const (sin alpha)
  have hvp : HasDerivAt (fun lat => (zonal' c h0 u0 alpha lon lat).v) 0 lat := hasDerivAt_const lat _
  have htl : HasDerivAt (fun lon => heightTrig alpha lon lat) (sin lon * cos lat * sin alpha) lon := by
    refine ((((hasDerivAt_cos lon).neg.mul_const (cos lat)).mul_const (sin alpha)).add_const
      (sin lat * cos alpha)).congr_deriv ?_
    ring
  have htp : HasDerivAt (fun lat => heightTrig alpha lon lat)
      (cos lon * sin lat * sin alpha + cos lat * cos alpha) lat := by
    refine ((((hasDerivAt_cos lat).const_mul (-cos lon)).mul_const (sin alpha)).add
      ((hasDerivAt_sin lat).mul_const (cos alpha))).congr_deriv ?_
    ring
  have hhl := ((((htl.const_mul ((c.earthRadius * c.omega + 0.5 * u0) * u0)).mul htl).div_const c.g).const_sub h0)
  have hhp := ((((htp.const_mul ((c.earthRadius * c.omega + 0.5 * u0) * u0)).mul htp).div_const c.g).const_sub h0)
  refine ⟨_, _, _, _, _, _, _, _, hul, hup, hvl, hvp, hhl, hhp, HasDerivAt.mul hhl hul,
    (HasDerivAt.mul hhp hvp).mul (hasDerivAt_cos lat), ?_, ?_, ?_⟩
  · rw [zonal'_u c h0 u0 alpha lon lat hl.ne', tan_eq_sin_div_cos]
    simp only [zonal', heightTrig]
    rw [show (0.5 : ℝ) = 1 / 2 by norm_num]
    field_simp
    ring
  · rw [zonal'_u c h0 u0 alpha lon lat hl.ne', tan_eq_sin_div_cos]
    simp only [zonal', heightTrig]
    rw [show (0.5 : ℝ) = 1 / 2 by norm_num]
    have s1 := sin_sq_add_cos_sq lat
    have key : -u0 * cos lon * sin alpha + u0 * (cos lat * cos alpha + cos lon * sin lat * sin alpha) * sin lat =
        u0 * cos lat * (-cos lon * cos lat * sin alpha + sin lat * cos alpha) := by
      linear_combination (u0 * cos lon * sin alpha) * s1
    have e : u0 * (cos lat * cos alpha + cos lon * sin lat * sin alpha) / (c.earthRadius * cos lat) *
        (-u0 * cos lon * sin alpha) + -u0 * sin lon * sin alpha / c.earthRadius * 0 +
        (u0 * (cos lat * cos alpha + cos lon * sin lat * sin alpha)) ^ 2 * (sin lat / cos lat) / c.earthRadius =
        u0 * (cos lat * cos alpha + cos lon * sin lat * sin alpha) / (c.earthRadius * cos lat) *
          (-u0 * cos lon * sin alpha + u0 * (cos lat * cos alpha + cos lon * sin lat * sin alpha) * sin lat) := by
      field_simp
      ring
    rw [e, key]
    field_simp
    ring
  · simp only [zonal'_u c h0 u0 alpha lon lat hl.ne', Pi.mul_apply]
    simp only [zonal', heightTrig]
    rw [show (0.5 : ℝ) = 1 / 2 by norm_num]
    field_simp
    ring

end

/-- The Rossby-Haurwitz wave away from the poles has no divergence. -/
theorem haurwitz_solenoidal (c : Constants) (h0 r w k lon lat : ℝ) (hp : AwayFromPoles lat) (hl : 0 < cos lat) :
    Solenoidal (haurwitz c h0 r w k) lon lat := by
  have hu : HasDerivAt (fun lon => (haurwitz c h0 r w k lon lat).u)
      (-(k * cos lat ^ (r - 1) * r * sin (r * lon) * (r * sin lat ^ 2 - cos lat ^ 2) * c.earthRadius)) lon := by
    unfold haurwitz
    rw [offPole_eq hp]
    refine (((((((hasDerivAt_id lon).const_mul r).cos).const_mul (k * cos lat ^ (r - 1))).mul_const
      (r * sin lat * sin lat - cos lat * cos lat)).const_add (w * cos lat)).mul_const c.earthRadius).congr_deriv ?_
    simp only [id]
    ring
  have hv : HasDerivAt (fun lat => (haurwitz c h0 r w k lon lat).v * cos lat)
      (-k * r * sin (r * lon) * c.earthRadius * (cos lat ^ (r - 1) * (cos lat ^ 2 - r * sin lat ^ 2))) lat := by
    have k1 := ((((hasDerivAt_cos lat).rpow_const (p := r) (Or.inl hl.ne')).mul (hasDerivAt_sin lat)).const_mul
      (-k * r * sin (r * lon) * c.earthRadius))
    have k2 := k1.congr_of_eventuallyEq (f₁ := fun lat => (haurwitz c h0 r w k lon lat).v * cos lat) (by
      filter_upwards [offPole_near hp, continuous_cos.continuousAt.eventually (lt_mem_nhds hl)] with x hx hc
      unfold haurwitz
      rw [hx]
      simp only [Pi.mul_apply]
      have e : cos x ^ r = cos x ^ (r - 1) * cos x := by
        rw [rpow_sub_one (ne_of_gt hc)]
        have : cos x ≠ 0 := ne_of_gt hc
        field_simp
      rw [e]
      ring)
    refine k2.congr_deriv ?_
    have e : cos lat ^ r = cos lat ^ (r - 1) * cos lat := by
      rw [rpow_sub_one hl.ne']
      field_simp
    rw [e]
    ring
  exact ⟨_, _, hu, hv, by ring⟩

end Verif.Cases
