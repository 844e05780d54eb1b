import Verif.Cases.SpongeProps
import Verif.Cases.Model

/-!
# Mountains and perturbations of the test cases (C119)
-/

namespace Verif.Cases

open Real

/-! ### Vocabulary -/

/-- A mountain on a line: never below the ground, nowhere higher than the given height, which it has at its centre, and
the same on both sides. -/
structure Mountain (h : ℝ → ℝ) (height centre : ℝ) : Prop where
  nonneg : ∀ x, 0 ≤ h x
  le : ∀ x, h x ≤ height
  peak : h centre = height
  even : ∀ d, h (centre + d) = h (centre - d)

/-- It falls with the distance from its centre. -/
def Falls (h : ℝ → ℝ) (centre : ℝ) : Prop := ∀ x y, |x - centre| ≤ |y - centre| → h y ≤ h x

/-- The point of the unit sphere with the given longitude and latitude. -/
noncomputable def onSphere (lon lat : ℝ) : ℝ × ℝ × ℝ := (cos lat * cos lon, cos lat * sin lon, sin lat)

/-- The scalar product. -/
def dot3 (p q : ℝ × ℝ × ℝ) : ℝ := p.1 * q.1 + p.2.1 * q.2.1 + p.2.2 * q.2.2

/-- A mountain on the sphere: never below the ground, nowhere higher than the given height, which it has at its centre,
and the same at points as far from the centre (those whose unit vectors have the same product with that of the centre). -/
structure SphereMountain (h : ℝ → ℝ → ℝ) (height lonC latC : ℝ) : Prop where
  nonneg : ∀ lon lat, 0 ≤ h lon lat
  le : ∀ lon lat, h lon lat ≤ height
  peak : h lonC latC = height
  round : ∀ lon lat lon' lat', dot3 (onSphere lon lat) (onSphere lonC latC) =
    dot3 (onSphere lon' lat') (onSphere lonC latC) → h lon lat = h lon' lat'

/-! ### The distance -/

theorem dot_onSphere (lonC latC lon lat : ℝ) : dot3 (onSphere lon lat) (onSphere lonC latC) =
    sin latC * sin lat + cos latC * cos lat * cos (lon - lonC) := by
  unfold dot3 onSphere
  rw [cos_sub]
  ring

theorem dot_bound (lonC latC lon lat : ℝ) : |sin latC * sin lat + cos latC * cos lat * cos (lon - lonC)| ≤ 1 := by
  have h1 := sin_sq_add_cos_sq latC
  have h2 := sin_sq_add_cos_sq lat
  have h3 := cos_sq_le_one (lon - lonC)
  rw [abs_le]
  constructor <;> nlinarith [sq_nonneg (sin latC - sin lat), sq_nonneg (sin latC + sin lat),
    sq_nonneg (cos latC - cos lat * cos (lon - lonC)), sq_nonneg (cos latC + cos lat * cos (lon - lonC)),
    mul_nonneg (sq_nonneg (cos lat)) (sub_nonneg.2 h3)]

/-- C119: the distance of two points of the sphere, as the tests compute it, is the angle between their unit vectors: the
argument of `acos` is always in its domain, the distance is between zero and π, and its cosine is the product of the unit
vectors; it is the same in both directions and zero only between points with the same unit vector. -/
theorem C119_distance (latC lonC lon lat : ℝ) :
    |sin latC * sin lat + cos latC * cos lat * cos (lon - lonC)| ≤ 1 ∧
    0 ≤ greatCircle latC lonC lon lat ∧ greatCircle latC lonC lon lat ≤ π ∧
    cos (greatCircle latC lonC lon lat) = dot3 (onSphere lon lat) (onSphere lonC latC) ∧
    greatCircle latC lonC lon lat = greatCircle lat lon lonC latC ∧
    (greatCircle latC lonC lon lat = 0 ↔ onSphere lon lat = onSphere lonC latC) := by
  have hb := dot_bound lonC latC lon lat
  have hc : cos (greatCircle latC lonC lon lat) = dot3 (onSphere lon lat) (onSphere lonC latC) := by
    rw [dot_onSphere]
    exact cos_arccos (abs_le.1 hb).1 (abs_le.1 hb).2
  refine ⟨hb, arccos_nonneg _, arccos_le_pi _, hc, ?_, ?_, ?_⟩
  · unfold greatCircle
    rw [← cos_neg (lon - lonC), neg_sub]
    congr 1
    ring
  · intro h
    rw [h, cos_zero] at hc
    have n1 : dot3 (onSphere lon lat) (onSphere lon lat) = 1 := by
      rw [dot_onSphere, sub_self, cos_zero]
      linarith [sin_sq_add_cos_sq lat]
    have n2 : dot3 (onSphere lonC latC) (onSphere lonC latC) = 1 := by
      rw [dot_onSphere, sub_self, cos_zero]
      linarith [sin_sq_add_cos_sq latC]
    generalize onSphere lon lat = p at *
    generalize onSphere lonC latC = q at *
    obtain ⟨p1, p2, p3⟩ := p
    obtain ⟨q1, q2, q3⟩ := q
    simp only [dot3] at hc n1 n2
    have k1 : p1 = q1 := by nlinarith [sq_nonneg (p1 - q1), sq_nonneg (p2 - q2), sq_nonneg (p3 - q3)]
    have k2 : p2 = q2 := by nlinarith [sq_nonneg (p1 - q1), sq_nonneg (p2 - q2), sq_nonneg (p3 - q3)]
    have k3 : p3 = q3 := by nlinarith [sq_nonneg (p1 - q1), sq_nonneg (p2 - q2), sq_nonneg (p3 - q3)]
    rw [k1, k2, k3]
  · intro h
    have : dot3 (onSphere lon lat) (onSphere lonC latC) = 1 := by
      rw [h, dot_onSphere, sub_self, cos_zero]
      linarith [sin_sq_add_cos_sq latC]
    rw [dot_onSphere] at this
    unfold greatCircle
    rw [this, arccos_one]

theorem greatCircle_self (latC lonC : ℝ) : greatCircle latC lonC lonC latC = 0 :=
  (C119_distance latC lonC lonC latC).2.2.2.2.2.2 rfl

theorem greatCircle_congr {latC lonC lon lat lon' lat' : ℝ} (h : dot3 (onSphere lon lat) (onSphere lonC latC) =
    dot3 (onSphere lon' lat') (onSphere lonC latC)) : greatCircle latC lonC lon lat = greatCircle latC lonC lon' lat' := by
  rw [dot_onSphere, dot_onSphere] at h
  unfold greatCircle
  rw [h]

/-! ### Mountains on a line -/

theorem sq_le_of_abs {x y c a : ℝ} (h : |x - c| ≤ |y - c|) : (x - c) / a * ((x - c) / a) ≤ (y - c) / a * ((y - c) / a) := by
  have h1 := sq_le_sq.2 h
  have e : ∀ x, (x - c) / a * ((x - c) / a) = (x - c) ^ 2 * (1 / a) ^ 2 := fun x => by ring
  rw [e, e]
  exact mul_le_mul_of_nonneg_right h1 (sq_nonneg _)

/-- C119: the mountains of the hydrostatic and of the nonhydrostatic mountain wave, for any height that is not negative
and any width. -/
theorem C119_agnesi (h0 a xC : ℝ) (hh : 0 ≤ h0) :
    (Mountain (agnesi h0 a xC) h0 xC ∧ Falls (agnesi h0 a xC) xC) ∧
      Mountain (broadAgnesi h0 a xC) h0 xC ∧ Falls (broadAgnesi h0 a xC) xC := by
  have p : ∀ x, 0 ≤ (x - xC) / a * ((x - xC) / a) := fun x => mul_self_nonneg _
  have p4 : ∀ x, (x - xC) / a * ((x - xC) / a) * ((x - xC) / a) * ((x - xC) / a) =
      ((x - xC) / a * ((x - xC) / a)) ^ 2 := fun x => by ring
  refine ⟨⟨⟨fun x => ?_, fun x => ?_, ?_, fun d => ?_⟩, fun x y h => ?_⟩,
    ⟨fun x => ?_, fun x => ?_, ?_, fun d => ?_⟩, fun x y h => ?_⟩
  · unfold agnesi
    have := p x
    positivity
  · unfold agnesi
    exact div_le_self hh (by linarith [p x])
  · unfold agnesi
    simp
  · unfold agnesi
    congr 1
    ring
  · unfold agnesi
    have := sq_le_of_abs (a := a) h
    have := p x
    gcongr h0 / (1 + ?_)
  · unfold broadAgnesi
    rw [p4]
    positivity
  · unfold broadAgnesi
    rw [p4]
    exact div_le_self hh (by nlinarith [sq_nonneg ((x - xC) / a * ((x - xC) / a))])
  · unfold broadAgnesi
    simp
  · unfold broadAgnesi
    congr 1
    ring
  · unfold broadAgnesi
    rw [p4, p4]
    have h1 := sq_le_of_abs (a := a) h
    have h2 := p x
    gcongr h0 / (1 + ?_ ^ 2)

/-- C119: the range of the Schär mountain and of the jet, below the bell around its highest mountain. -/
theorem C119_schar (h0 a l : ℝ) (hh : 0 ≤ h0) : Mountain (scharRange h0 a l) h0 0 ∧
    ∀ x, scharRange h0 a l x ≤ h0 * exp (-(x / a) ^ 2) := by
  have e : ∀ x, scharRange h0 a l x = h0 * exp (-(x / a) ^ 2) * cos (π * x / l) ^ 2 := by
    intro x
    unfold scharRange
    rw [show -x / a * x / a = -(x / a) ^ 2 by ring]
    ring
  have k : ∀ x, scharRange h0 a l x ≤ h0 * exp (-(x / a) ^ 2) := by
    intro x
    rw [e]
    exact mul_le_of_le_one_right (by positivity) (cos_sq_le_one _)
  refine ⟨⟨fun x => ?_, fun x => ?_, ?_, fun d => ?_⟩, k⟩
  · rw [e]
    positivity
  · refine (k x).trans (mul_le_of_le_one_right hh (exp_le_one_iff.2 ?_))
    nlinarith [sq_nonneg (x / a)]
  · rw [e]
    simp
  · rw [e, e, show π * (0 - d) / l = -(π * (0 + d) / l) by ring, cos_neg,
      show (0 - d) / a = -((0 + d) / a) by ring, neg_sq]

/-- C119, what holds of the ridge: it is never below the ground, falls with the distance from its centre, is the same on
both sides and at its centre half as high as the given height; the centre is at twice the given position. -/
theorem C119_ridge_partial (h0 a xC : ℝ) (hh : 0 ≤ h0) :
    Mountain (ridge h0 a xC) (h0 / 2) (2 * xC) ∧ Falls (ridge h0 a xC) (2 * xC) := by
  have p : ∀ x, 0 ≤ (x - 2 * xC) / a * ((x - 2 * xC) / a) := fun x => mul_self_nonneg _
  refine ⟨⟨fun x => ?_, fun x => ?_, ?_, fun d => ?_⟩, fun x y h => ?_⟩
  · unfold ridge
    positivity
  · unfold ridge
    have := one_le_exp (p x)
    have h2 : (2 : ℝ) ≤ 1 + exp ((x - 2 * xC) / a * ((x - 2 * xC) / a)) := by linarith
    exact div_le_div_of_nonneg_left hh (by norm_num) h2
  · unfold ridge
    simp only [sub_self, zero_div, mul_zero, exp_zero]
    norm_num
  · unfold ridge
    simp only []
    congr 3
    ring
  · unfold ridge
    simp only []
    have := sq_le_of_abs (a := a) h
    gcongr h0 / (1 + exp ?_)

/-- C119, where it fails: no point of the ridge has the given height. -/
theorem C119_ridge_false (h0 a xC x : ℝ) (hh : 0 < h0) : ridge h0 a xC x < h0 :=
  lt_of_le_of_lt ((C119_ridge_partial h0 a xC hh.le).1.le x) (by linarith)

/-! ### Mountains on the sphere -/

/-- C119: the mountains of the Rossby wave in three dimensions, of the Schär mountain and of the stationary flow, for any
height that is not negative and any radius, width and centre. -/
theorem C119_sphere (radius h0 d xi rM latC lonC : ℝ) (hh : 0 ≤ h0) (hr : 0 < rM) :
    SphereMountain (gaussianMountain radius h0 d latC lonC) h0 lonC latC ∧
    SphereMountain (scharSphere radius h0 d xi latC lonC) h0 lonC latC ∧
    SphereMountain (bellMountain h0 rM xi latC lonC) h0 lonC latC := by
  have ge : ∀ lon lat, gaussianMountain radius h0 d latC lonC lon lat =
      h0 * exp (-(radius * greatCircle latC lonC lon lat / d) ^ 2) := by
    intro lon lat
    unfold gaussianMountain
    simp only []
    rw [div_pow]
    congr 2
    ring
  have se : ∀ lon lat, scharSphere radius h0 d xi latC lonC lon lat =
      gaussianMountain radius h0 d latC lonC lon lat * cos (π * (radius * greatCircle latC lonC lon lat) / xi) ^ 2 := by
    intro lon lat
    unfold scharSphere gaussianMountain
    simp only []
    ring
  have g0 : ∀ lon lat, 0 ≤ gaussianMountain radius h0 d latC lonC lon lat := by
    intro lon lat
    rw [ge]
    positivity
  have g1 : ∀ lon lat, gaussianMountain radius h0 d latC lonC lon lat ≤ h0 := by
    intro lon lat
    rw [ge]
    refine mul_le_of_le_one_right hh (exp_le_one_iff.2 ?_)
    nlinarith [sq_nonneg (radius * greatCircle latC lonC lon lat / d)]
  have gp : gaussianMountain radius h0 d latC lonC lonC latC = h0 := by
    rw [ge, greatCircle_self]
    simp
  have be : ∀ lon lat, bellMountain h0 rM xi latC lonC lon lat = h0 *
      (if greatCircle latC lonC lon lat ≥ rM then 0 else 0.5 * (1 + cos (π * greatCircle latC lonC lon lat / rM))) *
      cos (π * greatCircle latC lonC lon lat / xi) ^ 2 := by
    intro lon lat
    unfold bellMountain
    simp only []
    ring
  have bb : ∀ r : ℝ, 0 ≤ (if r ≥ rM then 0 else 0.5 * (1 + cos (π * r / rM))) ∧
      (if r ≥ rM then 0 else 0.5 * (1 + cos (π * r / rM))) ≤ 1 := by
    intro r
    split
    · exact ⟨le_rfl, zero_le_one⟩
    · have h1 := neg_one_le_cos (π * r / rM)
      have h2 := cos_le_one (π * r / rM)
      constructor <;> norm_num <;> linarith
  refine ⟨⟨g0, g1, gp, fun lon lat lon' lat' h => ?_⟩, ⟨fun lon lat => ?_, fun lon lat => ?_, ?_,
    fun lon lat lon' lat' h => ?_⟩, ⟨fun lon lat => ?_, fun lon lat => ?_, ?_, fun lon lat lon' lat' h => ?_⟩⟩
  · rw [ge, ge, greatCircle_congr h]
  · rw [se]
    exact mul_nonneg (g0 _ _) (sq_nonneg _)
  · rw [se]
    exact (mul_le_of_le_one_right (g0 _ _) (cos_sq_le_one _)).trans (g1 _ _)
  · rw [se, gp, greatCircle_self]
    simp
  · rw [se, se, ge, ge, greatCircle_congr h]
  · rw [be]
    exact mul_nonneg (mul_nonneg hh (bb _).1) (sq_nonneg _)
  · rw [be]
    exact (mul_le_of_le_one_right (mul_nonneg hh (bb _).1) (cos_sq_le_one _)).trans (mul_le_of_le_one_right hh (bb _).2)
  · rw [be, greatCircle_self, if_neg (not_le.2 hr)]
    norm_num
  · rw [be, be, greatCircle_congr h]

/-- The values of the tests' command lines. -/
example : SphereMountain (bellMountain 2000 (3 * π / 4) (π / 16) 0 (3 * π / 2)) 2000 (3 * π / 2) 0 :=
  (C119_sphere 0 2000 0 (π / 16) (3 * π / 4) 0 (3 * π / 2) (by norm_num) (by positivity)).2.2

/-- C119: the mountain of the stationary flow ends at its radius. -/
theorem C119_bell_outside (h0 rM zeta latC lonC lon lat : ℝ) (h : rM ≤ greatCircle latC lonC lon lat) :
    bellMountain h0 rM zeta latC lonC lon lat = 0 := by
  unfold bellMountain
  simp only []
  rw [if_pos h]
  ring

/-- C119: the mountain of the shallow water test is a cone in the coordinates longitude and latitude: between zero and
the given height, which it has at its centre, zero outside of its radius, falling with the distance. -/
theorem C119_cone_partial (h0 rC lonC latC : ℝ) (hh : 0 ≤ h0) (hr : 0 < rC) :
    (∀ lon lat, 0 ≤ coneMountain h0 rC lonC latC lon lat ∧ coneMountain h0 rC lonC latC lon lat ≤ h0) ∧
    coneMountain h0 rC lonC latC lonC latC = h0 ∧
    (∀ lon lat, rC ^ 2 ≤ (lon - lonC) ^ 2 + (lat - latC) ^ 2 → coneMountain h0 rC lonC latC lon lat = 0) ∧
    (∀ lon lat lon' lat', (lon - lonC) ^ 2 + (lat - latC) ^ 2 ≤ (lon' - lonC) ^ 2 + (lat' - latC) ^ 2 →
      coneMountain h0 rC lonC latC lon' lat' ≤ coneMountain h0 rC lonC latC lon lat) := by
  have e : ∀ lon lat, coneMountain h0 rC lonC latC lon lat =
      h0 * (1 - min rC (sqrt ((lon - lonC) ^ 2 + (lat - latC) ^ 2)) / rC) := by
    intro lon lat
    unfold coneMountain
    simp only []
    rw [← sq, ← sq, ← sq]
    split
    · rename_i h
      rw [min_eq_left]
      exact Real.le_sqrt_of_sq_le h.le
    · rename_i h
      rw [min_eq_right]
      exact Real.sqrt_le_iff.2 ⟨hr.le, not_lt.1 h⟩
  have b : ∀ lon lat, 0 ≤ min rC (sqrt ((lon - lonC) ^ 2 + (lat - latC) ^ 2)) := fun lon lat =>
    le_min hr.le (sqrt_nonneg _)
  have b1 : ∀ lon lat, min rC (sqrt ((lon - lonC) ^ 2 + (lat - latC) ^ 2)) / rC ≤ 1 := fun lon lat =>
    (div_le_one hr).2 (min_le_left _ _)
  refine ⟨fun lon lat => ?_, ?_, fun lon lat h => ?_, fun lon lat lon' lat' h => ?_⟩
  · rw [e]
    have h1 := b1 lon lat
    have h2 : 0 ≤ min rC (sqrt ((lon - lonC) ^ 2 + (lat - latC) ^ 2)) / rC := div_nonneg (b lon lat) hr.le
    exact ⟨mul_nonneg hh (by linarith), mul_le_of_le_one_right hh (by linarith)⟩
  · rw [e]
    simp [hr.le]
  · rw [e, min_eq_left (Real.le_sqrt_of_sq_le h), div_self hr.ne']
    ring
  · rw [e, e]
    have : min rC (sqrt ((lon - lonC) ^ 2 + (lat - latC) ^ 2)) ≤ min rC (sqrt ((lon' - lonC) ^ 2 + (lat' - latC) ^ 2)) :=
      min_le_min_left _ (Real.sqrt_le_sqrt h)
    gcongr

/-- C119, where it fails: the longitude is not taken modulo a turn.  A cone of radius one centred at longitude zero
(longitudes of the grid are between zero and 2π, C36) is cut: at half its radius to the east of the centre it has half of
its height and as far to the west it has none. -/
theorem C119_cone_false :
    coneMountain 2000 1 0 0 (1 / 2) 0 = 1000 ∧ coneMountain 2000 1 0 0 (2 * π - 1 / 2) 0 = 0 ∧
      dot3 (onSphere (1 / 2) 0) (onSphere 0 0) = dot3 (onSphere (2 * π - 1 / 2) 0) (onSphere 0 0) := by
  refine ⟨?_, ?_, ?_⟩
  · unfold coneMountain
    simp only [sub_zero, mul_zero, add_zero]
    rw [if_neg (by norm_num), show (1 / 2 : ℝ) * (1 / 2) = (1 / 2) ^ 2 by norm_num, Real.sqrt_sq (by norm_num)]
    norm_num
  · exact (C119_cone_partial 2000 1 0 0 (by norm_num) one_pos).2.2.1 _ _ (by nlinarith [two_le_pi])
  · rw [dot_onSphere, dot_onSphere]
    simp only [sub_zero]
    rw [cos_two_pi_sub]

/-- C119, where it fails: the topography of the mountain wave is within ten metres of the ground and below it at as many
points as above. -/
theorem C119_waves_false (lon lat : ℝ) :
    |waveSix lon lat| ≤ 10 ∧ waveSix (lon + π / 6) lat = -waveSix lon lat ∧ waveSix (-(π / 12)) 0 = -10 := by
  refine ⟨?_, ?_, ?_⟩
  · unfold waveSix
    rw [mul_assoc, abs_mul, abs_mul]
    have h1 := abs_sin_le_one (6 * lon)
    have h2 : |cos lat * cos lat| ≤ 1 := by
      rw [← sq, abs_of_nonneg (sq_nonneg _)]
      exact cos_sq_le_one lat
    have h3 := abs_nonneg (sin (6 * lon))
    have h4 := abs_nonneg (cos lat * cos lat)
    rw [abs_of_pos (by norm_num : (0 : ℝ) < 10)]
    nlinarith
  · unfold waveSix
    rw [show 6 * (lon + π / 6) = 6 * lon + π by ring, sin_add_pi]
    ring
  · unfold waveSix
    rw [show 6 * -(π / 12) = -(π / 2) by ring, sin_neg, sin_pi_div_two, cos_zero]
    norm_num

/-! ### Perturbations -/

/-- C119: the taper of the perturbation of the baroclinic wave is between zero and one above the ground, one at the
ground, falls with height, vanishes at and above the given height and has no jump. -/
theorem C119_taper (zP : ℝ) (h : 0 < zP) :
    (∀ z, 0 ≤ z → 0 ≤ taper zP z ∧ taper zP z ≤ 1) ∧ taper zP 0 = 1 ∧ (∀ z, zP ≤ z → taper zP z = 0) ∧
      (∀ z z', 0 ≤ z → z ≤ z' → taper zP z' ≤ taper zP z) ∧ Continuous (taper zP) := by
  have e : ∀ z, z < zP → taper zP z = (1 - z / zP) ^ 2 * (1 + 2 * (z / zP)) := by
    intro z hz
    unfold taper
    rw [if_pos hz, show 3 * z * z / (zP * zP) = 3 * (z / zP) ^ 2 by rw [div_pow]; ring,
      show 2 * z * z * z / (zP * zP * zP) = 2 * (z / zP) ^ 3 by rw [div_pow]; ring]
    ring
  have z0 : ∀ z, zP ≤ z → taper zP z = 0 := fun z hz => by
    unfold taper
    rw [if_neg (not_lt.2 hz)]
  have nn : ∀ z, 0 ≤ z → 0 ≤ taper zP z := by
    intro z hz
    by_cases c : z < zP
    · rw [e z c]
      have : 0 ≤ z / zP := by positivity
      positivity
    · rw [z0 z (not_lt.1 c)]
  have mono : ∀ z z', 0 ≤ z → z ≤ z' → taper zP z' ≤ taper zP z := by
    intro z z' hz hzz
    by_cases c : z' < zP
    · rw [e z' c, e z (lt_of_le_of_lt hzz c)]
      have a0 : 0 ≤ z / zP := by positivity
      have ab : z / zP ≤ z' / zP := by gcongr
      have b1 : z' / zP ≤ 1 := (div_le_one h).2 c.le
      generalize z / zP = s at *
      generalize z' / zP = t at *
      nlinarith [mul_nonneg (sub_nonneg.2 ab) a0, mul_nonneg (sub_nonneg.2 ab) (sub_nonneg.2 b1),
        mul_nonneg (mul_nonneg (sub_nonneg.2 ab) a0) (sub_nonneg.2 b1),
        mul_nonneg (mul_nonneg (sub_nonneg.2 ab) (a0.trans ab)) (sub_nonneg.2 b1),
        mul_nonneg (mul_nonneg (sub_nonneg.2 ab) a0) (sub_nonneg.2 (ab.trans b1))]
    · rw [z0 z' (not_lt.1 c)]
      exact nn z hz
  have o : taper zP 0 = 1 := by
    rw [e 0 h]
    simp
  refine ⟨fun z hz => ⟨nn z hz, ?_⟩, o, z0, mono, ?_⟩
  · rw [← o]
    exact mono 0 z le_rfl hz
  · have e' : taper zP = fun z => if zP ≤ z then (0 : ℝ) else
        1 - 3 * z * z / (zP * zP) + 2 * z * z * z / (zP * zP * zP) := by
      funext z
      unfold taper
      by_cases c : z < zP
      · rw [if_pos c, if_neg (not_le.2 c)]
      · rw [if_neg c, if_pos (not_lt.1 c)]
    rw [e']
    refine Continuous.if_le continuous_const (by fun_prop) continuous_const continuous_id ?_
    intro z hz
    rw [← hz]
    have : zP ≠ 0 := h.ne'
    field_simp
    ring

/-- C119: no perturbation of the baroclinic wave reaches to the given height or above; the one of the first kind is wind
to the east, no stronger than given and none outside of its radius; and where the stream function vanishes around a point,
there is no perturbation of the second kind. -/
theorem C119_gust (q : Gust) (hz : 0 < q.z) (lon lat z : ℝ) :
    (∀ kind, q.z ≤ z → gustSphere q kind z lon lat = (0, 0)) ∧
    gustSphere q .none z lon lat = (0, 0) ∧
    (0 ≤ z → 0 ≤ q.up → 0 ≤ (gustSphere q .exp z lon lat).1 ∧ (gustSphere q .exp z lon lat).1 ≤ q.up ∧
      (gustSphere q .exp z lon lat).2 = 0) ∧
    (0 < q.expR → q.expR ≤ greatCircle q.lat q.lon lon lat → gustSphere q .exp z lon lat = (0, 0)) ∧
    ((∀ lon' lat', |lon' - lon| ≤ 1e-5 → |lat' - lat| ≤ 1e-5 → q.r ≤ greatCircle q.lat q.lon lon' lat') → 0 < q.r →
      gustSphere q .streamFn z lon lat = (0, 0)) := by
  have t := C119_taper q.z hz
  have s0 : q.z ≤ z → ∀ lon lat, streamFunction q z lon lat = 0 := by
    intro h lon lat
    unfold streamFunction
    simp only []
    rw [t.2.2.1 z h]
    ring
  have s1 : 0 < q.r → ∀ lon' lat', q.r ≤ greatCircle q.lat q.lon lon' lat' → streamFunction q z lon' lat' = 0 := by
    intro hr lon' lat' h
    unfold streamFunction
    simp only []
    rw [if_neg (not_lt.2 ((one_le_div hr).2 h))]
    ring
  refine ⟨fun kind h => ?_, rfl, fun h hu => ?_, fun hr h => ?_, fun h hr => ?_⟩
  · cases kind
    · rfl
    · simp only [gustSphere]
      rw [t.2.2.1 z h]
      simp
    · simp only [gustSphere]
      rw [s0 h, s0 h, s0 h, s0 h]
      simp
  · simp only [gustSphere]
    refine ⟨?_, ?_, trivial⟩
    · split
      · exact mul_nonneg (mul_nonneg hu (t.1 z h).1) (exp_nonneg _)
      · exact le_rfl
    · split
      · refine (mul_le_of_le_one_right (mul_nonneg hu (t.1 z h).1) (exp_le_one_iff.2 ?_)).trans
          (mul_le_of_le_one_right hu (t.1 z h).2)
        nlinarith [mul_self_nonneg (greatCircle q.lat q.lon lon lat / q.expR)]
      · exact hu
  · simp only [gustSphere]
    rw [if_neg (not_lt.2 ((one_le_div hr).2 h))]
  · simp only [gustSphere]
    rw [s1 hr _ _ (h _ _ (by norm_num) (by rw [add_sub_cancel_left, abs_of_nonneg (by norm_num)])),
      s1 hr _ _ (h _ _ (by norm_num) (by rw [sub_sub_cancel_left, abs_neg, abs_of_nonneg (by norm_num)])),
      s1 hr _ _ (h _ _ (by rw [add_sub_cancel_left, abs_of_nonneg (by norm_num)]) (by norm_num)),
      s1 hr _ _ (h _ _ (by rw [sub_sub_cancel_left, abs_neg, abs_of_nonneg (by norm_num)]) (by norm_num))]
    simp

/-- The values of the constructor. -/
noncomputable def standardGust : Gust := ⟨-0.5, 1, 1 / 6, 0.1, π / 9, 2 * π / 9, 15000⟩

example : (gustSphere standardGust .exp 0 (π / 9) (2 * π / 9)).1 = 1 := by
  have h : greatCircle standardGust.lat standardGust.lon (π / 9) (2 * π / 9) = 0 := greatCircle_self _ _
  simp only [gustSphere]
  rw [h, zero_div, if_pos zero_lt_one, (C119_taper standardGust.z (by norm_num [standardGust])).2.1]
  norm_num [standardGust]

/-- C119: the perturbation of the wind in the channel is positive, at most the given speed, and that speed at the centre. -/
theorem C119_gust_plane (up l xC yC x y : ℝ) (h : 0 < up) :
    0 < gustPlane up l xC yC x y ∧ gustPlane up l xC yC x y ≤ up ∧ gustPlane up l xC yC xC yC = up := by
  unfold gustPlane
  refine ⟨by positivity, mul_le_of_le_one_right h.le (exp_le_one_iff.2 ?_), by simp⟩
  rw [neg_div]
  have : 0 ≤ ((x - xC) * (x - xC) + (y - yC) * (y - yC)) / (l * l) :=
    div_nonneg (add_nonneg (mul_self_nonneg _) (mul_self_nonneg _)) (mul_self_nonneg _)
  linarith

/-- C119: a warm bubble, in a slice and in three dimensions, is nowhere colder than its surroundings, nowhere warmer than
the given amount, which it has at its centre, and the surroundings are left alone outside of its radius, whatever number
is used for pi. -/
theorem C119_bubble (b : Bubble) (hr : 0 < b.rC) (hc : 0 ≤ b.thetaC) (x y z : ℝ) :
    (0 ≤ bubbleTPrime b x z ∧ bubbleTPrime b x z ≤ b.thetaC) ∧ (0 ≤ bubble3TPrime b x y z ∧ bubble3TPrime b x y z ≤ b.thetaC) ∧
    bubbleTPrime b b.xC b.zC = b.thetaC ∧ bubble3TPrime b b.xC b.yC b.zC = b.thetaC ∧
    (b.rC ^ 2 < (x - b.xC) ^ 2 + (z - b.zC) ^ 2 → bubbleTPrime b x z = 0) ∧
    (b.rC ^ 2 < (x - b.xC) ^ 2 + (y - b.yC) ^ 2 + (z - b.zC) ^ 2 → bubble3TPrime b x y z = 0) := by
  have p : ∀ r, 0 ≤ bubbleProfile b r ∧ bubbleProfile b r ≤ b.thetaC := by
    intro r
    unfold bubbleProfile
    have h1 := neg_one_le_cos (b.piC * r / b.rC)
    have h2 := cos_le_one (b.piC * r / b.rC)
    by_cases c : r ≤ b.rC
    · rw [if_pos c]
      norm_num
      constructor <;> nlinarith
    · rw [if_neg c, if_pos (not_le.1 c)]
      exact ⟨le_rfl, hc⟩
  have p0 : bubbleProfile b 0 = b.thetaC := by
    unfold bubbleProfile
    rw [if_pos hr.le, mul_zero, zero_div, cos_zero]
    ring
  have pf : ∀ s, b.rC ^ 2 < s → bubbleProfile b (sqrt s) = 0 := by
    intro s hs
    have := Real.lt_sqrt_of_sq_lt hs
    unfold bubbleProfile
    rw [if_neg (not_le.2 this), if_pos this]
  refine ⟨p _, p _, ?_, ?_, fun h => pf _ (by nlinarith), fun h => pf _ (by nlinarith)⟩
  · unfold bubbleTPrime
    simp [p0]
  · unfold bubble3TPrime
    simp [p0]

/-- C119: the cold bubble of the density current is nowhere warmer than its surroundings where the Exner pressure is
positive, nowhere colder than the given amount over that pressure, and ends at its radius. -/
theorem C119_cold_bubble (b : Bubble) (hc : b.thetaC ≤ 0) (x z exner : ℝ) (he : 0 < exner) :
    b.thetaC / exner ≤ currentTPrime b x z exner ∧ currentTPrime b x z exner ≤ 0 ∧
      (b.rC ^ 2 < ((x - b.xC) / 4000) ^ 2 + ((z - b.zC) / 2000) ^ 2 → 0 < b.rC → currentTPrime b x z exner = 0) := by
  have ee : (x - b.xC) * (x - b.xC) / (4000 * 4000) + (z - b.zC) * (z - b.zC) / (2000 * 2000) =
      ((x - b.xC) / 4000) ^ 2 + ((z - b.zC) / 2000) ^ 2 := by ring
  unfold currentTPrime
  simp only [ee]
  generalize ((x - b.xC) / 4000) ^ 2 + ((z - b.zC) / 2000) ^ 2 = s
  have h1 := neg_one_le_cos (b.piC * sqrt s)
  have h2 := cos_le_one (b.piC * sqrt s)
  refine ⟨?_, ?_, fun h hr => ?_⟩
  · by_cases c : sqrt s ≤ b.rC
    · rw [if_pos c]
      gcongr
      norm_num
      nlinarith
    · rw [if_neg c, if_pos (not_le.1 c)]
      exact div_nonpos_of_nonpos_of_nonneg hc he.le
  · by_cases c : sqrt s ≤ b.rC
    · rw [if_pos c]
      refine div_nonpos_of_nonpos_of_nonneg ?_ he.le
      norm_num
      nlinarith
    · rw [if_neg c, if_pos (not_le.1 c)]
  · have := Real.lt_sqrt_of_sq_lt h
    rw [if_neg (not_le.2 this), if_pos this]

/-- The bubble of the density current, test/nonhydro_xz/DensityCurrentCartesianTest.cpp:339-345, at its centre. -/
example : currentTPrime ⟨300, -15, 1, 0, 0, 3000, π⟩ 0 3000 1 = -15 := by
  unfold currentTPrime
  norm_num

example : bubbleTPrime ⟨300, 0.5, 250, 500, 500, 350, π⟩ 500 350 = 0.5 :=
  (C119_bubble ⟨300, 0.5, 250, 500, 500, 350, π⟩ (by norm_num) (by norm_num) 0 0 0).2.2.1

end Verif.Cases
