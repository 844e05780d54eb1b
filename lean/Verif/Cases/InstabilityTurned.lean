/-
C147: the wind of the barotropically unstable jet on a turned grid.
-/
import Verif.Cases.Instability
import Mathlib.Tactic.Linarith
import Mathlib.Tactic.FieldSimp
import Mathlib.Tactic.LinearCombination
import Mathlib.Tactic.NormNum

namespace Verif.Cases.Instability

open Real

/-- Specification: the point on the sphere. -/
noncomputable def point (lon lat : ℝ) : Fin 3 → ℝ := ![cos lat * cos lon, cos lat * sin lon, sin lat]

/-- Specification: the axis of the turned grid. -/
noncomputable def axis (alpha : ℝ) : Fin 3 → ℝ := ![-sin alpha, 0, cos alpha]

/-- Specification: the wind with components `u` to the east and `v` to the north. -/
noncomputable def vector (lon lat u v : ℝ) : Fin 3 → ℝ :=
  ![-u * sin lon - v * sin lat * cos lon, u * cos lon - v * sin lat * sin lon, v * cos lat]

/-- Specification: the vector product. -/
def cross (a b : Fin 3 → ℝ) : Fin 3 → ℝ := ![a 1 * b 2 - a 2 * b 1, a 2 * b 0 - a 0 * b 2, a 0 * b 1 - a 1 * b 0]

section
variable (alpha lon lat : ℝ)

theorem sphere_identity : (cos alpha * cos lon * cos lat + sin alpha * sin lat) ^ 2 + (sin lon * cos lat) ^ 2
    + (sin lat * cos alpha - cos lat * cos lon * sin alpha) ^ 2 = 1 := by
  have h1 := sin_sq_add_cos_sq alpha
  have h2 := sin_sq_add_cos_sq lon
  have h3 := sin_sq_add_cos_sq lat
  linear_combination (cos lon ^ 2 * cos lat ^ 2 + sin lat ^ 2) * h1 + cos lat ^ 2 * h2 + h3

theorem sin_turnedLat : sin (turnedLat alpha lon lat) = sin lat * cos alpha - cos lat * cos lon * sin alpha := by
  have h := sphere_identity alpha lon lat
  unfold turnedLat
  refine sin_arcsin ?_ ?_
  · nlinarith [sq_nonneg (cos alpha * cos lon * cos lat + sin alpha * sin lat), sq_nonneg (sin lon * cos lat)]
  · nlinarith [sq_nonneg (cos alpha * cos lon * cos lat + sin alpha * sin lat), sq_nonneg (sin lon * cos lat)]

theorem cos_turnedLat_nonneg : 0 ≤ cos (turnedLat alpha lon lat) := cos_arcsin_nonneg _

theorem cos_turnedLat_sq : cos (turnedLat alpha lon lat) ^ 2
    = (cos alpha * cos lon * cos lat + sin alpha * sin lat) ^ 2 + (sin lon * cos lat) ^ 2 := by
  have h1 := sin_sq_add_cos_sq (turnedLat alpha lon lat)
  rw [sin_turnedLat] at h1
  have h := sphere_identity alpha lon lat
  linarith

theorem turnedLon_spec (hc : cos (turnedLat alpha lon lat) ≠ 0) :
    sin (turnedLon alpha lon lat) * cos (turnedLat alpha lon lat) = sin lon * cos lat ∧
    cos (turnedLon alpha lon lat) * cos (turnedLat alpha lon lat) = cos alpha * cos lon * cos lat + sin alpha * sin lat := by
  have hp : 0 < cos (turnedLat alpha lon lat) := lt_of_le_of_ne (cos_turnedLat_nonneg alpha lon lat) hc.symm
  have hsq := cos_turnedLat_sq alpha lon lat
  unfold turnedLon
  dsimp only
  generalize cos (turnedLat alpha lon lat) = d at *
  generalize cos alpha * cos lon * cos lat + sin alpha * sin lat = t at *
  generalize sin lon * cos lat = q at *
  have hwrap : ∀ l : ℝ, sin (if l < 0 then l + 2 * π else l) = sin l ∧ cos (if l < 0 then l + 2 * π else l) = cos l := by
    intro l
    split
    · exact ⟨sin_add_two_pi l, cos_add_two_pi l⟩
    · exact ⟨rfl, rfl⟩
  rw [(hwrap _).1, (hwrap _).2]
  have hqd : |q| ≤ d := abs_le_of_sq_le_sq (by nlinarith [sq_nonneg t]) hp.le
  have hs : sin (arcsin (q / d)) = q / d := by
    have := abs_le.1 hqd
    refine sin_arcsin ?_ ?_
    · rw [le_div_iff₀ hp]
      linarith
    · rw [div_le_iff₀ hp]
      linarith
  have hcs : cos (arcsin (q / d)) * d = |t| := by
    have h0 : 0 ≤ cos (arcsin (q / d)) := cos_arcsin_nonneg _
    have h1 := sin_sq_add_cos_sq (arcsin (q / d))
    rw [hs] at h1
    have h2 : (cos (arcsin (q / d)) * d) ^ 2 = t ^ 2 := by
      have : (q / d) ^ 2 * d ^ 2 = q ^ 2 := by field_simp
      nlinarith
    rw [← abs_of_nonneg (mul_nonneg h0 hp.le)]
    exact (sq_eq_sq_iff_abs_eq_abs _ _).1 h2
  by_cases ht : t < 0
  · rw [if_pos ht, sin_pi_sub, cos_pi_sub, hs]
    refine ⟨by field_simp, ?_⟩
    rw [neg_mul, hcs, abs_of_neg ht]
    ring
  · rw [if_neg ht, hs]
    refine ⟨by field_simp, ?_⟩
    rw [hcs, abs_of_nonneg (not_lt.1 ht)]

/-- C147: on a turned grid, but near the quarter turns of longitude and at the poles of either grid, the wind is that of
the jet along the circles around the axis of the turned grid. -/
theorem C147_turned (up : ℝ) (h1 : 1 / 10 ^ 13 ≤ |cos lon|) (h2 : cos lat ≠ 0) (h3 : cos (turnedLat alpha lon lat) ≠ 0) :
    vector lon lat (turnedWind alpha lon lat up).1 (turnedWind alpha lon lat up).2
      = fun i => up / cos (turnedLat alpha lon lat) * cross (axis alpha) (point lon lat) i := by
  obtain ⟨e1, e2⟩ := turnedLon_spec alpha lon lat h3
  have hl : cos lon ≠ 0 := by
    intro h
    rw [h, abs_zero] at h1
    norm_num at h1
  have hs : sin (turnedLon alpha lon lat) = sin lon * cos lat / cos (turnedLat alpha lon lat) := by rw [← e1]; field_simp
  have hc : cos (turnedLon alpha lon lat) = (cos alpha * cos lon * cos lat + sin alpha * sin lat) / cos (turnedLat alpha lon lat) := by
    rw [← e2]; field_simp
  have hv : (turnedWind alpha lon lat up).2 = up / cos (turnedLat alpha lon lat) * (-sin alpha * sin lon) := by
    simp only [turnedWind]
    rw [hs]
    field_simp
  have hu : (turnedWind alpha lon lat up).1 = up / cos (turnedLat alpha lon lat) * (cos alpha * cos lat + sin alpha * sin lat * cos lon) := by
    have hv' := hv
    simp only [turnedWind] at hv' ⊢
    rw [if_neg (not_lt.2 h1), hv', hc, div_eq_iff hl]
    have hq := sin_sq_add_cos_sq lon
    linear_combination -(up / cos (turnedLat alpha lon lat) * sin alpha * sin lat) * hq
  rw [hu, hv]
  have hq := sin_sq_add_cos_sq lon
  have hr := sin_sq_add_cos_sq lat
  funext i
  fin_cases i
  · simp [vector, cross, axis, point]
    ring
  · simp [vector, cross, axis, point]
    linear_combination (up / cos (turnedLat alpha lon lat) * sin alpha * sin lat) * hq
  · simp [vector, cross, axis, point]
    ring

/-- C147, that this holds at all longitudes, is false: near the quarter turn to the west, where the cosine is small and
positive, the component to the east has the wrong sign. -/
theorem C147_turned_false (up : ℝ) (h1 : 0 < cos lon) (h2 : cos lon < 1 / 10 ^ 13) (h3 : sin lon < 0) (h4 : 0 < cos lat)
    (h5 : cos (turnedLat alpha lon lat) ≠ 0) (h6 : 1 / 10 ^ 13 < alpha) (h7 : alpha < π / 2) (hup : 0 < up) :
    (turnedWind alpha lon lat up).1 < 0 := by
  obtain ⟨e1, _⟩ := turnedLon_spec alpha lon lat h5
  have hp : 0 < cos (turnedLat alpha lon lat) := lt_of_le_of_ne (cos_turnedLat_nonneg alpha lon lat) h5.symm
  have ha : 0 < alpha := lt_trans (by positivity) h6
  have hsa : 0 < sin alpha := sin_pos_of_pos_of_lt_pi ha (by linarith [pi_pos])
  have hca : 0 < cos alpha := cos_pos_of_mem_Ioo ⟨by linarith, h7⟩
  have hsl : sin (turnedLon alpha lon lat) < 0 := by
    by_contra h
    have : 0 ≤ sin (turnedLon alpha lon lat) * cos (turnedLat alpha lon lat) := mul_nonneg (not_lt.1 h) hp.le
    rw [e1] at this
    nlinarith
  simp only [turnedWind]
  rw [if_pos (by rwa [abs_of_pos h1]), if_pos (by rwa [gt_iff_lt, abs_of_pos ha]), if_pos h1, tan_eq_sin_div_cos]
  have : -(-up * sin alpha * sin (turnedLon alpha lon lat) / cos lat) * cos lat / (sin alpha / cos alpha)
      = up * cos alpha * sin (turnedLon alpha lon lat) := by
    field_simp
  rw [this]
  exact mul_neg_of_pos_of_neg (mul_pos hup hca) hsl

/-- C147: while the wind of the jet along the circles around the turned axis blows to the east there, wherever the point is
not too near the pole. -/
theorem C147_turned_east (up u v : ℝ) (hup : 0 < up) (h4 : 0 < cos lat) (h5 : 0 < cos (turnedLat alpha lon lat))
    (h6 : 0 < cos alpha * cos lat + sin alpha * sin lat * cos lon)
    (h : vector lon lat u v = fun i => up / cos (turnedLat alpha lon lat) * cross (axis alpha) (point lon lat) i) : 0 < u := by
  have hx := congrFun h 0
  have hy := congrFun h 1
  have hz := congrFun h 2
  simp [vector, cross, axis, point] at hx hy hz
  have hq := sin_sq_add_cos_sq lon
  have : u = up / cos (turnedLat alpha lon lat) * (cos alpha * cos lat + sin alpha * sin lat * cos lon) := by
    linear_combination -sin lon * hx + cos lon * hy - u * hq + up / cos (turnedLat alpha lon lat) * cos alpha * cos lat * hq
  rw [this]
  exact mul_pos (div_pos hup h5) h6

end

/-- The equator on the null meridian, with the axis turned by 60 degrees, meets the hypotheses. -/
example : vector 0 0 (turnedWind (π / 3) 0 0 80).1 (turnedWind (π / 3) 0 0 80).2
    = fun i => 80 / cos (turnedLat (π / 3) 0 0) * cross (axis (π / 3)) (point 0 0) i := by
  refine C147_turned (π / 3) 0 0 80 ?_ ?_ ?_
  · rw [cos_zero, abs_one]
    norm_num
  · rw [cos_zero]
    exact one_ne_zero
  · intro h
    have := cos_turnedLat_sq (π / 3) 0 0
    rw [h] at this
    simp at this
    norm_num at this

/-- The equator a little east of a quarter turn to the west, with the axis turned by one radian, has the wrong sign. -/
example : (turnedWind 1 (1 / 10 ^ 14 - π / 2) 0 80).1 < 0 := by
  have hd : (0 : ℝ) < 1 / 10 ^ 14 := by positivity
  have hs : 0 < sin (1 / 10 ^ 14 : ℝ) := sin_pos_of_pos_of_lt_pi hd (lt_of_lt_of_le (by norm_num) pi_gt_three.le)
  have hl := sin_lt hd
  have hc : 0 < cos (1 / 10 ^ 14 : ℝ) := cos_pos_of_mem_Ioo ⟨by linarith [pi_pos], lt_of_lt_of_le (by norm_num) (by linarith [pi_gt_three] : (1 : ℝ) ≤ π / 2)⟩
  have e1 : cos (1 / 10 ^ 14 - π / 2) = sin (1 / 10 ^ 14) := cos_sub_pi_div_two _
  have e2 : sin (1 / 10 ^ 14 - π / 2) = -cos (1 / 10 ^ 14) := sin_sub_pi_div_two _
  refine C147_turned_false 1 _ 0 80 (by rw [e1]; exact hs) (by rw [e1]; exact hl.trans (by norm_num)) (by rw [e2]; linarith)
    (by rw [cos_zero]; exact one_pos) ?_ (by norm_num) (by linarith [pi_gt_three]) (by norm_num)
  intro h
  have := cos_turnedLat_sq 1 (1 / 10 ^ 14 - π / 2) 0
  rw [h, e2, cos_zero] at this
  nlinarith [sq_nonneg (cos 1 * cos (1 / 10 ^ 14 - π / 2) * 1 + sin 1 * sin 0)]

end Verif.Cases.Instability
