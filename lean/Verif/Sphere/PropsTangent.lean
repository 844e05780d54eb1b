/-
C34 continued: the coordinate directions are derivatives of the position, the conversions invert each other, and what
happens at the poles.
-/
import Mathlib.Analysis.SpecialFunctions.Trigonometric.ArctanDeriv
import Mathlib.Analysis.SpecialFunctions.Sqrt
import Mathlib.Analysis.Calculus.Deriv.Prod
import Verif.Sphere.PropsVector

namespace Verif.Sphere

open Real

theorem hasDerivAt_scale (k X : ℝ) (hk : 0 < k + X * X) :
    HasDerivAt (fun x : ℝ => 1 / √(k + x * x)) (-X * (1 / √(k + X * X)) ^ 3) X := by
  have h1 : HasDerivAt (fun x : ℝ => k + x * x) (X + X) X := by
    have := ((hasDerivAt_id X).mul (hasDerivAt_id X)).const_add k
    simpa using this
  have h2 := h1.sqrt hk.ne'
  have hs : 0 < √(k + X * X) := Real.sqrt_pos.2 hk
  have h3 := h2.inv hs.ne'
  have : (fun x : ℝ => 1 / √(k + x * x)) = (fun x => √(k + x * x))⁻¹ := by ext x; simp
  rw [this]
  refine h3.congr_deriv ?_
  have := Real.mul_self_sqrt hk.le
  field_simp
  ring

theorem hasDerivAt_image_fst (p : Int) (X Y : ℝ) : HasDerivAt (fun x => image p x Y)
    ((1 / √(1 + X * X + Y * Y)) ^ 3 • ((1 + Y * Y) • axisA p + (-(X * Y)) • axisB p + (-X) • centre p)) X := by
  have hk : 0 < (1 + Y * Y) + X * X := by nlinarith [mul_self_nonneg X, mul_self_nonneg Y]
  have h1 := hasDerivAt_scale (1 + Y * Y) X hk
  have h2 : HasDerivAt (fun x : ℝ => centre p + x • axisA p + Y • axisB p) ((1 : ℝ) • axisA p) X :=
    (((hasDerivAt_id X).smul_const (axisA p)).const_add (centre p)).add_const (Y • axisB p)
  have h3 := h1.smul h2
  have e : (fun x => image p x Y) = (fun x : ℝ => 1 / √(1 + Y * Y + x * x)) •
      (fun x : ℝ => centre p + x • axisA p + Y • axisB p) := by
    ext1 x
    simp only [image, Pi.smul_apply']
    rw [show 1 + Y * Y + x * x = 1 + x * x + Y * Y by ring]
  rw [e]
  refine h3.congr_deriv ?_
  have hs : 0 < √(1 + Y * Y + X * X) := Real.sqrt_pos.2 hk
  have hss := Real.mul_self_sqrt hk.le
  rw [show 1 + X * X + Y * Y = 1 + Y * Y + X * X by ring]
  generalize √(1 + Y * Y + X * X) = s at *
  have : (1 / s) = (1 / s) ^ 3 * (1 + Y * Y + X * X) := by rw [← hss]; field_simp
  rw [show (1 / s) • (1 : ℝ) • axisA p = ((1 / s) ^ 3 * (1 + Y * Y + X * X)) • axisA p by rw [one_smul, ← this]]
  module

theorem hasDerivAt_image_snd (p : Int) (X Y : ℝ) : HasDerivAt (fun y => image p X y)
    ((1 / √(1 + X * X + Y * Y)) ^ 3 • ((-(X * Y)) • axisA p + (1 + X * X) • axisB p + (-Y) • centre p)) Y := by
  have hk : 0 < (1 + X * X) + Y * Y := by nlinarith [mul_self_nonneg X, mul_self_nonneg Y]
  have h1 := hasDerivAt_scale (1 + X * X) Y hk
  have h2 : HasDerivAt (fun y : ℝ => centre p + X • axisA p + y • axisB p) ((1 : ℝ) • axisB p) Y :=
    ((hasDerivAt_id Y).smul_const (axisB p)).const_add (centre p + X • axisA p)
  have h3 := h1.smul h2
  have e : (fun y => image p X y) = (fun y : ℝ => 1 / √(1 + X * X + y * y)) •
      (fun y : ℝ => centre p + X • axisA p + y • axisB p) := rfl
  rw [e]
  refine h3.congr_deriv ?_
  have hs : 0 < √(1 + X * X + Y * Y) := Real.sqrt_pos.2 hk
  have hss := Real.mul_self_sqrt hk.le
  generalize √(1 + X * X + Y * Y) = s at *
  have : (1 / s) = (1 / s) ^ 3 * (1 + X * X + Y * Y) := by rw [← hss]; field_simp
  rw [show (1 / s) • (1 : ℝ) • axisB p = ((1 / s) ^ 3 * (1 + X * X + Y * Y)) • axisB p by rw [one_smul, ← this]]
  module

theorem hasDerivAt_tan_arctan (X : ℝ) : HasDerivAt tan (1 + X * X) (arctan X) := by
  have h := Real.hasDerivAt_tan (cos_arctan_pos X).ne'
  convert h using 1
  rw [Real.cos_sq_arctan]
  have := one_add_sq_ne X
  rw [pow_two]; field_simp

/-- **C34 (directions).**  The two vectors in terms of which panel components are read are the derivatives of the
point of the sphere by the equiangular coordinates; east and north are, up to the cosine of the latitude, the
derivatives by longitude and latitude. -/
theorem C34_tangent (p : Int) (X Y lon lat : ℝ) :
    HasDerivAt (fun α => image p (tan α) Y) (tangentA p X Y) (arctan X) ∧
    HasDerivAt (fun β => image p X (tan β)) (tangentB p X Y) (arctan Y) ∧
    HasDerivAt (fun l => lonlat l lat) (cos lat • east lon) lon ∧
    HasDerivAt (fun l => lonlat lon l) (north lon lat) lat := by
  refine ⟨?_, ?_, ?_, ?_⟩
  · have h1 := hasDerivAt_image_fst p X Y
    have h2 := HasDerivAt.scomp_of_eq (arctan X) h1 (hasDerivAt_tan_arctan X) (Real.tan_arctan X).symm
    refine h2.congr_deriv ?_
    unfold tangentA; module
  · have h1 := hasDerivAt_image_snd p X Y
    have h2 := HasDerivAt.scomp_of_eq (arctan Y) h1 (hasDerivAt_tan_arctan Y) (Real.tan_arctan Y).symm
    refine h2.congr_deriv ?_
    unfold tangentB; module
  · have h1 := (Real.hasDerivAt_cos lon).mul_const (cos lat)
    have h2 := (Real.hasDerivAt_sin lon).mul_const (cos lat)
    have h := h1.prodMk (h2.prodMk (hasDerivAt_const lon (sin lat)))
    refine h.congr_deriv ?_
    simp [east]; ring_nf; simp
  · have h1 := (Real.hasDerivAt_cos lat).const_mul (cos lon)
    have h2 := (Real.hasDerivAt_cos lat).const_mul (sin lon)
    have h := h1.prodMk (h2.prodMk (Real.hasDerivAt_sin lat))
    refine h.congr_deriv ?_
    simp [north]

theorem wind_dot (lon lat ulon ulat : ℝ) :
    dot (wind lon lat ulon ulat) (east lon) = ulon ∧ dot (wind lon lat ulon ulat) (north lon lat) = ulat := by
  have h1 := Real.sin_sq_add_cos_sq lon
  have h2 := Real.sin_sq_add_cos_sq lat
  simp only [wind, dot, east, north, Prod.fst_add, Prod.snd_add, Prod.smul_fst, Prod.smul_snd, smul_eq_mul]
  constructor
  · linear_combination ulon * h1
  · linear_combination ulat * (sin lat ^ 2) * h1 + ulat * h2

theorem wind_injective {lon lat a b c d : ℝ} (h : wind lon lat a b = wind lon lat c d) : a = c ∧ b = d := by
  have h1 := wind_dot lon lat a b
  rw [h] at h1
  have h2 := wind_dot lon lat c d
  exact ⟨by rw [← h1.1, h2.1], by rw [← h1.2, h2.2]⟩

/-- **C34 (round trip).**  Away from the pole, converting components to the panel and back, or from the panel and
back, returns them unchanged; so it is for covariant components. -/
theorem C34_roundtrip (X Y a b : ℝ) (p : Int) (hp : IsPanel p) (hx : LonOK p X) (hpole : ¬ atPole X Y p) :
    (vecABPFromRLL X Y p a b).bind (fun v => vecRLLFromABP X Y p v.1 v.2) = some (a, b) ∧
    (vecRLLFromABP X Y p a b).bind (fun v => vecABPFromRLL X Y p v.1 v.2) = some (a, b) ∧
    (coVecABPFromRLL X Y p a b).bind (fun v => coVecRLLFromABP X Y p v.1 v.2) = some (a, b) ∧
    (coVecRLLFromABP X Y p a b).bind (fun v => coVecABPFromRLL X Y p v.1 v.2) = some (a, b) := by
  have hq := notPole_ne hpole
  obtain ⟨lon, lat, h⟩ : ∃ lon lat, rllFromXYP X Y p = some (lon, lat) := by
    rcases hp with rfl | rfl | rfl | rfl | rfl | rfl <;> exact ⟨_, _, by simp [rllFromXYP]; exact ⟨rfl, rfl⟩⟩
  refine ⟨?_, ?_, ?_, ?_⟩
  · obtain ⟨c, d, h1, h2⟩ := C34_vector_from X Y a b lon lat p hp hx hpole h
    obtain ⟨e, f, h3, h4⟩ := C34_vector_to X Y c d lon lat p hp hx hq h
    have := wind_injective (h4.symm.trans h2)
    simp [h1, h3, this]
  · obtain ⟨c, d, h1, h2⟩ := C34_vector_to X Y a b lon lat p hp hx hq h
    obtain ⟨e, f, h3, h4⟩ := C34_vector_from X Y c d lon lat p hp hx hpole h
    have := physical_injective hp (h4.trans h2.symm)
    simp [h1, h3, this]
  · rw [C34_covector_from X Y a b lon lat p hp hx hpole h]
    exact C34_covector_to X Y a b lon lat p hp hx hpole h
  · obtain ⟨u, v, ha, hb⟩ : ∃ u v, a = dot (wind lon lat u v) (tangentA p X Y) ∧
        b = dot (wind lon lat u v) (tangentB p X Y) := by
      obtain ⟨c, d, ha, hb⟩ : ∃ c d, a = dot (physical p X Y c d) (tangentA p X Y) ∧
          b = dot (physical p X Y c d) (tangentB p X Y) := by
        have e1 := one_add_sq_ne X
        have e2 := one_add_sq_ne Y
        have hD := ne_of_gt (delta_pos X Y)
        have hr := roots X Y
        have hd := hr.d_pos
        have hdd := hr.dd
        rw [tangentA_frame, tangentB_frame]
        refine ⟨(1 + X * X + Y * Y) * ((1 + X * X) * a + (1 + X * X) * (X * Y) / (1 + Y * Y) * b) / (1 + X * X) ^ 2,
          (1 + X * X + Y * Y) * ((1 + Y * Y) * (X * Y) / (1 + X * X) * a + (1 + Y * Y) * b) / (1 + Y * Y) ^ 2, ?_, ?_⟩ <;>
        · rw [physical_frame, dot_frame hp]
          generalize √(1 + X * X + Y * Y) = d at *
          rw [← hdd]
          field_simp
          grind
      obtain ⟨u, v, -, h2⟩ := C34_vector_to X Y c d lon lat p hp hx hq h
      exact ⟨u, v, h2 ▸ ha, h2 ▸ hb⟩
    rw [ha, hb, C34_covector_to X Y u v lon lat p hp hx hpole h]
    exact C34_covector_from X Y u v lon lat p hp hx hpole h

/-- **C34 (pairing).**  The panel components of one vector paired with the covariant panel components of another give
the inner product of the two vectors. -/
theorem C34_pairing (X Y ulon ulat vlon vlat : ℝ) (p : Int) (hp : IsPanel p) (hx : LonOK p X)
    (hpole : ¬ atPole X Y p) :
    ∃ a b c d, vecABPFromRLL X Y p ulon ulat = some (a, b) ∧ coVecABPFromRLL X Y p vlon vlat = some (c, d) ∧
      a * c + b * d = ulon * vlon + ulat * vlat := by
  obtain ⟨lon, lat, h⟩ : ∃ lon lat, rllFromXYP X Y p = some (lon, lat) := by
    rcases hp with rfl | rfl | rfl | rfl | rfl | rfl <;> exact ⟨_, _, by simp [rllFromXYP]; exact ⟨rfl, rfl⟩⟩
  obtain ⟨a, b, h1, h2⟩ := C34_vector_from X Y ulon ulat lon lat p hp hx hpole h
  refine ⟨a, b, _, _, h1, C34_covector_from X Y vlon vlat lon lat p hp hx hpole h, ?_⟩
  obtain ⟨w1, w2⟩ := wind_dot lon lat vlon vlat
  trans dot (wind lon lat vlon vlat) (physical p X Y a b)
  · simp only [physical, dot, Prod.fst_add, Prod.snd_add, Prod.smul_fst, Prod.smul_snd, smul_eq_mul]; ring
  · rw [h2]
    trans ulon * dot (wind lon lat vlon vlat) (east lon) + ulat * dot (wind lon lat vlon vlat) (north lon lat)
    · conv_lhs => rw [show wind lon lat ulon ulat = ulon • east lon + ulat • north lon lat from rfl]
      simp only [dot, Prod.fst_add, Prod.snd_add, Prod.smul_fst, Prod.smul_snd, smul_eq_mul]; ring
    · rw [w1, w2]

/-- **C34 (north pole).**  At the north pole, taken at the longitude reported for it, the conversion is exact. -/
theorem C34_north_pole (ulon ulat : ℝ) :
    ∃ lon lat a b, rllFromXYP 0 0 4 = some (lon, lat) ∧ vecABPFromRLL 0 0 4 ulon ulat = some (a, b) ∧
      physical 4 0 0 a b = wind lon lat ulon ulat := by
  have hp : atPole 0 0 4 := ⟨by norm_num, by norm_num, by norm_num⟩
  refine ⟨0, 1 / 2 * π, ulon, ulat, ?_, ?_, ?_⟩
  · simp [rllFromXYP, wrapLon, northLon, dblEpsilon]; norm_num
  · unfold vecABPFromRLL; rw [if_pos hp]; simp
  · rw [show (1 / 2 * π : ℝ) = π / 2 by ring]
    simp [physical, tangentA, tangentB, wind, east, north, axisA, axisB, centre]

/-- **C34 fails at the south pole.**  There the components produced denote, whatever longitude the pole is given, a
different vector for some wind: the sign of the second component is wrong. -/
theorem C34_false_south_pole (lon : ℝ) : ∃ ulon ulat a b, vecABPFromRLL 0 0 5 ulon ulat = some (a, b) ∧
    physical 5 0 0 a b ≠ wind lon (-(π / 2)) ulon ulat := by
  have hp : atPole 0 0 5 := ⟨by norm_num, by norm_num, by norm_num⟩
  have key : ∀ ulon ulat, vecABPFromRLL 0 0 5 ulon ulat = some (-ulon, ulat) := by
    intro u v; unfold vecABPFromRLL; rw [if_pos hp]; simp
  have k1 := key 1 0
  have k2 := key 0 1
  by_contra hn
  simp only [not_exists, not_and, not_not] at hn
  have h1 := hn 1 0 _ _ k1
  have h2 := hn 0 1 _ _ k2
  simp [physical, tangentA, tangentB, wind, east, north, axisA, axisB, centre] at h1 h2
  obtain ⟨-, h1⟩ := h1
  obtain ⟨h2, -⟩ := h2
  rw [← h1] at h2
  norm_num at h2

end Verif.Sphere
