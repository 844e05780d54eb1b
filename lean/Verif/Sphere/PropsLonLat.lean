/-
C36: longitude and latitude to panel coordinates and back.  C35 continued: panel transforms agree with the conversions
from longitude-latitude components.
-/
import Verif.Sphere.PropsTangent

namespace Verif.Sphere

open Real

theorem lonlat_unit (lon lat : ℝ) : dot (lonlat lon lat) (lonlat lon lat) = 1 := by
  have h1 := Real.sin_sq_add_cos_sq lon
  have h2 := Real.sin_sq_add_cos_sq lat
  simp only [dot, lonlat]
  linear_combination (cos lat ^ 2) * h1 + h2

/-- The chosen panel is one facing the point, and among the closest. -/
theorem panelOf_spec (v : Vec3) (hv : dot v v = 1) : IsPanel (panelOf v.1 v.2.1 v.2.2) ∧
    0 < (rel (panelOf v.1 v.2.1 v.2.2) v).2.2 ∧
    |(rel (panelOf v.1 v.2.1 v.2.2) v).1| ≤ (rel (panelOf v.1 v.2.1 v.2.2) v).2.2 ∧
    |(rel (panelOf v.1 v.2.1 v.2.2) v).2.1| ≤ (rel (panelOf v.1 v.2.1 v.2.2) v).2.2 := by
  obtain ⟨x, y, z⟩ := v
  simp only [dot] at hv
  simp only
  have hx := le_max_left |x| (max |y| |z|)
  have hy := (le_max_left |y| |z|).trans (le_max_right |x| (max |y| |z|))
  have hz := (le_max_right |y| |z|).trans (le_max_right |x| (max |y| |z|))
  have hpos : 0 < max |x| (max |y| |z|) := by
    by_contra hn
    have h1 : |x| = 0 := le_antisymm (hx.trans (not_lt.1 hn)) (abs_nonneg x)
    have h2 : |y| = 0 := le_antisymm (hy.trans (not_lt.1 hn)) (abs_nonneg y)
    have h3 : |z| = 0 := le_antisymm (hz.trans (not_lt.1 hn)) (abs_nonneg z)
    rw [abs_eq_zero] at h1 h2 h3
    rw [h1, h2, h3] at hv
    norm_num at hv
  have hex : max |x| (max |y| |z|) = |x| ∨ max |x| (max |y| |z|) = |y| ∨ max |x| (max |y| |z|) = |z| := by
    rcases max_choice |x| (max |y| |z|) with h | h
    · exact Or.inl h
    · rcases max_choice |y| |z| with h' | h'
      · exact Or.inr (Or.inl (h.trans h'))
      · exact Or.inr (Or.inr (h.trans h'))
  have fwd : ∀ t : ℝ, max |x| (max |y| |z|) = |t| → t > 0 → t = max |x| (max |y| |z|) :=
    fun t h ht => by rw [h, abs_of_pos ht]
  have bwd : ∀ t : ℝ, max |x| (max |y| |z|) = |t| → ¬ t > 0 → -t = max |x| (max |y| |z|) :=
    fun t h ht => by rw [h, abs_of_nonpos (not_lt.1 ht)]
  unfold panelOf
  simp only
  generalize max |x| (max |y| |z|) = m at *
  by_cases h3 : m = |z|
  · rw [if_pos h3]
    by_cases hs : z > 0
    · have := fwd z h3 hs
      rw [if_pos hs]; simp [IsPanel, rel, dot, centre, axisA, axisB]; rw [this]; exact ⟨hpos, hy, hx⟩
    · have := bwd z h3 hs
      rw [if_neg hs]; simp [IsPanel, rel, dot, centre, axisA, axisB]; rw [this]
      exact ⟨by linarith, hy, hx⟩
  · rw [if_neg h3]
    by_cases h2 : m = |y|
    · rw [if_pos h2]
      by_cases hs : y > 0
      · have := fwd y h2 hs
        rw [if_pos hs]; simp [IsPanel, rel, dot, centre, axisA, axisB]; rw [this]; exact ⟨hpos, hx, hz⟩
      · have := bwd y h2 hs
        rw [if_neg hs]; simp [IsPanel, rel, dot, centre, axisA, axisB]; rw [this]
        exact ⟨by linarith, hx, hz⟩
    · rw [if_neg h2]
      have h1 : m = |x| := by tauto
      rw [if_pos h1]
      by_cases hs : x > 0
      · have := fwd x h1 hs
        rw [if_pos hs]; simp [IsPanel, rel, dot, centre, axisA, axisB]; rw [this]; exact ⟨hpos, hy, hz⟩
      · have := bwd x h1 hs
        rw [if_neg hs]; simp [IsPanel, rel, dot, centre, axisA, axisB]; rw [this]
        exact ⟨by linarith, hy, hz⟩

/-- **C36 (to the panels).**  Every longitude and latitude is converted: to an existing panel, to coordinates within
that panel, and to those that denote the same point of the sphere. -/
theorem C36_total (lon lat : ℝ) : ∃ X Y p, xypFromRLL lon lat = some (X, Y, p) ∧ IsPanel p ∧ |X| ≤ 1 ∧ |Y| ≤ 1 ∧
    image p X Y = lonlat lon lat := by
  have hv := lonlat_unit lon lat
  obtain ⟨h1, h2, h3, h4⟩ := panelOf_spec _ hv
  have h5 := toLocal_rel _ h1 (lonlat lon lat)
  have h6 := (image_of_unit _ h1 (lonlat lon lat) hv h2).1
  set p := panelOf (lonlat lon lat).1 (lonlat lon lat).2.1 (lonlat lon lat).2.2 with hp
  refine ⟨(rel p (lonlat lon lat)).1 / (rel p (lonlat lon lat)).2.2,
    (rel p (lonlat lon lat)).2.1 / (rel p (lonlat lon lat)).2.2, p, ?_, h1, ?_, ?_, h6⟩
  · simp only [lonlat] at hp
    unfold xypFromRLL
    simp only
    rw [← hp]
    simp only [lonlat] at h5 ⊢
    rw [h5]
  · rw [abs_div, abs_of_pos h2]; exact (div_le_one h2).2 h3
  · rw [abs_div, abs_of_pos h2]; exact (div_le_one h2).2 h4

/-- **C36 (to the panels, equiangular).**  The equiangular coordinates are within a quarter of π of the centre and
their tangents denote the same point. -/
theorem C36_total_angles (lon lat : ℝ) : ∃ A B p, abpFromRLL lon lat = some (A, B, p) ∧ IsPanel p ∧
    |A| ≤ π / 4 ∧ |B| ≤ π / 4 ∧ image p (tan A) (tan B) = lonlat lon lat := by
  obtain ⟨X, Y, p, h, hp, hX, hY, hi⟩ := C36_total lon lat
  have key : ∀ x : ℝ, |x| ≤ 1 → |arctan x| ≤ π / 4 := by
    intro x hx
    rw [abs_le] at hx ⊢
    rw [← Real.arctan_one, ← Real.arctan_neg]
    exact ⟨Real.arctan_strictMono.monotone hx.1, Real.arctan_strictMono.monotone hx.2⟩
  refine ⟨arctan X, arctan Y, p, ?_, hp, key X hX, key Y hY, ?_⟩
  · unfold abpFromRLL; rw [h]
  · rw [Real.tan_arctan, Real.tan_arctan, hi]

theorem wrapLon_range {t : ℝ} (h : -(2 * π) ≤ t) (h' : t < 2 * π) : 0 ≤ wrapLon t ∧ wrapLon t < 2 * π := by
  unfold wrapLon
  split_ifs <;> constructor <;> linarith

theorem latEq_range (X Y : ℝ) : |latEq X Y| < π / 2 := by
  rw [abs_lt]; exact ⟨Real.neg_pi_div_two_lt_arctan _, Real.arctan_lt_pi_div_two _⟩

theorem latNorth_range (X Y : ℝ) : 0 < latNorth X Y ∧ latNorth X Y ≤ π / 2 := by
  unfold latNorth
  have h1 := Real.arctan_lt_pi_div_two (√(X * X + Y * Y))
  have h2 : 0 ≤ arctan (√(X * X + Y * Y)) := Real.arctan_nonneg.2 (Real.sqrt_nonneg _)
  constructor <;> linarith

theorem northLon_range (X Y : ℝ) : -π < northLon X Y ∧ northLon X Y ≤ π := by
  have := Real.pi_pos
  unfold northLon
  split_ifs
  · exact ⟨Complex.neg_pi_lt_arg _, Complex.arg_le_pi _⟩
  · constructor <;> linarith
  · constructor <;> linarith

theorem southLon_range (X Y : ℝ) : -π < southLon X Y ∧ southLon X Y ≤ π := by
  have := Real.pi_pos
  unfold southLon
  split_ifs
  · exact ⟨Complex.neg_pi_lt_arg _, Complex.arg_le_pi _⟩
  · constructor <;> linarith
  · constructor <;> linarith

/-- **C36 (range).**  The longitude reported for any panel coordinates is at least 0 and less than 2π, and the latitude
is at least -π/2 and at most π/2. -/
theorem C36_range (X Y lon lat : ℝ) (p : Int) (h : rllFromXYP X Y p = some (lon, lat)) :
    0 ≤ lon ∧ lon < 2 * π ∧ |lat| ≤ π / 2 := by
  have hpi := Real.pi_pos
  have a1 := Real.neg_pi_div_two_lt_arctan X
  have a2 := Real.arctan_lt_pi_div_two X
  have l1 := (latEq_range X Y).le
  have l2 := latNorth_range X Y
  have g1 := northLon_range X Y
  have g2 := southLon_range X Y
  unfold rllFromXYP at h
  split_ifs at h
  all_goals simp only [Option.some.injEq, Prod.mk.injEq] at h
  all_goals obtain ⟨rfl, rfl⟩ := h
  · exact ⟨(wrapLon_range (by linarith) (by linarith)).1, (wrapLon_range (by linarith) (by linarith)).2, l1⟩
  · exact ⟨(wrapLon_range (by linarith) (by linarith)).1, (wrapLon_range (by linarith) (by linarith)).2, l1⟩
  · exact ⟨(wrapLon_range (by linarith) (by linarith)).1, (wrapLon_range (by linarith) (by linarith)).2, l1⟩
  · exact ⟨(wrapLon_range (by linarith) (by linarith)).1, (wrapLon_range (by linarith) (by linarith)).2, l1⟩
  · refine ⟨(wrapLon_range (by linarith) (by linarith)).1, (wrapLon_range (by linarith) (by linarith)).2, ?_⟩
    rw [abs_le]; unfold latNorth at l2; constructor <;> linarith
  · refine ⟨(wrapLon_range (by linarith) (by linarith)).1, (wrapLon_range (by linarith) (by linarith)).2, ?_⟩
    rw [abs_le]; unfold latNorth at l2; constructor <;> linarith

theorem image_frame (p : Int) (X Y : ℝ) : image p X Y = frame p (X / √(1 + X * X + Y * Y)) (Y / √(1 + X * X + Y * Y))
    (1 / √(1 + X * X + Y * Y)) := by
  unfold image frame; module

/-- **C36 (from the panels).**  The longitude and latitude reported for panel coordinates denote the same point of the
sphere (on the polar panels, where the longitude is exact). -/
theorem C36_from (X Y lon lat : ℝ) (p : Int) (hx : LonOK p X) (h : rllFromXYP X Y p = some (lon, lat)) :
    lonlat lon lat = image p X Y := by
  have hr := roots X Y
  have hc := hr.c_pos
  have hd := hr.d_pos
  have hcc := hr.cc
  have hRR := hr.RR
  obtain ⟨⟨a1, a2⟩, ⟨b1, b2⟩, ⟨c1, c2⟩, ⟨d1, d2⟩⟩ := lon_trig X
  have l1 := cos_latEq X Y
  have l2 := sin_latEq X Y
  have l3 := cos_latNorth X Y
  have l4 := sin_latNorth X Y
  have l5 := cos_latSouth X Y
  have l6 := sin_latSouth X Y
  unfold latEq at l1 l2
  unfold latNorth at l3 l4
  unfold latSouth at l5 l6
  rw [image_frame]
  unfold rllFromXYP at h
  split_ifs at h with q0 q1 q2 q3 q4 q5
  all_goals simp only [Option.some.injEq, Prod.mk.injEq] at h
  all_goals obtain ⟨rfl, rfl⟩ := h
  · subst q0
    simp only [lonlat, a1, a2, l1, l2]
    generalize √(1 + X * X) = c at *
    generalize √(1 + X * X + Y * Y) = d at *
    refine Prod.ext ?_ (Prod.ext ?_ ?_) <;> simp [frame, centre, axisA, axisB] <;> field_simp
  · subst q1
    simp only [lonlat, b1, b2, l1, l2]
    generalize √(1 + X * X) = c at *
    generalize √(1 + X * X + Y * Y) = d at *
    refine Prod.ext ?_ (Prod.ext ?_ ?_) <;> simp [frame, centre, axisA, axisB] <;> field_simp
  · subst q2
    simp only [lonlat, c1, c2, l1, l2]
    generalize √(1 + X * X) = c at *
    generalize √(1 + X * X + Y * Y) = d at *
    refine Prod.ext ?_ (Prod.ext ?_ ?_) <;> simp [frame, centre, axisA, axisB] <;> field_simp
  · subst q3
    simp only [lonlat, d1, d2, l1, l2]
    generalize √(1 + X * X) = c at *
    generalize √(1 + X * X + Y * Y) = d at *
    refine Prod.ext ?_ (Prod.ext ?_ ?_) <;> simp [frame, centre, axisA, axisB] <;> field_simp
  · subst q4
    obtain ⟨g1, g2⟩ := northLon_spec (Y := Y) (hx (Or.inl rfl))
    simp only [lonlat, cos_wrapLon, sin_wrapLon, l3, l4]
    generalize √(X * X + Y * Y) = R at *
    generalize √(1 + X * X + Y * Y) = d at *
    refine Prod.ext ?_ (Prod.ext ?_ ?_) <;> simp [frame, centre, axisA, axisB] <;> field_simp <;> linarith
  · subst q5
    obtain ⟨g1, g2⟩ := southLon_spec (Y := Y) (hx (Or.inr rfl))
    simp only [lonlat, cos_wrapLon, sin_wrapLon, l5, l6]
    generalize √(X * X + Y * Y) = R at *
    generalize √(1 + X * X + Y * Y) = d at *
    refine Prod.ext ?_ (Prod.ext ?_ ?_) <;> simp [frame, centre, axisA, axisB] <;> field_simp <;> linarith

/-- Longitudes in range and latitudes away from the poles are determined by the point. -/
theorem lonlat_unique {lon lat lon' lat' : ℝ} (h : lonlat lon lat = lonlat lon' lat') (h1 : 0 ≤ lon) (h2 : lon < 2 * π)
    (h3 : 0 ≤ lon') (h4 : lon' < 2 * π) (h5 : |lat| < π / 2) (h6 : |lat'| ≤ π / 2) : lon = lon' ∧ lat = lat' := by
  simp only [lonlat, Prod.mk.injEq] at h
  obtain ⟨hx, hy, hz⟩ := h
  rw [abs_lt] at h5
  rw [abs_le] at h6
  have hlat : lat = lat' := Real.injOn_sin ⟨h5.1.le, h5.2.le⟩ ⟨h6.1, h6.2⟩ hz
  subst hlat
  have hc : 0 < cos lat := Real.cos_pos_of_mem_Ioo ⟨h5.1, h5.2⟩
  have hx' : cos lon = cos lon' := mul_right_cancel₀ hc.ne' hx
  have hy' : sin lon = sin lon' := mul_right_cancel₀ hc.ne' hy
  refine ⟨?_, rfl⟩
  have h7 : cos (lon - lon') = 1 := by
    rw [Real.cos_sub, hx', hy']
    have := Real.sin_sq_add_cos_sq lon'
    nlinarith
  have h8 := (Real.cos_eq_one_iff_of_lt_of_lt (by linarith) (by linarith)).1 h7
  linarith

/-- **C36 (round trips).**  Panel coordinates computed from a longitude in `[0, 2π)` and a latitude strictly between
the poles convert back to that longitude and latitude. -/
theorem C36_roundtrip (lon lat X Y : ℝ) (p : Int) (h1 : 0 ≤ lon) (h2 : lon < 2 * π) (h3 : |lat| < π / 2)
    (h : xypFromRLL lon lat = some (X, Y, p)) (hx : LonOK p X) : rllFromXYP X Y p = some (lon, lat) := by
  obtain ⟨X', Y', p', h', hp, -, -, hi⟩ := C36_total lon lat
  rw [h] at h'
  simp only [Option.some.injEq, Prod.mk.injEq] at h'
  obtain ⟨rfl, rfl, rfl⟩ := h'
  obtain ⟨lon', lat', hl⟩ : ∃ lon lat, rllFromXYP X Y p = some (lon, lat) := by
    rcases hp with rfl | rfl | rfl | rfl | rfl | rfl <;> exact ⟨_, _, by simp [rllFromXYP]; exact ⟨rfl, rfl⟩⟩
  obtain ⟨r1, r2, r3⟩ := C36_range X Y lon' lat' p hl
  have hf := C36_from X Y lon' lat' p hx hl
  obtain ⟨rfl, rfl⟩ := lonlat_unique (hi.symm.trans hf.symm) h1 h2 r1 r2 h3 r3
  exact hl

/-- **C36 (round trips).**  The longitude and latitude of a point inside a panel convert back to that panel and to its
coordinates. -/
theorem C36_roundtrip_panel (X Y : ℝ) (p : Int) (hp : IsPanel p) (hx : LonOK p X) (hX : |X| < 1) (hY : |Y| < 1) :
    (rllFromXYP X Y p).bind (fun l => xypFromRLL l.1 l.2) = some (X, Y, p) := by
  obtain ⟨lon, lat, hl⟩ : ∃ lon lat, rllFromXYP X Y p = some (lon, lat) := by
    rcases hp with rfl | rfl | rfl | rfl | rfl | rfl <;> exact ⟨_, _, by simp [rllFromXYP]; exact ⟨rfl, rfl⟩⟩
  have hf := C36_from X Y lon lat p hx hl
  obtain ⟨X', Y', p', h', hp', hX', hY', hi⟩ := C36_total lon lat
  rw [hl]
  simp only [Option.bind_some, h']
  rw [hf] at hi
  have hpp : p' = p := by
    have hr : rel p' (image p X Y) = rel p' (image p' X' Y') := by rw [hi]
    have hr2 : rel p (image p X Y) = rel p (image p' X' Y') := by rw [hi]
    have s1 := (scale_spec X Y).1
    have s2 := (scale_spec X' Y').1
    unfold image at hr hr2
    generalize 1 / √(1 + X * X + Y * Y) = s at *
    generalize 1 / √(1 + X' * X' + Y' * Y') = s' at *
    rw [abs_lt] at hX hY
    rw [abs_le] at hX' hY'
    by_contra hne
    rcases hp with rfl | rfl | rfl | rfl | rfl | rfl <;> rcases hp' with rfl | rfl | rfl | rfl | rfl | rfl <;>
      (first | exact absurd rfl hne | skip) <;> clear hx hl h' hf hi hne <;>
      simp [rel, dot, centre, axisA, axisB] at hr hr2 <;> (try obtain ⟨e1, e2, e3⟩ := hr) <;>
      (try obtain ⟨f1, f2, f3⟩ := hr2) <;> nlinarith
  subst hpp
  obtain ⟨rfl, rfl⟩ := C33_injective X' Y' X Y p' hp' (by
    rw [(C33_projection _ _ _).1 hp', (C33_projection _ _ _).1 hp', hi])
  rfl

theorem lat_lt (X Y lon lat : ℝ) (p : Int) (h0 : p = 4 ∨ p = 5 → X ≠ 0 ∨ Y ≠ 0)
    (h : rllFromXYP X Y p = some (lon, lat)) : |lat| < π / 2 := by
  have hpi := Real.pi_pos
  have l1 := latEq_range X Y
  have h2 := Real.arctan_lt_pi_div_two (√(X * X + Y * Y))
  unfold rllFromXYP at h
  split_ifs at h with q0 q1 q2 q3 q4 q5
  all_goals simp only [Option.some.injEq, Prod.mk.injEq] at h
  all_goals obtain ⟨-, rfl⟩ := h
  · exact l1
  · exact l1
  · exact l1
  · exact l1
  · have := Real.arctan_pos.2 (radius_pos (h0 (Or.inl q4)))
    rw [abs_lt]; constructor <;> linarith
  · have := Real.arctan_pos.2 (radius_pos (h0 (Or.inr q5)))
    rw [abs_lt]; constructor <;> linarith

/-- **C35 (agreement with longitude-latitude components).**  For panels sharing an edge and a point in front of both,
away from the pole, converting eastward and northward components to one panel and on to the other is the same as
converting them to the other panel directly; so it is for covariant components. -/
theorem C35_lonlat (X Y Xs Ys ulon ulat : ℝ) (p q : Int) (hadj : Adjacent p q)
    (hpt : xypFromXYP X Y q p = some (Xs, Ys)) (hxq : LonOK q X) (hxp : LonOK p Xs) (hq : ¬ atPole X Y q)
    (hp : ¬ atPole Xs Ys p) :
    (vecABPFromRLL Xs Ys p ulon ulat).bind (fun v => vecPanelTrans p q v.1 v.2 X Y) = vecABPFromRLL X Y q ulon ulat ∧
    (coVecABPFromRLL Xs Ys p ulon ulat).bind (fun v => coVecPanelTrans p q v.1 v.2 X Y) =
      coVecABPFromRLL X Y q ulon ulat := by
  have hpp := hadj.1
  have hqq := hadj.2.1
  have some_rll : ∀ (X Y : ℝ) (p : Int), IsPanel p → ∃ lon lat, rllFromXYP X Y p = some (lon, lat) := by
    intro X Y p hp
    rcases hp with rfl | rfl | rfl | rfl | rfl | rfl <;> exact ⟨_, _, by simp [rllFromXYP]; exact ⟨rfl, rfl⟩⟩
  obtain ⟨lon, lat, h1⟩ := some_rll Xs Ys p hpp
  obtain ⟨lon', lat', h2⟩ := some_rll X Y q hqq
  have hsame := (C33_panels X Y Xs Ys q p hqq hpp).1 hpt
  have e1 := C36_from Xs Ys lon lat p hxp h1
  have e2 := C36_from X Y lon' lat' q hxq h2
  obtain ⟨r1, r2, -⟩ := C36_range Xs Ys lon lat p h1
  obtain ⟨r3, r4, r5⟩ := C36_range X Y lon' lat' q h2
  obtain ⟨rfl, rfl⟩ := lonlat_unique (e1.trans (hsame.symm.trans e2.symm)) r1 r2 r3 r4
    (lat_lt Xs Ys lon lat p (notPole_ne hp) h1) r5
  constructor
  · obtain ⟨a, b, ha, hab⟩ := C34_vector_from Xs Ys ulon ulat lon lat p hpp hxp hp h1
    obtain ⟨c, d, hc, hcd⟩ := C34_vector_from X Y ulon ulat lon lat q hqq hxq hq h2
    obtain ⟨⟨a', b'⟩, hv⟩ := Option.isSome_iff_exists.1 ((C35_defined p q hpp hqq a b X Y).1.2 hadj)
    have := C35_vector X Y Xs Ys a b a' b' p q hadj hpt hv
    obtain ⟨rfl, rfl⟩ := physical_injective hqq (this.trans (hab.trans hcd.symm))
    rw [ha, hc, Option.bind_some, hv]
  · rw [C34_covector_from Xs Ys ulon ulat lon lat p hpp hxp hp h1,
      C34_covector_from X Y ulon ulat lon lat q hqq hxq hq h2, Option.bind_some]
    exact coVec_same X Y Xs Ys _ p q hadj hpt

/-- A point of the northern panel away from the pole, with its components. -/
example : IsPanel 4 ∧ LonOK 4 1 ∧ ¬ atPole 1 0 4 ∧ |(1 / 2 : ℝ)| < 1 ∧ LonOK 4 (1 / 2) ∧
    (vecABPFromRLL 1 0 4 1 0).bind (fun v => vecRLLFromABP 1 0 4 v.1 v.2) = some (1, 0) ∧
    Adjacent 0 4 ∧ xypFromXYP 0 (-1) 4 0 = some (0, 1) := by
  have hp : ¬ atPole 1 0 4 := by rintro ⟨-, h, -⟩; norm_num at h
  have hl : LonOK 4 1 := by intro _; right; rw [dblEpsilon]; norm_num
  have h4 : IsPanel 4 := by simp [IsPanel]
  refine ⟨h4, hl, hp, by norm_num [abs_of_pos], ?_, (C34_roundtrip 1 0 1 0 4 h4 hl hp).1, ?_, ?_⟩
  · intro _; right; rw [dblEpsilon]; norm_num [abs_of_pos]
  · exact ⟨by simp [IsPanel], h4, by decide, by simp [dot, centre]⟩
  · rw [C33_panels _ _ _ _ _ _ h4 (by simp [IsPanel])]
    simp [image, centre, axisA, axisB]

/-- Longitude 0 on the equator is the centre of panel 0, and is reported back. -/
example : ∃ X Y p, xypFromRLL 0 0 = some (X, Y, p) ∧ LonOK p X ∧ (0 : ℝ) < 2 * π ∧ |(0 : ℝ)| < π / 2 := by
  have hpi := Real.pi_pos
  have hp : panelOf 1 0 0 = 0 := by simp [panelOf]
  refine ⟨0, 0, 0, ?_, ?_, by linarith, by simp [hpi]⟩
  · simp [xypFromRLL, hp, toLocal]
  · intro h; omega

end Verif.Sphere
