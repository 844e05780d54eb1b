import Verif.Init.Props

/-!
# Test cases and patches that meet the hypotheses of C100
-/

namespace Verif.Init

open Verif.Horiz Verif.Metric Verif.Sphere
open Verif.Halo (Momenta)

/-- A patch of two by two nodes on panel `p` with two levels and a tracer. -/
noncomputable def sampleSite (p : Int) (e : Equations) (form : Formulation) : Site where
  na := 2
  nb := 2
  levels := if e = .shallow then 1 else 2
  tracers := 1
  instances := 2
  tracerInstances := 2
  panel := p
  alpha := fun i => i / 10
  beta := fun j => j / 10
  level := fun k => (2 * k + 1) / 4
  interface := fun k => k / 2
  vorder := 1
  eqs := e
  form := form
  mom := .covariant
  radius := 2
  pressure := fun x => x
  S := ⟨2, 1, 1, 2, 1, 0⟩
  B := ⟨fun _ _ => 0, fun _ _ => 0⟩
  deltaA := 1
  deltaB := 1

/-- Air that moves, with a mountain below it and a tracer in it. -/
noncomputable def sampleTest : Test where
  ztop := 10
  hasRayleigh := false
  hasReference := true
  diffusion := (0, 1)
  topography := fun lon _ => lon ^ 2 / (1 + lon ^ 2)
  rayleigh := fun _ _ _ => 0
  state := fun z lon lat _ => ⟨fun c => if c = 0 then z else if c = 1 then lon + 1 else if c = 2 then 300 + lat else 1,
    fun _ => z + lat⟩
  reference6 := some (fun z _ _ _ => ⟨fun c => if c < 2 then 0 else if c = 2 then 300 + z else 1, fun _ => 7⟩)
  reference5 := some (fun z _ _ _ c => if c < 2 then 0 else if c = 2 then 300 + z else 1)
  perturbation := some (fun _ _ _ _ => ⟨fun c => if c = 4 then 0 else 1, fun _ => 5⟩)

/-- The arrays as they are allocated. -/
def zeros : Arrays where
  node := fun _ _ _ _ _ => 0
  edge := fun _ _ _ _ _ => 0
  tracer := fun _ _ _ _ _ => 0
  refNode := fun _ _ _ _ => 0
  refEdge := fun _ _ _ _ => 0
  refTracer := fun _ _ _ _ => 0
  topo := ⟨fun _ => 0, fun _ => 0, fun _ => 0⟩
  height := ⟨fun _ _ _ => 0, fun _ _ _ => 0, fun _ _ _ => 0, fun _ _ _ => 0⟩

theorem sampleTest_below (lon lat : ℝ) : sampleTest.topography lon lat < 10 := by
  have h : 0 < 1 + lon ^ 2 := by positivity
  show lon ^ 2 / (1 + lon ^ 2) < 10
  rw [div_lt_iff₀ h]
  nlinarith [sq_nonneg lon]

theorem sample_rows (p : Int) (f : Formulation) : (sampleSite p .nonhydro f).tracerRows = 1 := rfl

theorem sample_sphere (p : Int) (hp : IsPanel p) (e : Equations) (he : e ≠ .advection) (f : Formulation) (r : Bool)
    (A : Arrays) : ∃ A', evaluate .sphere (sampleSite p e f) sampleTest 10 r 1 A = .ok A' :=
  (C100_defined_sphere (by show 0 < 2; omega) (by show 0 < 2; omega)).2
    ⟨by show 1 < 2; omega, fun _ => rfl, hp, he, fun _ => Or.inl rfl⟩

theorem sample_plane (e : Equations) (f : Formulation) (r : Bool) (A : Arrays) :
    ∃ A', evaluate .plane (sampleSite 0 e f) sampleTest 10 r 1 A = .ok A' :=
  (C100_defined_plane (by show 0 < 2; omega) (by show 0 < 2; omega)).2
    ⟨by show 1 < 2; omega, fun _ => rfl, fun i _ j _ => sampleTest_below _ _, fun _ => rfl⟩

theorem sample_fills : Fills 5 sampleTest.state (fun z lon lat c =>
    if c = 0 then z else if c = 1 then lon + 1 else if c = 2 then 300 + lat else 1) := fun _ _ _ _ _ _ => rfl

/-- The hypotheses of `C100_sphere` hold together, also for the nodes at which winds are regular: on panel 0 all are. -/
example : ∃ A', evaluate .sphere (sampleSite 0 .nonhydro .rhoTheta) sampleTest 10 true 1 zeros = .ok A' ∧
    (∃ f, Fills 5 sampleTest.state f ∧ f 1 0 0 0 ≠ f 2 0 0 0) ∧
    (∃ lon lat, rllFromABP ((sampleSite 0 .nonhydro .rhoTheta).alpha 1) ((sampleSite 0 .nonhydro .rhoTheta).beta 1) 0 =
      some (lon, lat)) ∧ ∀ X Y, Regular 0 X Y := by
  obtain ⟨A', h⟩ := sample_sphere 0 (Or.inl rfl) .nonhydro (by decide) .rhoTheta true zeros
  refine ⟨A', h, ⟨_, sample_fills, by norm_num⟩, ⟨_, _, by simp only [rllFromABP, rllFromXYP, if_true]; rfl⟩,
    fun X Y => ⟨?_, ?_⟩⟩
  · rintro ⟨h, _⟩; omega
  · rintro (h | h) <;> omega

/-- The hypotheses of `C100_plane`, and a reference state for `C100_reference_plane_partial`. -/
example : ∃ A', evaluate .plane (sampleSite 0 .nonhydro .rhoTheta) sampleTest 10 true 1 zeros = .ok A' ∧
    (∃ f, Fills 5 sampleTest.state f ∧ f 1 0 0 0 ≠ f 2 0 0 0) ∧ ∃ f, Reference5 5 sampleTest f ∧ f 1 0 0 2 ≠ f 2 0 0 2 := by
  obtain ⟨A', h⟩ := sample_plane .nonhydro .rhoTheta true zeros
  exact ⟨A', h, ⟨_, sample_fills, by norm_num⟩, _, ⟨_, rfl, fun _ _ _ _ _ _ => rfl⟩, by norm_num⟩

/-- The hypotheses of `C100_shallow`. -/
example : ∃ A', evaluate .sphere (sampleSite 0 .shallow .rhoTheta) sampleTest 10 true 1 zeros = .ok A' ∧
    (sampleSite 0 .shallow .rhoTheta).levels = 1 ∧ ∃ f, Fills 3 sampleTest.state f ∧ f 1 0 0 0 ≠ f 2 0 0 0 := by
  obtain ⟨A', h⟩ := sample_sphere 0 (Or.inl rfl) .shallow (by decide) .rhoTheta true zeros
  exact ⟨A', h, rfl, _, fun z lon lat b c hc => sample_fills z lon lat b c (by omega), by norm_num⟩

/-- The hypotheses of `C100_tracers` and of the tracers of `C100_reference_sphere`. -/
example : (∃ g, FillsTracers 1 sampleTest.state g ∧ g 1 0 0 0 ≠ g 2 0 0 0) ∧
    ∃ f g, Reference6 5 (sampleSite 0 .nonhydro .rhoTheta).tracerRows sampleTest f g ∧ g 0 0 0 0 = 7 := by
  refine ⟨⟨fun z _ lat _ => z + lat, fun c _ => Or.inl fun _ _ _ _ => rfl, by norm_num⟩,
    fun z _ _ c => if c < 2 then 0 else if c = 2 then 300 + z else 1, fun _ _ _ _ => 7,
    Or.inl ⟨_, rfl, fun _ _ _ _ _ _ => rfl, fun c _ => Or.inl fun _ _ _ _ => rfl⟩, rfl⟩

/-- A grid of six patches, one on each panel, can be evaluated. -/
example : ∃ G', gridEvaluate .sphere sampleTest 1 ⟨0, false, false, (0, 0), false,
    ([0, 1, 2, 3, 4, 5] : List Int).map (fun p => (sampleSite p .nonhydro .rhoTheta, zeros))⟩ = .ok G' := by
  have key : ∀ p : Int, IsPanel p → ∃ A', evaluate .sphere (sampleSite p .nonhydro .rhoTheta) sampleTest
      sampleTest.ztop sampleTest.hasReference 1 zeros = .ok A' :=
    fun p hp => sample_sphere p hp .nonhydro (by decide) .rhoTheta true zeros
  obtain ⟨A0, h0⟩ := key 0 (by unfold IsPanel; omega)
  obtain ⟨A1, h1⟩ := key 1 (by unfold IsPanel; omega)
  obtain ⟨A2, h2⟩ := key 2 (by unfold IsPanel; omega)
  obtain ⟨A3, h3⟩ := key 3 (by unfold IsPanel; omega)
  obtain ⟨A4, h4⟩ := key 4 (by unfold IsPanel; omega)
  obtain ⟨A5, h5⟩ := key 5 (by unfold IsPanel; omega)
  unfold gridEvaluate
  simp only [List.map_cons, List.map_nil, List.mapM_cons, List.mapM_nil, h0, h1, h2, h3, h4, h5]
  exact ⟨_, rfl⟩

/-! ### Where the code falls short of C100 -/

/-- **C100 is false of the tracers of a reference state on a Cartesian grid.**  They are zero there, whatever the test
case says of them. -/
theorem C100_reference_tracers_false (P : Site) (T : Test) (ztop : ℝ) (n : Nat) (A A' : Arrays)
    (h : evaluate .plane P T ztop true n A = .ok A') (i j k c : Nat) (hi : i < P.na) (hj : j < P.nb) (hk : k < P.levels)
    (hc : c < P.tracerRows) : A'.refTracer c i j k = 0 := by
  obtain ⟨_, _, D, _⟩ := plane_done h
  obtain ⟨b₀, b, v, f, _, _, _, _, q4, q5⟩ := D.ref rfl i hi j hj k hk
  rw [q4 c hc]
  exact q5 c (fun i j z b b' h => by rw [h.2])

/-- The sample test case says that its reference state has a tracer equal to seven, and is evaluated without complaint. -/
example : ∃ A' f g, evaluate .plane (sampleSite 0 .nonhydro .rhoTheta) sampleTest 10 true 1 zeros = .ok A' ∧
    Reference6 5 1 sampleTest f g ∧ A'.refTracer 0 0 0 0 = 0 ∧ ∀ z, g z 0 0 0 = 7 := by
  obtain ⟨A', h⟩ := sample_plane .nonhydro .rhoTheta true zeros
  refine ⟨A', fun z _ _ c => if c < 2 then 0 else if c = 2 then 300 + z else 1, fun _ _ _ _ => 7, h,
    Or.inl ⟨_, rfl, fun _ _ _ _ _ _ => rfl, fun c _ => Or.inl fun _ _ _ _ => rfl⟩,
    C100_reference_tracers_false _ _ _ _ _ _ h 0 0 0 0 (by decide) (by decide) (by decide) (by decide), fun _ => rfl⟩

/-- **C100 is false of a reference state given with tracers on a Cartesian grid.**  If the test case gives its reference
state with tracers only, the evaluation never succeeds, although it does on the cubed sphere. -/
theorem C100_reference_false (P : Site) (T : Test) (ztop : ℝ) (n : Nat) (A : Arrays) (ha : 0 < P.na) (hb : 0 < P.nb)
    (h6 : T.reference6.isSome) (h5 : T.reference5 = none) :
    (¬ ∃ A', evaluate .plane P T ztop true n A = .ok A') ∧
    (n < P.instances → (P.eqs = .shallow → P.vorder = 1) → IsPanel P.panel → P.eqs ≠ .advection →
      ∃ A', evaluate .sphere P T ztop true n A = .ok A') := by
  refine ⟨fun h => ?_, fun h1 h2 h3 h4 => (C100_defined_sphere ha hb).2 ⟨h1, h2, h3, h4, fun _ => Or.inl h6⟩⟩
  have := ((C100_defined_plane ha hb).1 h).2.2.2 rfl
  rw [h5] at this
  simp at this

/-- **C100 is false of the wind at the south pole.**  At a node at the south pole a wind along the meridian is turned
around. -/
theorem C100_wind_false (P : Site) (T : Test) (ztop : ℝ) (hasRef : Bool) (n : Nat) (A A' : Arrays)
    (h : evaluate .sphere P T ztop hasRef n A = .ok A') (he : P.eqs = .nonhydro) (hm : P.mom = .covariant)
    (f : ℝ → ℝ → ℝ → Nat → ℝ) (hf : Fills 5 T.state f) (i j k : Nat) (hi : i < P.na) (hj : j < P.nb) (hk : k < P.levels)
    (hp : P.panel = 5) (ha : P.alpha i = 0) (hb : P.beta j = 0) (hR : P.radius ≠ 0) (lon lat : ℝ)
    (hl : rllFromABP (P.alpha i) (P.beta j) P.panel = some (lon, lat)) (z : ℝ)
    (hz : z = sphereHeight ztop (T.topography lon lat) (P.level k)) (hv : f z lon lat 1 ≠ 0) (rho : ℝ) :
    ¬ SphereWind P.mom P.radius P.panel (Real.tan (P.alpha i)) (Real.tan (P.beta j)) lon lat rho
      (f z lon lat 0) (f z lon lat 1) (A'.node n 0 i j k, A'.node n 1 i j k) := by
  obtain ⟨_, hp', D, hh, _⟩ := sphere_done h
  have hh := (hh (by rw [he]; decide)).level i hi j hj k hk
  have el := lonlat_of hl
  obtain ⟨b, v, w, q1, ⟨h2, r, hr, rfl⟩, q3⟩ := D.state i hi j hj k hk
  have cs := convert_spec P _ v q1 he
  rw [hm] at cs
  simp only [motion] at cs
  rw [hh, el, ← hz] at cs
  have e1 : v 1 = f z lon lat 1 := by rw [cs.2.2, hf _ _ _ _ 1 (by omega)]
  have hx : P.x i = 0 := by unfold Site.x; rw [ha, Real.tan_zero]
  have hy : P.y j = 0 := by unfold Site.y; rw [hb, Real.tan_zero]
  have hpole : atPole 0 0 5 := ⟨by norm_num, by norm_num, by norm_num⟩
  have er : r = (-(v 0 * P.radius), v 1 * P.radius) := by
    unfold turned at hr
    rw [hm] at hr
    dsimp only at hr
    rw [hx, hy, hp] at hr
    unfold coVecABPFromRLL at hr
    dsimp only at hr
    rw [if_pos hpole] at hr
    simpa using hr.symm
  have elat : lat = -(Real.pi / 2) ∧ lon = Real.pi := by
    unfold rllFromABP at hl
    rw [ha, hb, hp, Real.tan_zero] at hl
    simp [rllFromXYP, southLon, wrapLon, dblEpsilon] at hl
    have hpi := Real.pi_pos
    constructor
    · linarith [hl.2]
    · have h5 : (0 : ℝ) ≤ (2 ^ 52)⁻¹ := by positivity
      have h6 := hl.1
      split_ifs at h6 <;> linarith
  rw [hm, hp, ha, hb, Real.tan_zero]
  intro hw
  have h1 := hw.2
  rw [q3 1 (by unfold Site.rows at h2 ⊢; omega)] at h1
  simp only [set1, if_true, er, e1] at h1
  generalize f z lon lat 1 = V at hv h1
  generalize f z lon lat 0 = U at h1
  rw [elat.1, elat.2] at h1
  simp [dot, wind, east, north, tangentB, axisB, centre] at h1
  have : V * P.radius = 0 := by linarith
  rcases mul_eq_zero.1 this with h | h
  · exact hv h
  · exact hR h

/-- The first node of a patch of panel 5 is at the south pole, and the sample test case has a wind to the north there. -/
example : ∃ A' lon lat, evaluate .sphere (sampleSite 5 .nonhydro .rhoTheta) sampleTest 10 false 1 zeros = .ok A' ∧
    (sampleSite 5 .nonhydro .rhoTheta).alpha 0 = 0 ∧ (sampleSite 5 .nonhydro .rhoTheta).beta 0 = 0 ∧
    rllFromABP 0 0 5 = some (lon, lat) ∧ lon + 1 ≠ 0 := by
  obtain ⟨A', h⟩ := sample_sphere 5 (by unfold IsPanel; omega) .nonhydro (by decide) .rhoTheta false zeros
  refine ⟨A', wrapLon (southLon 0 0), -(1 / 2 * Real.pi) + Real.arctan (√(0 * 0 + 0 * 0)), h, by simp [sampleSite],
    by simp [sampleSite], by simp [rllFromABP, rllFromXYP], ?_⟩
  have hpi := Real.pi_pos
  unfold wrapLon
  split_ifs with h1
  · unfold southLon at h1
    have h5 : (0 : ℝ) ≤ dblEpsilon := by unfold dblEpsilon; positivity
    rw [if_neg (by rw [abs_zero]; linarith), if_neg (by linarith)] at h1
    linarith
  · linarith

end Verif.Init
