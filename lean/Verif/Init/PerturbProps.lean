import Verif.Init.PerturbLemmas
import Verif.Init.Samples

/-!
# C101: restarting with a disturbance adds it to the state
-/

namespace Verif.Init

open Verif.Horiz Verif.Metric Verif.Sphere
open Verif.Halo (Momenta)

variable {P : Site} {T : Test} {n : Nat} {A A' : Arrays}

theorem perturbs_state {r m : Nat} {d e : ℝ → ℝ → ℝ → Nat → ℝ} (h : Perturbs r m T d e) (b : Buffers)
    (hb : ∀ c, StateLeft T c → b.state c = 0) (z lon lat : ℝ) (c : Nat) (hc : c < r) :
    (T.evalPerturbation z lon lat b).state c = d z lon lat c := by
  unfold Perturbs at h
  cases hp : T.perturbation with
  | none =>
    rw [hp] at h
    have hl : ∀ z lon lat b, T.evalPerturbation z lon lat b = b := by
      intros; unfold Test.evalPerturbation; rw [hp]
    rw [hl, h.1 _ _ _ _ hc]
    exact hb c (fun z lon lat b => by rw [hl])
  | some F =>
    rw [hp] at h
    have hl : ∀ z lon lat b, T.evalPerturbation z lon lat b = F z lon lat b := by
      intros; unfold Test.evalPerturbation; rw [hp]
    rw [hl]
    rcases h.1 c hc with h | ⟨h, h'⟩
    · exact h _ _ _ _
    · rw [h, h']; exact hb c (fun z lon lat b => by rw [hl, h])

theorem perturbs_tracers {r m : Nat} {d e : ℝ → ℝ → ℝ → Nat → ℝ} (h : Perturbs r m T d e) (b : Buffers)
    (hb : ∀ c, TracerLeft T c → b.tracers c = 0) (z lon lat : ℝ) (c : Nat) (hc : c < m) :
    (T.evalPerturbation z lon lat b).tracers c = e z lon lat c := by
  unfold Perturbs at h
  cases hp : T.perturbation with
  | none =>
    rw [hp] at h
    have hl : ∀ z lon lat b, T.evalPerturbation z lon lat b = b := by
      intros; unfold Test.evalPerturbation; rw [hp]
    rw [hl, h.2 _ _ _ _ hc]
    exact hb c (fun z lon lat b => by rw [hl])
  | some F =>
    rw [hp] at h
    have hl : ∀ z lon lat b, T.evalPerturbation z lon lat b = F z lon lat b := by
      intros; unfold Test.evalPerturbation; rw [hp]
    rw [hl]
    rcases h.2 c hc with h | ⟨h, h'⟩
    · exact h _ _ _ _
    · rw [h, h']; exact hb c (fun z lon lat b => by rw [hl, h])

/-- The state `q'` holds the air of `q` with the disturbance `d` added. -/
def Disturbed (P : Site) (X Y lon lat : ℝ) (d : Air) (q q' : Nat → ℝ) : Prop :=
  ∀ a : Air, HoldsScalars P.form P.mom P.pressure a q →
    SphereWind P.mom P.radius P.panel X Y lon lat a.rho a.u a.v (q 0, q 1) →
    HoldsScalars P.form P.mom P.pressure (a.add d) q' ∧
      SphereWind P.mom P.radius P.panel X Y lon lat (a.add d).rho (a.add d).u (a.add d).v (q' 0, q' 1)

theorem disturbed_of (hf : P.form ≠ .pressure) (hm : P.mom = .covariant) (X Y lon lat : ℝ) (v q q' : Nat → ℝ)
    (hq : ∀ c < 5, q' c = added P.form q v c) (hu : v 0 = 0) (hv : v 1 = 0) (hr : P.form = .rhoTheta → v 4 = 0) :
    Disturbed P X Y lon lat (Air.of v) q q' := by
  intro a hs hw
  have h0 : q' 0 = q 0 := by
    rw [hq 0 (by omega)]; cases h : P.form <;> simp [added, hu]
  have h1 : q' 1 = q 1 := by
    rw [hq 1 (by omega)]; cases h : P.form <;> simp [added, hv]
  have h3 : q' 3 = q 3 + v 3 := by
    rw [hq 3 (by omega)]
    cases h : P.form
    · exact absurd h hf
    · simp [added]
    · simp [added]
  have h4 : q' 4 = q 4 + v 4 := by
    rw [hq 4 (by omega)]
    cases h : P.form
    · exact absurd h hf
    · simp [added]
    · simp [added]
  obtain ⟨s1, s2, s3⟩ := hs
  rw [hm] at s2 hw ⊢
  simp only [motion] at s2
  refine ⟨⟨?_, ?_, ?_⟩, ?_⟩
  · rw [hq 2 (by omega)]
    cases h : P.form
    · exact absurd h hf
    · rw [h] at s1
      simp only [heat] at s1
      simp [added, heat, Air.add, Air.of, s1]
    · rw [h] at s1
      simp only [heat] at s1
      simp [added, heat, Air.add, Air.of, s1, s3, hr h]
      ring
  · simp [motion, Air.add, Air.of, h3, s2]
  · simp [Air.add, Air.of, h4, s3]
  · rw [h0, h1]
    simpa [SphereWind, Air.add, Air.of, hu, hv] using hw

/-- **C101 (cubed sphere; partial).**  When a test case disturbs a state on the cubed sphere, every point of every level
and interface holds the air it held before with the disturbance of the test case at that point added, and every tracer
has its disturbance added.  Missing: disturbances of the horizontal wind, disturbances of the density when the state holds
its product with potential temperature, momenta as unknowns, and pressure as an unknown; see the negations below. -/
theorem C101_sphere_partial (h : perturb .sphere P T n A = .ok A') (he : P.eqs = .nonhydro) (hf : P.form ≠ .pressure)
    (hm : P.mom = .covariant) (d e : ℝ → ℝ → ℝ → Nat → ℝ) (hd : Perturbs 5 P.tracerRows T d e)
    (hu : ∀ z lon lat, d z lon lat 0 = 0 ∧ d z lon lat 1 = 0)
    (hr : P.form = .rhoTheta → ∀ z lon lat, d z lon lat 4 = 0)
    (i j : Nat) (hi : i < P.na) (hj : j < P.nb) (lon lat : ℝ)
    (hl : rllFromABP (P.alpha i) (P.beta j) P.panel = some (lon, lat)) :
    (∀ k < P.levels, Disturbed P (Real.tan (P.alpha i)) (Real.tan (P.beta j)) lon lat
      (Air.of (d (A.height.level i j k) lon lat)) (fun c => A.node n c i j k) (fun c => A'.node n c i j k)) ∧
    (∀ k ≤ P.levels, Disturbed P (Real.tan (P.alpha i)) (Real.tan (P.beta j)) lon lat
      (Air.of (d (A.height.interface i j k) lon lat)) (fun c => A.edge n c i j k) (fun c => A'.edge n c i j k)) ∧
    ∀ k < P.levels, ∀ c < P.tracerRows, A'.tracer n c i j k = A.tracer n c i j k + e (A.height.level i j k) lon lat c := by
  obtain ⟨_, D⟩ := sphere_perturbed h
  have el := lonlat_of hl
  have hr5 : P.rows = 5 := by unfold Site.rows; rw [he]; rfl
  refine ⟨fun k hk => ?_, fun k hk => ?_, fun k hk c hc => ?_⟩
  · obtain ⟨b, b1, _, q, _⟩ := D.node i hi j hj k hk
    rw [el] at q
    rw [← Air.of_congr (fun c hc => perturbs_state hd b b1 (A.height.level i j k) lon lat c hc)]
    refine disturbed_of hf hm _ _ _ _ _ _ _ (fun c hc => q c (by omega)) ?_ ?_ ?_
    · rw [perturbs_state hd b b1 _ _ _ 0 (by omega)]; exact (hu _ _ _).1
    · rw [perturbs_state hd b b1 _ _ _ 1 (by omega)]; exact (hu _ _ _).2
    · intro hF; rw [perturbs_state hd b b1 _ _ _ 4 (by omega)]; exact hr hF _ _ _
  · obtain ⟨b, b1, q⟩ := D.edge i hi j hj k (by omega)
    rw [el] at q
    rw [← Air.of_congr (fun c hc => perturbs_state hd b b1 (A.height.interface i j k) lon lat c hc)]
    refine disturbed_of hf hm _ _ _ _ _ _ _ (fun c hc => q c (by omega)) ?_ ?_ ?_
    · rw [perturbs_state hd b b1 _ _ _ 0 (by omega)]; exact (hu _ _ _).1
    · rw [perturbs_state hd b b1 _ _ _ 1 (by omega)]; exact (hu _ _ _).2
    · intro hF; rw [perturbs_state hd b b1 _ _ _ 4 (by omega)]; exact hr hF _ _ _
  · obtain ⟨b, _, b2, _, q⟩ := D.node i hi j hj k hk
    rw [q c hc, el, perturbs_tracers hd b b2 _ _ _ c hc]

/-- **C101 (density and vertical velocity, cubed sphere).**  Unless pressure is an unknown, the disturbances of density and
of vertical velocity are added whatever the other disturbances are. -/
theorem C101_scalars (h : perturb .sphere P T n A = .ok A') (he : P.eqs = .nonhydro) (hf : P.form ≠ .pressure)
    (d e : ℝ → ℝ → ℝ → Nat → ℝ) (hd : Perturbs 5 P.tracerRows T d e) (i j c : Nat) (hi : i < P.na) (hj : j < P.nb)
    (hc : c = 3 ∨ c = 4) (lon lat : ℝ) (hl : rllFromABP (P.alpha i) (P.beta j) P.panel = some (lon, lat)) :
    (∀ k < P.levels, A'.node n c i j k = A.node n c i j k + d (A.height.level i j k) lon lat c) ∧
    ∀ k ≤ P.levels, A'.edge n c i j k = A.edge n c i j k + d (A.height.interface i j k) lon lat c := by
  obtain ⟨_, D⟩ := sphere_perturbed h
  have el := lonlat_of hl
  have hr5 : P.rows = 5 := by unfold Site.rows; rw [he]; rfl
  have ha : ∀ q v : Nat → ℝ, added P.form q v c = q c + v c := by
    intro q v
    cases h : P.form
    · exact absurd h hf
    · rfl
    · simp only [added]; rw [if_neg (by omega)]
  refine ⟨fun k hk => ?_, fun k hk => ?_⟩
  · obtain ⟨b, b1, _, q, _⟩ := D.node i hi j hj k hk
    rw [q c (by omega), ha, el, perturbs_state hd b b1 _ _ _ c (by omega)]
  · obtain ⟨b, b1, q⟩ := D.edge i hi j hj k (by omega)
    rw [q c (by omega), ha, el, perturbs_state hd b b1 _ _ _ c (by omega)]

theorem Arrays.ext' {A B : Arrays} (h1 : A.node = B.node) (h2 : A.edge = B.edge) (h3 : A.tracer = B.tracer)
    (h4 : A.refNode = B.refNode) (h5 : A.refEdge = B.refEdge) (h6 : A.refTracer = B.refTracer) (h7 : A.topo = B.topo)
    (h8 : A.height = B.height) : A = B := by
  cases A; cases B; simp_all

/-- **C101 (no disturbance, cubed sphere).**  A test case that disturbs nothing changes nothing. -/
theorem C101_none (h : perturb .sphere P T n A = .ok A') (hp : T.perturbation = none) : A' = A := by
  obtain ⟨_, D⟩ := sphere_perturbed h
  have hl : ∀ z lon lat b, T.evalPerturbation z lon lat b = b := by
    intros; unfold Test.evalPerturbation; rw [hp]
  have ha : ∀ (q v : Nat → ℝ), (∀ c, v c = 0) → ∀ c, added P.form q v c = q c := by
    intro q v hv c
    cases P.form
    · rfl
    · simp [added, hv]
    · simp only [added]; split_ifs with h
      · rw [hv, h]; simp
      · rw [hv]; simp
  refine Arrays.ext' ?_ ?_ ?_ D.rest.1 D.rest.2.1 D.rest.2.2.1 D.rest.2.2.2.1 D.rest.2.2.2.2
  · funext m c x y z
    by_cases hb : m ≠ n ∨ P.rows ≤ c ∨ P.na ≤ x ∨ P.nb ≤ y ∨ P.levels ≤ z
    · exact D.nodeFrame m c x y z hb
    · push Not at hb
      obtain ⟨rfl, hb⟩ := hb
      obtain ⟨b, b1, _, q, _⟩ := D.node x (by omega) y (by omega) z (by omega)
      rw [q c (by omega), ha]
      intro c; rw [hl]; exact b1 c (fun z lon lat b => by rw [hl])
  · funext m c x y z
    by_cases hb : m ≠ n ∨ P.rows ≤ c ∨ P.na ≤ x ∨ P.nb ≤ y ∨ P.levels + 1 ≤ z
    · exact D.edgeFrame m c x y z hb
    · push Not at hb
      obtain ⟨rfl, hb⟩ := hb
      obtain ⟨b, b1, q⟩ := D.edge x (by omega) y (by omega) z (by omega)
      rw [q c (by omega), ha]
      intro c; rw [hl]; exact b1 c (fun z lon lat b => by rw [hl])
  · funext m c x y z
    by_cases hb : m ≠ n ∨ P.tracerRows ≤ c ∨ P.na ≤ x ∨ P.nb ≤ y ∨ P.levels ≤ z
    · exact D.tracerFrame m c x y z hb
    · push Not at hb
      obtain ⟨rfl, hb⟩ := hb
      obtain ⟨b, _, b2, _, q⟩ := D.node x (by omega) y (by omega) z (by omega)
      rw [q c (by omega), hl, b2 c (fun z lon lat b => by rw [hl]), add_zero]

/-- **C101 (nothing else, cubed sphere).**  Only the state and the tracers of the data instance that is disturbed
change. -/
theorem C101_untouched (h : perturb .sphere P T n A = .ok A') :
    (∀ m ≠ n, A'.node m = A.node m ∧ A'.edge m = A.edge m ∧ A'.tracer m = A.tracer m) ∧ A'.refNode = A.refNode ∧
    A'.refEdge = A.refEdge ∧ A'.refTracer = A.refTracer ∧ A'.topo = A.topo ∧ A'.height = A.height := by
  obtain ⟨_, D⟩ := sphere_perturbed h
  refine ⟨fun m hm => ⟨?_, ?_, ?_⟩, D.rest⟩
  · funext c x y z; exact D.nodeFrame m c x y z (Or.inl hm)
  · funext c x y z; exact D.edgeFrame m c x y z (Or.inl hm)
  · funext c x y z; exact D.tracerFrame m c x y z (Or.inl hm)

theorem perturbNode_ok (P : Site) (T : Test) (n i j k : Nat) (w : Work)
    (h : P.form = .rhoTheta → 2 < P.rows → 4 < P.rows) : ∃ w', spherePerturbNode P T n i j k w = .ok w' := by
  unfold spherePerturbNode
  obtain ⟨s, hs⟩ := addState_ok P (T.evalPerturbation (w.A.height.level i j k) (P.lonlat i j).1 (P.lonlat i j).2 w.buf).state
    i j k (w.A.node n) h
  dsimp only [bind, Except.bind]
  rw [hs]
  exact ⟨_, rfl⟩

theorem perturbEdge_ok (P : Site) (T : Test) (n i j k : Nat) (w : Work)
    (h : P.form = .rhoTheta → 2 < P.rows → 4 < P.rows) : ∃ w', spherePerturbEdge P T n i j k w = .ok w' := by
  unfold spherePerturbEdge
  obtain ⟨s, hs⟩ := addState_ok P
    (T.evalPerturbation (w.A.height.interface i j k) (P.lonlat i j).1 (P.lonlat i j).2 w.buf).state
    i j k (w.A.edge n) h
  dsimp only [bind, Except.bind]
  rw [hs]
  exact ⟨_, rfl⟩

/-- **C101 (success, cubed sphere).**  Disturbing the nonhydrostatic state succeeds whenever the patch has data and the
data instance exists. -/
theorem C101_defined (he : P.eqs = .nonhydro) : (∃ A', perturb .sphere P T n A = .ok A') ↔ n < P.instances := by
  have hr5 : P.rows = 5 := by unfold Site.rows; rw [he]; rfl
  constructor
  · rintro ⟨A', h⟩
    have := (sphere_perturbed h).1
    unfold refused at this
    omega
  · intro hn
    unfold perturb
    dsimp only
    unfold spherePerturb
    rw [if_neg (by
      unfold refused
      rw [he]
      rintro (h | h | ⟨h, _⟩)
      · omega
      · omega
      · simp [Equations.dimensionality] at h)]
    obtain ⟨w₁, e1, _⟩ := each3_ok P.na P.nb P.levels (fun i j k => spherePerturbNode P T n i j k) (fun _ => True)
      (fun i _ j _ k _ s _ => by
        obtain ⟨s', hs⟩ := perturbNode_ok P T n i j k s (by omega)
        exact ⟨s', hs, trivial⟩) ⟨A, Buffers.zero, Buffers.zero⟩ trivial
    obtain ⟨w₂, e2, _⟩ := each3_ok P.na P.nb (P.levels + 1) (fun i j k => spherePerturbEdge P T n i j k)
      (fun _ => True) (fun i _ j _ k _ s _ => by
        obtain ⟨s', hs⟩ := perturbEdge_ok P T n i j k s (by omega)
        exact ⟨s', hs, trivial⟩) w₁ trivial
    unfold each3 at e1 e2
    dsimp only [bind, Except.bind]
    rw [e1]
    dsimp only
    rw [e2]
    exact ⟨_, rfl⟩

/-- The hypotheses of `C101_sphere_partial` hold together: a disturbance of vertical velocity and potential temperature, and
of a tracer. -/
example : ∃ T A', perturb .sphere (sampleSite 0 .nonhydro .rhoTheta) T 1 zeros = .ok A' ∧
    ∃ d e, Perturbs 5 1 T d e ∧ (∀ z lon lat, d z lon lat 0 = 0 ∧ d z lon lat 1 = 0) ∧ (∀ z lon lat, d z lon lat 4 = 0) ∧
      d 1 0 0 2 ≠ d 2 0 0 2 ∧ e 1 0 0 0 = 5 := by
  let T : Test := { sampleTest with
    perturbation := some (fun z _ _ b => ⟨fun c => if c = 2 then z else if c = 3 then 1 else b.state c, fun _ => 5⟩) }
  obtain ⟨A', h⟩ := (C101_defined (P := sampleSite 0 .nonhydro .rhoTheta) (T := T) (n := 1) (A := zeros) rfl).2
    (by show 1 < 2; omega)
  refine ⟨T, A', h, fun z _ _ c => if c = 2 then z else if c = 3 then 1 else 0, fun _ _ _ _ => 5, ⟨fun c hc => ?_,
    fun c _ => Or.inl fun _ _ _ _ => rfl⟩, by simp, by simp, by norm_num, rfl⟩
  by_cases h2 : c = 2
  · exact Or.inl fun z lon lat b => by simp [h2]
  · by_cases h3 : c = 3
    · exact Or.inl fun z lon lat b => by simp [h3]
    · exact Or.inr ⟨fun z lon lat b => by simp [h2, h3], fun z lon lat => by simp [h2, h3]⟩

/-! ### When a test case is attached -/

/-- **C101 (fresh start).**  Attaching a test case to a grid that was not read from a restart file evaluates it, whether
or not a disturbance on restart is asked for. -/
theorem C101_fresh (K : Kind) (perturbed : Bool) (G : Grid) (T : Test) :
    setTestCase K false perturbed (some G) (some T) = gridEvaluate K T 0 G := by
  unfold setTestCase
  simp only [Bool.not_false, if_true, Bool.and_false]
  cases gridEvaluate K T 0 G <;> rfl

theorem setTestCase_restarted (K : Kind) (G : Grid) (T : Test) :
    setTestCase K true true (some G) (some T) = gridPerturb K T 0 G := by
  unfold setTestCase
  simp only [Bool.not_true, Bool.and_true, if_true, Bool.false_eq_true, if_false]
  rfl

/-- **C101 (restart).**  Attaching a test case to a grid read from a restart file leaves it as it was read, unless a
disturbance is asked for; then every patch is disturbed and nothing else of the grid changes. -/
theorem C101_restart (K : Kind) (G : Grid) (T : Test) :
    setTestCase K true false (some G) (some T) = .ok G ∧
    ∀ G', setTestCase K true true (some G) (some T) = .ok G' →
      List.Forall₂ (fun a b => b.1 = a.1 ∧ perturb K a.1 T 0 a.2 = .ok b.2) G.patches G'.patches ∧
      G'.ztop = G.ztop ∧ G'.hasReference = G.hasReference ∧ G'.hasRayleigh = G.hasRayleigh ∧
      G'.diffusion = G.diffusion ∧ G'.hasDiffusion = G.hasDiffusion := by
  refine ⟨rfl, fun G' h => ?_⟩
  rw [setTestCase_restarted] at h
  unfold gridPerturb at h
  obtain ⟨l, hl, h⟩ := bind_ok h
  simp only [pure, Except.pure, Except.ok.injEq] at h
  subst h
  refine ⟨?_, rfl, rfl, rfl, rfl, rfl⟩
  refine List.Forall₂.imp ?_ (mapM_forall _ _ _ hl)
  rintro ⟨P, A⟩ ⟨P', A'⟩ hb
  obtain ⟨A'', hA, hb⟩ := bind_ok hb
  simp only [pure, Except.pure, Except.ok.injEq, Prod.mk.injEq] at hb
  obtain ⟨rfl, rfl⟩ := hb
  exact ⟨rfl, hA⟩

/-- A grid of one patch can be restarted with a disturbance. -/
example : ∃ G', setTestCase .sphere true true
    (some ⟨10, true, false, (0, 0), false, [(sampleSite 0 .nonhydro .rhoTheta, zeros)]⟩) (some sampleTest) = .ok G' := by
  obtain ⟨A', h⟩ := (C101_defined (P := sampleSite 0 .nonhydro .rhoTheta) (T := sampleTest) (n := 0) (A := zeros) rfl).2
    (by show 0 < 2; omega)
  rw [setTestCase_restarted]
  unfold gridPerturb
  simp only [List.mapM_cons, List.mapM_nil, h]
  exact ⟨_, rfl⟩

/-! ### Where the code falls short of C101 -/

/-- **C101 is false of the wind.**  At the centre of panel 0 of a planet whose radius is not one, a disturbance of the
wind to the east leaves another wind than the sum of the two. -/
theorem C101_wind_false (h : perturb .sphere P T n A = .ok A') (he : P.eqs = .nonhydro) (hf : P.form ≠ .pressure)
    (hm : P.mom = .covariant) (d e : ℝ → ℝ → ℝ → Nat → ℝ) (hd : Perturbs 5 P.tracerRows T d e) (i j k : Nat)
    (hi : i < P.na) (hj : j < P.nb) (hk : k < P.levels) (hp : P.panel = 0) (ha : P.alpha i = 0) (hb : P.beta j = 0)
    (hR : P.radius ≠ 1) (hu : d (A.height.level i j k) 0 0 0 ≠ 0) (a : Air)
    (hw : SphereWind P.mom P.radius 0 0 0 0 0 a.rho a.u a.v (A.node n 0 i j k, A.node n 1 i j k)) (rho v : ℝ) :
    ¬ SphereWind P.mom P.radius 0 0 0 0 0 rho (a.u + d (A.height.level i j k) 0 0 0) v
      (A'.node n 0 i j k, A'.node n 1 i j k) := by
  obtain ⟨_, D⟩ := sphere_perturbed h
  have hr5 : P.rows = 5 := by unfold Site.rows; rw [he]; rfl
  have hl : rllFromABP (P.alpha i) (P.beta j) P.panel = some (0, 0) := by
    unfold rllFromABP
    rw [ha, hb, hp, Real.tan_zero]
    simp [rllFromXYP, wrapLon]
  have el := lonlat_of hl
  obtain ⟨b, b1, _, q, _⟩ := D.node i hi j hj k hk
  have q0 := q 0 (by omega)
  have ha0 : ∀ q v : Nat → ℝ, added P.form q v 0 = q 0 + v 0 := by
    intro q v
    cases h : P.form
    · exact absurd h hf
    · rfl
    · rfl
  rw [ha0, el, perturbs_state hd b b1 _ _ _ 0 (by omega)] at q0
  rw [hm] at hw ⊢
  intro hw'
  have e1 := hw.1
  have e2 := hw'.1
  dsimp only at e1 e2 q0
  rw [q0, e1] at e2
  generalize d (A.height.level i j k) 0 0 0 = x at hu e2
  simp [dot, wind, east, north, tangentA, axisA, centre] at e2
  have : (P.radius - 1) * x = 0 := by linarith
  rcases mul_eq_zero.1 this with h | h
  · exact hR (by linarith)
  · exact hu h

/-- **C101 is false of potential temperature when density is disturbed.**  If the state holds the product of density and
potential temperature and the disturbed air is not at zero potential temperature, a disturbance of density leaves
another product than that of the sums. -/
theorem C101_theta_false (h : perturb .sphere P T n A = .ok A') (he : P.eqs = .nonhydro) (hf : P.form = .rhoTheta)
    (d e : ℝ → ℝ → ℝ → Nat → ℝ) (hd : Perturbs 5 P.tracerRows T d e) (i j k : Nat)
    (hi : i < P.na) (hj : j < P.nb) (hk : k < P.levels) (lon lat : ℝ)
    (hl : rllFromABP (P.alpha i) (P.beta j) P.panel = some (lon, lat)) (a δ : Air)
    (hδ : δ = Air.of (d (A.height.level i j k) lon lat)) (hr : δ.rho ≠ 0) (ht : a.theta + δ.theta ≠ 0)
    (hs : HoldsScalars P.form P.mom P.pressure a (fun c => A.node n c i j k)) :
    ¬ HoldsScalars P.form P.mom P.pressure (a.add δ) (fun c => A'.node n c i j k) := by
  obtain ⟨_, D⟩ := sphere_perturbed h
  have hr5 : P.rows = 5 := by unfold Site.rows; rw [he]; rfl
  have el := lonlat_of hl
  obtain ⟨b, b1, _, q, _⟩ := D.node i hi j hj k hk
  have q2 := q 2 (by omega)
  rw [hf] at q2 hs ⊢
  simp only [added, if_true] at q2
  rw [el, perturbs_state hd b b1 _ _ _ 2 (by omega)] at q2
  intro hs'
  have e1 := hs.heat
  have e2 := hs'.heat
  have e3 := hs.density
  dsimp only [heat, Air.add] at e1 e2 e3
  rw [q2, e1, e3] at e2
  have e4 : δ.theta = d (A.height.level i j k) lon lat 2 := by rw [hδ]; rfl
  dsimp only at e2
  rw [← e4] at e2
  have : δ.rho * (a.theta + δ.theta) = 0 := by linarith
  rcases mul_eq_zero.1 this with h | h
  · exact hr h
  · exact ht h

/-- **C101 is false when pressure is an unknown.**  Then no disturbance of the state is added at all. -/
theorem C101_pressure_false (h : perturb .sphere P T n A = .ok A') (hf : P.form = .pressure) :
    A'.node = A.node ∧ A'.edge = A.edge := by
  obtain ⟨_, D⟩ := sphere_perturbed h
  constructor
  · funext m c x y z
    by_cases hb : m ≠ n ∨ P.rows ≤ c ∨ P.na ≤ x ∨ P.nb ≤ y ∨ P.levels ≤ z
    · exact D.nodeFrame m c x y z hb
    · push Not at hb
      obtain ⟨rfl, hb⟩ := hb
      obtain ⟨b, b1, _, q, _⟩ := D.node x (by omega) y (by omega) z (by omega)
      rw [q c (by omega), hf]; rfl
  · funext m c x y z
    by_cases hb : m ≠ n ∨ P.rows ≤ c ∨ P.na ≤ x ∨ P.nb ≤ y ∨ P.levels + 1 ≤ z
    · exact D.edgeFrame m c x y z hb
    · push Not at hb
      obtain ⟨rfl, hb⟩ := hb
      obtain ⟨b, b1, q⟩ := D.edge x (by omega) y (by omega) z (by omega)
      rw [q c (by omega), hf]; rfl

/-- **C101 is false of the shallow-water equations.**  On a patch of the cubed sphere with nodes, disturbing the state of
the shallow-water equations reads a density that there is not. -/
theorem C101_shallow_false (he : P.eqs = .shallow) (hf : P.form = .rhoTheta) (hv : P.vorder = 1) (hn : n < P.instances)
    (ha : 0 < P.na) (hb : 0 < P.nb) : perturb .sphere P T n A = .error .outside := by
  have hr : P.rows = 3 := by unfold Site.rows; rw [he]; rfl
  have hbad : ∀ v i j k s, addState P v i j k s = .error .outside := by
    intro v i j k s
    unfold addState
    rw [hr, hf]
    rfl
  have hfirst : ∀ {σ : Type} (m : Nat) (body : Nat → σ → Except Fault σ) (s : σ), 0 < m →
      body 0 s = .error .outside → each m body s = .error .outside := by
    intro σ m body s hm h0
    induction m with
    | zero => omega
    | succ m ih =>
      rw [each_succ]
      by_cases h : m = 0
      · subst h; rw [each_zero]; exact h0
      · rw [ih (by omega)]; rfl
  have hnode : ∀ i j k w, spherePerturbNode P T n i j k w = .error .outside := by
    intro i j k w; unfold spherePerturbNode
    dsimp only [bind, Except.bind]
    rw [hbad]
  have hedge : ∀ i j k w, spherePerturbEdge P T n i j k w = .error .outside := by
    intro i j k w; unfold spherePerturbEdge
    dsimp only [bind, Except.bind]
    rw [hbad]
  unfold perturb
  dsimp only
  unfold spherePerturb
  rw [if_neg (by
    unfold refused
    rintro (h | h | ⟨_, h⟩)
    · omega
    · omega
    · exact h hv)]
  by_cases hk : P.levels = 0
  · have e0 : ∀ w : Work, each P.na (fun i => each P.nb (fun j => each P.levels (fun k =>
        spherePerturbNode P T n i j k))) w = .ok w := by
      intro w
      obtain ⟨w', h, e⟩ := each3_ok P.na P.nb P.levels (fun i j k => spherePerturbNode P T n i j k) (fun s => s = w)
        (fun i _ j _ k hk' => by omega) w rfl
      rw [← e] at h ⊢
      exact h
    dsimp only [bind, Except.bind]
    rw [e0]
    dsimp only
    rw [hfirst P.na _ _ ha (hfirst P.nb _ _ hb (hfirst (P.levels + 1) _ _ (by omega) (hedge _ _ _ _)))]
  · dsimp only [bind, Except.bind]
    rw [hfirst P.na _ _ ha (hfirst P.nb _ _ hb (hfirst P.levels _ _ (by omega) (hnode _ _ _ _)))]

/-- **C101 is false on a Cartesian grid.**  There the disturbance replaces the state instead of being added to it: the air
that a point holds afterwards is the disturbance itself, whatever it held before. -/
theorem C101_plane_false (h : perturb .plane P T n A = .ok A') (he : P.eqs = .nonhydro)
    (F : ℝ → ℝ → ℝ → Buffers → Buffers) (hF : T.perturbation = some F) (d : ℝ → ℝ → ℝ → Nat → ℝ) (hd : Fills 5 F d)
    (i j : Nat) (hi : i < P.na) (hj : j < P.nb) :
    (∀ k < P.levels, PlaneHolds P.form P.mom P.pressure (Air.of (d (A.height.level i j k) (P.alpha i) (P.beta j)))
      (fun c => A'.node n c i j k)) ∧
    ∀ k ≤ P.levels, PlaneHolds P.form P.mom P.pressure (Air.of (d (A.height.interface i j k) (P.alpha i) (P.beta j)))
      (fun c => A'.edge n c i j k) := by
  obtain ⟨_, D⟩ := plane_perturbed h
  have hl : ∀ z lon lat b, T.evalPerturbation z lon lat b = F z lon lat b := by
    intros; unfold Test.evalPerturbation; rw [hF]
  refine ⟨fun k hk => ?_, fun k hk => ?_⟩
  · obtain ⟨b, v, _, q1, q2⟩ := D.node i hi j hj k hk
    have := plane_air he q1 (f := v) rfl q2
    rw [hl, Air.of_congr (hd _ _ _ _)] at this
    exact this
  · obtain ⟨b, v, _, q1, q2⟩ := D.edge i hi j hj k (by omega)
    have := plane_air he q1 (f := v) rfl q2
    rw [hl, Air.of_congr (hd _ _ _ _)] at this
    exact this

/-- **C101 is false of a test case without disturbance on a Cartesian grid.**  The state becomes zero. -/
theorem C101_plane_none_false (h : perturb .plane P T n A = .ok A') (hf : P.form ≠ .pressure)
    (hp : T.perturbation = none) (i j c : Nat) (hi : i < P.na) (hj : j < P.nb) (hc : c < P.eqs.components) :
    (∀ k < P.levels, A'.node n c i j k = 0) ∧ ∀ k ≤ P.levels, A'.edge n c i j k = 0 := by
  obtain ⟨_, D⟩ := plane_perturbed h
  have hl : ∀ z lon lat b, T.evalPerturbation z lon lat b = b := by
    intros; unfold Test.evalPerturbation; rw [hp]
  refine ⟨fun k hk => ?_, fun k hk => ?_⟩
  · obtain ⟨b, v, q0, q1, q2⟩ := D.node i hi j hj k hk
    rw [hl, q0 hl hf] at q1
    rw [q2 c hc, convert_zero P v q1 hf]
  · obtain ⟨b, v, q0, q1, q2⟩ := D.edge i hi j hj k (by omega)
    rw [hl, q0 hl hf] at q1
    rw [q2 c hc, convert_zero P v q1 hf]

end Verif.Init
