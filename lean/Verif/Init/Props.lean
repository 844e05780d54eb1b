import Verif.Init.Whole

/-!
# C100: the model starts from the state of the test case
-/

namespace Verif.Init

open Verif.Horiz Verif.Metric Verif.Sphere
open Verif.Halo (Momenta)

variable {P : Site} {T : Test} {ztop : ℝ} {hasRef : Bool} {n : Nat} {A A' : Arrays}

/-- **C100 (air, cubed sphere).**  After a test case has been evaluated, every point of every level and of every
interface, halo included, holds the air that the test case gives at the longitude and latitude of the node and at the
height at which the point is above the ground of the test case: its density, what carries its heat, its vertical motion,
and, away from the poles, the components of its wind in the coordinates of the panel.  This holds whatever the arrays
held before. -/
theorem C100_sphere (h : evaluate .sphere P T ztop hasRef n A = .ok A') (he : P.eqs = .nonhydro)
    (f : ℝ → ℝ → ℝ → Nat → ℝ) (hf : Fills 5 T.state f) (i j : Nat) (hi : i < P.na) (hj : j < P.nb) (lon lat : ℝ)
    (hl : rllFromABP (P.alpha i) (P.beta j) P.panel = some (lon, lat)) (air : ℝ → Air)
    (ha : ∀ η, air η = Air.of (f (sphereHeight ztop (T.topography lon lat) η) lon lat)) :
    (∀ k < P.levels, HoldsScalars P.form P.mom P.pressure (air (P.level k)) (fun c => A'.node n c i j k)) ∧
    (∀ k ≤ P.levels, HoldsScalars P.form P.mom P.pressure (air (P.interface k)) (fun c => A'.edge n c i j k)) ∧
    (Regular P.panel (Real.tan (P.alpha i)) (Real.tan (P.beta j)) →
      (∀ k < P.levels, SphereWind P.mom P.radius P.panel (Real.tan (P.alpha i)) (Real.tan (P.beta j)) lon lat
        (air (P.level k)).rho (air (P.level k)).u (air (P.level k)).v (A'.node n 0 i j k, A'.node n 1 i j k)) ∧
      ∀ k ≤ P.levels, SphereWind P.mom P.radius P.panel (Real.tan (P.alpha i)) (Real.tan (P.beta j)) lon lat
        (air (P.interface k)).rho (air (P.interface k)).u (air (P.interface k)).v
        (A'.edge n 0 i j k, A'.edge n 1 i j k)) := by
  obtain ⟨_, hp, D, hh, _⟩ := sphere_done h
  have hh := hh (by rw [he]; decide)
  have el := lonlat_of hl
  have key : ∀ k < P.levels, ∃ q : Nat → ℝ, Air.of q = air (P.level k) ∧
      HoldsScalars P.form P.mom P.pressure (Air.of q) (fun c => A'.node n c i j k) ∧
      (Regular P.panel (P.x i) (P.y j) → SphereWind P.mom P.radius P.panel (P.x i) (P.y j) (P.lonlat i j).1
        (P.lonlat i j).2 (q 4) (q 0) (q 1) (A'.node n 0 i j k, A'.node n 1 i j k)) := by
    intro k hk
    obtain ⟨b, v, w, q1, q2, q3⟩ := D.state i hi j hj k hk
    refine ⟨_, ?_, sphere_air he hp q1 q2 q3⟩
    rw [ha, hh.level i hi j hj k hk, el]
    exact Air.of_congr (hf _ _ _ _)
  have key' : ∀ k ≤ P.levels, ∃ q : Nat → ℝ, Air.of q = air (P.interface k) ∧
      HoldsScalars P.form P.mom P.pressure (Air.of q) (fun c => A'.edge n c i j k) ∧
      (Regular P.panel (P.x i) (P.y j) → SphereWind P.mom P.radius P.panel (P.x i) (P.y j) (P.lonlat i j).1
        (P.lonlat i j).2 (q 4) (q 0) (q 1) (A'.edge n 0 i j k, A'.edge n 1 i j k)) := by
    intro k hk
    obtain ⟨b, v, w, q1, q2, q3⟩ := D.stateEdge i hi j hj k (by omega)
    refine ⟨_, ?_, sphere_air he hp q1 q2 q3⟩
    rw [ha, hh.interface i hi j hj k hk, el]
    exact Air.of_congr (hf _ _ _ _)
  refine ⟨fun k hk => ?_, fun k hk => ?_, fun hq => ⟨fun k hk => ?_, fun k hk => ?_⟩⟩
  · obtain ⟨q, e, s, _⟩ := key k hk
    rw [← e]; exact s
  · obtain ⟨q, e, s, _⟩ := key' k hk
    rw [← e]; exact s
  · obtain ⟨q, e, _, s⟩ := key k hk
    rw [el] at s
    rw [← e]; exact s hq
  · obtain ⟨q, e, _, s⟩ := key' k hk
    rw [el] at s
    rw [← e]; exact s hq

/-- **C100 (air, Cartesian grid).**  The same on a Cartesian grid, with velocities along the two coordinates. -/
theorem C100_plane (h : evaluate .plane P T ztop hasRef n A = .ok A') (he : P.eqs = .nonhydro)
    (f : ℝ → ℝ → ℝ → Nat → ℝ) (hf : Fills 5 T.state f) (i j : Nat) (hi : i < P.na) (hj : j < P.nb) (air : ℝ → Air)
    (ha : ∀ η, air η = Air.of (f (planeHeight ztop (T.topography (P.alpha i) (P.beta j)) η) (P.alpha i) (P.beta j))) :
    (∀ k < P.levels, PlaneHolds P.form P.mom P.pressure (air (P.level k)) (fun c => A'.node n c i j k)) ∧
    ∀ k ≤ P.levels, PlaneHolds P.form P.mom P.pressure (air (P.interface k)) (fun c => A'.edge n c i j k) := by
  obtain ⟨_, _, D, hh⟩ := plane_done h
  refine ⟨fun k hk => ?_, fun k hk => ?_⟩
  · obtain ⟨b, v, w, q1, q2, q3⟩ := D.state i hi j hj k hk
    have := plane_air he q1 q2 q3
    rw [ha]
    rw [Air.of_congr (hf _ _ _ _), hh.level i hi j hj k hk] at this
    exact this
  · obtain ⟨b, v, w, q1, q2, q3⟩ := D.stateEdge i hi j hj k (by omega)
    have := plane_air he q1 q2 q3
    rw [ha]
    rw [Air.of_congr (hf _ _ _ _), hh.interface i hi j hj k hk] at this
    exact this

/-- **C100 (shallow water, cubed sphere).**  For the shallow-water equations the one level holds the height of the free
surface and the components of the wind that the test case gives, at height zero. -/
theorem C100_shallow (h : evaluate .sphere P T ztop hasRef n A = .ok A') (he : P.eqs = .shallow)
    (f : ℝ → ℝ → ℝ → Nat → ℝ) (hf : Fills 3 T.state f) (i j : Nat) (hi : i < P.na) (hj : j < P.nb) (hk : P.levels = 1)
    (lon lat : ℝ) (hl : rllFromABP (P.alpha i) (P.beta j) P.panel = some (lon, lat)) :
    A'.node n 2 i j 0 = f 0 lon lat 2 ∧
    (Regular P.panel (Real.tan (P.alpha i)) (Real.tan (P.beta j)) →
      SphereWind P.mom P.radius P.panel (Real.tan (P.alpha i)) (Real.tan (P.beta j)) lon lat
        1 (f 0 lon lat 0) (f 0 lon lat 1) (A'.node n 0 i j 0, A'.node n 1 i j 0)) := by
  obtain ⟨_, hp, D, _, hh⟩ := sphere_done h
  have hh := hh (by rw [he]; rfl) i hi j hj
  have el := lonlat_of hl
  have hr : P.rows = 3 := by unfold Site.rows; rw [he]; rfl
  obtain ⟨b, v, w, q1, ⟨_, r, hr', rfl⟩, q3⟩ := D.state i hi j hj 0 (by omega)
  have ev := convert_plain P _ v q1 (by rw [he]; decide)
  rw [hh.1, el] at ev
  have hv : ∀ c < 3, v c = f 0 lon lat c := fun c hc => by rw [ev]; exact hf _ _ _ _ c hc
  refine ⟨?_, fun hq => ?_⟩
  · rw [q3 2 (by omega)]; simpa [set1] using hv 2 (by omega)
  · have := turned_spec P i j 1 (f 0 lon lat 0) (f 0 lon lat 1) v r hr'
      (by rw [hv 0 (by omega)]; cases P.mom <;> simp [motion])
      (by rw [hv 1 (by omega)]; cases P.mom <;> simp [motion]) hp hq
    rw [el] at this
    rw [q3 0 (by omega), q3 1 (by omega)]
    unfold Site.x Site.y at this
    simpa [set1] using this

/-- **C100 (tracers).**  Every point of every level holds the tracers that the test case gives there; a tracer that the
test case never writes is zero. -/
theorem C100_tracers (g : ℝ → ℝ → ℝ → Nat → ℝ) (hg : FillsTracers P.tracers T.state g) (hd : P.eqs.dimensionality ≠ 2)
    (hm : 0 < P.tracerInstances) (i j k c : Nat) (hi : i < P.na) (hj : j < P.nb) (hk : k < P.levels) (hc : c < P.tracers) :
    (evaluate .sphere P T ztop hasRef n A = .ok A' → ∀ lon lat,
      rllFromABP (P.alpha i) (P.beta j) P.panel = some (lon, lat) →
      A'.tracer n c i j k = g (sphereHeight ztop (T.topography lon lat) (P.level k)) lon lat c) ∧
    (evaluate .plane P T ztop hasRef n A = .ok A' → A'.tracer n c i j k =
      g (planeHeight ztop (T.topography (P.alpha i) (P.beta j)) (P.level k)) (P.alpha i) (P.beta j) c) := by
  have hr : P.tracerRows = P.tracers := by unfold Site.tracerRows; rw [if_pos hm]
  constructor
  · intro h lon lat hl
    obtain ⟨_, _, D, hh, _⟩ := sphere_done h
    have := D.tracer i hi j hj k hk g (by rw [hr]; exact hg) c (by rw [hr]; exact hc)
    rw [this, (hh hd).level i hi j hj k hk, lonlat_of hl]
  · intro h
    obtain ⟨_, _, D, hh⟩ := plane_done h
    have := D.tracer i hi j hj k hk g (by rw [hr]; exact hg) c (by rw [hr]; exact hc)
    rw [this, hh.level i hi j hj k hk]

/-- **C100 (reference state, cubed sphere).**  When the test case has a reference state, every point holds it in the same
way as the state, and every point of every level holds its tracers. -/
theorem C100_reference_sphere (h : evaluate .sphere P T ztop true n A = .ok A') (he : P.eqs = .nonhydro)
    (f g : ℝ → ℝ → ℝ → Nat → ℝ) (hf : Reference6 5 P.tracerRows T f g) (i j : Nat) (hi : i < P.na) (hj : j < P.nb)
    (lon lat : ℝ) (hl : rllFromABP (P.alpha i) (P.beta j) P.panel = some (lon, lat)) (air : ℝ → Air)
    (ha : ∀ η, air η = Air.of (f (sphereHeight ztop (T.topography lon lat) η) lon lat)) :
    (∀ k < P.levels, HoldsScalars P.form P.mom P.pressure (air (P.level k)) (fun c => A'.refNode c i j k)) ∧
    (∀ k ≤ P.levels, HoldsScalars P.form P.mom P.pressure (air (P.interface k)) (fun c => A'.refEdge c i j k)) ∧
    (Regular P.panel (Real.tan (P.alpha i)) (Real.tan (P.beta j)) →
      (∀ k < P.levels, SphereWind P.mom P.radius P.panel (Real.tan (P.alpha i)) (Real.tan (P.beta j)) lon lat
        (air (P.level k)).rho (air (P.level k)).u (air (P.level k)).v (A'.refNode 0 i j k, A'.refNode 1 i j k)) ∧
      ∀ k ≤ P.levels, SphereWind P.mom P.radius P.panel (Real.tan (P.alpha i)) (Real.tan (P.beta j)) lon lat
        (air (P.interface k)).rho (air (P.interface k)).u (air (P.interface k)).v
        (A'.refEdge 0 i j k, A'.refEdge 1 i j k)) ∧
    ∀ k < P.levels, ∀ c < P.tracerRows, A'.refTracer c i j k =
      g (sphereHeight ztop (T.topography lon lat) (P.level k)) lon lat c := by
  obtain ⟨_, hp, D, hh, _⟩ := sphere_done h
  have hh := hh (by rw [he]; decide)
  have el := lonlat_of hl
  have key : ∀ k < P.levels, ∃ q : Nat → ℝ, Air.of q = air (P.level k) ∧
      HoldsScalars P.form P.mom P.pressure (Air.of q) (fun c => A'.refNode c i j k) ∧
      (Regular P.panel (P.x i) (P.y j) → SphereWind P.mom P.radius P.panel (P.x i) (P.y j) (P.lonlat i j).1
        (P.lonlat i j).2 (q 4) (q 0) (q 1) (A'.refNode 0 i j k, A'.refNode 1 i j k)) := by
    intro k hk
    obtain ⟨b₀, b, v, w, q0, q1, q2, q3, _⟩ := D.ref rfl i hi j hj k hk
    refine ⟨_, ?_, sphere_air he hp q1 q2 q3⟩
    rw [hh.level i hi j hj k hk, el] at q0
    rw [ha]
    exact Air.of_congr (reference6_state hf q0)
  have key' : ∀ k ≤ P.levels, ∃ q : Nat → ℝ, Air.of q = air (P.interface k) ∧
      HoldsScalars P.form P.mom P.pressure (Air.of q) (fun c => A'.refEdge c i j k) ∧
      (Regular P.panel (P.x i) (P.y j) → SphereWind P.mom P.radius P.panel (P.x i) (P.y j) (P.lonlat i j).1
        (P.lonlat i j).2 (q 4) (q 0) (q 1) (A'.refEdge 0 i j k, A'.refEdge 1 i j k)) := by
    intro k hk
    obtain ⟨b₀, b, v, w, q0, q1, q2, q3⟩ := D.refEdge rfl i hi j hj k (by omega)
    refine ⟨_, ?_, sphere_air he hp q1 q2 q3⟩
    rw [hh.interface i hi j hj k hk, el] at q0
    rw [ha]
    exact Air.of_congr (reference6_state hf q0)
  refine ⟨fun k hk => ?_, fun k hk => ?_, fun hq => ⟨fun k hk => ?_, fun k hk => ?_⟩, fun k hk c hc => ?_⟩
  · obtain ⟨q, e, s, _⟩ := key k hk
    rw [← e]; exact s
  · obtain ⟨q, e, s, _⟩ := key' k hk
    rw [← e]; exact s
  · obtain ⟨q, e, _, s⟩ := key k hk
    rw [el] at s
    rw [← e]; exact s hq
  · obtain ⟨q, e, _, s⟩ := key' k hk
    rw [el] at s
    rw [← e]; exact s hq
  · obtain ⟨b₀, b, v, w, q0, _, _, _, q4, q5⟩ := D.ref rfl i hi j hj k hk
    rw [hh.level i hi j hj k hk, el] at q0
    rw [q4 c hc]
    rcases reference6_tracers hf c hc with h | ⟨h, h'⟩
    · exact h _ _ _ _ _ q0
    · rw [h']
      exact q5 c (fun i j z b b' hb => h _ _ _ _ _ hb)

/-- **C100 (reference state, Cartesian grid; partial).**  On a Cartesian grid every point holds the reference state that
the test case gives without tracers.  Missing: a reference state given with tracers, see
`C100_reference_tracers_false` and `C100_reference_false`. -/
theorem C100_reference_plane_partial (h : evaluate .plane P T ztop true n A = .ok A') (he : P.eqs = .nonhydro)
    (f : ℝ → ℝ → ℝ → Nat → ℝ) (hf : Reference5 5 T f) (i j : Nat) (hi : i < P.na) (hj : j < P.nb) (air : ℝ → Air)
    (ha : ∀ η, air η = Air.of (f (planeHeight ztop (T.topography (P.alpha i) (P.beta j)) η) (P.alpha i) (P.beta j))) :
    (∀ k < P.levels, PlaneHolds P.form P.mom P.pressure (air (P.level k)) (fun c => A'.refNode c i j k)) ∧
    ∀ k ≤ P.levels, PlaneHolds P.form P.mom P.pressure (air (P.interface k)) (fun c => A'.refEdge c i j k) := by
  obtain ⟨_, _, D, hh⟩ := plane_done h
  obtain ⟨F, hF, hf⟩ := hf
  have e5 : ∀ z lon lat s s', T.evalReference5 z lon lat s = .ok s' → ∀ c < 5, s' c = f z lon lat c := by
    intro z lon lat s s' h
    unfold Test.evalReference5 at h
    rw [hF] at h
    simp only [Except.ok.injEq] at h
    subst h
    exact hf z lon lat s
  refine ⟨fun k hk => ?_, fun k hk => ?_⟩
  · obtain ⟨b₀, b, v, w, q0, q1, q2, q3, _⟩ := D.ref rfl i hi j hj k hk
    have := plane_air he q1 q2 q3
    rw [ha]
    rw [Air.of_congr (e5 _ _ _ _ _ q0.1), hh.level i hi j hj k hk] at this
    exact this
  · obtain ⟨b₀, b, v, w, q0, q1, q2, q3⟩ := D.refEdge rfl i hi j hj k (by omega)
    have := plane_air he q1 q2 q3
    rw [ha]
    rw [Air.of_congr (e5 _ _ _ _ _ q0.1), hh.interface i hi j hj k hk] at this
    exact this

/-- **C100 (nothing else).**  On either grid the evaluation changes the state and the tracers of the data instance it is
asked for only, the reference state only when the test case has one, and no component and no point that there is not. -/
theorem C100_untouched (K : Kind) (h : evaluate K P T ztop hasRef n A = .ok A') (m c x y z : Nat) :
    (m ≠ n ∨ P.eqs.components ≤ c ∨ P.na ≤ x ∨ P.nb ≤ y ∨ P.levels ≤ z → A'.node m c x y z = A.node m c x y z) ∧
    (m ≠ n ∨ P.eqs.components ≤ c ∨ P.na ≤ x ∨ P.nb ≤ y ∨ P.levels + 1 ≤ z → A'.edge m c x y z = A.edge m c x y z) ∧
    (m ≠ n ∨ P.tracers ≤ c ∨ P.na ≤ x ∨ P.nb ≤ y ∨ P.levels ≤ z → A'.tracer m c x y z = A.tracer m c x y z) ∧
    (hasRef = false ∨ P.eqs.components ≤ c ∨ P.na ≤ x ∨ P.nb ≤ y ∨ P.levels ≤ z →
      A'.refNode c x y z = A.refNode c x y z) ∧
    (hasRef = false ∨ P.eqs.components ≤ c ∨ P.na ≤ x ∨ P.nb ≤ y ∨ P.levels + 1 ≤ z →
      A'.refEdge c x y z = A.refEdge c x y z) ∧
    (hasRef = false ∨ P.tracers ≤ c ∨ P.na ≤ x ∨ P.nb ≤ y ∨ P.levels ≤ z →
      A'.refTracer c x y z = A.refTracer c x y z) := by
  have ht : P.tracers ≤ c → P.tracerRows ≤ c := by
    intro h; unfold Site.tracerRows; split_ifs <;> omega
  cases K with
  | sphere =>
    obtain ⟨_, _, D, _⟩ := sphere_done h
    exact ⟨D.nodeFrame m c x y z, D.edgeFrame m c x y z, fun h => D.tracerFrame m c x y z (by tauto),
      D.refFrame c x y z, D.refEdgeFrame c x y z, fun h => D.refTracerFrame c x y z (by tauto)⟩
  | plane =>
    obtain ⟨_, _, D, _⟩ := plane_done h
    exact ⟨D.nodeFrame m c x y z, D.edgeFrame m c x y z, fun h => D.tracerFrame m c x y z (by tauto),
      D.refFrame c x y z, D.refEdgeFrame c x y z, fun h => D.refTracerFrame c x y z (by tauto)⟩

/-! ### When it succeeds -/

theorem reference6_ok (T : Test) (h : T.reference6.isSome ∨ T.reference5.isSome) (z lon lat : ℝ) (b : Buffers) :
    ∃ b', T.evalReference6 z lon lat b = .ok b' := by
  unfold Test.evalReference6 Test.evalReference5
  cases h6 : T.reference6 with
  | some F => exact ⟨_, rfl⟩
  | none =>
    rw [h6] at h
    cases h5 : T.reference5 with
    | some F => exact ⟨_, rfl⟩
    | none => rw [h5] at h; simp at h

theorem sphereNode_ok (P : Site) (T : Test) (hasRef : Bool) (n i j k : Nat) (w : Work) (h2 : 2 ≤ P.rows)
    (hp : IsPanel P.panel) (hr : hasRef = true → T.reference6.isSome ∨ T.reference5.isSome) :
    ∃ w', sphereNode P T hasRef n i j k w = .ok w' := by
  unfold sphereNode
  obtain ⟨v, hv⟩ := convert_ok P (T.state (w.A.height.level i j k) (P.lonlat i j).1 (P.lonlat i j).2 w.buf).state
  obtain ⟨s, hs⟩ := turn_ok P i j k (store P.rows v i j k (w.A.node n)) h2 hp
  dsimp only [bind, Except.bind]
  rw [hv]
  dsimp only
  rw [hs]
  cases hasRef with
  | false => exact ⟨_, rfl⟩
  | true =>
    obtain ⟨b, hb⟩ := reference6_ok T (hr rfl) (w.A.height.level i j k) (P.lonlat i j).1 (P.lonlat i j).2 w.ref
    obtain ⟨rv, hrv⟩ := convert_ok P b.state
    obtain ⟨rs, hrs⟩ := turn_ok P i j k (store P.rows rv i j k w.A.refNode) h2 hp
    simp only [if_true]
    rw [hb]
    dsimp only
    rw [hrv]
    dsimp only
    rw [hrs]
    exact ⟨_, rfl⟩

theorem sphereEdge_ok (P : Site) (T : Test) (hasRef : Bool) (n i j k : Nat) (w : Work) (h2 : 2 ≤ P.rows)
    (hp : IsPanel P.panel) (hr : hasRef = true → T.reference6.isSome ∨ T.reference5.isSome) :
    ∃ w', sphereEdge P T hasRef n i j k w = .ok w' := by
  unfold sphereEdge
  obtain ⟨v, hv⟩ := convert_ok P (T.state (w.A.height.interface i j k) (P.lonlat i j).1 (P.lonlat i j).2 w.buf).state
  obtain ⟨s, hs⟩ := turn_ok P i j k (store P.rows v i j k (w.A.edge n)) h2 hp
  dsimp only [bind, Except.bind]
  rw [hv]
  dsimp only
  rw [hs]
  cases hasRef with
  | false => exact ⟨_, rfl⟩
  | true =>
    obtain ⟨b, hb⟩ := reference6_ok T (hr rfl) (w.A.height.interface i j k) (P.lonlat i j).1 (P.lonlat i j).2 w.ref
    obtain ⟨rv, hrv⟩ := convert_ok P b.state
    obtain ⟨rs, hrs⟩ := turn_ok P i j k (store P.rows rv i j k w.A.refEdge) h2 hp
    simp only [if_true]
    rw [hb]
    dsimp only
    rw [hrv]
    dsimp only
    rw [hrs]
    exact ⟨_, rfl⟩

theorem planeNode_ok (P : Site) (T : Test) (hasRef : Bool) (n i j k : Nat) (w : Work)
    (hr : hasRef = true → T.reference5.isSome) : ∃ w', planeNode P T hasRef n i j k w = .ok w' := by
  unfold planeNode
  obtain ⟨v, hv⟩ := convert_ok P (T.state (w.A.height.level i j k) (P.alpha i) (P.beta j) w.buf).state
  dsimp only [bind, Except.bind]
  rw [hv]
  dsimp only
  cases hasRef with
  | false => exact ⟨_, rfl⟩
  | true =>
    obtain ⟨F, hF⟩ := Option.isSome_iff_exists.1 (hr rfl)
    simp only [if_true]
    unfold Test.evalReference5
    rw [hF]
    dsimp only
    obtain ⟨rv, hrv⟩ := convert_ok P (F (w.A.height.level i j k) (P.alpha i) (P.beta j) w.ref.state)
    rw [hrv]
    exact ⟨_, rfl⟩

theorem planeEdge_ok (P : Site) (T : Test) (hasRef : Bool) (n i j k : Nat) (w : Work)
    (hr : hasRef = true → T.reference5.isSome) : ∃ w', planeEdge P T hasRef n i j k w = .ok w' := by
  unfold planeEdge
  obtain ⟨v, hv⟩ := convert_ok P (T.state (w.A.height.interface i j k) (P.alpha i) (P.beta j) w.buf).state
  dsimp only [bind, Except.bind]
  rw [hv]
  dsimp only
  cases hasRef with
  | false => exact ⟨_, rfl⟩
  | true =>
    obtain ⟨F, hF⟩ := Option.isSome_iff_exists.1 (hr rfl)
    simp only [if_true]
    unfold Test.evalReference5
    rw [hF]
    dsimp only
    obtain ⟨rv, hrv⟩ := convert_ok P (F (w.A.height.interface i j k) (P.alpha i) (P.beta j) w.ref.state)
    rw [hrv]
    exact ⟨_, rfl⟩

/-- **C100 (refusal, cubed sphere).**  On a patch with nodes the evaluation succeeds exactly when the patch has data, the
data instance exists, two-dimensional equations have vertical order one, the panel exists, there is at least a wind to
set, and a test case that says it has a reference state can give it. -/
theorem C100_defined_sphere (ha : 0 < P.na) (hb : 0 < P.nb) : (∃ A', evaluate .sphere P T ztop hasRef n A = .ok A') ↔
    n < P.instances ∧ (P.eqs = .shallow → P.vorder = 1) ∧ IsPanel P.panel ∧ P.eqs ≠ .advection ∧
      (hasRef = true → T.reference6.isSome ∨ T.reference5.isSome) := by
  constructor
  · rintro ⟨A', h⟩
    obtain ⟨hr, hp, D, _⟩ := sphere_done h
    unfold refused at hr
    obtain ⟨b, v, f, _, hfin, _⟩ := D.stateEdge 0 ha 0 hb 0 (by omega)
    refine ⟨by omega, fun he => ?_, hp, fun he => ?_, fun hR => ?_⟩
    · by_contra hv
      exact hr (Or.inr (Or.inr ⟨by rw [he]; rfl, hv⟩))
    · have := hfin.1
      unfold Site.rows at this
      rw [he] at this
      simp [Equations.components] at this
    · obtain ⟨b₀, b, v, f, hb', _⟩ := D.refEdge hR 0 ha 0 hb 0 (by omega)
      unfold sphereRef Test.evalReference6 Test.evalReference5 at hb'
      cases h6 : T.reference6 with
      | some F => simp
      | none =>
        cases h5 : T.reference5 with
        | some F => simp
        | none => rw [h6, h5] at hb'; simp at hb'
  · rintro ⟨h1, h2, hp, h4, h5⟩
    have hr : ¬ refused P n := by
      unfold refused
      rintro (h | h | ⟨h, h'⟩)
      · omega
      · omega
      · refine h' (h2 ?_)
        cases he : P.eqs <;> rw [he] at h <;> simp [Equations.dimensionality] at h ⊢
    have h2' : 2 ≤ P.rows := by
      unfold Site.rows
      cases he : P.eqs <;> simp [Equations.components]
      exact h4 he
    unfold evaluate
    dsimp only
    unfold sphereEvaluate
    rw [if_neg hr]
    obtain ⟨topo, ht⟩ : ∃ t, sphereTopography P.S P.B P.deltaA P.deltaB P.na P.nb P.panel P.alpha P.beta T.topography
        A.topo = some t := by
      unfold sphereTopography
      rw [if_neg]
      · exact ⟨_, rfl⟩
      · unfold IsPanel at hp; omega
    rw [ht]
    dsimp only
    obtain ⟨w₁, e1, _⟩ := each3_ok P.na P.nb P.levels (fun i j k => sphereNode P T hasRef n i j k) (fun _ => True)
      (fun i _ j _ k _ s _ => by
        obtain ⟨s', hs⟩ := sphereNode_ok P T hasRef n i j k s h2' hp h5
        exact ⟨s', hs, trivial⟩)
      (Work.mk (Arrays.mk A.node A.edge A.tracer A.refNode A.refEdge A.refTracer topo (sphereDamping P.na P.nb P.levels
        T.hasRayleigh (fun z i j => T.rayleigh z (P.lonlat i j).1 (P.lonlat i j).2)
        (sphereHeights P.na P.nb P.levels (P.eqs.dimensionality = 2) ztop topo.value P.level P.interface A.height)))
        Buffers.zero Buffers.zero) trivial
    obtain ⟨w₂, e2, _⟩ := each3_ok P.na P.nb (P.levels + 1) (fun i j k => sphereEdge P T hasRef n i j k) (fun _ => True)
      (fun i _ j _ k _ s _ => by
        obtain ⟨s', hs⟩ := sphereEdge_ok P T hasRef n i j k s h2' hp h5
        exact ⟨s', hs, trivial⟩) w₁ trivial
    unfold each3 at e1 e2
    rw [e1]
    dsimp only [bind, Except.bind]
    rw [e2]
    exact ⟨_, rfl⟩

/-- **C100 (refusal, Cartesian grid).**  On a patch with nodes of a Cartesian grid the evaluation succeeds exactly when
the patch has data, the data instance exists, two-dimensional equations have vertical order one, the ground is below
the top of the model at every node, and a test case that says it has a reference state can give it without tracers. -/
theorem C100_defined_plane (ha : 0 < P.na) (hb : 0 < P.nb) : (∃ A', evaluate .plane P T ztop hasRef n A = .ok A') ↔
    n < P.instances ∧ (P.eqs = .shallow → P.vorder = 1) ∧
      (∀ i < P.na, ∀ j < P.nb, T.topography (P.alpha i) (P.beta j) < ztop) ∧
      (hasRef = true → T.reference5.isSome) := by
  constructor
  · rintro ⟨A', h⟩
    obtain ⟨hr, hp, D, _⟩ := plane_done h
    unfold refused at hr
    refine ⟨by omega, fun he => ?_, hp, fun hR => ?_⟩
    · by_contra hv
      exact hr (Or.inr (Or.inr ⟨by rw [he]; rfl, hv⟩))
    · obtain ⟨b₀, b, v, f, hb', _⟩ := D.refEdge hR 0 ha 0 hb 0 (by omega)
      unfold planeRef Test.evalReference5 at hb'
      cases h5 : T.reference5 with
      | some F => simp
      | none => rw [h5] at hb'; simp at hb'
  · rintro ⟨h1, h2, hp, h5⟩
    have hr : ¬ refused P n := by
      unfold refused
      rintro (h | h | ⟨h, h'⟩)
      · omega
      · omega
      · refine h' (h2 ?_)
        cases he : P.eqs <;> rw [he] at h <;> simp [Equations.dimensionality] at h ⊢
    unfold evaluate
    dsimp only
    unfold planeEvaluate
    rw [if_neg hr]
    obtain ⟨topo, ht⟩ : ∃ t, planeTopography P.S P.B P.deltaA P.deltaB P.na P.nb ztop P.alpha P.beta T.topography
        A.topo = some t := by
      unfold planeTopography
      rw [if_neg]
      · exact ⟨_, rfl⟩
      · rintro ⟨i, hi, j, hj, h⟩
        exact absurd (hp i hi j hj) (not_lt.2 h)
    rw [ht]
    dsimp only
    obtain ⟨w₁, e1, _⟩ := each3_ok P.na P.nb P.levels (fun i j k => planeNode P T hasRef n i j k) (fun _ => True)
      (fun i _ j _ k _ s _ => by
        obtain ⟨s', hs⟩ := planeNode_ok P T hasRef n i j k s h5
        exact ⟨s', hs, trivial⟩)
      (Work.mk (Arrays.mk A.node A.edge A.tracer A.refNode A.refEdge A.refTracer topo (planeDamping P.na P.nb P.levels
        T.hasRayleigh (fun z i j => T.rayleigh z (P.alpha i) (P.beta j))
        (planeHeights P.na P.nb P.levels ztop topo.value P.level P.interface A.height)))
        Buffers.zero Buffers.zero) trivial
    obtain ⟨w₂, e2, _⟩ := each3_ok (P.levels + 1) P.na P.nb (fun k i j => planeEdge P T hasRef n i j k) (fun _ => True)
      (fun i _ j _ k _ s _ => by
        obtain ⟨s', hs⟩ := planeEdge_ok P T hasRef n j k i s h5
        exact ⟨s', hs, trivial⟩) w₁ trivial
    unfold each3 at e1 e2
    rw [e1]
    dsimp only [bind, Except.bind]
    rw [e2]
    exact ⟨_, rfl⟩

/-! ### The whole grid -/

theorem mapM_forall {α β : Type} (f : α → Except Fault β) : ∀ (l : List α) (l' : List β), l.mapM f = .ok l' →
    List.Forall₂ (fun a b => f a = .ok b) l l'
  | [], l', h => by
    simp only [List.mapM_nil, pure, Except.pure, Except.ok.injEq] at h
    subst h
    exact .nil
  | a :: l, l', h => by
    rw [List.mapM_cons] at h
    obtain ⟨b, hb, h⟩ := bind_ok h
    obtain ⟨bs, hbs, h⟩ := bind_ok h
    simp only [pure, Except.pure, Except.ok.injEq] at h
    subst h
    exact .cons hb (mapM_forall f l bs hbs)

/-- **C100 (all patches).**  Evaluating a test case on a grid evaluates it on each patch, with the model top and the
reference state of that test case whatever the grid held before; the grid then holds the top, the flags and the
coefficients of the test case, and says that it has uniform diffusion exactly when one of the two coefficients is not
zero. -/
theorem C100_grid (K : Kind) (n : Nat) (G G' : Grid) (h : gridEvaluate K T n G = .ok G') :
    List.Forall₂ (fun a b => b.1 = a.1 ∧ evaluate K a.1 T T.ztop T.hasReference n a.2 = .ok b.2) G.patches G'.patches ∧
    G'.ztop = T.ztop ∧ G'.hasReference = T.hasReference ∧ G'.hasRayleigh = T.hasRayleigh ∧
    G'.diffusion = T.diffusion ∧ (G'.hasDiffusion = true ↔ T.diffusion.1 ≠ 0 ∨ T.diffusion.2 ≠ 0) := by
  unfold gridEvaluate at h
  obtain ⟨l, hl, h⟩ := bind_ok h
  simp only [pure, Except.pure, Except.ok.injEq] at h
  subst h
  refine ⟨?_, rfl, rfl, rfl, rfl, ?_⟩
  · refine List.Forall₂.imp ?_ (mapM_forall _ _ _ hl)
    rintro ⟨P, A⟩ ⟨P', A'⟩ hb
    obtain ⟨A'', hA, hb⟩ := bind_ok hb
    simp only [pure, Except.pure, Except.ok.injEq, Prod.mk.injEq] at hb
    obtain ⟨rfl, rfl⟩ := hb
    exact ⟨rfl, hA⟩
  · dsimp only
    split_ifs with hd
    · simp [hd.1, hd.2]
    · simp only [true_iff]
      by_contra hc
      push Not at hc
      exact hd hc

end Verif.Init
