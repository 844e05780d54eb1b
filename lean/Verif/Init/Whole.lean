import Verif.Init.Passes

/-!
# The evaluation of a test case on a patch
-/

namespace Verif.Init

open Verif.Horiz Verif.Metric Verif.Sphere
open Verif.Halo (Momenta)

theorem dampColumn_heights (n m : Nat) (f : ℝ → Nat → Nat → ℝ) (i j : Nat) (H : Heights) :
    (dampColumn n m f i j H).level = H.level ∧ (dampColumn n m f i j H).interface = H.interface := ⟨rfl, rfl⟩

theorem loop_heights (n : Nat) (body : Nat → Heights → Heights)
    (h : ∀ i H, (body i H).level = H.level ∧ (body i H).interface = H.interface) (H : Heights) :
    (loop n body H).level = H.level ∧ (loop n body H).interface = H.interface := by
  induction n with
  | zero => exact ⟨rfl, rfl⟩
  | succ n ih => rw [loop_succ]; exact ⟨(h n _).1.trans ih.1, (h n _).2.trans ih.2⟩

theorem sphereDamping_heights (na nb levels : Nat) (has : Bool) (f : ℝ → Nat → Nat → ℝ) (H : Heights) :
    (sphereDamping na nb levels has f H).level = H.level ∧ (sphereDamping na nb levels has f H).interface = H.interface := by
  unfold sphereDamping
  split_ifs
  · exact loop_heights na _ (fun i H => loop_heights nb _ (fun j H => dampColumn_heights _ _ f i j H) H) H
  · exact ⟨rfl, rfl⟩

theorem planeDamping_heights (na nb levels : Nat) (has : Bool) (f : ℝ → Nat → Nat → ℝ) (H : Heights) :
    (planeDamping na nb levels has f H).level = H.level ∧ (planeDamping na nb levels has f H).interface = H.interface := by
  unfold planeDamping
  split_ifs
  · exact loop_heights na _ (fun i H => loop_heights nb _ (fun j H => dampColumn_heights _ _ f i j H) H) H
  · exact ⟨rfl, rfl⟩

/-- A patch after the evaluation: what the two loops left, with the heights they used. -/
structure Done (P : Site) (T : Test) (pos : Nat → Nat → ℝ × ℝ) (fin : Nat → Nat → (Nat → ℝ) → (Nat → ℝ) → Prop)
    (evalRef : Nat → Nat → ℝ → Buffers → Buffers → Prop) (hasRef : Bool) (n : Nat) (A A' : Arrays) : Prop where
  state : ∀ i < P.na, ∀ j < P.nb, ∀ k < P.levels, ∃ b v f,
    convert P P.rows (T.state (A'.height.level i j k) (pos i j).1 (pos i j).2 b).state = .ok v ∧ fin i j v f ∧
      ∀ c < P.rows, A'.node n c i j k = f c
  stateEdge : ∀ i < P.na, ∀ j < P.nb, ∀ k < P.levels + 1, ∃ b v f,
    convert P P.rows (T.state (A'.height.interface i j k) (pos i j).1 (pos i j).2 b).state = .ok v ∧ fin i j v f ∧
      ∀ c < P.rows, A'.edge n c i j k = f c
  tracer : ∀ i < P.na, ∀ j < P.nb, ∀ k < P.levels, ∀ g, FillsTracers P.tracerRows T.state g →
    ∀ c < P.tracerRows, A'.tracer n c i j k = g (A'.height.level i j k) (pos i j).1 (pos i j).2 c
  ref : hasRef = true → ∀ i < P.na, ∀ j < P.nb, ∀ k < P.levels, ∃ b₀ b v f,
    evalRef i j (A'.height.level i j k) b₀ b ∧ convert P P.rows b.state = .ok v ∧ fin i j v f ∧
      (∀ c < P.rows, A'.refNode c i j k = f c) ∧ (∀ c < P.tracerRows, A'.refTracer c i j k = b.tracers c) ∧
      ∀ c, Untouched evalRef c → b.tracers c = 0
  refEdge : hasRef = true → ∀ i < P.na, ∀ j < P.nb, ∀ k < P.levels + 1, ∃ b₀ b v f,
    evalRef i j (A'.height.interface i j k) b₀ b ∧ convert P P.rows b.state = .ok v ∧ fin i j v f ∧
      ∀ c < P.rows, A'.refEdge c i j k = f c
  nodeFrame : ∀ m c x y z, (m ≠ n ∨ P.rows ≤ c ∨ P.na ≤ x ∨ P.nb ≤ y ∨ P.levels ≤ z) →
    A'.node m c x y z = A.node m c x y z
  edgeFrame : ∀ m c x y z, (m ≠ n ∨ P.rows ≤ c ∨ P.na ≤ x ∨ P.nb ≤ y ∨ P.levels + 1 ≤ z) →
    A'.edge m c x y z = A.edge m c x y z
  tracerFrame : ∀ m c x y z, (m ≠ n ∨ P.tracerRows ≤ c ∨ P.na ≤ x ∨ P.nb ≤ y ∨ P.levels ≤ z) →
    A'.tracer m c x y z = A.tracer m c x y z
  refFrame : ∀ c x y z, (hasRef = false ∨ P.rows ≤ c ∨ P.na ≤ x ∨ P.nb ≤ y ∨ P.levels ≤ z) →
    A'.refNode c x y z = A.refNode c x y z
  refEdgeFrame : ∀ c x y z, (hasRef = false ∨ P.rows ≤ c ∨ P.na ≤ x ∨ P.nb ≤ y ∨ P.levels + 1 ≤ z) →
    A'.refEdge c x y z = A.refEdge c x y z
  refTracerFrame : ∀ c x y z, (hasRef = false ∨ P.tracerRows ≤ c ∨ P.na ≤ x ∨ P.nb ≤ y ∨ P.levels ≤ z) →
    A'.refTracer c x y z = A.refTracer c x y z

theorem done_of {P : Site} {T : Test} {pos : Nat → Nat → ℝ × ℝ} {fin : Nat → Nat → (Nat → ℝ) → (Nat → ℝ) → Prop}
    {evalRef : Nat → Nat → ℝ → Buffers → Buffers → Prop} {hasRef : Bool} {n : Nat} {A : Arrays} {t : Topography}
    {H : Heights} {w₁ w₂ : Work}
    (h1 : NodesDone P T pos fin evalRef hasRef n ⟨{ A with topo := t, height := H }, Buffers.zero, Buffers.zero⟩ w₁)
    (h2 : EdgesDone P T pos fin evalRef hasRef n w₁ w₂) : Done P T pos fin evalRef hasRef n A w₂.A := by
  have eH : w₂.A.height = H := h2.height.trans h1.height
  have eH1 : w₁.A.height = H := h1.height
  refine ⟨?_, ?_, ?_, ?_, ?_, ?_, ?_, ?_, ?_, ?_, ?_⟩
  · intro i hi j hj k hk
    obtain ⟨b, v, f, q1, q2, q3⟩ := h1.state i hi j hj k hk
    exact ⟨b, v, f, by rw [eH]; exact q1, q2, fun c hc => by rw [h2.node]; exact q3 c hc⟩
  · intro i hi j hj k hk
    obtain ⟨b, v, f, q1, q2, q3⟩ := h2.state i hi j hj k hk
    exact ⟨b, v, f, by rw [h2.height]; exact q1, q2, q3⟩
  · intro i hi j hj k hk g hg c hc
    rw [h2.tracer, eH]; exact h1.tracer i hi j hj k hk g hg c hc
  · intro hR i hi j hj k hk
    obtain ⟨b₀, b, v, f, q1, q2, q3, q4, q5, q6⟩ := h1.ref hR i hi j hj k hk
    exact ⟨b₀, b, v, f, by rw [eH]; exact q1, q2, q3, fun c hc => by rw [h2.refNode]; exact q4 c hc,
      fun c hc => by rw [h2.refTracer]; exact q5 c hc, q6⟩
  · intro hR i hi j hj k hk
    obtain ⟨b₀, b, v, f, q1, q2, q3, q4⟩ := h2.ref hR i hi j hj k hk
    exact ⟨b₀, b, v, f, by rw [h2.height]; exact q1, q2, q3, q4⟩
  · intro m c x y z h; rw [h2.node]; exact h1.nodeFrame m c x y z h
  · intro m c x y z h; rw [h2.edgeFrame m c x y z h, h1.edge]
  · intro m c x y z h; rw [h2.tracer]; exact h1.tracerFrame m c x y z h
  · intro c x y z h; rw [h2.refNode]; exact h1.refFrame c x y z h
  · intro c x y z h; rw [h2.refFrame c x y z h, h1.refEdge]
  · intro c x y z h; rw [h2.refTracer]; exact h1.refTracerFrame c x y z h

/-- The heights of a patch after the evaluation. -/
structure HeightsAre (P : Site) (T : Test) (height : ℝ → ℝ → ℝ → ℝ) (pos : Nat → Nat → ℝ × ℝ) (ztop : ℝ) (A : Arrays) :
    Prop where
  level : ∀ i < P.na, ∀ j < P.nb, ∀ k < P.levels, A.height.level i j k =
    height ztop (T.topography (pos i j).1 (pos i j).2) (P.level k)
  interface : ∀ i < P.na, ∀ j < P.nb, ∀ k ≤ P.levels, A.height.interface i j k =
    height ztop (T.topography (pos i j).1 (pos i j).2) (P.interface k)

theorem lonlat_of {P : Site} {i j : Nat} {lon lat : ℝ} (h : rllFromABP (P.alpha i) (P.beta j) P.panel = some (lon, lat)) :
    P.lonlat i j = (lon, lat) := by
  unfold Site.lonlat; rw [h]

theorem sphere_done {P : Site} {T : Test} {ztop : ℝ} {hasRef : Bool} {n : Nat} {A A' : Arrays}
    (h : sphereEvaluate P T ztop hasRef n A = .ok A') :
    ¬ refused P n ∧ IsPanel P.panel ∧
    Done P T P.lonlat (fun i j => sphereFin P i j)
      (fun i j => sphereRef T (P.lonlat i j).1 (P.lonlat i j).2) hasRef n A A' ∧
    (P.eqs.dimensionality ≠ 2 → HeightsAre P T sphereHeight P.lonlat ztop A') ∧
    (P.eqs.dimensionality = 2 → ∀ i < P.na, ∀ j < P.nb, A'.height.level i j 0 = 0 ∧ A'.height.interface i j 0 = 0 ∧
      A'.height.interface i j 1 = 1) := by
  unfold sphereEvaluate at h
  split_ifs at h with hr
  cases ht : sphereTopography P.S P.B P.deltaA P.deltaB P.na P.nb P.panel P.alpha P.beta T.topography A.topo with
  | none => rw [ht] at h; simp at h
  | some topo =>
    rw [ht] at h
    dsimp only at h
    obtain ⟨w₁, h1, h⟩ := bind_ok h
    obtain ⟨w₂, h2, h⟩ := bind_ok h
    simp only [pure, Except.pure, Except.ok.injEq] at h
    subst h
    have hp : IsPanel P.panel := by
      unfold sphereTopography at ht
      split_ifs at ht with hp
      unfold IsPanel; omega
    have D1 := nodes_done P T P.lonlat (fun i j => sphereFin P i j)
      (fun i j => sphereRef T (P.lonlat i j).1 (P.lonlat i j).2) hasRef n (fun i j k => sphereNode P T hasRef n i j k)
      (fun i j k w w' hw => sphereNode_step P T hasRef n i j k w w' hw) _ w₁ rfl rfl h1
    have D2 := edges_done P T P.lonlat (fun i j => sphereFin P i j)
      (fun i j => sphereRef T (P.lonlat i j).1 (P.lonlat i j).2) hasRef n (fun i j k => sphereEdge P T hasRef n i j k)
      (fun i j k w w' hw => sphereEdge_step P T hasRef n i j k w w' hw) w₁ w₂ h2
    have eH := D2.height.trans D1.height
    have damp := sphereDamping_heights P.na P.nb P.levels T.hasRayleigh
      (fun z i j => T.rayleigh z (P.lonlat i j).1 (P.lonlat i j).2)
      (sphereHeights P.na P.nb P.levels (P.eqs.dimensionality = 2) ztop topo.value P.level P.interface A.height)
    have hg : ∀ i < P.na, ∀ j < P.nb, topo.value (i, j) = T.topography (P.lonlat i j).1 (P.lonlat i j).2 := by
      intro i hi j hj
      obtain ⟨lon, lat, e1, e2⟩ := (C81_ground P.S P.B P.deltaA P.deltaB P.na P.nb P.panel ztop P.alpha P.beta
        T.topography A.topo topo i j hi hj).1 ht
      rw [lonlat_of e1, e2]
    refine ⟨hr, hp, done_of D1 D2, fun hd => ⟨?_, ?_⟩, fun hd i hi j hj => ?_⟩
    · intro i hi j hj k hk
      rw [eH]
      simp only [damp.1]
      rw [← hg i hi j hj, show decide (P.eqs.dimensionality = 2) = false by simp [hd]]
      exact (C80_heights P.na P.nb P.levels ztop topo.value P.level P.interface A.height i j hi hj).1 k hk
    · intro i hi j hj k hk
      rw [eH]
      simp only [damp.2]
      rw [← hg i hi j hj, show decide (P.eqs.dimensionality = 2) = false by simp [hd]]
      exact (C80_heights P.na P.nb P.levels ztop topo.value P.level P.interface A.height i j hi hj).2.1 k hk
    · rw [eH]
      simp only [damp.1, damp.2]
      rw [show decide (P.eqs.dimensionality = 2) = true by simp [hd]]
      obtain ⟨_, _, _, _, q1, q2, q3⟩ := C80_heights P.na P.nb P.levels ztop topo.value P.level P.interface A.height i j hi hj
      exact ⟨q1, q2, q3⟩

theorem plane_done {P : Site} {T : Test} {ztop : ℝ} {hasRef : Bool} {n : Nat} {A A' : Arrays}
    (h : planeEvaluate P T ztop hasRef n A = .ok A') :
    ¬ refused P n ∧ (∀ i < P.na, ∀ j < P.nb, T.topography (P.alpha i) (P.beta j) < ztop) ∧
    Done P T (fun i j => (P.alpha i, P.beta j)) (fun _ _ => planeFin)
      (fun i j => planeRef T (P.alpha i) (P.beta j)) hasRef n A A' ∧
    HeightsAre P T planeHeight (fun i j => (P.alpha i, P.beta j)) ztop A' := by
  unfold planeEvaluate at h
  split_ifs at h with hr
  cases ht : planeTopography P.S P.B P.deltaA P.deltaB P.na P.nb ztop P.alpha P.beta T.topography A.topo with
  | none => rw [ht] at h; simp at h
  | some topo =>
    rw [ht] at h
    dsimp only at h
    obtain ⟨w₁, h1, h⟩ := bind_ok h
    obtain ⟨w₂, h2, h⟩ := bind_ok h
    simp only [pure, Except.pure, Except.ok.injEq] at h
    subst h
    have htop : ∀ i < P.na, ∀ j < P.nb, T.topography (P.alpha i) (P.beta j) < ztop := by
      unfold planeTopography at ht
      split_ifs at ht with hp
      intro i hi j hj
      by_contra hc
      exact hp ⟨i, hi, j, hj, not_lt.1 hc⟩
    have D1 := nodes_done P T (fun i j => (P.alpha i, P.beta j)) (fun _ _ => planeFin)
      (fun i j => planeRef T (P.alpha i) (P.beta j)) hasRef n (fun i j k => planeNode P T hasRef n i j k)
      (fun i j k w w' hw => planeNode_step P T hasRef n i j k w w' hw) _ w₁ rfl rfl h1
    have D2 := edges_done' P T (fun i j => (P.alpha i, P.beta j)) (fun _ _ => planeFin)
      (fun i j => planeRef T (P.alpha i) (P.beta j)) hasRef n (fun i j k => planeEdge P T hasRef n i j k)
      (fun i j k w w' hw => planeEdge_step P T hasRef n i j k w w' hw) w₁ w₂ h2
    have eH := D2.height.trans D1.height
    have damp := planeDamping_heights P.na P.nb P.levels T.hasRayleigh
      (fun z i j => T.rayleigh z (P.alpha i) (P.beta j))
      (planeHeights P.na P.nb P.levels ztop topo.value P.level P.interface A.height)
    have hg : ∀ i < P.na, ∀ j < P.nb, topo.value (i, j) = T.topography (P.alpha i) (P.beta j) := by
      intro i hi j hj
      exact (C81_ground P.S P.B P.deltaA P.deltaB P.na P.nb P.panel ztop P.alpha P.beta
        T.topography A.topo topo i j hi hj).2 ht
    refine ⟨hr, htop, done_of D1 D2, ⟨?_, ?_⟩⟩
    · intro i hi j hj k hk
      rw [eH]
      simp only [damp.1]
      rw [← hg i hi j hj]
      exact (C80_heights P.na P.nb P.levels ztop topo.value P.level P.interface A.height i j hi hj).2.2.1 k hk
    · intro i hi j hj k hk
      rw [eH]
      simp only [damp.2]
      rw [← hg i hi j hj]
      exact (C80_heights P.na P.nb P.levels ztop topo.value P.level P.interface A.height i j hi hj).2.2.2.1 k hk

/-! ### From stored vectors to air -/

theorem sphere_air {P : Site} {i j : Nat} {q v f s : Nat → ℝ} (he : P.eqs = .nonhydro) (hp : IsPanel P.panel)
    (h1 : convert P P.rows q = .ok v) (h2 : sphereFin P i j v f) (h3 : ∀ c < P.rows, s c = f c) :
    HoldsScalars P.form P.mom P.pressure (Air.of q) s ∧
    (Regular P.panel (P.x i) (P.y j) → SphereWind P.mom P.radius P.panel (P.x i) (P.y j) (P.lonlat i j).1
      (P.lonlat i j).2 (q 4) (q 0) (q 1) (s 0, s 1)) := by
  have hr : P.rows = 5 := by unfold Site.rows; rw [he]; rfl
  obtain ⟨a, b0, b1⟩ := convert_spec P q v h1 he
  obtain ⟨_, r, hr', rfl⟩ := h2
  rw [hr] at h3
  refine ⟨⟨?_, ?_, ?_⟩, fun hq => ?_⟩
  · rw [h3 2 (by omega)]; simpa [set1] using a.heat
  · rw [h3 3 (by omega)]; simpa [set1] using a.vertical
  · rw [h3 4 (by omega)]; simpa [set1] using a.density
  · have := turned_spec P i j (q 4) (q 0) (q 1) v r hr' b0 b1 hp hq
    rw [h3 0 (by omega), h3 1 (by omega)]
    simpa [set1] using this

theorem plane_air {P : Site} {q v f s : Nat → ℝ} (he : P.eqs = .nonhydro)
    (h1 : convert P P.rows q = .ok v) (h2 : planeFin v f) (h3 : ∀ c < P.rows, s c = f c) :
    PlaneHolds P.form P.mom P.pressure (Air.of q) s := by
  have hr : P.rows = 5 := by unfold Site.rows; rw [he]; rfl
  obtain ⟨a, b0, b1⟩ := convert_spec P q v h1 he
  have h2' : f = v := h2
  subst h2'
  rw [hr] at h3
  refine ⟨⟨?_, ?_, ?_⟩, ?_, ?_⟩
  · rw [h3 2 (by omega)]; exact a.heat
  · rw [h3 3 (by omega)]; exact a.vertical
  · rw [h3 4 (by omega)]; exact a.density
  · rw [h3 0 (by omega)]; exact b0
  · rw [h3 1 (by omega)]; exact b1

theorem Air.of_congr {q q' : Nat → ℝ} (h : ∀ c < 5, q c = q' c) : Air.of q = Air.of q' := by
  unfold Air.of
  rw [h 0 (by omega), h 1 (by omega), h 2 (by omega), h 3 (by omega), h 4 (by omega)]

theorem reference6_state {m : Nat} {T : Test} {f g : ℝ → ℝ → ℝ → Nat → ℝ} {n : Nat} (h : Reference6 n m T f g) {z lon lat : ℝ}
    {b b' : Buffers} (hb : T.evalReference6 z lon lat b = .ok b') : ∀ c < n, b'.state c = f z lon lat c := by
  unfold Test.evalReference6 Test.evalReference5 at hb
  rcases h with ⟨F, h1, h2, _⟩ | ⟨h1, ⟨F, h2, h3⟩, _⟩
  · rw [h1] at hb
    simp only [Except.ok.injEq] at hb
    subst hb
    exact h2 z lon lat b
  · rw [h1, h2] at hb
    simp only [Except.ok.injEq] at hb
    subst hb
    exact h3 z lon lat b.state

theorem reference6_tracers {m : Nat} {T : Test} {f g : ℝ → ℝ → ℝ → Nat → ℝ} {n : Nat} (h : Reference6 n m T f g) (c : Nat)
    (hc : c < m) :
    (∀ z lon lat b b', T.evalReference6 z lon lat b = .ok b' → b'.tracers c = g z lon lat c) ∨
      ((∀ z lon lat b b', T.evalReference6 z lon lat b = .ok b' → b'.tracers c = b.tracers c) ∧
        ∀ z lon lat, g z lon lat c = 0) := by
  rcases h with ⟨F, h1, _, h2⟩ | ⟨h1, ⟨F, h2, h3⟩, h4⟩
  · rcases h2 c hc with h | ⟨h, h'⟩
    · left
      intro z lon lat b b' hb
      unfold Test.evalReference6 at hb
      rw [h1] at hb
      simp only [Except.ok.injEq] at hb
      subst hb
      exact h z lon lat b
    · right
      refine ⟨?_, h'⟩
      intro z lon lat b b' hb
      unfold Test.evalReference6 at hb
      rw [h1] at hb
      simp only [Except.ok.injEq] at hb
      subst hb
      exact h z lon lat b
  · right
    refine ⟨?_, fun z lon lat => h4 z lon lat c hc⟩
    intro z lon lat b b' hb
    unfold Test.evalReference6 Test.evalReference5 at hb
    rw [h1, h2] at hb
    simp only [Except.ok.injEq] at hb
    subst hb
    rfl

end Verif.Init
