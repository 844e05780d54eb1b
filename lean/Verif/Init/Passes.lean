import Verif.Init.Points

/-!
# What the loops over points leave in the arrays
-/

namespace Verif.Init

open Verif.Horiz Verif.Metric Verif.Sphere
open Verif.Halo (Momenta)

/-- A tracer is never written. -/
def Untouched (evalRef : Nat → Nat → ℝ → Buffers → Buffers → Prop) (c : Nat) : Prop :=
  ∀ i j z b b', evalRef i j z b b' → b'.tracers c = b.tracers c

/-- After the loop over points of levels. -/
structure NodesDone (P : Site) (T : Test) (pos : Nat → Nat → ℝ × ℝ) (fin : Nat → Nat → (Nat → ℝ) → (Nat → ℝ) → Prop)
    (evalRef : Nat → Nat → ℝ → Buffers → Buffers → Prop) (hasRef : Bool) (n : Nat) (w w' : Work) : Prop where
  height : w'.A.height = w.A.height
  topo : w'.A.topo = w.A.topo
  edge : w'.A.edge = w.A.edge
  refEdge : w'.A.refEdge = w.A.refEdge
  state : ∀ i < P.na, ∀ j < P.nb, ∀ k < P.levels, ∃ b v f,
    convert P P.rows (T.state (w.A.height.level i j k) (pos i j).1 (pos i j).2 b).state = .ok v ∧ fin i j v f ∧
      ∀ c < P.rows, w'.A.node n c i j k = f c
  tracer : ∀ i < P.na, ∀ j < P.nb, ∀ k < P.levels, ∀ g, FillsTracers P.tracerRows T.state g →
    ∀ c < P.tracerRows, w'.A.tracer n c i j k = g (w.A.height.level i j k) (pos i j).1 (pos i j).2 c
  ref : hasRef = true → ∀ i < P.na, ∀ j < P.nb, ∀ k < P.levels, ∃ b₀ b v f,
    evalRef i j (w.A.height.level i j k) b₀ b ∧ convert P P.rows b.state = .ok v ∧ fin i j v f ∧
      (∀ c < P.rows, w'.A.refNode c i j k = f c) ∧ (∀ c < P.tracerRows, w'.A.refTracer c i j k = b.tracers c) ∧
      ∀ c, Untouched evalRef c → b.tracers c = 0
  nodeFrame : ∀ m c x y z, (m ≠ n ∨ P.rows ≤ c ∨ P.na ≤ x ∨ P.nb ≤ y ∨ P.levels ≤ z) →
    w'.A.node m c x y z = w.A.node m c x y z
  tracerFrame : ∀ m c x y z, (m ≠ n ∨ P.tracerRows ≤ c ∨ P.na ≤ x ∨ P.nb ≤ y ∨ P.levels ≤ z) →
    w'.A.tracer m c x y z = w.A.tracer m c x y z
  refFrame : ∀ c x y z, (hasRef = false ∨ P.rows ≤ c ∨ P.na ≤ x ∨ P.nb ≤ y ∨ P.levels ≤ z) →
    w'.A.refNode c x y z = w.A.refNode c x y z
  refTracerFrame : ∀ c x y z, (hasRef = false ∨ P.tracerRows ≤ c ∨ P.na ≤ x ∨ P.nb ≤ y ∨ P.levels ≤ z) →
    w'.A.refTracer c x y z = w.A.refTracer c x y z

/-- What holds between two points. -/
structure NodesInv (P : Site) (T : Test) (evalRef : Nat → Nat → ℝ → Buffers → Buffers → Prop) (hasRef : Bool) (n : Nat)
    (w w' : Work) : Prop where
  height : w'.A.height = w.A.height
  topo : w'.A.topo = w.A.topo
  edge : w'.A.edge = w.A.edge
  refEdge : w'.A.refEdge = w.A.refEdge
  buf : ∀ c, (∀ z lon lat b, (T.state z lon lat b).tracers c = b.tracers c) → w'.buf.tracers c = 0
  refBuf : ∀ c, Untouched evalRef c → w'.ref.tracers c = 0
  nodeFrame : ∀ m c x y z, (m ≠ n ∨ P.rows ≤ c ∨ P.na ≤ x ∨ P.nb ≤ y ∨ P.levels ≤ z) →
    w'.A.node m c x y z = w.A.node m c x y z
  tracerFrame : ∀ m c x y z, (m ≠ n ∨ P.tracerRows ≤ c ∨ P.na ≤ x ∨ P.nb ≤ y ∨ P.levels ≤ z) →
    w'.A.tracer m c x y z = w.A.tracer m c x y z
  refFrame : ∀ c x y z, (hasRef = false ∨ P.rows ≤ c ∨ P.na ≤ x ∨ P.nb ≤ y ∨ P.levels ≤ z) →
    w'.A.refNode c x y z = w.A.refNode c x y z
  refTracerFrame : ∀ c x y z, (hasRef = false ∨ P.tracerRows ≤ c ∨ P.na ≤ x ∨ P.nb ≤ y ∨ P.levels ≤ z) →
    w'.A.refTracer c x y z = w.A.refTracer c x y z

/-- What holds of a point that has been passed. -/
structure NodePassed (P : Site) (T : Test) (pos : Nat → Nat → ℝ × ℝ)
    (fin : Nat → Nat → (Nat → ℝ) → (Nat → ℝ) → Prop) (evalRef : Nat → Nat → ℝ → Buffers → Buffers → Prop)
    (hasRef : Bool) (n : Nat) (H : Heights) (i j k : Nat) (A : Arrays) : Prop where
  state : ∃ b v f, convert P P.rows (T.state (H.level i j k) (pos i j).1 (pos i j).2 b).state = .ok v ∧ fin i j v f ∧
      ∀ c < P.rows, A.node n c i j k = f c
  tracer : ∀ g, FillsTracers P.tracerRows T.state g →
    ∀ c < P.tracerRows, A.tracer n c i j k = g (H.level i j k) (pos i j).1 (pos i j).2 c
  ref : hasRef = true → ∃ b₀ b v f,
    evalRef i j (H.level i j k) b₀ b ∧ convert P P.rows b.state = .ok v ∧ fin i j v f ∧
      (∀ c < P.rows, A.refNode c i j k = f c) ∧ (∀ c < P.tracerRows, A.refTracer c i j k = b.tracers c) ∧
      ∀ c, Untouched evalRef c → b.tracers c = 0

theorem setAt_same (s : Nat → Nat → Nat → Nat → Nat → ℝ) (n : Nat) (a : Nat → Nat → Nat → Nat → ℝ) :
    setAt s n a n = a := by simp [setAt]

theorem setAt_other (s : Nat → Nat → Nat → Nat → Nat → ℝ) (n m : Nat) (a : Nat → Nat → Nat → Nat → ℝ) (h : m ≠ n) :
    setAt s n a m = s m := by simp [setAt, h]

theorem setAt_store_frame (s : Nat → Nat → Nat → Nat → Nat → ℝ) (n r : Nat) (v : Nat → ℝ) (i j k m c x y z : Nat)
    (h : m ≠ n ∨ r ≤ c ∨ x ≠ i ∨ y ≠ j ∨ z ≠ k) : setAt s n (store r v i j k (s n)) m c x y z = s m c x y z := by
  by_cases hm : m = n
  · subst hm
    rw [setAt_same, store_at, if_neg]
    rintro ⟨a, b, c, d⟩
    omega
  · rw [setAt_other _ _ _ _ hm]

theorem store_frame (r : Nat) (v : Nat → ℝ) (i j k c x y z : Nat) (s : Nat → Nat → Nat → Nat → ℝ)
    (h : r ≤ c ∨ x ≠ i ∨ y ≠ j ∨ z ≠ k) : store r v i j k s c x y z = s c x y z := by
  rw [store_at, if_neg]
  rintro ⟨a, b, c, d⟩
  omega

theorem nodes_done (P : Site) (T : Test) (pos : Nat → Nat → ℝ × ℝ) (fin : Nat → Nat → (Nat → ℝ) → (Nat → ℝ) → Prop)
    (evalRef : Nat → Nat → ℝ → Buffers → Buffers → Prop) (hasRef : Bool) (n : Nat)
    (body : Nat → Nat → Nat → Work → Except Fault Work)
    (hb : ∀ i j k w w', body i j k w = .ok w' →
      NodeStep P T (pos i j).1 (pos i j).2 (fin i j) (evalRef i j) hasRef n i j k w w')
    (w w' : Work) (h0 : w.buf = Buffers.zero) (h1 : w.ref = Buffers.zero)
    (h : each3 P.na P.nb P.levels body w = .ok w') : NodesDone P T pos fin evalRef hasRef n w w' := by
  obtain ⟨J, Q⟩ := each3_spec P.na P.nb P.levels body (NodesInv P T evalRef hasRef n w)
    (fun i j k u => NodePassed P T pos fin evalRef hasRef n w.A.height i j k u.A) (by
      intro i hi j hj k hk u u' J hu
      have S := hb i j k u u' hu
      have hframe : ∀ x y z, (P.na ≤ x ∨ P.nb ≤ y ∨ P.levels ≤ z) → x ≠ i ∨ y ≠ j ∨ z ≠ k := by
        intro x y z h; omega
      obtain ⟨v, f, sv, sf, sn⟩ := S.state
      have hn : ∀ m c x y z, (m ≠ n ∨ P.rows ≤ c ∨ x ≠ i ∨ y ≠ j ∨ z ≠ k) → u'.A.node m c x y z = u.A.node m c x y z := by
        intro m c x y z h; rw [sn]; exact setAt_store_frame _ _ _ _ _ _ _ _ _ _ _ _ h
      have ht : ∀ m c x y z, (m ≠ n ∨ P.tracerRows ≤ c ∨ x ≠ i ∨ y ≠ j ∨ z ≠ k) →
          u'.A.tracer m c x y z = u.A.tracer m c x y z := by
        intro m c x y z h; rw [S.tracer]; exact setAt_store_frame _ _ _ _ _ _ _ _ _ _ _ _ h
      have hr : ∀ c x y z, (hasRef = false ∨ P.rows ≤ c ∨ x ≠ i ∨ y ≠ j ∨ z ≠ k) →
          u'.A.refNode c x y z = u.A.refNode c x y z := by
        intro c x y z h
        cases hR : hasRef with
        | false => rw [(S.noRef hR).1]
        | true =>
          obtain ⟨b, v, f, _, _, _, e, _⟩ := S.ref hR
          rw [e]; exact store_frame _ _ _ _ _ _ _ _ _ _ (by rw [hR] at h; simpa using h)
      have hrt : ∀ c x y z, (hasRef = false ∨ P.tracerRows ≤ c ∨ x ≠ i ∨ y ≠ j ∨ z ≠ k) →
          u'.A.refTracer c x y z = u.A.refTracer c x y z := by
        intro c x y z h
        cases hR : hasRef with
        | false => rw [(S.noRef hR).2.1]
        | true =>
          obtain ⟨b, v, f, _, _, _, _, e, _⟩ := S.ref hR
          rw [e]; exact store_frame _ _ _ _ _ _ _ _ _ _ (by rw [hR] at h; simpa using h)
      refine ⟨⟨?_, ?_, ?_, ?_, ?_, ?_, ?_, ?_, ?_, ?_⟩, ⟨?_, ?_, ?_⟩, ?_⟩
      · rw [S.height, J.height]
      · rw [S.topo, J.topo]
      · rw [S.edge, J.edge]
      · rw [S.refEdge, J.refEdge]
      · intro c hc; rw [S.bufTracers, hc]; exact J.buf c hc
      · intro c hc
        cases hR : hasRef with
        | false => rw [(S.noRef hR).2.2]; exact J.refBuf c hc
        | true =>
          obtain ⟨b, v, f, hb', _, _, _, _, e⟩ := S.ref hR
          rw [e, hc i j _ _ _ hb']; exact J.refBuf c hc
      · intro m c x y z h
        rw [hn m c x y z (by rcases h with h | h | h; exact Or.inl h; exact Or.inr (Or.inl h); exact Or.inr (Or.inr (hframe x y z h)))]
        exact J.nodeFrame m c x y z h
      · intro m c x y z h
        rw [ht m c x y z (by rcases h with h | h | h; exact Or.inl h; exact Or.inr (Or.inl h); exact Or.inr (Or.inr (hframe x y z h)))]
        exact J.tracerFrame m c x y z h
      · intro c x y z h
        rw [hr c x y z (by rcases h with h | h | h; exact Or.inl h; exact Or.inr (Or.inl h); exact Or.inr (Or.inr (hframe x y z h)))]
        exact J.refFrame c x y z h
      · intro c x y z h
        rw [hrt c x y z (by rcases h with h | h | h; exact Or.inl h; exact Or.inr (Or.inl h); exact Or.inr (Or.inr (hframe x y z h)))]
        exact J.refTracerFrame c x y z h
      · refine ⟨u.buf, v, f, ?_, sf, fun c hc => ?_⟩
        · rw [← J.height]; exact sv
        · rw [sn, setAt_same, store_at, if_pos ⟨hc, rfl, rfl, rfl⟩]
      · intro g hg c hc
        rw [S.tracer, setAt_same, store_at, if_pos ⟨hc, rfl, rfl, rfl⟩, J.height]
        rcases hg c hc with h | ⟨h, h'⟩
        · exact h _ _ _ _
        · rw [h, h', J.buf c h]
      · intro hR
        obtain ⟨b, v, f, e1, e2, e3, e4, e5, e6⟩ := S.ref hR
        refine ⟨u.ref, b, v, f, ?_, e2, e3, fun c hc => ?_, fun c hc => ?_, fun c hc => ?_⟩
        · rw [← J.height]; exact e1
        · rw [e4, store_at, if_pos ⟨hc, rfl, rfl, rfl⟩]
        · rw [e5, store_at, if_pos ⟨hc, rfl, rfl, rfl⟩]
        · rw [hc i j _ _ _ e1]; exact J.refBuf c hc
      · intro x hx y hy z hz hne q
        refine ⟨?_, ?_, ?_⟩
        · obtain ⟨b, v, f, q1, q2, q3⟩ := q.state
          exact ⟨b, v, f, q1, q2, fun c hc => by rw [hn n c x y z (Or.inr (Or.inr hne))]; exact q3 c hc⟩
        · intro g hg c hc
          rw [ht n c x y z (Or.inr (Or.inr hne))]; exact q.tracer g hg c hc
        · intro hR
          obtain ⟨b₀, b, v, f, q1, q2, q3, q4, q5, q6⟩ := q.ref hR
          refine ⟨b₀, b, v, f, q1, q2, q3, fun c hc => ?_, fun c hc => ?_, q6⟩
          · rw [hr c x y z (Or.inr (Or.inr hne))]; exact q4 c hc
          · rw [hrt c x y z (Or.inr (Or.inr hne))]; exact q5 c hc)
    w w' ⟨rfl, rfl, rfl, rfl, fun c _ => by rw [h0]; rfl, fun c _ => by rw [h1]; rfl, fun _ _ _ _ _ _ => rfl,
      fun _ _ _ _ _ _ => rfl, fun _ _ _ _ _ => rfl, fun _ _ _ _ _ => rfl⟩ h
  exact ⟨J.height, J.topo, J.edge, J.refEdge, fun i hi j hj k hk => (Q i hi j hj k hk).state,
    fun i hi j hj k hk => (Q i hi j hj k hk).tracer, fun hR i hi j hj k hk => (Q i hi j hj k hk).ref hR,
    J.nodeFrame, J.tracerFrame, J.refFrame, J.refTracerFrame⟩

/-- After the loop over points of interfaces. -/
structure EdgesDone (P : Site) (T : Test) (pos : Nat → Nat → ℝ × ℝ) (fin : Nat → Nat → (Nat → ℝ) → (Nat → ℝ) → Prop)
    (evalRef : Nat → Nat → ℝ → Buffers → Buffers → Prop) (hasRef : Bool) (n : Nat) (w w' : Work) : Prop where
  height : w'.A.height = w.A.height
  topo : w'.A.topo = w.A.topo
  node : w'.A.node = w.A.node
  tracer : w'.A.tracer = w.A.tracer
  refNode : w'.A.refNode = w.A.refNode
  refTracer : w'.A.refTracer = w.A.refTracer
  state : ∀ i < P.na, ∀ j < P.nb, ∀ k < P.levels + 1, ∃ b v f,
    convert P P.rows (T.state (w.A.height.interface i j k) (pos i j).1 (pos i j).2 b).state = .ok v ∧ fin i j v f ∧
      ∀ c < P.rows, w'.A.edge n c i j k = f c
  ref : hasRef = true → ∀ i < P.na, ∀ j < P.nb, ∀ k < P.levels + 1, ∃ b₀ b v f,
    evalRef i j (w.A.height.interface i j k) b₀ b ∧ convert P P.rows b.state = .ok v ∧ fin i j v f ∧
      ∀ c < P.rows, w'.A.refEdge c i j k = f c
  edgeFrame : ∀ m c x y z, (m ≠ n ∨ P.rows ≤ c ∨ P.na ≤ x ∨ P.nb ≤ y ∨ P.levels + 1 ≤ z) →
    w'.A.edge m c x y z = w.A.edge m c x y z
  refFrame : ∀ c x y z, (hasRef = false ∨ P.rows ≤ c ∨ P.na ≤ x ∨ P.nb ≤ y ∨ P.levels + 1 ≤ z) →
    w'.A.refEdge c x y z = w.A.refEdge c x y z

/-- What holds between two points. -/
structure EdgesInv (P : Site) (hasRef : Bool) (n : Nat) (w w' : Work) : Prop where
  height : w'.A.height = w.A.height
  topo : w'.A.topo = w.A.topo
  node : w'.A.node = w.A.node
  tracer : w'.A.tracer = w.A.tracer
  refNode : w'.A.refNode = w.A.refNode
  refTracer : w'.A.refTracer = w.A.refTracer
  edgeFrame : ∀ m c x y z, (m ≠ n ∨ P.rows ≤ c ∨ P.na ≤ x ∨ P.nb ≤ y ∨ P.levels + 1 ≤ z) →
    w'.A.edge m c x y z = w.A.edge m c x y z
  refFrame : ∀ c x y z, (hasRef = false ∨ P.rows ≤ c ∨ P.na ≤ x ∨ P.nb ≤ y ∨ P.levels + 1 ≤ z) →
    w'.A.refEdge c x y z = w.A.refEdge c x y z

/-- What holds of a point that has been passed. -/
structure EdgePassed (P : Site) (T : Test) (pos : Nat → Nat → ℝ × ℝ)
    (fin : Nat → Nat → (Nat → ℝ) → (Nat → ℝ) → Prop) (evalRef : Nat → Nat → ℝ → Buffers → Buffers → Prop)
    (hasRef : Bool) (n : Nat) (H : Heights) (i j k : Nat) (A : Arrays) : Prop where
  state : ∃ b v f, convert P P.rows (T.state (H.interface i j k) (pos i j).1 (pos i j).2 b).state = .ok v ∧
    fin i j v f ∧ ∀ c < P.rows, A.edge n c i j k = f c
  ref : hasRef = true → ∃ b₀ b v f, evalRef i j (H.interface i j k) b₀ b ∧ convert P P.rows b.state = .ok v ∧
    fin i j v f ∧ ∀ c < P.rows, A.refEdge c i j k = f c

theorem edges_pass (P : Site) (T : Test) (pos : Nat → Nat → ℝ × ℝ) (fin : Nat → Nat → (Nat → ℝ) → (Nat → ℝ) → Prop)
    (evalRef : Nat → Nat → ℝ → Buffers → Buffers → Prop) (hasRef : Bool) (n : Nat) (w : Work) (i j k : Nat)
    (hi : i < P.na) (hj : j < P.nb) (hk : k < P.levels + 1) (u u' : Work) (J : EdgesInv P hasRef n w u)
    (S : EdgeStep P T (pos i j).1 (pos i j).2 (fin i j) (evalRef i j) hasRef n i j k u u') :
    EdgesInv P hasRef n w u' ∧ EdgePassed P T pos fin evalRef hasRef n w.A.height i j k u'.A ∧
      ∀ x y z, (x ≠ i ∨ y ≠ j ∨ z ≠ k) → EdgePassed P T pos fin evalRef hasRef n w.A.height x y z u.A →
        EdgePassed P T pos fin evalRef hasRef n w.A.height x y z u'.A := by
  have hframe : ∀ x y z, (P.na ≤ x ∨ P.nb ≤ y ∨ P.levels + 1 ≤ z) → x ≠ i ∨ y ≠ j ∨ z ≠ k := by
    intro x y z h; omega
  obtain ⟨v, f, sv, sf, sn⟩ := S.state
  have hn : ∀ m c x y z, (m ≠ n ∨ P.rows ≤ c ∨ x ≠ i ∨ y ≠ j ∨ z ≠ k) → u'.A.edge m c x y z = u.A.edge m c x y z := by
    intro m c x y z h; rw [sn]; exact setAt_store_frame _ _ _ _ _ _ _ _ _ _ _ _ h
  have hr : ∀ c x y z, (hasRef = false ∨ P.rows ≤ c ∨ x ≠ i ∨ y ≠ j ∨ z ≠ k) →
      u'.A.refEdge c x y z = u.A.refEdge c x y z := by
    intro c x y z h
    cases hR : hasRef with
    | false => rw [S.noRef hR]
    | true =>
      obtain ⟨b, v, f, _, _, _, e⟩ := S.ref hR
      rw [e]; exact store_frame _ _ _ _ _ _ _ _ _ _ (by rw [hR] at h; simpa using h)
  refine ⟨⟨?_, ?_, ?_, ?_, ?_, ?_, ?_, ?_⟩, ⟨?_, ?_⟩, ?_⟩
  · rw [S.height, J.height]
  · rw [S.topo, J.topo]
  · rw [S.node, J.node]
  · rw [S.tracer, J.tracer]
  · rw [S.refNode, J.refNode]
  · rw [S.refTracer, J.refTracer]
  · intro m c x y z h
    rw [hn m c x y z (by rcases h with h | h | h; exact Or.inl h; exact Or.inr (Or.inl h); exact Or.inr (Or.inr (hframe x y z h)))]
    exact J.edgeFrame m c x y z h
  · intro c x y z h
    rw [hr c x y z (by rcases h with h | h | h; exact Or.inl h; exact Or.inr (Or.inl h); exact Or.inr (Or.inr (hframe x y z h)))]
    exact J.refFrame c x y z h
  · refine ⟨u.buf, v, f, ?_, sf, fun c hc => ?_⟩
    · rw [← J.height]; exact sv
    · rw [sn, setAt_same, store_at, if_pos ⟨hc, rfl, rfl, rfl⟩]
  · intro hR
    obtain ⟨b, v, f, e1, e2, e3, e4⟩ := S.ref hR
    refine ⟨u.ref, b, v, f, ?_, e2, e3, fun c hc => ?_⟩
    · rw [← J.height]; exact e1
    · rw [e4, store_at, if_pos ⟨hc, rfl, rfl, rfl⟩]
  · intro x y z hne q
    refine ⟨?_, ?_⟩
    · obtain ⟨b, v, f, q1, q2, q3⟩ := q.state
      exact ⟨b, v, f, q1, q2, fun c hc => by rw [hn n c x y z (Or.inr (Or.inr hne))]; exact q3 c hc⟩
    · intro hR
      obtain ⟨b₀, b, v, f, q1, q2, q3, q4⟩ := q.ref hR
      exact ⟨b₀, b, v, f, q1, q2, q3, fun c hc => by rw [hr c x y z (Or.inr (Or.inr hne))]; exact q4 c hc⟩

theorem edges_result {P : Site} {T : Test} {pos : Nat → Nat → ℝ × ℝ}
    {fin : Nat → Nat → (Nat → ℝ) → (Nat → ℝ) → Prop} {evalRef : Nat → Nat → ℝ → Buffers → Buffers → Prop}
    {hasRef : Bool} {n : Nat} {w w' : Work} (J : EdgesInv P hasRef n w w')
    (Q : ∀ i < P.na, ∀ j < P.nb, ∀ k < P.levels + 1, EdgePassed P T pos fin evalRef hasRef n w.A.height i j k w'.A) :
    EdgesDone P T pos fin evalRef hasRef n w w' :=
  ⟨J.height, J.topo, J.node, J.tracer, J.refNode, J.refTracer, fun i hi j hj k hk => (Q i hi j hj k hk).state,
    fun hR i hi j hj k hk => (Q i hi j hj k hk).ref hR, J.edgeFrame, J.refFrame⟩

/-- The order of the cubed sphere. -/
theorem edges_done (P : Site) (T : Test) (pos : Nat → Nat → ℝ × ℝ) (fin : Nat → Nat → (Nat → ℝ) → (Nat → ℝ) → Prop)
    (evalRef : Nat → Nat → ℝ → Buffers → Buffers → Prop) (hasRef : Bool) (n : Nat)
    (body : Nat → Nat → Nat → Work → Except Fault Work)
    (hb : ∀ i j k w w', body i j k w = .ok w' →
      EdgeStep P T (pos i j).1 (pos i j).2 (fin i j) (evalRef i j) hasRef n i j k w w')
    (w w' : Work) (h : each3 P.na P.nb (P.levels + 1) body w = .ok w') :
    EdgesDone P T pos fin evalRef hasRef n w w' := by
  obtain ⟨J, Q⟩ := each3_spec P.na P.nb (P.levels + 1) body (EdgesInv P hasRef n w)
    (fun i j k u => EdgePassed P T pos fin evalRef hasRef n w.A.height i j k u.A) (by
      intro i hi j hj k hk u u' J hu
      obtain ⟨q1, q2, q3⟩ := edges_pass P T pos fin evalRef hasRef n w i j k hi hj hk u u' J (hb i j k u u' hu)
      exact ⟨q1, q2, fun x _ y _ z _ hne => q3 x y z hne⟩)
    w w' ⟨rfl, rfl, rfl, rfl, rfl, rfl, fun _ _ _ _ _ _ => rfl, fun _ _ _ _ _ => rfl⟩ h
  exact edges_result J Q

/-- The order of the Cartesian grid. -/
theorem edges_done' (P : Site) (T : Test) (pos : Nat → Nat → ℝ × ℝ) (fin : Nat → Nat → (Nat → ℝ) → (Nat → ℝ) → Prop)
    (evalRef : Nat → Nat → ℝ → Buffers → Buffers → Prop) (hasRef : Bool) (n : Nat)
    (body : Nat → Nat → Nat → Work → Except Fault Work)
    (hb : ∀ i j k w w', body i j k w = .ok w' →
      EdgeStep P T (pos i j).1 (pos i j).2 (fin i j) (evalRef i j) hasRef n i j k w w')
    (w w' : Work) (h : each3 (P.levels + 1) P.na P.nb (fun k i j => body i j k) w = .ok w') :
    EdgesDone P T pos fin evalRef hasRef n w w' := by
  obtain ⟨J, Q⟩ := each3_spec (P.levels + 1) P.na P.nb (fun k i j => body i j k) (EdgesInv P hasRef n w)
    (fun k i j u => EdgePassed P T pos fin evalRef hasRef n w.A.height i j k u.A) (by
      intro k hk i hi j hj u u' J hu
      obtain ⟨q1, q2, q3⟩ := edges_pass P T pos fin evalRef hasRef n w i j k hi hj hk u u' J (hb i j k u u' hu)
      refine ⟨q1, q2, fun z _ x _ y _ hne => q3 x y z ?_⟩
      rcases hne with h | h | h
      · exact Or.inr (Or.inr h)
      · exact Or.inl h
      · exact Or.inr (Or.inl h))
    w w' ⟨rfl, rfl, rfl, rfl, rfl, rfl, fun _ _ _ _ _ _ => rfl, fun _ _ _ _ _ => rfl⟩ h
  exact edges_result J (fun i hi j hj k hk => Q k hk i hi j hj)

end Verif.Init
