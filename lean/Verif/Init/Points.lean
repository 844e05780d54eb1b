import Verif.Init.Lemmas

/-!
# What one point does to the arrays
-/

namespace Verif.Init

open Verif.Horiz Verif.Metric Verif.Sphere
open Verif.Halo (Momenta)

/-- What a pass over a point of a level does, on either grid; `fin` is what happens to a converted buffer before it is
stored and `evalRef` how the reference state is asked for. -/
structure NodeStep (P : Site) (T : Test) (lon lat : ℝ) (fin : (Nat → ℝ) → (Nat → ℝ) → Prop)
    (evalRef : ℝ → Buffers → Buffers → Prop) (hasRef : Bool) (n i j k : Nat) (w w' : Work) : Prop where
  height : w'.A.height = w.A.height
  topo : w'.A.topo = w.A.topo
  edge : w'.A.edge = w.A.edge
  refEdge : w'.A.refEdge = w.A.refEdge
  state : ∃ v f, convert P P.rows (T.state (w.A.height.level i j k) lon lat w.buf).state = .ok v ∧ fin v f ∧
    w'.A.node = setAt w.A.node n (store P.rows f i j k (w.A.node n))
  bufTracers : w'.buf.tracers = (T.state (w.A.height.level i j k) lon lat w.buf).tracers
  tracer : w'.A.tracer = setAt w.A.tracer n (store P.tracerRows
    (T.state (w.A.height.level i j k) lon lat w.buf).tracers i j k (w.A.tracer n))
  noRef : hasRef = false → w'.A.refNode = w.A.refNode ∧ w'.A.refTracer = w.A.refTracer ∧ w'.ref = w.ref
  ref : hasRef = true → ∃ b v f, evalRef (w.A.height.level i j k) w.ref b ∧ convert P P.rows b.state = .ok v ∧ fin v f ∧
    w'.A.refNode = store P.rows f i j k w.A.refNode ∧
    w'.A.refTracer = store P.tracerRows b.tracers i j k w.A.refTracer ∧ w'.ref.tracers = b.tracers

/-- What a pass over a point of an interface does. -/
structure EdgeStep (P : Site) (T : Test) (lon lat : ℝ) (fin : (Nat → ℝ) → (Nat → ℝ) → Prop)
    (evalRef : ℝ → Buffers → Buffers → Prop) (hasRef : Bool) (n i j k : Nat) (w w' : Work) : Prop where
  height : w'.A.height = w.A.height
  topo : w'.A.topo = w.A.topo
  node : w'.A.node = w.A.node
  tracer : w'.A.tracer = w.A.tracer
  refNode : w'.A.refNode = w.A.refNode
  refTracer : w'.A.refTracer = w.A.refTracer
  state : ∃ v f, convert P P.rows (T.state (w.A.height.interface i j k) lon lat w.buf).state = .ok v ∧ fin v f ∧
    w'.A.edge = setAt w.A.edge n (store P.rows f i j k (w.A.edge n))
  noRef : hasRef = false → w'.A.refEdge = w.A.refEdge
  ref : hasRef = true → ∃ b v f, evalRef (w.A.height.interface i j k) w.ref b ∧ convert P P.rows b.state = .ok v ∧
    fin v f ∧ w'.A.refEdge = store P.rows f i j k w.A.refEdge

/-- On the cubed sphere the velocities are transformed. -/
def sphereFin (P : Site) (i j : Nat) (v f : Nat → ℝ) : Prop :=
  2 ≤ P.rows ∧ ∃ r, turned P i j v = some r ∧ f = set1 (set1 v 0 r.1) 1 r.2

/-- On the Cartesian grid they are stored as they are. -/
def planeFin (v f : Nat → ℝ) : Prop := f = v

/-- On the cubed sphere the reference state is asked for with tracers. -/
def sphereRef (T : Test) (lon lat z : ℝ) (b b' : Buffers) : Prop := T.evalReference6 z lon lat b = .ok b'

/-- On the Cartesian grid without. -/
def planeRef (T : Test) (lon lat z : ℝ) (b b' : Buffers) : Prop :=
  T.evalReference5 z lon lat b.state = .ok b'.state ∧ b'.tracers = b.tracers

theorem bind_ok {α β : Type} {x : Except Fault α} {f : α → Except Fault β} {b : β} (h : (x >>= f) = .ok b) :
    ∃ a, x = .ok a ∧ f a = .ok b := by
  cases x with
  | error e => simp [bind, Except.bind] at h
  | ok a => exact ⟨a, rfl, h⟩

theorem sphereNode_step (P : Site) (T : Test) (hasRef : Bool) (n i j k : Nat) (w w' : Work)
    (h : sphereNode P T hasRef n i j k w = .ok w') :
    NodeStep P T (P.lonlat i j).1 (P.lonlat i j).2 (sphereFin P i j) (sphereRef T (P.lonlat i j).1 (P.lonlat i j).2)
      hasRef n i j k w w' := by
  unfold sphereNode at h
  obtain ⟨v, hv, h⟩ := bind_ok h
  obtain ⟨node, hn, h⟩ := bind_ok h
  obtain ⟨h2, r, hr, rfl⟩ := turn_spec P i j k v _ _ hn
  cases hasRef with
  | false =>
    simp only [Bool.false_eq_true, if_false, pure, Except.pure, Except.ok.injEq] at h
    subst h
    exact ⟨rfl, rfl, rfl, rfl, ⟨v, _, hv, ⟨h2, r, hr, rfl⟩, rfl⟩, rfl, rfl, fun _ => ⟨rfl, rfl, rfl⟩,
      fun h => absurd h (by simp)⟩
  | true =>
    simp only [if_true] at h
    obtain ⟨b, hb, h⟩ := bind_ok h
    obtain ⟨rv, hrv, h⟩ := bind_ok h
    obtain ⟨rn, hrn, h⟩ := bind_ok h
    obtain ⟨_, r', hr', rfl⟩ := turn_spec P i j k rv _ _ hrn
    simp only [pure, Except.pure, Except.ok.injEq] at h
    subst h
    exact ⟨rfl, rfl, rfl, rfl, ⟨v, _, hv, ⟨h2, r, hr, rfl⟩, rfl⟩, rfl, rfl, fun h => absurd h (by simp),
      fun _ => ⟨b, rv, _, hb, hrv, ⟨h2, r', hr', rfl⟩, rfl, rfl, rfl⟩⟩

theorem sphereEdge_step (P : Site) (T : Test) (hasRef : Bool) (n i j k : Nat) (w w' : Work)
    (h : sphereEdge P T hasRef n i j k w = .ok w') :
    EdgeStep P T (P.lonlat i j).1 (P.lonlat i j).2 (sphereFin P i j) (sphereRef T (P.lonlat i j).1 (P.lonlat i j).2)
      hasRef n i j k w w' := by
  unfold sphereEdge at h
  obtain ⟨v, hv, h⟩ := bind_ok h
  obtain ⟨node, hn, h⟩ := bind_ok h
  obtain ⟨h2, r, hr, rfl⟩ := turn_spec P i j k v _ _ hn
  cases hasRef with
  | false =>
    simp only [Bool.false_eq_true, if_false, pure, Except.pure, Except.ok.injEq] at h
    subst h
    exact ⟨rfl, rfl, rfl, rfl, rfl, rfl, ⟨v, _, hv, ⟨h2, r, hr, rfl⟩, rfl⟩, fun _ => rfl,
      fun h => absurd h (by simp)⟩
  | true =>
    simp only [if_true] at h
    obtain ⟨b, hb, h⟩ := bind_ok h
    obtain ⟨rv, hrv, h⟩ := bind_ok h
    obtain ⟨rn, hrn, h⟩ := bind_ok h
    obtain ⟨_, r', hr', rfl⟩ := turn_spec P i j k rv _ _ hrn
    simp only [pure, Except.pure, Except.ok.injEq] at h
    subst h
    exact ⟨rfl, rfl, rfl, rfl, rfl, rfl, ⟨v, _, hv, ⟨h2, r, hr, rfl⟩, rfl⟩, fun h => absurd h (by simp),
      fun _ => ⟨b, rv, _, hb, hrv, ⟨h2, r', hr', rfl⟩, rfl⟩⟩

theorem planeNode_step (P : Site) (T : Test) (hasRef : Bool) (n i j k : Nat) (w w' : Work)
    (h : planeNode P T hasRef n i j k w = .ok w') :
    NodeStep P T (P.alpha i) (P.beta j) planeFin (planeRef T (P.alpha i) (P.beta j)) hasRef n i j k w w' := by
  unfold planeNode at h
  obtain ⟨v, hv, h⟩ := bind_ok h
  cases hasRef with
  | false =>
    simp only [Bool.false_eq_true, if_false, pure, Except.pure, Except.ok.injEq] at h
    subst h
    exact ⟨rfl, rfl, rfl, rfl, ⟨v, _, hv, rfl, rfl⟩, rfl, rfl, fun _ => ⟨rfl, rfl, rfl⟩, fun h => absurd h (by simp)⟩
  | true =>
    simp only [if_true] at h
    obtain ⟨b, hb, h⟩ := bind_ok h
    obtain ⟨rv, hrv, h⟩ := bind_ok h
    simp only [pure, Except.pure, Except.ok.injEq] at h
    subst h
    exact ⟨rfl, rfl, rfl, rfl, ⟨v, _, hv, rfl, rfl⟩, rfl, rfl, fun h => absurd h (by simp),
      fun _ => ⟨⟨b, w.ref.tracers⟩, rv, _, ⟨hb, rfl⟩, hrv, rfl, rfl, rfl, rfl⟩⟩

theorem planeEdge_step (P : Site) (T : Test) (hasRef : Bool) (n i j k : Nat) (w w' : Work)
    (h : planeEdge P T hasRef n i j k w = .ok w') :
    EdgeStep P T (P.alpha i) (P.beta j) planeFin (planeRef T (P.alpha i) (P.beta j)) hasRef n i j k w w' := by
  unfold planeEdge at h
  obtain ⟨v, hv, h⟩ := bind_ok h
  cases hasRef with
  | false =>
    simp only [Bool.false_eq_true, if_false, pure, Except.pure, Except.ok.injEq] at h
    subst h
    exact ⟨rfl, rfl, rfl, rfl, rfl, rfl, ⟨v, _, hv, rfl, rfl⟩, fun _ => rfl, fun h => absurd h (by simp)⟩
  | true =>
    simp only [if_true] at h
    obtain ⟨b, hb, h⟩ := bind_ok h
    obtain ⟨rv, hrv, h⟩ := bind_ok h
    simp only [pure, Except.pure, Except.ok.injEq] at h
    subst h
    exact ⟨rfl, rfl, rfl, rfl, rfl, rfl, ⟨v, _, hv, rfl, rfl⟩, fun h => absurd h (by simp),
      fun _ => ⟨⟨b, w.ref.tracers⟩, rv, _, ⟨hb, rfl⟩, hrv, rfl, rfl⟩⟩

end Verif.Init
