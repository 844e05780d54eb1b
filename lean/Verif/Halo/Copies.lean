import Verif.Halo.Line
import Verif.Sphere.PropsCross
import Verif.Sphere.PropsPoint
import Mathlib.Tactic.Module
import Mathlib.Tactic.IntervalCases

/-!
# The copies of a point of the sphere
-/

namespace Verif.Halo

open Verif.Dss (twin)
open Verif.Sphere
open Verif.Exchange (Dir)
open Verif.Panel (outside inside IsEdge relativeCoord Rel place panelFromDirection opposingDirection switchParallel)

variable {p res : Int} {x : Nat → ℝ}

/-- The node that holds the value of node `(g, k)` counted from panel `q`, possibly beyond an edge. -/
def owner (N q g k : Int) : Node :=
  match relativeCoord N q g k with
  | some r => place r
  | none => (q, g, k)

theorem nodes_of (L : Line p res x) : Nodes (p * res) (coord p res x) :=
  ⟨coord_zero L, coord_last L, fun i _ _ => coord_mirror L i⟩

theorem owner_in (N q g k : Int) (h0 : 0 ≤ g) (h1 : g < N) (h2 : 0 ≤ k) (h3 : k < N) : owner N q g k = (q, g, k) := by
  unfold owner relativeCoord
  rw [if_pos ⟨h2, h0, h3, h1⟩]
  rfl

theorem sphere_panel {q : Int} (h : Panel.IsPanel q) : IsPanel q := by
  obtain ⟨a, b⟩ := h
  unfold IsPanel; omega

theorem same_panel (L : Line p res x) (q : Int) (hq : Panel.IsPanel q) (g k g' k' : Int) (h0 : 0 ≤ g)
    (h1 : g < p * res) (h2 : 0 ≤ k) (h3 : k < p * res) (h0' : 0 ≤ g') (h1' : g' < p * res) (h2' : 0 ≤ k')
    (h3' : k' < p * res) :
    point p res x (q, g', k') = point p res x (q, g, k) ↔ (g' = g ∨ g' = twin p g) ∧ (k' = k ∨ k' = twin p k) := by
  rw [← coord_eq L g g' (by omega) (by omega) (by omega) (by omega),
    ← coord_eq L k k' (by omega) (by omega) (by omega) (by omega)]
  have hq' := sphere_panel hq
  unfold point
  simp only
  constructor
  · intro h
    have a := (C33_panels _ _ _ _ q q hq' hq').mpr h
    have b := (C33_panels (coord p res x g') (coord p res x k') _ _ q q hq' hq').mpr rfl
    rw [a] at b
    simp only [Option.some.injEq, Prod.mk.injEq] at b
    exact ⟨b.1.symm, b.2.symm⟩
  · rintro ⟨a, b⟩; rw [a, b]

theorem edge_key {s s' X Z : ℝ} (hs : 0 < s) (hs' : 0 < s') (hX : X ≤ 1) (hZ : Z ≤ 1) (h1 : s' = X * s)
    (h2 : s = Z * s') : X = 1 := by
  have a : s' ≤ s := by nlinarith
  have b : s ≤ s' := by nlinarith
  have e : s' = s := le_antisymm a b
  rw [e] at h1
  have : (X - 1) * s = 0 := by linarith
  rcases mul_eq_zero.mp this with h | h
  · linarith
  · exact absurd h hs.ne'

/-- The point is on edge `d`. -/
def OnEdge (d : Dir) (X Y : ℝ) : Prop :=
  (d = .right ∧ X = 1) ∨ (d = .top ∧ Y = 1) ∨ (d = .left ∧ X = -1) ∨ (d = .bottom ∧ Y = -1)

set_option maxHeartbeats 4000000 in
/-- Two panels have a point in common only on an edge they share. -/
theorem common_point (a b : Int) (ha : Panel.IsPanel a) (hb : Panel.IsPanel b) (hab : a ≠ b) (X Y X' Y' : ℝ)
    (hX : -1 ≤ X ∧ X ≤ 1) (hY : -1 ≤ Y ∧ Y ≤ 1) (hX' : -1 ≤ X' ∧ X' ≤ 1) (hY' : -1 ≤ Y' ∧ Y' ≤ 1)
    (h : image b X' Y' = image a X Y) : ∃ d, panelFromDirection a d = some b ∧ OnEdge d X Y := by
  have hs : 0 < 1 / √(1 + X * X + Y * Y) := (scale_spec X Y).1
  have hs' : 0 < 1 / √(1 + X' * X' + Y' * Y') := (scale_spec X' Y').1
  unfold image at h
  generalize 1 / √(1 + X * X + Y * Y) = s at *
  generalize 1 / √(1 + X' * X' + Y' * Y') = s' at *
  obtain ⟨h0, h5⟩ := ha
  obtain ⟨g0, g5⟩ := hb
  obtain ⟨hX1, hX2⟩ := hX
  obtain ⟨hY1, hY2⟩ := hY
  obtain ⟨hX3, hX4⟩ := hX'
  obtain ⟨hY3, hY4⟩ := hY'
  interval_cases a <;> interval_cases b <;>
    first
    | exact absurd rfl hab
    | (simp only [centre, axisA, axisB] at h
       simp [Prod.ext_iff] at h
       obtain ⟨e1, e2, e3⟩ := h
       first
       | (exfalso; linarith)
       | (refine ⟨.right, rfl, .inl ⟨rfl, ?_⟩⟩
          first
          | exact edge_key hs hs' (Z := X') (by linarith) (by linarith) (by linarith) (by linarith)
          | exact edge_key hs hs' (Z := -X') (by linarith) (by linarith) (by linarith) (by linarith)
          | exact edge_key hs hs' (Z := Y') (by linarith) (by linarith) (by linarith) (by linarith)
          | exact edge_key hs hs' (Z := -Y') (by linarith) (by linarith) (by linarith) (by linarith))
       | (refine ⟨.top, rfl, .inr (.inl ⟨rfl, ?_⟩)⟩
          first
          | exact edge_key hs hs' (Z := X') (by linarith) (by linarith) (by linarith) (by linarith)
          | exact edge_key hs hs' (Z := -X') (by linarith) (by linarith) (by linarith) (by linarith)
          | exact edge_key hs hs' (Z := Y') (by linarith) (by linarith) (by linarith) (by linarith)
          | exact edge_key hs hs' (Z := -Y') (by linarith) (by linarith) (by linarith) (by linarith))
       | (refine ⟨.left, rfl, .inr (.inr (.inl ⟨rfl, ?_⟩))⟩
          rw [eq_comm, neg_eq_iff_eq_neg, eq_comm]
          first
          | exact edge_key hs hs' (Z := X') (by linarith) (by linarith) (by linarith) (by linarith)
          | exact edge_key hs hs' (Z := -X') (by linarith) (by linarith) (by linarith) (by linarith)
          | exact edge_key hs hs' (Z := Y') (by linarith) (by linarith) (by linarith) (by linarith)
          | exact edge_key hs hs' (Z := -Y') (by linarith) (by linarith) (by linarith) (by linarith))
       | (refine ⟨.bottom, rfl, .inr (.inr (.inr ⟨rfl, ?_⟩))⟩
          rw [eq_comm, neg_eq_iff_eq_neg, eq_comm]
          first
          | exact edge_key hs hs' (Z := X') (by linarith) (by linarith) (by linarith) (by linarith)
          | exact edge_key hs hs' (Z := -X') (by linarith) (by linarith) (by linarith) (by linarith)
          | exact edge_key hs hs' (Z := Y') (by linarith) (by linarith) (by linarith) (by linarith)
          | exact edge_key hs hs' (Z := -Y') (by linarith) (by linarith) (by linarith) (by linarith)))

/-- Position along the neighbour's edge. -/
def across (N a b t : Int) : Int := if switchParallel a b then N - 1 - t else t

theorem owner_out (N a b t : Int) (ha : Panel.IsPanel a) (d d' : Dir) (hd : IsEdge d) (h0 : 0 ≤ t) (h1 : t < N)
    (hq : panelFromDirection a d = some b) (ho : opposingDirection a b d = some d') :
    owner N a (outside N d 0 t).1 (outside N d 0 t).2 = (b, inside N d' 0 (across N a b t)) := by
  unfold owner
  rw [Panel.crossing N a b 0 t ha d d' hd le_rfl h0 h1 hq ho]
  rfl

theorem point_out (L : Line p res x) (a b t : Int) (ha : Panel.IsPanel a) (d d' : Dir) (hd : IsEdge d) (h0 : 0 ≤ t)
    (h1 : t < p * res) (hq : panelFromDirection a d = some b) (ho : opposingDirection a b d = some d') :
    point p res x (b, inside (p * res) d' 0 (across (p * res) a b t)) =
      point p res x (a, inside (p * res) d 0 t) := by
  obtain ⟨r, d'', hr, -, -, hi, -⟩ := C32_same_point (p * res) t a _ (nodes_of L) ha d hd h0 h1
  have := owner_out (p * res) a b t ha d d' hd h0 h1 hq ho
  unfold owner at this
  rw [hr] at this
  unfold place at this
  rw [← this]
  exact hi

end Verif.Halo
