/-
C32: the index crossings of the panels agree with the geometry of the sphere.
-/
import Verif.Panel.Props
import Verif.Sphere.PropsTangent

namespace Verif.Sphere

open Real
open Verif.Exchange (Dir)
open Verif.Panel (outside inside IsEdge relativeCoord)

/-- Node coordinates of a panel of `N` by `N` nodes: from -1 to 1, symmetric about the centre. -/
structure Nodes (N : Int) (ξ : Int → ℝ) : Prop where
  first : ξ 0 = -1
  last : ξ (N - 1) = 1
  symm : ∀ i, 0 ≤ i → i < N → ξ (N - 1 - i) = -ξ i

/-- Coordinate direction along an edge. -/
noncomputable def along (p : Int) (d : Dir) (X Y : ℝ) : Vec3 :=
  if d = .right ∨ d = .left then tangentB p X Y else tangentA p X Y

/-- Coordinate direction across an edge, out of the panel. -/
noncomputable def outward (p : Int) (d : Dir) (X Y : ℝ) : Vec3 :=
  if d = .right then tangentA p X Y else if d = .top then tangentB p X Y
  else if d = .left then -tangentA p X Y else -tangentB p X Y

/-- **C32.**  For the node at position `t` of edge `d` of a panel and the node reported for the one just outside that
edge: both are the same point of the sphere; the directions along the edge agree, or are opposite where the parallel
direction is reported switched; and the direction out of the first panel leads into the second. -/
theorem C32_same_point (N t p : Int) (ξ : Int → ℝ) (hξ : Nodes N ξ) (hp : Panel.IsPanel p) (d : Dir) (hd : IsEdge d)
    (ht : 0 ≤ t) (ht' : t < N) :
    ∃ r d', relativeCoord N p (outside N d 0 t).1 (outside N d 0 t).2 = some r ∧ IsPanel r.panel ∧
      Panel.opposingDirection p r.panel d = some d' ∧
      image r.panel (ξ r.ix) (ξ r.jx) = image p (ξ (inside N d 0 t).1) (ξ (inside N d 0 t).2) ∧
      along r.panel d' (ξ r.ix) (ξ r.jx) = (if r.switchPar then (-1 : ℝ) else 1) •
        along p d (ξ (inside N d 0 t).1) (ξ (inside N d 0 t).2) ∧
      dot (outward r.panel d' (ξ r.ix) (ξ r.jx)) (outward p d (ξ (inside N d 0 t).1) (ξ (inside N d 0 t).2)) < 0 := by
  obtain ⟨q, d', hq, -, -, -, ho, -⟩ := Panel.C30_edges p hp d hd
  have hc := Panel.crossing N p q 0 t hp d d' hd le_rfl ht ht' hq ho
  have hs := hξ.symm t ht ht'
  have h0 := hξ.first
  have h1 := hξ.last
  have hpos := (scale_spec 1 (ξ t)).1
  have hsq := (scale_spec 1 (ξ t)).2
  rw [show (1 : ℝ) + 1 * 1 + ξ t * ξ t = 1 + ξ t * ξ t + 1 by ring] at hpos hsq
  refine ⟨_, d', hc, ?_, ho, ?_⟩ <;> clear hc <;> obtain ⟨hp0, hp5⟩ := hp <;>
    interval_cases p <;> rcases hd with rfl | rfl | rfl | rfl <;>
    simp [Panel.panelFromDirection] at hq <;> subst hq <;> simp [Panel.opposingDirection] at ho <;> subst ho
  all_goals (first | (simp [IsPanel]; done) | skip)
  all_goals
    simp [inside, Panel.switchParallel, h0, h1, hs, along, outward]
    try rw [show (1 : ℝ) + 1 + ξ t * ξ t = 1 + ξ t * ξ t + 1 by ring] at *
    refine ⟨?_, ?_, ?_⟩
    · simp [image, centre, axisA, axisB]
      try ring_nf
      try simp
    · simp [tangentA, tangentB, centre, axisA, axisB]
      try ring_nf
      try simp
    · simp [dot, tangentA, tangentB, centre, axisA, axisB]
      have e : (1 : ℝ) + 1 + ξ t * ξ t = 1 + ξ t * ξ t + 1 := by ring
      try rw [e]
      have hw : 0 < (√(1 + ξ t * ξ t + 1) ^ 3)⁻¹ := by
        have := one_div_pos.1 hpos
        positivity
      generalize (√(1 + ξ t * ξ t + 1) ^ 3)⁻¹ = w at *
      have h6 : 0 < w * w * (2 + ξ t * ξ t) := by
        have := mul_self_nonneg (ξ t)
        positivity
      linarith

/-- Three nodes across a panel. -/
example : Nodes 3 (fun i => (i : ℝ) - 1) ∧ Panel.IsPanel 2 ∧ IsEdge .top ∧
    relativeCoord 3 2 (outside 3 .top 0 1).1 (outside 3 .top 0 1).2 = some ⟨4, 1, 2, false, true, true⟩ := by
  refine ⟨⟨by norm_num, by norm_num, fun i _ _ => by push_cast; ring⟩, ⟨by decide, by decide⟩, by simp [IsEdge], by decide⟩

end Verif.Sphere
