import Verif.Whole.LayoutProps
import Verif.Whole.PointSamples

/-!
# C109 and C110: cases that meet the hypotheses

A cubed sphere of two by two elements of order three on each panel: once each panel is one patch, with a halo of two nodes
and two tracers, once it is cut in two, with a halo of one node and one tracer.  The metric, the rotation and the mountains
vary from node to node.
-/

namespace Verif.Whole

open Halo (Momenta)
open Horiz (simpsonNodes simpsonWeights basisOf)

/-- A patch `n` elements wide from element `e`: what it holds is a function of the node of the grid. -/
noncomputable def layTile (halo tracers : Nat) (p : Int) (e n : Nat) : Tile where
  panel := p
  eA := e
  eB := 0
  M := {
    G := {
      S := { order := 3, elemA := n, elemB := 2, halo := halo, levels := 1, tracers := tracers }
      deltaA := Real.pi / 4
      deltaB := Real.pi / 4
      jac := fun iA iB => cubeDensity ((iA : Int) - halo + e * 3) ((iB : Int) - halo)
      metA := fun iA _ m => if m = 0 then 1 + ((iA : Int) - halo + e * 3 : Int) else 1 / 2
      metB := fun _ iB m => if m = 0 then 1 / 2 else 1 + ((iB : Int) - halo : Int)
      coriolis := fun iA _ => 1 + ((iA : Int) - halo + e * 3 : Int)
      topo := fun iA _ => p + ((iA : Int) - halo + e * 3 : Int)
      g := 10 }
    B := basisOf 3 simpsonNodes simpsonWeights
    components := 3
    located := fun _ => .node
    jacNode := fun iA iB _ => cubeDensity ((iA : Int) - halo + e * 3) ((iB : Int) - halo)
    jacREdge := fun _ _ _ => 1
    ref := fun _ => 0
    refLength := 1 }

/-- Each panel cut into `cut` patches that are `2 / cut` elements wide; `turn` to be given. -/
noncomputable def layWorld (halo tracers cut : Nat) (turn : Fin (cut * 6) → Arr → Arr) : World where
  kind := .sphere
  order := 3
  elemA := 2
  elemB := 2
  halo := halo
  levels := 1
  components := 3
  tracers := tracers
  count := cut * 6
  tile := fun i => layTile halo tracers ((i.val / cut : Nat) : Int) (i.val % cut * (2 / cut)) (2 / cut)
  weight := simpsonWeights
  level := fun _ => 1
  turn := turn
  xz := false
  uniform := true
  nuUniform := 1
  hyperOrder := 4
  nuScalar := 1
  nuDiv := 2
  nuVort := 3

noncomputable def layCube (m : Momenta) (halo tracers cut : Nat) : World :=
  layWorld halo tracers cut ((layWorld halo tracers cut fun _ v => v).haloTurn m samplePoints)

theorem lay_tiled (m : Momenta) (halo tracers cut : Nat) (hh : 1 ≤ halo) (hc : cut = 1 ∨ cut = 2) :
    (layCube m halo tracers cut).Tiled where
  order := by simp [layCube, layWorld]
  halo := hh
  square := fun _ => rfl
  shape := fun i => ⟨rfl, rfl, rfl, rfl⟩
  some := fun i => by rcases hc with rfl | rfl <;> simp [layCube, layWorld, layTile]
  panel := fun i => by
    have := i.isLt
    rcases hc with rfl | rfl <;> simp only [layCube, layWorld, layTile, Kind.panels] at this ⊢ <;> omega
  inside := fun i => by
    rcases hc with rfl | rfl <;> simp only [layCube, layWorld, layTile] <;> omega
  cover := fun p x y h0 h1 hx hy => by
    simp only [layCube, layWorld, Kind.panels] at h1 hx hy
    rcases hc with rfl | rfl
    · refine ⟨⟨p.toNat, by simp only [layCube, layWorld]; omega⟩, ?_⟩
      simp only [Tile.Holds, layCube, layWorld, layTile]
      omega
    · refine ⟨⟨2 * p.toNat + x, by simp only [layCube, layWorld]; omega⟩, ?_⟩
      simp only [Tile.Holds, layCube, layWorld, layTile]
      omega
  once := fun i j p x y hi hj => by
    apply Fin.ext
    rcases hc with rfl | rfl <;> simp only [Tile.Holds, layCube, layWorld, layTile] at hi hj <;> omega

theorem lay_shallow (m : Momenta) (halo tracers cut : Nat) : (layCube m halo tracers cut).ShallowWater where
  three := le_refl 3
  counted := fun _ => rfl
  nodes := fun _ _ => rfl
  turn := fun i v c hc => by
    funext iA iB k
    simp only [layCube, layWorld, World.haloTurn]
    rw [if_neg (by omega), if_neg (by omega)]

theorem lay_laid (m : Momenta) (halo tracers cut : Nat) :
    (layCube m halo tracers cut).Laid m samplePoints samplePoints :=
  ⟨sample_line, sample_line, fun _ => rfl, fun h => (by cases h)⟩

theorem lay_same (m : Momenta) (halo tracers cut halo' tracers' cut' : Nat) :
    (layCube m halo tracers cut).SameGrid (layCube m halo' tracers' cut') where
  kind := rfl
  order := rfl
  elemA := rfl
  elemB := rfl
  levels := rfl
  components := rfl
  weight := rfl
  level := rfl
  xz := rfl
  uniform := rfl
  nuUniform := rfl
  hyperOrder := rfl
  nuScalar := rfl
  nuDiv := rfl
  nuVort := rfl
  patches := fun _ _ => ⟨rfl, rfl, rfl, rfl, rfl⟩
  nodes := fun i i' iA iB iA' iB' _ _ h => by
    simp only [World.at_, layCube, layWorld, layTile, Prod.mk.injEq, Nat.cast_zero, zero_mul, add_zero] at h
    obtain ⟨h1, h2, h3⟩ := h
    have h2' : (iA' : Int) - halo' + ((i'.val % cut' * (2 / cut') : Nat) : Int) * 3 =
        (iA : Int) - halo + ((i.val % cut * (2 / cut) : Nat) : Int) * 3 := h2
    simp only [World.SameAt, layCube, layWorld, layTile]
    rw [h2', h3, h1]
    refine ⟨rfl, rfl, rfl, fun _ _ => ⟨rfl, rfl⟩, fun _ _ => ⟨rfl, fun _ _ => ?_⟩⟩
    trivial

/-- Three steps of the five stage third order scheme from any height, velocity and tracer. -/
example (m : Momenta) (f : Nat → Halo.Node → ℝ) :
    let A := layCube m 2 2 1
    let B := layCube m 1 1 2
    let u : A.Field := fun i c iA iB _ => f c (A.at_ i iA iB)
    let u' : B.Field := fun i c iA iB _ => f c (B.at_ i iA iB)
    ∃ v v', Steps.StepsTo A.dyn ([1, 2, 3].flatMap (Steps.Scheme.erk .kinnmarkGrayUllrich35).prog)
      ⟨List.replicate 5 u, List.replicate 5 u⟩ v ∧
      Steps.StepsTo B.dyn ([1, 2, 3].flatMap (Steps.Scheme.erk .kinnmarkGrayUllrich35).prog)
        ⟨List.replicate 5 u', List.replicate 5 u'⟩ v' ∧ A.SameState B v.1 v'.1 ∧ A.SameTracers B (· = ·) v.2 v'.2 := by
  intro A B u u'
  have same : ∀ c, A.SameField B c c u u' := fun c i i' iA iB iA' iB' k _ _ h _ => by
    show f c _ = f c _
    rw [h]
  exact C109_run A B (lay_tiled m 2 2 1 (by omega) (.inl rfl)) (lay_tiled m 1 1 2 (by omega) (.inr rfl))
    (lay_same m 2 2 1 1 1 2) (lay_shallow m 2 2 1) (lay_shallow m 1 1 2) m samplePoints samplePoints (lay_laid m 2 2 1)
    (lay_laid m 1 1 2) (.erk .kinnmarkGrayUllrich35) trivial [1, 2, 3] _ _ (u, u) (u', u') ⟨rfl, rfl, rfl⟩
    ⟨rfl, rfl, rfl⟩ (fun c _ => same c) (fun c c' _ _ h => by subst h; exact same c)

/-- Tracer 1 of two is tracer 0 of one, whatever the first of the two is, and the flow is the same. -/
example (m : Momenta) (f : Nat → Halo.Node → ℝ) (q q' : Halo.Node → ℝ) :
    let A := layCube m 2 2 1
    let B := layCube m 1 1 2
    let u : A.Field × A.Field := (fun i c iA iB _ => f c (A.at_ i iA iB), fun i c iA iB _ =>
      if c = 1 then q (A.at_ i iA iB) else q' (A.at_ i iA iB))
    let u' : B.Field × B.Field := (fun i c iA iB _ => f c (B.at_ i iA iB), fun i c iA iB _ => q (B.at_ i iA iB))
    ∃ v v', Steps.StepsTo A.dyn (Steps.strangRun 0 .kinnmarkGrayUllrich35 true [1, 2])
      ⟨List.replicate 5 u.1, List.replicate 5 u.2⟩ v ∧
      Steps.StepsTo B.dyn (Steps.strangRun 0 .kinnmarkGrayUllrich35 true [1, 2])
        ⟨List.replicate 5 u'.1, List.replicate 5 u'.2⟩ v' ∧ A.SameState B v.1 v'.1 ∧ A.SameField B 1 0 v.2 v'.2 := by
  intro A B u u'
  obtain ⟨v, v', h1, h2, h3, h4⟩ := C110_strang A B (lay_tiled m 2 2 1 (by omega) (.inl rfl))
    (lay_tiled m 1 1 2 (by omega) (.inr rfl)) (lay_same m 2 2 1 1 1 2) (lay_shallow m 2 2 1) (lay_shallow m 1 1 2) m
    samplePoints samplePoints (lay_laid m 2 2 1) (lay_laid m 1 1 2) .kinnmarkGrayUllrich35 0 [1, 2]
    ⟨List.replicate 5 u.1, List.replicate 5 u.2⟩ ⟨List.replicate 5 u'.1, List.replicate 5 u'.2⟩ u u' ⟨rfl, rfl, rfl⟩
    ⟨rfl, rfl, rfl⟩ (fun c _ i i' iA iB iA' iB' k _ _ h _ => by
      show f c _ = f c _
      rw [h])
  exact ⟨v, v', h1, h2, h3, h4 1 0 (show 1 < 2 by omega) (show 0 < 1 by omega) fun i i' iA iB iA' iB' k _ _ h _ => by
    show q (B.at_ i' iA' iB') = if 1 = 1 then q (A.at_ i iA iB) else q' (A.at_ i iA iB)
    rw [if_pos rfl, h]⟩

end Verif.Whole
