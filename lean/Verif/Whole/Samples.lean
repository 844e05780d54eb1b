import Verif.Whole.Props
import Verif.Horiz.ShallowFour
import Mathlib.Analysis.SpecialFunctions.Trigonometric.Bounds

/-!
# C104: cases that meet the hypotheses

A cubed sphere with two by two elements of order three on each panel, each panel cut into two patches; and a plane of two
by two such elements, cut into two patches.  Both have mountains.
-/

namespace Verif.Whole

open Horiz (simpsonNodes simpsonWeights basisOf)

/-- The coordinate of node `g`: the tangent of the angle. -/
noncomputable def sampleX (g : Int) : ℝ := Real.tan (Real.pi / 4 * ((g / 3 : Int) + (g % 3 : Int) / 2 - 1))

/-- The Jacobian of the equiangular projection. -/
noncomputable def sampleJ (s t : ℝ) : ℝ := (1 + s ^ 2) * (1 + t ^ 2) / Real.sqrt (1 + s ^ 2 + t ^ 2) ^ 3

noncomputable def sampleDensity (g h : Int) : ℝ := sampleJ (sampleX g) (sampleX h)

/-- What is common to the patches. -/
noncomputable def sampleTile (density : Int → Int → ℝ) (p : Int) (e : Nat) : Tile where
  panel := p
  eA := e
  eB := 0
  M := {
    G := {
      S := ⟨3, 1, 2, 1, 1, 1⟩
      deltaA := Real.pi / 4
      deltaB := Real.pi / 4
      jac := fun iA iB => density ((iA : Int) - 1 + e * 3) ((iB : Int) - 1)
      metA := fun iA _ m => if m = 0 then 1 + iA else 1 / 2
      metB := fun _ iB m => if m = 0 then 1 / 2 else 1 + iB
      coriolis := fun iA _ => 1 + iA
      topo := fun iA _ => iA
      g := 10 }
    B := basisOf 3 simpsonNodes simpsonWeights
    components := 3
    located := fun _ => .node
    jacNode := fun iA iB _ => density ((iA : Int) - 1 + e * 3) ((iB : Int) - 1)
    jacREdge := fun _ _ _ => 1
    ref := fun _ => 0
    refLength := 1 }

/-- The settings: hyperviscosity of order four and uniform diffusion. -/
noncomputable def sampleWorld (kind : Kind) (density : Int → Int → ℝ) (n : Nat) : World where
  kind := kind
  order := 3
  elemA := 2
  elemB := 2
  halo := 1
  levels := 1
  components := 3
  tracers := 1
  count := n
  tile := fun i => sampleTile density ((i.val / 2 : Nat) : Int) (i.val % 2)
  weight := simpsonWeights
  level := fun _ => 1
  turn := fun _ v c iA iB k => if c = 0 then -v 1 iA iB k else if c = 1 then v 0 iA iB k else v c iA iB k
  xz := false
  uniform := true
  nuUniform := 1
  hyperOrder := 4
  nuScalar := 1
  nuDiv := 2
  nuVort := 3

/-- The sphere: twelve patches on six panels. -/
noncomputable def sampleSphere : World := sampleWorld .sphere sampleDensity 12

/-- The plane: two patches. -/
noncomputable def samplePlane : World := sampleWorld .plane (fun _ _ => 5) 2

theorem sample_tiled (kind : Kind) (density : Int → Int → ℝ) (n : Nat) (hn : (n : Int) = 2 * kind.panels) :
    (sampleWorld kind density n).Tiled where
  order := by simp [sampleWorld]
  halo := by simp [sampleWorld]
  square := fun _ => rfl
  shape := fun i => ⟨rfl, rfl, rfl, rfl⟩
  some := fun i => by simp [sampleWorld, sampleTile]
  panel := fun i => by
    have := i.isLt
    simp only [sampleWorld, sampleTile] at this ⊢
    omega
  inside := fun i => by simp only [sampleWorld, sampleTile]; omega
  cover := fun p x y h0 h1 hx hy => by
    simp only [sampleWorld] at h1 hx hy
    refine ⟨⟨2 * p.toNat + x, by simp only [sampleWorld]; omega⟩, ?_⟩
    simp only [Tile.Holds, sampleWorld, sampleTile]
    omega
  once := fun i j p x y hi hj => by
    simp only [Tile.Holds, sampleWorld, sampleTile] at hi hj
    apply Fin.ext
    omega

theorem sample_shallow (kind : Kind) (density : Int → Int → ℝ) (n : Nat) :
    (sampleWorld kind density n).ShallowWater where
  three := le_refl 3
  counted := fun _ => rfl
  nodes := fun _ _ => rfl
  turn := fun i v c hc => by
    funext iA iB k
    simp only [sampleWorld]
    rw [if_neg (by omega), if_neg (by omega)]

theorem sample_quadrature (kind : Kind) (density : Int → Int → ℝ) (n : Nat) :
    (sampleWorld kind density n).Quadrature where
  paired := fun _ => Horiz.sample_paired
  symmetric := fun m hm => by
    simp only [sampleWorld, simpsonWeights] at hm ⊢
    interval_cases m <;> simp

theorem sample_measured (kind : Kind) (density : Int → Int → ℝ) (n : Nat) (h : ∀ g h, density g h ≠ 0) :
    (sampleWorld kind density n).Measured (Real.pi / 4) (Real.pi / 4) density where
  width := fun _ => ⟨rfl, rfl⟩
  jacobian := fun i iA iB _ => by simp [sampleWorld, sampleTile]
  regular := fun g h' _ _ _ _ => h g h'
  levels := fun i => ⟨fun _ => 1, fun _ _ => one_ne_zero, fun iA iB k _ _ => by simp [sampleWorld, sampleTile]⟩

theorem sample_rest (kind : Kind) (density : Int → Int → ℝ) (n : Nat) : (sampleWorld kind density n).TurnsRest :=
  fun i v iA iB k h0 h1 => by simp [sampleWorld, h0, h1]

theorem sampleDensity_ne (g h : Int) : sampleDensity g h ≠ 0 := by
  unfold sampleDensity sampleJ
  positivity

theorem sample_equiangular : sampleSphere.Equiangular sampleDensity where
  symmetric := by
    refine ⟨sampleX, sampleJ, fun _ _ => rfl, fun s t => ?_, fun s t => ?_, fun e h0 h1 => ?_, fun g h0 h1 => ?_⟩
    · unfold sampleJ
      rw [mul_comm, show 1 + s ^ 2 + t ^ 2 = 1 + t ^ 2 + s ^ 2 by ring]
    · unfold sampleJ
      rw [neg_sq]
    · have : e = 1 := by simp only [sampleSphere, sampleWorld] at h1; omega
      subst this
      norm_num [sampleSphere, sampleWorld, sampleX]
    · simp only [sampleSphere, sampleWorld] at h1 ⊢
      norm_num at h1
      unfold sampleX
      rw [← Real.tan_neg]
      congr 1
      interval_cases g <;> norm_num <;> ring

theorem sample_shared_sphere : sampleSphere.Shared sampleDensity :=
  ⟨fun _ => sample_equiangular, fun h => (by cases h)⟩

theorem sample_shared_plane : samplePlane.Shared fun _ _ => 5 :=
  ⟨fun h => (by cases h), fun _ => ⟨fun _ _ _ _ => rfl, fun _ _ _ _ => rfl, fun _ => rfl, fun _ => rfl⟩⟩

/-- Three steps of the five stage third order scheme on the sphere, from any state. -/
example (u : sampleSphere.Field × sampleSphere.Field) :
    ∃ v, Steps.StepsTo sampleSphere.dyn ([1, 2, 3].flatMap (Steps.Scheme.erk .kinnmarkGrayUllrich35).prog)
      ⟨List.replicate 5 u.1, List.replicate 5 u.2⟩ v ∧ sampleSphere.mass 2 v.1 = sampleSphere.mass 2 u.1 :=
  C104_mass_partial _ (sample_tiled _ _ _ rfl) (sample_shallow _ _ _) (sample_quadrature _ _ _) _ _ _
    (sample_measured _ _ _ sampleDensity_ne) sample_shared_sphere (.erk .kinnmarkGrayUllrich35)
    (by simp [Steps.Scheme.Balanced]) trivial _ _ _
    ⟨rfl, rfl, rfl⟩

/-- The same with the Strang scheme on the plane. -/
example (u : samplePlane.Field × samplePlane.Field) :
    ∃ v, Steps.StepsTo samplePlane.dyn (Steps.strangRun 0 .kinnmarkGrayUllrich35 true [1, 2, 3])
      ⟨List.replicate 5 u.1, List.replicate 5 u.2⟩ v ∧ samplePlane.mass 2 v.1 = samplePlane.mass 2 u.1 :=
  C104_mass_strang_partial _ (sample_tiled _ _ _ rfl) (sample_shallow _ _ _) (sample_quadrature _ _ _) _ _ _
    (sample_measured _ _ _ fun _ _ => by norm_num) sample_shared_plane _ (by simp) _ _ _ _ _ ⟨rfl, rfl, rfl⟩

/-- A lake on the sphere, with a scheme that leaves tracers of scratch slots alone. -/
example : ∃ v, Steps.StepsTo sampleSphere.dry ([1, 2].flatMap (Steps.Scheme.ars443).prog)
      ⟨List.replicate 10 fun _ c _ _ _ => if c = 2 then 7 else 0, List.replicate 10 ⟨⟩⟩ v ∧
        sampleSphere.AtRest 7 v.1 :=
  C104_lake_dry_partial sampleSphere (sample_tiled _ _ _ rfl) (sample_shallow _ _ _) (sample_quadrature _ _ _)
    (sample_rest _ _ _) (fun _ _ _ _ _ => ⟨rfl, rfl⟩) .ars443 trivial _ _
    (fun _ c _ _ _ => if c = 2 then 7 else 0, ⟨⟩) ⟨rfl, rfl, rfl⟩ 7
    (fun _ _ _ _ _ _ => by simp)

/-- The mass is not trivially zero: a node of a patch has a positive area. -/
example : 0 < sampleSphere.nodeMass ⟨0, by decide⟩ (fun _ _ _ _ _ => 1) 2 0 0 0 1 1 := by
  have hp := Real.pi_pos
  have hd : 0 < sampleDensity 1 1 := by unfold sampleDensity sampleJ; positivity
  have : sampleSphere.nodeMass ⟨0, by decide⟩ (fun _ _ _ _ _ => 1) 2 0 0 0 1 1 =
      sampleDensity 1 1 * (2 / 3) * (Real.pi / 4) * (2 / 3) * (Real.pi / 4) := by
    simp [World.nodeMass, sampleSphere, sampleWorld, sampleTile, simpsonWeights]
  rw [this]
  positivity

end Verif.Whole
