import Verif.Whole.CubedProps
import Verif.Whole.SingleProps
import Verif.Whole.Samples

/-!
# C104, C105 and C106: cases that meet the hypotheses

A cubed sphere of radius 7 with two by two elements of order three on each panel, each panel cut into two patches; and a
plane of two by two such elements, cut into two patches.
-/

namespace Verif.Whole

open Halo (Momenta Line coord)
open Horiz (simpsonNodes simpsonWeights)

/-- The ends and the middle of an element that is an eighth turn wide. -/
noncomputable def samplePoints (s : Nat) : ℝ := Real.pi / 8 * s

theorem sample_line : Line 3 2 samplePoints := by
  have hp := Real.pi_pos
  refine ⟨by norm_num, by norm_num, ?_, ?_, ?_, ?_⟩
  · simp [samplePoints]
  · simp [samplePoints]; ring
  · intro s t h _
    unfold samplePoints
    have : (s : ℝ) < t := by exact_mod_cast h
    nlinarith
  · intro s h0 h1
    unfold samplePoints
    have h2 : Int.toNat 2 = 2 := rfl
    interval_cases s <;> norm_num [h2] <;> ring

noncomputable def cubeDensity (g h : Int) : ℝ :=
  (Metric.sphereFlat 7 (coord 3 2 samplePoints g) (coord 3 2 samplePoints h)).jac

/-- The sphere. -/
noncomputable def sampleCube (m : Momenta) : World :=
  { sampleWorld .sphere cubeDensity 12 with turn := (sampleWorld .sphere cubeDensity 12).haloTurn m samplePoints }

/-- The plane. -/
noncomputable def sampleFlat : World := { samplePlane with turn := fun _ v => v }

theorem cube_tiled (m : Momenta) : (sampleCube m).Tiled :=
  have h := sample_tiled .sphere cubeDensity 12 rfl
  ⟨h.order, h.halo, h.square, h.shape, h.some, h.panel, h.inside, h.cover, h.once⟩

theorem flat_tiled : sampleFlat.Tiled :=
  have h := sample_tiled .plane (fun _ _ => 5) 2 rfl
  ⟨h.order, h.halo, h.square, h.shape, h.some, h.panel, h.inside, h.cover, h.once⟩

theorem cube_laid (m : Momenta) : (sampleCube m).Laid m samplePoints samplePoints :=
  ⟨sample_line, sample_line, fun _ => rfl, fun h => (by cases h)⟩

theorem flat_laid (m : Momenta) : sampleFlat.Laid m samplePoints samplePoints :=
  ⟨sample_line, sample_line, fun h => (by cases h), fun _ => rfl⟩

theorem cube_layered (m : Momenta) : (sampleCube m).Layered := ⟨le_refl 3, fun _ => rfl, fun _ _ => rfl⟩

theorem cube_quadrature (m : Momenta) : (sampleCube m).Quadrature :=
  have h := sample_quadrature .sphere cubeDensity 12
  ⟨h.paired, h.symmetric⟩

theorem cube_cubed (m : Momenta) : (sampleCube m).Cubed m 7 samplePoints where
  kind := rfl
  radius := by norm_num
  line := sample_line
  turn := rfl
  width := fun i => by
    simp only [sampleCube, sampleWorld, sampleTile]
    constructor <;> · push_cast; ring
  jacobian := fun i iA iB _ => by
    simp only [sampleCube, sampleWorld, sampleTile, cubeDensity, World.at_]
    norm_num
  levels := fun i => ⟨fun _ => 1, fun _ _ => one_ne_zero, fun iA iB k _ _ => by simp [sampleCube, sampleWorld, sampleTile]⟩

/-- The plane, any state: each node gets the mean over the nodes at its point. -/
example (v : sampleFlat.Field) (f : Halo.Node → ℝ) (hf : sampleFlat.Holds v 1 0 f) : sampleFlat.Holds (sampleFlat.dssState v) 1 0
    fun n => meanOver (sampleFlat.sharing samplePoints samplePoints n) f :=
  C105_state sampleFlat flat_tiled .covariant _ _ (flat_laid _) v 1 0 (by decide) (by decide) (fun h => by cases h) f hf

/-- The sphere, any state: the same for the velocities. -/
example (m : Momenta) (v : (sampleCube m).Field) (w : Halo.Node → Sphere.Vec3)
    (hw : (sampleCube m).Moves m samplePoints v 0 w) :
    (sampleCube m).Moves m samplePoints ((sampleCube m).dssState v) 0 (Halo.meanVector 3 2 samplePoints w) :=
  C105_velocity (sampleCube m) (cube_tiled m) m _ _ (cube_laid m) rfl (by decide : 2 ≤ 3) v 0 (by decide : 0 < 1) w hw

/-- Three steps of the five stage third order scheme on the sphere conserve mass. -/
example (m : Momenta) (u : (sampleCube m).Field × (sampleCube m).Field) :
    ∃ v, Steps.StepsTo (sampleCube m).dyn ([1, 2, 3].flatMap (Steps.Scheme.erk .kinnmarkGrayUllrich35).prog)
      ⟨List.replicate 5 u.1, List.replicate 5 u.2⟩ v ∧ (sampleCube m).mass 2 v.1 = (sampleCube m).mass 2 u.1 :=
  C104_mass_cubed_partial _ (cube_tiled m) (cube_layered m) (cube_quadrature m) m 7 _ (cube_cubed m)
    (.erk .kinnmarkGrayUllrich35) (by simp [Steps.Scheme.Balanced]) trivial _ _ _ ⟨rfl, rfl, rfl⟩

/-- They end, and with nodes that agree, from any state and with anything in the other slots. -/
example (m : Momenta) (d : Steps.Data (sampleCube m).Field (sampleCube m).Field)
    (u : (sampleCube m).Field × (sampleCube m).Field) (hd : Steps.Current 5 d u) :
    ∃ v, Steps.StepsTo (sampleCube m).dyn ([1, 2, 3].flatMap (Steps.Scheme.erk .kinnmarkGrayUllrich35).prog) d v ∧
      (sampleCube m).SingleState m samplePoints samplePoints v.1 ∧
      (sampleCube m).SingleTracers samplePoints samplePoints v.2 := by
  obtain ⟨v, hv, -⟩ := C104_mass_cubed_partial _ (cube_tiled m) (cube_layered m) (cube_quadrature m) m 7 _ (cube_cubed m)
    (.erk .kinnmarkGrayUllrich35) (by simp [Steps.Scheme.Balanced]) trivial [1, 2, 3] d u hd
  obtain ⟨a, b⟩ := C106_run _ (cube_tiled m) m _ _ (cube_laid m) (by decide : 2 ≤ 3) _ _ (by simp) _ _ hv
  exact ⟨v, hv, a, b (by simp)⟩

/-- Agreement is not automatic: a state whose nodes carry their own numbers does not agree, for the last node of an element
is at the point of the first node of the next. -/
example (m : Momenta) : ¬ sampleFlat.SingleState m samplePoints samplePoints
    (fun i _ iA iB _ => (iB : ℝ)) := by
  intro h
  obtain ⟨f, hs, hf⟩ := (h 0 (by decide)).1 2 (by decide) (fun h => by cases h)
  have hI : ∀ iB, 1 ≤ iB → iB < 7 → Horiz.Interior (sampleFlat.tile ⟨0, by decide⟩).M.G.S 1 iB := by
    intro iB h1 h2
    simp only [Horiz.Interior, sampleFlat, samplePlane, sampleWorld, sampleTile]
    omega
  have e3 := hf ⟨0, by decide⟩ 1 3 (hI 3 (by norm_num) (by norm_num))
  have e4 := hf ⟨0, by decide⟩ 1 4 (hI 4 (by norm_num) (by norm_num))
  have n3 := sampleFlat.at_mem flat_tiled ⟨0, by decide⟩ 1 3 (hI 3 (by norm_num) (by norm_num))
  have n4 := sampleFlat.at_mem flat_tiled ⟨0, by decide⟩ 1 4 (hI 4 (by norm_num) (by norm_num))
  have hw : sampleFlat.at_ ⟨0, by decide⟩ 1 4 ∈ sampleFlat.sharing samplePoints samplePoints
      (sampleFlat.at_ ⟨0, by decide⟩ 1 3) := by
    unfold World.sharing
    show _ ∈ planeCopies 3 2 2 samplePoints samplePoints _
    unfold planeCopies
    classical
    rw [Finset.mem_filter]
    refine ⟨?_, Or.inl ?_, Or.inl ?_⟩
    · simp [World.at_, sampleFlat, samplePlane, sampleWorld, sampleTile]
    · rfl
    · have := Halo.angle_twin sample_line 2
      simpa [World.at_, sampleFlat, samplePlane, sampleWorld, sampleTile, Dss.twin] using this
  have := hs _ n3 _ hw
  rw [← e3, ← e4] at this
  norm_num at this

end Verif.Whole
