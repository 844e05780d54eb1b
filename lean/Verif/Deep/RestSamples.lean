import Verif.Deep.RestProps
import Verif.Deep.Samples

/-!
# C108: cases that meet the hypotheses

The models of `Verif.Deep.Samples` over level ground.  Any profile is in balance over columns of some heights.
-/

namespace Verif.Deep

open Verif.Whole (World Kind sampleDensity sampleX)
open Verif.Column (applyRow)

/-- The derivative of height with which a profile is in balance. -/
noncomputable def thickness (S : Vdyn.Setup) (P R : Nat → ℝ) (k : Nat) : ℝ :=
  -(applyRow S.interpNE P k / applyRow S.interpNE R k *
    applyRow S.diffNE (fun j => S.phys.cp * Real.exp (S.phys.r / (S.phys.cp - S.phys.r) *
      Real.log (S.phys.r / S.phys.p0 * P j))) k) / S.phys.g

/-- A model over level ground in which a profile is in balance. -/
noncomputable def calmAtmos (kind : Kind) (density : Int → Int → ℝ) (n : Nat) (S : Vdyn.Setup) (solve : Vdyn.BandSolver)
    (M : Vdyn.Memory) (P R : Nat → ℝ) : Atmos :=
  { deepAtmos kind density n S solve M with
    air := fun _ => { Nonhydro.windy .primitive with
      A := { (Nonhydro.windy .primitive).A with derivR := fun _ _ _ m => if m = 2 then 5 else 0 } }
    fixed := fun _ => ⟨fun _ => { Vdyn.sampleMetric fun _ => 1 with derivREdge := thickness S P R }, fun _ _ _ => 1,
      fun _ _ _ => 1, fun _ _ _ => 0, fun _ _ => 1⟩ }

section
variable (kind : Kind) (density : Int → Int → ℝ) (n : Nat) (S : Vdyn.Setup) (solve : Vdyn.BandSolver) (M : Vdyn.Memory)
  (P R : Nat → ℝ)

theorem calm_primitive (hL : Vdyn.Lorenz S) : (calmAtmos kind density n S solve M P R).Primitive :=
  have h := deep_primitive kind density n S solve M hL
  ⟨h.five, h.counted, h.located, h.turn⟩

theorem calm_columnar (hd : ∀ g, density g 2 = density g 3) (hN : S.levels = 10) (hn : S.order = 1) (hr : S.useRef = true)
    (hu : S.uniform = false) (hL : Vdyn.Lorenz S) (hs : Vdyn.Lapack solve)
    (E : Vdyn.Elements S (fun k => (k : ℝ) + 1 / 2) (fun k => (k : ℝ)) ([0], [2]) ([-1, 1], [1, 1]))
    (T : Vdyn.Stencils S (fun k => (k : ℝ) + 1 / 2) (fun k => (k : ℝ)) (fun k => (k : ℝ) + 1 / 2) (fun k => (k : ℝ))
      ([0], [2]) ([-1, 1], [1, 1])) :
    (calmAtmos kind density n S solve M P R).Columnar (fun k => (k : ℝ) + 1 / 2) (fun k => (k : ℝ))
      (fun k => (k : ℝ) + 1 / 2) (fun k => (k : ℝ)) ([0], [2]) ([-1, 1], [1, 1]) :=
  have h := deep_columnar kind density n S solve M hd hN hn hr hu hL hs E T
  { elements := E, stencils := T, second := h.second, lorenz := hL, ref := hr, lapack := hs, levels := hN
    weights := h.weights, smooth := h.smooth
    metric := fun i iA iB hI => by
      have hf : (calmAtmos kind density n S solve M P R).first i (iA, iB) = (iA, if iB = 3 then 4 else iB) :=
        deep_first kind density n S solve M i iA iB hI
      rw [hf]
      by_cases h : iB = 3
      · subst h
        simp only [Atmos.vertical, calmAtmos, deepAtmos, deepWorld, deepTile, Whole.sampleTile, if_true]
        norm_num [hd]
      · rw [if_neg h]
    reference := fun i iA iB hI => ⟨rfl, rfl⟩ }

theorem calm_turns : (calmAtmos kind density n S solve M P R).W.TurnsRest := Whole.sample_rest kind density n

theorem calm_level : (calmAtmos kind density n S solve M P R).LevelGround := by
  intro i iA iB k m _ _ hm
  simp only [calmAtmos]
  rw [if_neg (by omega)]

theorem calm_hydrostatic (hg : S.phys.g ≠ 0) : (calmAtmos kind density n S solve M P R).Hydrostatic P R := by
  intro i iA iB _ k _ _
  simp only [calmAtmos, deepAtmos, thickness]
  field_simp
end

/-- Three steps of a scheme with implicit vertical dynamics on the sphere, from a state whose density and potential
temperature decrease upwards. -/
example (phys : Thermo.Constants) (hg : phys.g ≠ 0) (M : Vdyn.Memory) : ∃ A : Atmos, A.W.count = 12 ∧
    A.W.kind = .sphere ∧ A.column.levels = 10 ∧ ∃ u : A.W.Field × PUnit.{1}, (∀ i iA iB k, u.1 i 4 iA iB k = 1 / (1 + k)) ∧
      ∃ v, Steps.StepsTo A.dry ([1, 2, 3].flatMap (Steps.Scheme.ars443).prog)
        ⟨List.replicate 10 u.1, List.replicate 10 u.2⟩ v ∧ A.Still (fun k => 300 / (1 + k)) (fun k => 1 / (1 + k)) v.1 := by
  obtain ⟨S, E, T, hL, hN, hn, href, hu, hp, -⟩ := Vdyn.unit_setup 10 (by omega) phys
  obtain ⟨solve, hs⟩ := Vdyn.lapack_exists
  refine ⟨calmAtmos .sphere sampleDensity 12 S solve M (fun k => 300 / (1 + k)) (fun k => 1 / (1 + k)), rfl, rfl, hN,
    ⟨fun _ c _ _ k => if c = 2 then 300 / (1 + k) else if c = 4 then 1 / (1 + k) else 0, ⟨⟩⟩, fun _ _ _ _ => by simp, ?_⟩
  exact C108_still_dry_partial _ _ _ _ _ _ _ (deep_tiled _ _ _ rfl) (deep_quadrature _ _ _) (calm_primitive _ _ _ _ _ _ _ _ hL)
    (calm_columnar _ _ _ _ _ _ _ _ (fun g => by
      have : sampleX 2 = sampleX 3 := by norm_num [sampleX]
      unfold sampleDensity; rw [this]) hN hn href hu hL hs E T) (calm_turns _ _ _ _ _ _ _ _) rfl hu
    (calm_level _ _ _ _ _ _ _ _) _ _ (calm_hydrostatic _ _ _ _ _ _ _ _ (by rw [hp]; exact hg))
    .ars443 trivial _ _ _ ⟨rfl, rfl, rfl⟩
    (fun i iA iB _ => ⟨fun k _ => ⟨by simp, by simp, by simp, by simp⟩, fun k _ => by simp⟩)

/-- The same with tracers, explicit dynamics and the plane. -/
example (phys : Thermo.Constants) (hg : phys.g ≠ 0) (M : Vdyn.Memory) (q : Nat → Nat → Nat → ℝ) : ∃ A : Atmos,
    A.W.count = 2 ∧ A.W.kind = .plane ∧ ∃ u : A.W.Field × A.W.Field, (∀ i c iA iB k, u.2 i c iA iB k = q iA iB k) ∧
      ∃ v, Steps.StepsTo A.dyn ([1, 2, 3].flatMap (Steps.Scheme.erk .kinnmarkGrayUllrich35).prog)
        ⟨List.replicate 5 u.1, List.replicate 5 u.2⟩ v ∧ A.Still (fun k => 300 / (1 + k)) (fun k => 1 / (1 + k)) v.1 := by
  obtain ⟨S, E, T, hL, hN, hn, href, hu, hp, -⟩ := Vdyn.unit_setup 10 (by omega) phys
  obtain ⟨solve, hs⟩ := Vdyn.lapack_exists
  refine ⟨calmAtmos .plane (fun _ _ => 5) 2 S solve M (fun k => 300 / (1 + k)) (fun k => 1 / (1 + k)), rfl, rfl,
    ⟨fun _ c _ _ k => if c = 2 then 300 / (1 + k) else if c = 4 then 1 / (1 + k) else 0, fun _ _ iA iB k => q iA iB k⟩,
    fun _ _ _ _ _ => rfl, ?_⟩
  exact C108_still_partial _ _ _ _ _ _ _ (deep_tiled _ _ _ rfl) (deep_quadrature _ _ _) (calm_primitive _ _ _ _ _ _ _ _ hL)
    (calm_columnar _ _ _ _ _ _ _ _ (fun _ => rfl) hN hn href hu hL hs E T) (calm_turns _ _ _ _ _ _ _ _) rfl hu
    (calm_level _ _ _ _ _ _ _ _) _ _ (calm_hydrostatic _ _ _ _ _ _ _ _ (by rw [hp]; exact hg))
    (.erk .kinnmarkGrayUllrich35) (by simp [Steps.Scheme.Balanced]) trivial _ _ _ ⟨rfl, rfl, rfl⟩
    (fun i iA iB _ => ⟨fun k _ => ⟨by simp, by simp, by simp, by simp⟩, fun k _ => by simp⟩)

end Verif.Deep
