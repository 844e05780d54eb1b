import Verif.Deep.Props
import Verif.Whole.Samples
import Verif.Nonhydro.ExplicitSamples
import Verif.Vdyn.ImplicitExamples
import Verif.Vdyn.ImplicitProps

/-!
# C107: cases that meet the hypotheses

The cubed sphere and the plane of `Verif.Whole.Samples`, with columns of ten levels.
-/

namespace Verif.Deep

open Verif.Whole (World Kind Tile sampleTile sampleWorld sampleDensity sampleX sampleSphere samplePlane)

/-- A patch with ten levels and five components, of which the vertical velocity is on interfaces. -/
noncomputable def deepTile (density : Int → Int → ℝ) (p : Int) (e : Nat) : Tile :=
  let t := sampleTile density p e
  { t with M := { t.M with
      G := { t.M.G with S := ⟨3, 1, 2, 10, 1, 1⟩ }
      components := 5
      located := fun c => if c = 3 then .redge else .node } }

noncomputable def deepWorld (kind : Kind) (density : Int → Int → ℝ) (n : Nat) : World :=
  { sampleWorld kind density n with
    levels := 10
    components := 5
    uniform := false
    tile := fun i => deepTile density ((i.val / 2 : Nat) : Int) (i.val % 2) }

/-- A model over these, with a column. -/
noncomputable def deepAtmos (kind : Kind) (density : Int → Int → ℝ) (n : Nat) (S : Vdyn.Setup) (solve : Vdyn.BandSolver)
    (M : Vdyn.Memory) : Atmos where
  W := deepWorld kind density n
  air := fun _ => Nonhydro.windy .primitive
  fixed := fun _ => ⟨fun _ => Vdyn.sampleMetric fun _ => 1, fun _ _ _ => 1, fun _ _ _ => 1, fun _ _ _ => 0, fun _ _ => 1⟩
  column := S
  fullyExplicit := false
  solve := solve
  memory := fun _ => M
  leave := fun _ _ _ m => m
  leaveExplicit := fun _ _ m => m

section
variable (kind : Kind) (density : Int → Int → ℝ) (n : Nat)

theorem deep_tiled (hn : (n : Int) = 2 * kind.panels) : (deepWorld kind density n).Tiled := by
  have h := Whole.sample_tiled kind density n hn
  exact { order := h.order, halo := h.halo, square := h.square, shape := fun i => ⟨rfl, rfl, rfl, rfl⟩,
          some := h.some, panel := h.panel, inside := h.inside, cover := h.cover, once := h.once }

theorem deep_quadrature : (deepWorld kind density n).Quadrature := by
  have h := Whole.sample_quadrature kind density n
  exact ⟨h.paired, h.symmetric⟩

variable (S : Vdyn.Setup) (solve : Vdyn.BandSolver) (M : Vdyn.Memory)

theorem deep_primitive (hL : Vdyn.Lorenz S) : (deepAtmos kind density n S solve M).Primitive where
  five := rfl
  counted := fun _ => rfl
  located := fun i c => by
    simp only [deepAtmos, deepWorld, deepTile, Atmos.onEdge, hL.1, hL.2.1]
    by_cases h : c = 3 <;> simp [h]
  turn := (Whole.sample_shallow kind density n).turn

theorem deep_measured (h : ∀ g h, density g h ≠ 0) (hE : (sampleWorld kind density n).Shared density) :
    (deepAtmos kind density n S solve M).Measured (Real.pi / 4) (Real.pi / 4) (fun _ => density) where
  width := fun _ => ⟨rfl, rfl⟩
  jacobian := fun i iA iB k _ _ => by simp [deepAtmos, deepWorld, deepTile, sampleWorld, sampleTile]
  regular := fun _ g h' _ _ _ _ _ => h g h'
  shared := fun _ _ => ⟨fun hk => ⟨(hE.sphere hk).symmetric⟩, fun hk => ⟨(hE.plane hk).alpha, (hE.plane hk).beta,
    (hE.plane hk).acrossA, (hE.plane hk).acrossB⟩⟩

theorem deep_first (i : Fin (deepAtmos kind density n S solve M).W.count) (iA iB : Nat)
    (hI : Horiz.Interior ((deepAtmos kind density n S solve M).W.tile i).M.G.S iA iB) :
    (deepAtmos kind density n S solve M).first i (iA, iB) = (iA, if iB = 3 then 4 else iB) := by
  simp only [Horiz.Interior, deepAtmos, deepWorld, deepTile] at hI
  show ((if (iA - 1 + 1) % 3 = 0 ∧ iA - 1 + 1 < 1 * 3 then iA + 1 else iA : Nat),
    (if (iB - 1 + 1) % 3 = 0 ∧ iB - 1 + 1 < 2 * 3 then iB + 1 else iB : Nat)) = _
  refine Prod.ext ?_ ?_
  · simp only
    rw [if_neg (by omega)]
  · simp only
    split_ifs <;> omega

theorem deep_columnar (hd : ∀ g, density g 2 = density g 3) (hN : S.levels = 10) (hn : S.order = 1) (hr : S.useRef = true)
    (hu : S.uniform = false) (hL : Vdyn.Lorenz S) (hs : Vdyn.Lapack solve)
    (E : Vdyn.Elements S (fun k => (k : ℝ) + 1 / 2) (fun k => (k : ℝ)) ([0], [2]) ([-1, 1], [1, 1]))
    (T : Vdyn.Stencils S (fun k => (k : ℝ) + 1 / 2) (fun k => (k : ℝ)) (fun k => (k : ℝ) + 1 / 2) (fun k => (k : ℝ))
      ([0], [2]) ([-1, 1], [1, 1])) :
    (deepAtmos kind density n S solve M).Columnar (fun k => (k : ℝ) + 1 / 2) (fun k => (k : ℝ))
      (fun k => (k : ℝ) + 1 / 2) (fun k => (k : ℝ)) ([0], [2]) ([-1, 1], [1, 1]) where
  elements := E
  stencils := T
  second := fun h => by rw [show (deepAtmos kind density n S solve M).column.uniform = false from hu] at h; cases h
  lorenz := hL
  ref := hr
  lapack := hs
  levels := hN
  weights := fun k _ => by
    simp only [deepAtmos, deepWorld, sampleWorld, Column.levelWeight, hn, Nat.mod_one, Nat.div_one]
    norm_num
  smooth := fun i iA iB _ => by
    refine ⟨fun _ => Polynomial.C (((deepAtmos kind density n S solve M).W.tile i).M.jacNode iA iB 0), fun a _ => ?_, fun a _ => ?_⟩
    · rw [show (deepAtmos kind density n S solve M).column.order = 1 from hn]
      refine ⟨lt_of_le_of_lt Polynomial.degree_C_le (by norm_num), fun j _ => ?_⟩
      simp [deepAtmos, deepWorld, deepTile, sampleTile]
    · simp [Column.jump]
  metric := fun i iA iB hI => by
    rw [deep_first kind density n S solve M i iA iB hI]
    by_cases h : iB = 3
    · subst h
      simp only [Atmos.vertical, deepAtmos, deepWorld, deepTile, sampleTile, if_true]
      norm_num [hd]
    · rw [if_neg h]
  reference := fun i iA iB hI => ⟨rfl, rfl⟩
end

/-- Three steps of a scheme with implicit vertical dynamics on the sphere, from any state in which columns at the same
place agree. -/
example (phys : Thermo.Constants) (M : Vdyn.Memory) : ∃ A : Atmos, A.W.count = 12 ∧ A.W.kind = .sphere ∧
    A.column.levels = 10 ∧ ∀ u : A.W.Field × PUnit.{1}, A.Joined u.1 →
      ∃ v, Steps.StepsTo A.dry ([1, 2, 3].flatMap (Steps.Scheme.ars443).prog)
        ⟨List.replicate 10 u.1, List.replicate 10 u.2⟩ v ∧ A.total 4 v.1 = A.total 4 u.1 ∧ A.Joined v.1 := by
  obtain ⟨S, E, T, hL, hN, hn, href, hu, hp, -⟩ := Vdyn.unit_setup 10 (by omega) phys
  obtain ⟨solve, hs⟩ := Vdyn.lapack_exists
  refine ⟨deepAtmos .sphere sampleDensity 12 S solve M, rfl, rfl, hN, fun u hj => ?_⟩
  exact C107_mass_dry_partial _ (deep_tiled _ _ _ rfl) (deep_quadrature _ _ _) (deep_primitive _ _ _ _ _ _ hL) _ _ _
    (deep_measured _ _ _ _ _ _ Whole.sampleDensity_ne Whole.sample_shared_sphere) _ _ _ _ _ _
    (deep_columnar _ _ _ _ _ _ (fun g => by
      have : sampleX 2 = sampleX 3 := by norm_num [sampleX]
      unfold sampleDensity; rw [this]) hN hn href hu hL hs E T)
    .ars443 trivial _ _ _ ⟨rfl, rfl, rfl⟩ hj

/-- The same for density times potential temperature, with tracers, explicit dynamics and the plane. -/
example (phys : Thermo.Constants) (M : Vdyn.Memory) : ∃ A : Atmos, A.W.count = 2 ∧ A.W.kind = .plane ∧
    A.column.levels = 10 ∧ ∀ u : A.W.Field × A.W.Field, A.Joined u.1 →
      ∃ v, Steps.StepsTo A.dyn ([1, 2, 3].flatMap (Steps.Scheme.erk .kinnmarkGrayUllrich35).prog)
        ⟨List.replicate 5 u.1, List.replicate 5 u.2⟩ v ∧ A.total 2 v.1 = A.total 2 u.1 ∧ A.Joined v.1 := by
  obtain ⟨S, E, T, hL, hN, hn, href, hu, hp, -⟩ := Vdyn.unit_setup 10 (by omega) phys
  obtain ⟨solve, hs⟩ := Vdyn.lapack_exists
  refine ⟨deepAtmos .plane (fun _ _ => 5) 2 S solve M, rfl, rfl, hN, fun u hj => ?_⟩
  exact C107_theta_partial _ (deep_tiled _ _ _ rfl) (deep_quadrature _ _ _) (deep_primitive _ _ _ _ _ _ hL) _ _ _
    (deep_measured _ _ _ _ _ _ (fun _ _ => by norm_num) Whole.sample_shared_plane) _ _ _ _ _ _
    (deep_columnar _ _ _ _ _ _ (fun _ => rfl) hN hn href hu hL hs E T) hu
    (.erk .kinnmarkGrayUllrich35) (by simp [Steps.Scheme.Balanced]) trivial _ _ _ ⟨rfl, rfl, rfl⟩ hj

/-- States in which columns at the same place agree need not be constant. -/
example (kind : Kind) (density : Int → Int → ℝ) (n : Nat) (S : Vdyn.Setup) (solve : Vdyn.BandSolver) (M : Vdyn.Memory) :
    (deepAtmos kind density n S solve M).Joined
      fun _ c iA iB k => c + iA + k + if iB = 3 ∨ iB = 4 then 7 else iB := by
  intro i iA iB hI c _ k _
  rw [deep_first kind density n S solve M i iA iB hI]
  by_cases h : iB = 3
  · subst h; norm_num
  · simp [h]

end Verif.Deep
