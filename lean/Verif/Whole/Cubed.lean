import Verif.Whole.PointProps
import Verif.Whole.Runs
import Verif.Metric.Model

/-!
# The cubed sphere as the program lays it out

The hypotheses of C104 about the Jacobian and about turning velocities, from the formulas of the program.
-/

namespace Verif.Whole

open Halo (Node Momenta Placed Components coord Line Pair)

variable (W : World)

/-! ### Specification -/

/-- The grid is a cubed sphere of radius `R` whose elements have the points `x` both ways: velocities in the halo are
transformed by `TransformHaloVelocities`, elements are a quarter turn over their number wide, and the Jacobian at a node
is the one `EvaluateGeometricTerms` computes at its coordinates (`Metric.sphereFlat`,
src/atm/GridPatchCSGLL.cpp:372-420); the Jacobian on levels is that times a factor of the level which is not zero. -/
structure World.Cubed (m : Momenta) (R : ℝ) (x : Nat → ℝ) : Prop where
  kind : W.kind = .sphere
  radius : R ≠ 0
  line : Line W.order W.elemA x
  turn : W.turn = W.haloTurn m x
  width : ∀ i, (W.tile i).M.G.deltaA = Real.pi / 2 / W.elemA ∧ (W.tile i).M.G.deltaB = Real.pi / 2 / W.elemA
  jacobian : ∀ i iA iB, Horiz.Interior (W.tile i).M.G.S iA iB → (W.tile i).M.G.jac iA iB =
    (Metric.sphereFlat R (coord W.order W.elemA x (W.at_ i iA iB).2.1) (coord W.order W.elemA x (W.at_ i iA iB).2.2)).jac
  levels : ∀ i, ∃ f : Nat → ℝ, (∀ k, k < W.levels → f k ≠ 0) ∧ ∀ iA iB k, Horiz.Interior (W.tile i).M.G.S iA iB →
    k < W.levels → (W.tile i).M.jacNode iA iB k = (W.tile i).M.G.jac iA iB * f k

/-- The equations: at least three components, all on levels. -/
structure World.Layered : Prop where
  three : 3 ≤ W.components
  counted : ∀ i, (W.tile i).M.components = W.components
  nodes : ∀ i c, (W.tile i).M.located c = .node

/-! ### Proofs -/

/-- The Jacobian by place. -/
noncomputable def World.cubedDensity (R : ℝ) (x : Nat → ℝ) (g h : Int) : ℝ :=
  (Metric.sphereFlat R (coord W.order W.elemA x g) (coord W.order W.elemA x h)).jac

theorem sphere_jac_ne (R X Y : ℝ) (hR : R ≠ 0) : (Metric.sphereFlat R X Y).jac ≠ 0 := by
  unfold Metric.sphereFlat
  simp only
  have h1 : 0 < 1 + X * X := by nlinarith [mul_self_nonneg X]
  have h2 : 0 < 1 + Y * Y := by nlinarith [mul_self_nonneg Y]
  have h3 : 0 < 1 + X * X + Y * Y := by nlinarith [mul_self_nonneg X, mul_self_nonneg Y]
  have h4 := Real.sqrt_pos.mpr h3
  positivity

variable {W} {m : Momenta} {R : ℝ} {x : Nat → ℝ}

theorem World.Cubed.measured (hC : W.Cubed m R x) :
    W.Measured (Real.pi / 2 / W.elemA) (Real.pi / 2 / W.elemA) (W.cubedDensity R x) where
  width := hC.width
  jacobian := hC.jacobian
  regular := fun _ _ _ _ _ _ => sphere_jac_ne R _ _ hC.radius
  levels := hC.levels

theorem World.Cubed.equiangular (hC : W.Cubed m R x) : W.Equiangular (W.cubedDensity R x) where
  symmetric := by
    refine ⟨coord W.order W.elemA x, fun s t => (Metric.sphereFlat R s t).jac, fun _ _ => rfl, fun s t => ?_, fun s t => ?_,
      fun e _ _ => ?_, fun g _ _ => Halo.coord_mirror hC.line g⟩
    · unfold Metric.sphereFlat
      simp only
      rw [show 1 + s * s + t * t = 1 + t * t + s * s by ring]
      ring
    · unfold Metric.sphereFlat
      simp only [neg_mul_neg]
    · have := Halo.coord_twin hC.line (e * W.order)
      rw [Dss.twin_first _ e hC.line.order] at this
      exact this

theorem World.Cubed.shared (hC : W.Cubed m R x) : W.Shared (W.cubedDensity R x) :=
  ⟨fun _ => hC.equiangular, fun h => (by rw [hC.kind] at h; cases h)⟩

theorem World.Cubed.shallow (hC : W.Cubed m R x) (hE : W.Layered) : W.ShallowWater where
  three := hE.three
  counted := hE.counted
  nodes := hE.nodes
  turn := fun i v c hc => by
    rw [hC.turn]
    funext iA iB k
    unfold World.haloTurn
    simp only
    rw [if_neg (by omega), if_neg (by omega)]

/-! #### No velocity stays none -/

theorem trans_zero (src dst : Int) (X Y : ℝ) (v : ℝ × ℝ) (h : Halo.panelTrans m src dst 0 X Y = some v) : v = 0 := by
  cases m with
  | covariant =>
    unfold Halo.panelTrans Sphere.coVecPanelTrans at h
    simp only [Prod.fst_zero, Prod.snd_zero] at h
    repeat' split at h
    all_goals cases h
    all_goals simp [Sphere.coVecToP2FromP1, Sphere.coVecToP1FromP2, Sphere.coVecToP1FromP5, Sphere.coVecToP2FromP5,
               Sphere.coVecToP3FromP5, Sphere.coVecToP4FromP5, Sphere.coVecToP5FromP1, Sphere.coVecToP5FromP2,
               Sphere.coVecToP5FromP3, Sphere.coVecToP5FromP4, Sphere.coVecToP1FromP6, Sphere.coVecToP2FromP6,
               Sphere.coVecToP3FromP6, Sphere.coVecToP4FromP6, Sphere.coVecToP6FromP1, Sphere.coVecToP6FromP2,
               Sphere.coVecToP6FromP3, Sphere.coVecToP6FromP4]
  | contravariant =>
    unfold Halo.panelTrans Sphere.vecPanelTrans at h
    simp only [Prod.fst_zero, Prod.snd_zero] at h
    repeat' split at h
    all_goals cases h
    all_goals simp [Sphere.vecToP2FromP1, Sphere.vecToP1FromP2, Sphere.vecToP1FromP5, Sphere.vecToP2FromP5,
               Sphere.vecToP3FromP5, Sphere.vecToP4FromP5, Sphere.vecToP5FromP1, Sphere.vecToP5FromP2,
               Sphere.vecToP5FromP3, Sphere.vecToP5FromP4, Sphere.vecToP1FromP6, Sphere.vecToP2FromP6,
               Sphere.vecToP3FromP6, Sphere.vecToP4FromP6, Sphere.vecToP6FromP1, Sphere.vecToP6FromP2,
               Sphere.vecToP6FromP3, Sphere.vecToP6FromP4]

/-- A change of the array that turns none into none. -/
def Rests (f : Pair → Option Pair) : Prop := ∀ V V', f V = some V' → ∀ a b, V a b = 0 → V' a b = 0

theorem rests_node (B : Placed) (src i j : Int) : Rests (Halo.transNode m B x src i j) := by
  intro V V' h a b hab
  unfold Halo.transNode at h
  simp only [Option.bind_eq_bind, Option.bind_eq_some_iff, pure, Option.some.injEq] at h
  obtain ⟨X, -, Y, -, v, hv, rfl⟩ := h
  simp only
  split_ifs with hc
  · obtain ⟨rfl, rfl⟩ := hc
    rw [hab] at hv
    exact trans_zero _ _ _ _ _ hv
  · exact hab

theorem rests_loop (lo hi : Int) (f : Int → Pair → Option Pair) (hf : ∀ n, Rests (f n)) : Rests (Halo.loopM lo hi f) := by
  intro V V' h a b hab
  unfold Halo.loopM at h
  generalize List.range (hi - lo).toNat = l at h
  induction l generalizing V with
  | nil =>
    simp only [List.foldlM_nil, pure, Option.some.injEq] at h
    exact h ▸ hab
  | cons n l ih =>
    simp only [List.foldlM_cons, Option.bind_eq_bind, Option.bind_eq_some_iff] at h
    obtain ⟨V1, h1, h2⟩ := h
    exact ih V1 (hf _ V V1 h1 a b hab) h2

theorem rests_bind {f g : Pair → Option Pair} (hf : Rests f) (hg : Rests g) : Rests fun V => (f V).bind g := by
  intro V V' h a b hab
  simp only [Option.bind_eq_some_iff] at h
  obtain ⟨V1, h1, h2⟩ := h
  exact hg V1 V' h2 a b (hf V V1 h1 a b hab)

theorem rests_edge (o : Option Int) (q : Int) (f : Int → Pair → Option Pair) (hf : ∀ n, Rests (f n)) :
    Rests fun V => o.bind fun n => if n ≠ q then f n V else some V := by
  intro V V' h a b hab
  simp only [Option.bind_eq_some_iff] at h
  obtain ⟨n, -, h⟩ := h
  split_ifs at h
  · exact hf n V V' h a b hab
  · exact Option.some.inj h ▸ hab

theorem rests_transform (B : Placed) : Rests (Halo.transformHalo m B x) :=
  rests_bind (rests_edge _ _ _ fun n => rests_loop _ _ _ fun j => rests_node _ _ _ _)
    (rests_bind (rests_edge _ _ _ fun n => rests_loop _ _ _ fun j => rests_node _ _ _ _)
      (rests_bind (rests_edge _ _ _ fun n => rests_loop _ _ _ fun j => rests_node _ _ _ _)
        (rests_edge _ _ _ fun n => rests_loop _ _ _ fun j => rests_node _ _ _ _)))

theorem World.Cubed.rests (hC : W.Cubed m R x) : W.TurnsRest := by
  intro i v iA iB k h0 h1
  rw [hC.turn]
  unfold World.haloTurn
  simp only [if_true, one_ne_zero, if_false]
  generalize hV : (fun a b : Int => (v 0 a.toNat b.toNat k, v 1 a.toNat b.toNat k)) = V
  have hz : V iA iB = 0 := by
    rw [← hV]
    simp [h0, h1]
  cases ht : Halo.transformHalo m (W.placed i) x V with
  | none => simp [hz]
  | some U =>
    have := rests_transform _ V U ht iA iB hz
    simp [this]

end Verif.Whole
