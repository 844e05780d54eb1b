import Verif.HorizV2.Spec
import Verif.Nonhydro.ExplicitLemmas
import Verif.Nonhydro.Prepare

/-!
# The two versions point by point
-/

namespace Verif.HorizV2

open Verif.Horiz Verif.Nonhydro

theorem at4_eq {S : Shape} (h : S.order = 4) (a i : Nat) : at4 S a i = S.at a i := by
  unfold at4 Shape.at
  rw [h]
  omega

section

variable {G : Geometry} (B : Basis) (h : G.S.order = 4)

include h

theorem slopeA_eq : slopeA G B = Horiz.derivA G B := by
  funext f i j
  unfold slopeA Horiz.derivA
  rw [h]
  simp only [loop_succ, loop_zero]
  ring

theorem slopeB_eq : slopeB G B = Horiz.derivB G B := by
  funext f i j
  unfold slopeB Horiz.derivB
  rw [h]
  simp only [loop_succ, loop_zero]
  ring

theorem fluxOutA_eq : fluxOutA G B = Horiz.weakA G B := by
  funext f i j
  unfold fluxOutA Horiz.weakA
  rw [h]
  simp only [loop_succ, loop_zero]
  ring

theorem fluxOutB_eq : fluxOutB G B = Horiz.weakB G B := by
  funext f i j
  unfold fluxOutB Horiz.weakB
  rw [h]
  simp only [loop_succ, loop_zero]
  ring

theorem swDerivA_eq : swDerivA G B = Horiz.derivA G B := by
  funext f i j
  unfold swDerivA Horiz.derivA
  rw [h]

theorem swDerivB_eq : swDerivB G B = Horiz.derivB G B := by
  funext f i j
  unfold swDerivB Horiz.derivB
  rw [h]

theorem swWeakA_eq : swWeakA G B = Horiz.weakA G B := by
  funext f i j
  unfold swWeakA Horiz.weakA
  rw [h]

theorem swWeakB_eq : swWeakB G B = Horiz.weakB G B := by
  funext f i j
  unfold swWeakB Horiz.weakB
  rw [h]

theorem cell_eq (init : Data) (a b k c : Nat) : cell G init a b k c = read G init a b k c := by
  funext i j
  unfold cell Horiz.read
  rw [at4_eq h, at4_eq h]

theorem swUa_eq (init : Data) (a b k : Nat) : swUa G init a b k = Horiz.conUa G init a b k := by
  funext i j
  unfold swUa Horiz.conUa
  rw [at4_eq h, at4_eq h, cell_eq h, cell_eq h]

theorem swUb_eq (init : Data) (a b k : Nat) : swUb G init a b k = Horiz.conUb G init a b k := by
  funext i j
  unfold swUb Horiz.conUb
  rw [at4_eq h, at4_eq h, cell_eq h, cell_eq h]

theorem swHead_eq (init : Data) (a b k : Nat) : swHead G init a b k = energyHead G init a b k := by
  funext i j
  unfold swHead energyHead
  rw [cell_eq h, cell_eq h, cell_eq h, swUa_eq h, swUb_eq h]

theorem swFluxA_eq (init : Data) (a b k : Nat) : swFluxA G init a b k = massFluxA G init a b k := by
  funext i j
  unfold swFluxA massFluxA
  rw [at4_eq h, at4_eq h, cell_eq h, swUa_eq h]
  ring

theorem swFluxB_eq (init : Data) (a b k : Nat) : swFluxB G init a b k = massFluxB G init a b k := by
  funext i j
  unfold swFluxB massFluxB
  rw [at4_eq h, at4_eq h, cell_eq h, swUb_eq h]
  ring

theorem swZeta_eq (init : Data) (a b k : Nat) : swZeta G B init a b k = zeta G B init a b k := by
  funext i j
  unfold swZeta zeta
  rw [cell_eq h, cell_eq h, swDerivA_eq B h, swDerivB_eq B h]

theorem swUpdateUa_eq (init : Data) (a b k : Nat) : swUpdateUa G B init a b k = Horiz.updateUa G B init a b k := by
  funext i j
  unfold swUpdateUa Horiz.updateUa
  rw [at4_eq h, at4_eq h, swDerivA_eq B h, swHead_eq h, swUb_eq h, swZeta_eq B h]

theorem swUpdateUb_eq (init : Data) (a b k : Nat) : swUpdateUb G B init a b k = Horiz.updateUb G B init a b k := by
  funext i j
  unfold swUpdateUb Horiz.updateUb
  rw [at4_eq h, at4_eq h, swDerivB_eq B h, swHead_eq h, swUa_eq h, swZeta_eq B h]

end

/-- Updates of tracers do not show in the state variables. -/
theorem tracers_same (n iA iB k : Nat) (f : Nat → ℝ) (u v : Data) (h : Same u v) :
    Same u (loop n (fun c (u : Data) => put u ⟨.tracer c, iA, iB, k⟩ (u ⟨.tracer c, iA, iB, k⟩ - f c)) v) := by
  rintro ⟨w, xA, xB, xk⟩ ⟨c, hc⟩
  rw [tracers_at]
  subst hc
  exact h _ ⟨c, rfl⟩

theorem swPoint_same {G : Geometry} (B : Basis) (h : G.S.order = 4) (init : Data) (dt : ℝ) (a b k i j : Nat) (u v : Data)
    (huv : Same u v) : Same (swPoint G B init dt a b k i j u) (Horiz.swPoint G B init dt a b k i j v) := by
  unfold swPoint Horiz.swPoint
  simp only [at4_eq h, swUpdateUa_eq B h, swUpdateUb_eq B h, swWeakA_eq B h, swWeakB_eq B h, swFluxA_eq h, swFluxB_eq h]
  refine tracers_same _ _ _ _ _ _ _ ?_
  have s1 := put_same u v huv ⟨.state 0, G.S.at a i, G.S.at b j, k⟩ _ _
    (congrArg (· + dt * Horiz.updateUa G B init a b k i j) (huv ⟨.state 0, G.S.at a i, G.S.at b j, k⟩ ⟨_, rfl⟩))
  have s2 := put_same _ _ s1 ⟨.state 1, G.S.at a i, G.S.at b j, k⟩ _ _
    (congrArg (· + dt * Horiz.updateUb G B init a b k i j) (s1 ⟨.state 1, G.S.at a i, G.S.at b j, k⟩ ⟨_, rfl⟩))
  exact put_same _ _ s2 ⟨.state 2, G.S.at a i, G.S.at b j, k⟩ _ _
    (congrArg (· - dt * (1 / G.jac (G.S.at a i) (G.S.at b j)) * (Horiz.weakA G B (massFluxA G init a b k) i j +
      Horiz.weakB G B (massFluxB G init a b k) i j)) (s2 ⟨.state 2, G.S.at a i, G.S.at b j, k⟩ ⟨_, rfl⟩))

theorem shallow_same {G : Geometry} (B : Basis) (h : G.S.order = 4) (init : Data) (dt : ℝ) (u v : Data)
    (huv : Same u v) : Same (stepShallowWater G B init dt u) (Horiz.stepShallowWater G B init dt v) := by
  unfold stepShallowWater Horiz.stepShallowWater
  rw [h]
  exact loop_same _ _ _ (fun a u v huv => loop_same _ _ _ (fun b u v huv => loop_same _ _ _ (fun k u v huv =>
    loop_same _ _ _ (fun i u v huv => loop_same _ _ _ (fun j u v huv => swPoint_same B h init dt a b k i j u v huv)
      u v huv) u v huv) u v huv) u v huv) u v huv

section

variable {A : Air} (hA : Lorenz A) (i1 i2 : Data)
  (hi : ∀ c, c < 5 → ∀ iA iB k, i2 ⟨.state c, iA, iB, k⟩ = i1 ⟨.state c, iA, iB, k⟩)

include hA hi

theorem look (a b k c : Nat) (hc : c < 5) : cell A.G i2 a b k c = read A.G i1 a b k c := by
  rw [cell_eq hA.order]
  funext i j
  exact hi c hc _ _ _

theorem windA_eq (a b k : Nat) : windA A i2 a b k = Nonhydro.conUa A i1 a b k := by
  funext i j
  unfold windA Nonhydro.conUa contra
  rw [look hA i1 i2 hi _ _ _ _ (by omega), look hA i1 i2 hi _ _ _ _ (by omega), look hA i1 i2 hi _ _ _ _ (by omega),
    at4_eq hA.order, at4_eq hA.order]
  rfl

theorem windB_eq (a b k : Nat) : windB A i2 a b k = Nonhydro.conUb A i1 a b k := by
  funext i j
  unfold windB Nonhydro.conUb contra
  rw [look hA i1 i2 hi _ _ _ _ (by omega), look hA i1 i2 hi _ _ _ _ (by omega), look hA i1 i2 hi _ _ _ _ (by omega),
    at4_eq hA.order, at4_eq hA.order, (hA.metric _ _ _).1]
  rfl

theorem windX_eq (a b k : Nat) : windX A i2 a b k = Nonhydro.conUx A i1 a b k := by
  funext i j
  unfold windX Nonhydro.conUx contra
  rw [look hA i1 i2 hi _ _ _ _ (by omega), look hA i1 i2 hi _ _ _ _ (by omega), look hA i1 i2 hi _ _ _ _ (by omega),
    at4_eq hA.order, at4_eq hA.order, (hA.metric _ _ _).2.1, (hA.metric _ _ _).2.2]
  rfl

theorem energy_eq (a b k : Nat) : energy A i2 a b k = kinetic A i1 a b k := by
  funext i j
  unfold energy kinetic
  rw [look hA i1 i2 hi _ _ _ _ (by omega), look hA i1 i2 hi _ _ _ _ (by omega), look hA i1 i2 hi _ _ _ _ (by omega),
    windA_eq hA i1 i2 hi, windB_eq hA i1 i2 hi, windX_eq hA i1 i2 hi]

theorem exner_eq (a b k : Nat) : exnerAt A i2 a b k = exner A i1 a b k := by
  funext i j
  unfold exnerAt exner
  rw [look hA i1 i2 hi _ _ _ _ (by omega)]

theorem vert_eq (a b k c : Nat) (hc : c < 5) : vertSlope A i2 a b k c = vertDeriv A i1 a b k c := by
  funext i j
  unfold vertSlope vertDeriv
  simp only [at4_eq hA.order, hi c hc]

theorem swirlA_eq (a b k : Nat) : swirlA A i2 a b k = crossA A i1 a b k := by
  funext i j
  unfold swirlA crossA zetaX zetaB
  rw [look hA i1 i2 hi _ _ _ _ (by omega), look hA i1 i2 hi _ _ _ _ (by omega), look hA i1 i2 hi _ _ _ _ (by omega),
    windB_eq hA i1 i2 hi, windX_eq hA i1 i2 hi, vert_eq hA i1 i2 hi _ _ _ _ (by omega), slopeA_eq _ hA.order,
    slopeB_eq _ hA.order]

theorem swirlB_eq (a b k : Nat) : swirlB A i2 a b k = crossB A i1 a b k := by
  funext i j
  unfold swirlB crossB zetaX zetaA
  rw [look hA i1 i2 hi _ _ _ _ (by omega), look hA i1 i2 hi _ _ _ _ (by omega), look hA i1 i2 hi _ _ _ _ (by omega),
    windA_eq hA i1 i2 hi, windX_eq hA i1 i2 hi, vert_eq hA i1 i2 hi _ _ _ _ (by omega), slopeA_eq _ hA.order,
    slopeB_eq _ hA.order]

theorem swirlX_eq (a b k : Nat) : swirlX A i2 a b k = crossX A i1 a b k := by
  funext i j
  unfold swirlX crossX
  rw [look hA i1 i2 hi _ _ _ _ (by omega), windA_eq hA i1 i2 hi, windB_eq hA i1 i2 hi, slopeA_eq _ hA.order,
    slopeB_eq _ hA.order]

theorem carryA_eq (a b k c : Nat) (hc : c < 5) : carryA A i2 a b k c = fluxA A i1 a b k (.state c) := by
  funext i j
  unfold carryA fluxA
  rw [look hA i1 i2 hi _ _ _ _ hc, windA_eq hA i1 i2 hi, at4_eq hA.order, at4_eq hA.order]
  rfl

theorem carryB_eq (a b k c : Nat) (hc : c < 5) : carryB A i2 a b k c = fluxB A i1 a b k (.state c) := by
  funext i j
  unfold carryB fluxB
  rw [look hA i1 i2 hi _ _ _ _ hc, windB_eq hA i1 i2 hi, at4_eq hA.order, at4_eq hA.order]
  rfl

theorem pushA_eq (a b k : Nat) : pushA A i2 a b k = Nonhydro.updateUa A i1 a b k := by
  funext i j
  unfold pushA Nonhydro.updateUa
  rw [look hA i1 i2 hi _ _ _ _ (by omega), look hA i1 i2 hi _ _ _ _ (by omega), windB_eq hA i1 i2 hi,
    swirlA_eq hA i1 i2 hi, energy_eq hA i1 i2 hi, exner_eq hA i1 i2 hi, slopeA_eq _ hA.order, at4_eq hA.order,
    at4_eq hA.order]
  ring

theorem pushB_eq (a b k : Nat) : pushB A i2 a b k = Nonhydro.updateUb A i1 a b k := by
  funext i j
  unfold pushB Nonhydro.updateUb
  rw [look hA i1 i2 hi _ _ _ _ (by omega), look hA i1 i2 hi _ _ _ _ (by omega), windA_eq hA i1 i2 hi,
    swirlB_eq hA i1 i2 hi, energy_eq hA i1 i2 hi, exner_eq hA i1 i2 hi, slopeB_eq _ hA.order, at4_eq hA.order,
    at4_eq hA.order]
  ring

theorem point_same (dt : ℝ) (a b k i j : Nat) (u v : Data) (huv : Same u v) :
    Same (point A i2 dt a b k i j u) (nodePoint A i1 dt a b k i j v) := by
  unfold point nodePoint
  simp only [at4_eq hA.order, pushA_eq hA i1 i2 hi, pushB_eq hA i1 i2 hi, fluxOutA_eq _ hA.order,
    fluxOutB_eq _ hA.order, carryA_eq hA i1 i2 hi _ _ _ 4 (by omega), carryA_eq hA i1 i2 hi _ _ _ 2 (by omega),
    carryB_eq hA i1 i2 hi _ _ _ 4 (by omega), carryB_eq hA i1 i2 hi _ _ _ 2 (by omega), hA.xz, hA.w, if_true,
    Bool.false_eq_true, if_false]
  refine tracers_same _ _ _ _ _ _ _ ?_
  have s1 := put_same u v huv ⟨.state 0, A.G.S.at a i, A.G.S.at b j, k⟩ _ _
    (congrArg (· + dt * Nonhydro.updateUa A i1 a b k i j) (huv ⟨.state 0, A.G.S.at a i, A.G.S.at b j, k⟩ ⟨_, rfl⟩))
  have s2 := put_same _ _ s1 ⟨.state 1, A.G.S.at a i, A.G.S.at b j, k⟩ _ _
    (congrArg (· + dt * Nonhydro.updateUb A i1 a b k i j) (s1 ⟨.state 1, A.G.S.at a i, A.G.S.at b j, k⟩ ⟨_, rfl⟩))
  have s3 := put_same _ _ s2 ⟨.state 4, A.G.S.at a i, A.G.S.at b j, k⟩ _ _
    (congrArg (· - dt * (1 / A.jac (A.G.S.at a i) (A.G.S.at b j) k) *
      (Horiz.weakA A.G A.B (fluxA A i1 a b k (.state 4)) i j + Horiz.weakB A.G A.B (fluxB A i1 a b k (.state 4)) i j))
      (s2 ⟨.state 4, A.G.S.at a i, A.G.S.at b j, k⟩ ⟨_, rfl⟩))
  exact put_same _ _ s3 ⟨.state 2, A.G.S.at a i, A.G.S.at b j, k⟩ _ _
    (congrArg (· - dt * (1 / A.jac (A.G.S.at a i) (A.G.S.at b j) k) *
      (Horiz.weakA A.G A.B (fluxA A i1 a b k (.state 2)) i j + Horiz.weakB A.G A.B (fluxB A i1 a b k (.state 2)) i j))
      (s3 ⟨.state 2, A.G.S.at a i, A.G.S.at b j, k⟩ ⟨_, rfl⟩))

omit hi in
theorem bottom_same (a b i j : Nat) (u v : Data) (huv : Same u v) :
    Same (bottom A a b i j u) (bottomPoint A a b i j v) := by
  unfold bottom bottomPoint
  rw [at4_eq hA.order, at4_eq hA.order]
  refine put_same u v huv _ _ _ ?_
  have e : ∀ c, (fun l => u ⟨.state c, A.G.S.at a i, A.G.S.at b j, l⟩) =
      fun l => v ⟨.state c, A.G.S.at a i, A.G.S.at b j, l⟩ := fun c => funext (fun l => huv _ ⟨c, rfl⟩)
  rw [e 0, e 1]

theorem interface_same (dt : ℝ) (a b i j t : Nat) (u v : Data) (huv : Same u v) :
    Same (interface A i2 dt a b i j t u) (edgePoint A i1 dt a b i j t v) := by
  unfold interface edgePoint
  rw [at4_eq hA.order, at4_eq hA.order]
  refine put_same u v huv _ _ _ ?_
  simp only [swirlX_eq hA i1 i2 hi]
  rw [huv _ ⟨_, rfl⟩]

theorem element_same (dt : ℝ) (a b : Nat) (u v : Data) (huv : Same u v) :
    Same (element A i2 dt a b u) (Nonhydro.element A i1 dt a b v) := by
  unfold element Nonhydro.element
  rw [if_pos hA.w, hA.order]
  refine loop_same _ _ _ (fun i u v huv => loop_same _ _ _ (fun j u v huv => loop_same _ _ _ (fun t u v huv =>
    interface_same hA i1 i2 hi dt a b i j t u v huv) u v huv) u v huv) _ _ ?_
  refine loop_same _ _ _ (fun i u v huv => loop_same _ _ _ (fun j u v huv => bottom_same hA a b i j u v huv) u v huv)
    _ _ ?_
  exact loop_same _ _ _ (fun i u v huv => loop_same _ _ _ (fun j u v huv => loop_same _ _ _ (fun k u v huv =>
    point_same hA i1 i2 hi dt a b k i j u v huv) u v huv) u v huv) _ _ huv

end

/-- The interpolations of the first version do those of the second and two more. -/
theorem prepare_eq {A : Air} (hA : Lorenz A) (u : Data) (x : Cell) (h0 : x.v ≠ edge 0) (h1 : x.v ≠ edge 1) :
    prepare A u x = Nonhydro.prepare A u x := by
  unfold prepare Nonhydro.prepare
  simp only [hA.w, hA.p, if_true, Bool.false_eq_true, if_false]
  rw [mapColumns_other _ _ _ _ _ _ _ _ h1, mapColumns_other _ _ _ _ _ _ _ _ h0]

theorem nonhydro_same {A : Air} (hA : Lorenz A) (init : Data) (dt : ℝ) (u : Data) :
    ∃ i1 u1, Nonhydro.stepNonhydro A init dt u = some (i1, u1) ∧ Same (stepNonhydro A init dt u).2 u1 ∧
      ∀ x, x.v ≠ edge 0 → x.v ≠ edge 1 → (stepNonhydro A init dt u).1 x = i1 x := by
  unfold Nonhydro.stepNonhydro
  rw [if_neg (fun h => by have := h.1; rw [hA.w] at this; exact absurd this (by decide))]
  refine ⟨_, _, rfl, ?_, fun x h0 h1 => prepare_eq hA init x h0 h1⟩
  have hi : ∀ c, c < 5 → ∀ iA iB k, prepare A init ⟨.state c, iA, iB, k⟩ =
      Nonhydro.prepare A init ⟨.state c, iA, iB, k⟩ := by
    intro c hc iA iB k
    refine prepare_eq hA init _ ?_ ?_ <;> simp only [edge, ne_eq, Var.state.injEq] <;> omega
  exact loop_same _ _ _ (fun a u v huv => loop_same _ _ _ (fun b u v huv =>
    element_same hA _ _ hi dt a b u v huv) u v huv) u u (fun _ _ => rfl)

end Verif.HorizV2
