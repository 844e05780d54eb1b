import Verif.Acoustic.Lemmas
import Verif.Thermo.Constants
import Mathlib.Analysis.SpecialFunctions.ExpDeriv
import Mathlib.Analysis.SpecialFunctions.Log.Deriv

/-!
# C121: the implicit solve is a linearised backward Euler step
-/

namespace Verif.Acoustic

open Verif.Horiz

/-- The row of the system, written with the changes of density and heat it brings about. -/
theorem row_meaning (G : Grid) (dt : ℝ) (q θ X D : Fld) (e i j k : Nat) (hk : 0 < k) (hkn : k < G.levels)
    (row : lower G dt q θ e i j (k - 1) * X e i j (k - 1) + diag G dt q θ e i j k * X e i j k +
      upper G dt q θ e i j k * X e i j (k + 1) = D e i j k) :
    X e i j k = D e i j k - dt * (1 / (G.zn e i j k - G.zn e i j (k - 1)) *
        (q e i j k * (-dt * dz G (fun e i j k => X e i j k * θ e i j k) e i j k) -
          q e i j (k - 1) * (-dt * dz G (fun e i j k => X e i j k * θ e i j k) e i j (k - 1))) +
      0.5 * G.g * (-dt * dz G X e i j k + -dt * dz G X e i j (k - 1))) := by
  obtain ⟨m, rfl⟩ : ∃ m, k = m + 1 := ⟨k - 1, by omega⟩
  unfold lower diag upper at row
  simp only [Nat.add_sub_cancel] at row ⊢
  rw [if_pos hkn, if_pos ⟨hk, hkn⟩, if_pos ⟨hk, hkn⟩] at row
  unfold dz
  linear_combination row

theorem same_theta (G : Grid) (s : State) (hc : Continuous G s) (e i j e' i' j' k : Nat)
    (h : G.point e i j = G.point e' i' j') : thetaEdge G s e i j k = thetaEdge G s e' i' j' k := by
  unfold thetaEdge rhoEdge
  rw [hc.p e i j e' i' j' _ h, hc.p e i j e' i' j' _ h, hc.r e i j e' i' j' _ h, hc.r e i j e' i' j' _ h,
    hc.pEdge e i j e' i' j' _ h]

theorem same_stiffness (G : Grid) (s : State) (hc : Continuous G s) (e i j e' i' j' k : Nat)
    (h : G.point e i j = G.point e' i' j') : stiffness G s e i j k = stiffness G s e' i' j' k := by
  unfold stiffness pres
  rw [hc.p e i j e' i' j' _ h]

theorem same_rhs (G : Grid) (hz : Heights G) (s : State) (hc : Continuous G s) (dt : ℝ) (e i j e' i' j' k : Nat)
    (h : G.point e i j = G.point e' i' j') : implicitRhs G s dt e i j k = implicitRhs G s dt e' i' j' k := by
  unfold implicitRhs dzEdge pres rhoEdge
  rw [hc.p e i j e' i' j' _ h, hc.p e i j e' i' j' _ h, hc.r e i j e' i' j' _ h, hc.r e i j e' i' j' _ h,
    hc.w e i j e' i' j' _ h, hz.zn e i j e' i' j' _ h, hz.zn e i j e' i' j' _ h]

theorem same_solution (G : Grid) (hz : Heights G) (solver : Solver) (s : State) (hc : Continuous G s) (dt : ℝ) (X : Fld)
    (hX : solveAll G solver dt (stiffness G s) (thetaEdge G s) (implicitRhs G s dt) = some X)
    (e i j e' i' j' : Nat) (he : e < G.elements) (hi : i < G.order) (hj : j < G.order) (he' : e' < G.elements)
    (hi' : i' < G.order) (hj' : j' < G.order) (h : G.point e i j = G.point e' i' j') : X e i j = X e' i' j' := by
  have a := solveAll_eq G solver _ _ _ _ X hX e i j he hi hj
  have b := solveAll_eq G solver _ _ _ _ X hX e' i' j' he' hi' hj'
  have l : lower G dt (stiffness G s) (thetaEdge G s) e i j = lower G dt (stiffness G s) (thetaEdge G s) e' i' j' := by
    funext m
    unfold lower
    rw [hz.zi e i j e' i' j' _ h, hz.zi e i j e' i' j' _ h, hz.zn e i j e' i' j' _ h, hz.zn e i j e' i' j' _ h,
      same_stiffness G s hc e i j e' i' j' _ h, same_theta G s hc e i j e' i' j' _ h]
  have d : diag G dt (stiffness G s) (thetaEdge G s) e i j = diag G dt (stiffness G s) (thetaEdge G s) e' i' j' := by
    funext m
    unfold diag
    rw [hz.zi e i j e' i' j' _ h, hz.zi e i j e' i' j' _ h, hz.zi e i j e' i' j' (m - 1) h,
      hz.zn e i j e' i' j' _ h, hz.zn e i j e' i' j' _ h, same_stiffness G s hc e i j e' i' j' _ h,
      same_stiffness G s hc e i j e' i' j' (m - 1) h, same_theta G s hc e i j e' i' j' _ h]
  have u : upper G dt (stiffness G s) (thetaEdge G s) e i j = upper G dt (stiffness G s) (thetaEdge G s) e' i' j' := by
    funext m
    unfold upper
    rw [hz.zi e i j e' i' j' _ h, hz.zi e i j e' i' j' _ h, hz.zn e i j e' i' j' _ h, hz.zn e i j e' i' j' _ h,
      same_stiffness G s hc e i j e' i' j' _ h, same_theta G s hc e i j e' i' j' _ h]
  have r : implicitRhs G s dt e i j = implicitRhs G s dt e' i' j' :=
    funext fun k => same_rhs G hz s hc dt e i j e' i' j' k h
  rw [l, d, u, r, b] at a
  exact (Option.some.inj a).symm

theorem mixed_same (coeff : List ℝ) (inst : List Nat) (st : Store) (part : State → Fld) (e i j e' i' j' k : Nat)
    (h : ∀ m, m ∈ inst → part (st m) e i j k = part (st m) e' i' j' k) :
    mixed coeff inst st part e i j k = mixed coeff inst st part e' i' j' k := by
  unfold mixed
  congr 1
  refine List.map_congr_left (fun x hx => ?_)
  rw [h x.2 (List.of_mem_zip hx).2]

/-- The result of the implicit part in a column, when the instances are continuous. -/
theorem implicit_column (G : Grid) (hz : Heights G) (solver : Solver) (coeff : List ℝ) (inst : List Nat) (iA iU : Nat)
    (dt : ℝ) (st st' : Store) (hA : Continuous G (st iA)) (hI : ∀ m, m ∈ inst → Continuous G (st m))
    (hst : implicitCombine G solver coeff inst iA iU dt st = some st') :
    ∃ X, solveAll G solver dt (stiffness G (st iA)) (thetaEdge G (st iA)) (implicitRhs G (st iA) dt) = some X ∧
      ∀ e i j k, e < G.elements → i < G.order → j < G.order →
        (st' iU).r e i j k = mixed coeff inst st State.r e i j k + -dt * dz G X e i j k ∧
        (st' iU).p e i j k = mixed coeff inst st State.p e i j k +
          -dt * dz G (fun e i j k => X e i j k * thetaEdge G (st iA) e i j k) e i j k ∧
        ((st' iU).w e i j 0 = 0) ∧
        (0 < k → k < G.levels →
          (st' iU).w e i j k = mixed coeff inst st State.w e i j k + (X e i j k - (st iA).w e i j k)) := by
  unfold implicitCombine implicitCore at hst
  obtain ⟨s, hs', rfl⟩ := Option.map_eq_some_iff.1 hst
  by_cases hc : combinable coeff inst iU = true
  swap
  · rw [if_pos (by simpa using hc)] at hs'
    exact absurd hs' (by simp)
  rw [if_neg (by simp [hc])] at hs'
  obtain ⟨X, hX, rfl⟩ := Option.map_eq_some_iff.1 hs'
  refine ⟨X, hX, fun e i j k he hi hj => ?_⟩
  rw [show putSlot st iU _ iU = _ from if_pos rfl]
  have cs : ∀ part : State → Fld, ∀ e i j k, combine coeff inst st part e i j k = mixed coeff inst st part e i j k :=
    fun part e i j k => combine_sum coeff inst iU hc st part e i j k
  have sol : ∀ e' i' j', e' < G.elements → i' < G.order → j' < G.order → G.point e' i' j' = G.point e i j →
      X e' i' j' = X e i j := fun e' i' j' he' hi' hj' h =>
    same_solution G hz solver (st iA) hA dt X hX e' i' j' e i j he' hi' hj' he hi hj h
  refine ⟨?_, ?_, ?_, ?_⟩
  · show mean G _ e i j k = _
    rw [mean_same G _ e i j k he hi hj]
    · show combine coeff inst st State.r e i j k + _ = _
      rw [cs]
    · intro e' i' j' he' hi' hj' h
      show combine coeff inst st State.r e' i' j' k + -dt * dz G X e' i' j' k =
        combine coeff inst st State.r e i j k + -dt * dz G X e i j k
      rw [cs, cs, mixed_same coeff inst st State.r e' i' j' e i j k (fun m hm => (hI m hm).r e' i' j' e i j k h)]
      unfold dz
      rw [sol e' i' j' he' hi' hj' h, hz.zi e' i' j' e i j _ h, hz.zi e' i' j' e i j _ h]
  · show mean G _ e i j k = _
    rw [mean_same G _ e i j k he hi hj]
    · show combine coeff inst st State.p e i j k + _ = _
      rw [cs]
    · intro e' i' j' he' hi' hj' h
      show combine coeff inst st State.p e' i' j' k +
          -dt * dz G (fun e i j k => X e i j k * thetaEdge G (st iA) e i j k) e' i' j' k =
        combine coeff inst st State.p e i j k +
          -dt * dz G (fun e i j k => X e i j k * thetaEdge G (st iA) e i j k) e i j k
      rw [cs, cs, mixed_same coeff inst st State.p e' i' j' e i j k (fun m hm => (hI m hm).p e' i' j' e i j k h)]
      unfold dz
      beta_reduce
      rw [sol e' i' j' he' hi' hj' h, hz.zi e' i' j' e i j _ h, hz.zi e' i' j' e i j _ h,
        same_theta G (st iA) hA e' i' j' e i j _ h, same_theta G (st iA) hA e' i' j' e i j _ h]
  · show mean G _ e i j 0 = _
    exact mean_zero G _ e i j 0 (fun e' i' j' _ _ _ => by simp)
  · intro hk hkn
    show mean G _ e i j k = _
    have h0 : k ≠ 0 := by omega
    rw [mean_same G _ e i j k he hi hj]
    · show (if k = 0 then 0 else if k < G.levels then _ else _) = _
      rw [if_neg h0, if_pos hkn, cs]
    · intro e' i' j' he' hi' hj' h
      show (if k = 0 then 0 else if k < G.levels then _ else _) = (if k = 0 then 0 else if k < G.levels then _ else _)
      rw [if_neg h0, if_neg h0, if_pos hkn, if_pos hkn, cs, cs,
        mixed_same coeff inst st State.w e' i' j' e i j k (fun m hm => (hI m hm).w e' i' j' e i j k h),
        sol e' i' j' he' hi' hj' h, hA.w e' i' j' e i j k h]

theorem pressure_deriv (c : Thermo.Constants) (x : ℝ) (hx : 0 < x) :
    deriv (Thermo.pressureFromRhoTheta c) x = Thermo.pressureFromRhoTheta c x * (c.gamma / x) := by
  have h : HasDerivAt (fun x => c.scaling * Real.exp (Real.log x * c.gamma))
      (c.scaling * (Real.exp (Real.log x * c.gamma) * (x⁻¹ * c.gamma))) x :=
    ((((Real.hasDerivAt_log (ne_of_gt hx)).mul_const c.gamma).exp).const_mul c.scaling)
  rw [show Thermo.pressureFromRhoTheta c = fun x => c.scaling * Real.exp (Real.log x * c.gamma) from rfl, h.deriv]
  simp only [div_eq_mul_inv]
  ring

/-- The implicit part of the high-speed dynamics, in the column of a node, for continuous instances: with `δ` the
change against the combination of instances, the new vertical momentum is the old one minus the step times the
vertical gradient of the pressure, linearised about the argument by the derivative of the pressure law and taken with
the new density and heat, minus the weight of the new density; and the new density and heat are those which the new
vertical momentum carries, none of it through the ground or the top. -/
theorem C121_backward (G : Grid) (hn : 0 < G.levels) (hz : Heights G) (c : Thermo.Constants)
    (hp : G.pressure = Thermo.pressureFromRhoTheta c) (hγ : G.gamma = c.gamma) (solver : Solver)
    (hs : Exact G.levels solver) (coeff : List ℝ) (inst : List Nat) (iA iU : Nat) (dt : ℝ) (st st' : Store)
    (hA : Continuous G (st iA)) (hI : ∀ m, m ∈ inst → Continuous G (st m))
    (hpos : ∀ e i j k, 0 < (st iA).p e i j k)
    (hst : implicitCombine G solver coeff inst iA iU dt st = some st') (e i j : Nat) (he : e < G.elements)
    (hi : i < G.order) (hj : j < G.order) :
    ∃ W : Nat → ℝ, W 0 = 0 ∧ W G.levels = 0 ∧
      let s := st iA
      let δ := fun (part : State → Fld) k => part (st' iU) e i j k - mixed coeff inst st part e i j k
      let θ := fun k => (s.p e i j (k - 1) + s.p e i j k) / (s.r e i j (k - 1) + s.r e i j k)
      let P := fun k => G.pressure (s.p e i j k) + deriv G.pressure (s.p e i j k) * δ State.p k
      let R := fun k => s.r e i j k + δ State.r k
      (∀ k, 0 < k → k < G.levels → δ State.w k = W k - s.w e i j k ∧
        W k = s.w e i j k - dt * ((P k - P (k - 1)) / (G.zn e i j k - G.zn e i j (k - 1)) +
          G.g * ((R (k - 1) + R k) / 2))) ∧
      ∀ k, k < G.levels →
        δ State.r k = -(dt * ((W (k + 1) - W k) / (G.zi e i j (k + 1) - G.zi e i j k))) ∧
        δ State.p k = -(dt * ((θ (k + 1) * W (k + 1) - θ k * W k) / (G.zi e i j (k + 1) - G.zi e i j k))) := by
  obtain ⟨X, hX, hcol⟩ := implicit_column G hz solver coeff inst iA iU dt st st' hA hI hst
  have ends := solveAll_ends G solver hs hn _ _ _ _ X hX (fun _ _ _ => inner_zero G _) (fun _ _ _ => inner_top G _)
    e i j he hi hj
  have rows := solveAll_rows G solver hs _ _ _ _ X hX e i j he hi hj
  have dr : ∀ k, (st' iU).r e i j k - mixed coeff inst st State.r e i j k = -dt * dz G X e i j k := fun k => by
    rw [(hcol e i j k he hi hj).1]; ring
  have dp : ∀ k, (st' iU).p e i j k - mixed coeff inst st State.p e i j k =
      -dt * dz G (fun e i j k => X e i j k * thetaEdge G (st iA) e i j k) e i j k := fun k => by
    rw [(hcol e i j k he hi hj).2.1]; ring
  have dq : ∀ k, deriv G.pressure ((st iA).p e i j k) = stiffness G (st iA) e i j k := fun k => by
    unfold stiffness pres
    rw [hp, pressure_deriv c _ (hpos e i j k), hγ]
  have hflux : ∀ k, k ≤ G.levels → X e i j k * thetaEdge G (st iA) e i j k =
      ((st iA).p e i j (k - 1) + (st iA).p e i j k) / ((st iA).r e i j (k - 1) + (st iA).r e i j k) * X e i j k := by
    intro k hk
    by_cases h0 : k = 0
    · rw [h0, ends.1]; ring
    by_cases hl : k = G.levels
    · rw [hl, ends.2]; ring
    unfold thetaEdge rhoEdge
    rw [if_pos ⟨by omega, by omega⟩, show (0.5 : ℝ) = 1 / 2 by norm_num, one_div, mul_inv, div_eq_mul_inv]
    ring
  refine ⟨X e i j, ends.1, ends.2, ?_, ?_⟩
  · intro k hk hkn
    refine ⟨?_, ?_⟩
    · show (st' iU).w e i j k - mixed coeff inst st State.w e i j k = _
      rw [(hcol e i j k he hi hj).2.2.2 hk hkn]
      ring
    · have := row_meaning G dt _ _ X _ e i j k hk hkn (rows.2.1 k hk hkn)
      show _ = (st iA).w e i j k - dt * (((G.pressure ((st iA).p e i j k) + deriv G.pressure ((st iA).p e i j k) *
          ((st' iU).p e i j k - mixed coeff inst st State.p e i j k)) -
          (G.pressure ((st iA).p e i j (k - 1)) + deriv G.pressure ((st iA).p e i j (k - 1)) *
          ((st' iU).p e i j (k - 1) - mixed coeff inst st State.p e i j (k - 1)))) /
          (G.zn e i j k - G.zn e i j (k - 1)) + G.g * ((((st iA).r e i j (k - 1) +
          ((st' iU).r e i j (k - 1) - mixed coeff inst st State.r e i j (k - 1))) + ((st iA).r e i j k +
          ((st' iU).r e i j k - mixed coeff inst st State.r e i j k))) / 2))
      rw [dr, dr, dp, dp, dq, dq, this]
      unfold implicitRhs
      rw [inner_of G k _ ⟨hk, hkn⟩]
      unfold dzEdge pres rhoEdge
      rw [show (0.5 : ℝ) = 1 / 2 by norm_num]
      ring
  · intro k hk
    refine ⟨?_, ?_⟩
    · show (st' iU).r e i j k - mixed coeff inst st State.r e i j k = _
      rw [dr]
      unfold dz
      ring
    · show (st' iU).p e i j k - mixed coeff inst st State.p e i j k = _
      rw [dp]
      unfold dz
      beta_reduce
      rw [hflux (k + 1) (by omega), hflux k (by omega)]
      ring

end Verif.Acoustic
