import Verif.Acoustic.Conserve

/-!
# C124: reversing the motion

Reversing all velocities and the rotation of the planet reverses the flow of mass and heat and leaves the forces on the
air as they are.
-/

namespace Verif.Acoustic

open Verif.Horiz

/-- The grid of a planet that rotates the other way. -/
def turned (G : Grid) : Grid := { G with coriolis := fun e i j => -G.coriolis e i j }

theorem derA_neg (G : Grid) (φ ψ : Fld) (h : ∀ e i j k, φ e i j k = -ψ e i j k) (e i j k : Nat) :
    derA G φ e i j k = -derA G ψ e i j k := by
  rw [derA_geo, derA_geo, derivA_sum, derivA_sum]
  simp only [h, neg_mul, Finset.sum_neg_distrib]

theorem derB_neg (G : Grid) (φ ψ : Fld) (h : ∀ e i j k, φ e i j k = -ψ e i j k) (e i j k : Nat) :
    derB G φ e i j k = -derB G ψ e i j k := by
  rw [derB_geo, derB_geo, derivB_sum, derivB_sum]
  simp only [h, neg_mul, Finset.sum_neg_distrib]

theorem div_neg' (G : Grid) (φ ψ φ' ψ' : Fld) (h : ∀ e i j k, φ' e i j k = -φ e i j k)
    (h' : ∀ e i j k, ψ' e i j k = -ψ e i j k) (e i j k : Nat) : div G φ' ψ' e i j k = -div G φ ψ e i j k := by
  unfold div
  rw [weakA_geo, weakA_geo, weakB_geo, weakB_geo, weakA_sum, weakA_sum, weakB_sum, weakB_sum]
  simp only [h, h', neg_mul, Finset.sum_neg_distrib]
  ring

section

variable (G : Grid) (s : State)

theorem conUa_reversed (e i j k : Nat) : conUa (reversed s) e i j k = -conUa s e i j k := by
  show 1 / s.r e i j k * -s.u e i j k = -(1 / s.r e i j k * s.u e i j k)
  ring

theorem conUb_reversed (e i j k : Nat) : conUb (reversed s) e i j k = -conUb s e i j k := by
  show 1 / s.r e i j k * -s.v e i j k = -(1 / s.r e i j k * s.v e i j k)
  ring

theorem covUa_reversed (e i j k : Nat) : covUa G (reversed s) e i j k = -covUa G s e i j k := by
  unfold covUa
  rw [conUa_reversed, conUb_reversed]
  ring

theorem covUb_reversed (e i j k : Nat) : covUb G (reversed s) e i j k = -covUb G s e i j k := by
  unfold covUb
  rw [conUa_reversed, conUb_reversed]
  ring

theorem kinetic_reversed : kinetic G (reversed s) = kinetic G s := by
  funext e i j k
  unfold kinetic
  rw [conUa_reversed, conUb_reversed, covUa_reversed, covUb_reversed]
  ring

theorem mass_reversed (e i j k : Nat) :
    div G (massA G (reversed s)) (massB G (reversed s)) e i j k = -div G (massA G s) (massB G s) e i j k :=
  div_neg' G _ _ _ _ (fun e i j k => mul_neg (G.jac e i j k) (s.u e i j k))
    (fun e i j k => mul_neg (G.jac e i j k) (s.v e i j k)) e i j k

theorem heat_reversed (e i j k : Nat) :
    div G (heatA G (reversed s)) (heatB G (reversed s)) e i j k = -div G (heatA G s) (heatB G s) e i j k := by
  refine div_neg' G _ _ _ _ (fun e i j k => ?_) (fun e i j k => ?_) e i j k
  · show G.jac e i j k * -s.u e i j k * s.p e i j k * (1 / s.r e i j k) =
      -(G.jac e i j k * s.u e i j k * s.p e i j k * (1 / s.r e i j k))
    ring
  · show G.jac e i j k * -s.v e i j k * s.p e i j k * (1 / s.r e i j k) =
      -(G.jac e i j k * s.v e i j k * s.p e i j k * (1 / s.r e i j k))
    ring

theorem uEdge_reversed (e i j k : Nat) : uEdge (reversed s) e i j k = -uEdge s e i j k := by
  show 0.5 * (-s.u e i j (k - 1) + -s.u e i j k) = -(0.5 * (s.u e i j (k - 1) + s.u e i j k))
  ring

theorem vEdge_reversed (e i j k : Nat) : vEdge (reversed s) e i j k = -vEdge s e i j k := by
  show 0.5 * (-s.v e i j (k - 1) + -s.v e i j k) = -(0.5 * (s.v e i j (k - 1) + s.v e i j k))
  ring

theorem sDot_reversed (e i j k : Nat) : sDot G (reversed s) e i j k = -sDot G s e i j k := by
  unfold sDot inner
  rw [uEdge_reversed, vEdge_reversed]
  split
  · show -s.w e i j k - _ - _ = _
    ring
  · ring

theorem sDotU_reversed : sDotU G (reversed s) = sDotU G s := by
  funext e i j k
  unfold sDotU
  rw [uEdge_reversed, sDot_reversed]
  show inner G k (-sDot G s e i j k * (1 / rhoEdge s e i j k) * -uEdge s e i j k) = _
  congr 1
  ring

theorem sDotV_reversed : sDotV G (reversed s) = sDotV G s := by
  funext e i j k
  unfold sDotV
  rw [vEdge_reversed, sDot_reversed]
  show inner G k (-sDot G s e i j k * (1 / rhoEdge s e i j k) * -vEdge s e i j k) = _
  congr 1
  ring

theorem vorticity_reversed (e i j k : Nat) : vorticity (turned G) (reversed s) e i j k = -vorticity G s e i j k := by
  unfold vorticity
  rw [derA_neg (turned G) (covUb (turned G) (reversed s)) (covUb G s) (covUb_reversed G s),
    derB_neg (turned G) (covUa (turned G) (reversed s)) (covUa G s) (covUa_reversed G s)]
  show -G.coriolis e i j + 1 / G.jac2d e i j * (-derA G (covUb G s) e i j k - -derB G (covUa G s) e i j k) = _
  ring

theorem tendU_reversed (e i j k : Nat) : tendU (turned G) (reversed s) e i j k = tendU G s e i j k := by
  have turn : turnA (turned G) (reversed s) e i j k = turnA G s e i j k := by
    unfold turnA
    rw [vorticity_reversed, show covUb (turned G) (reversed s) e i j k = _ from covUb_reversed G s e i j k]
    show - -vorticity G s e i j k * (1 / G.jac2d e i j) * -covUb G s e i j k = _
    ring
  have ke : conDaKE (turned G) (reversed s) e i j k = conDaKE G s e i j k := by
    show G.conA e i j 0 * derA G (kinetic G (reversed s)) e i j k +
      G.conA e i j 1 * derB G (kinetic G (reversed s)) e i j k = _
    rw [kinetic_reversed]
    rfl
  unfold tendU
  rw [turn, ke]
  show -conGradA G (pres G s) e i j k - s.r e i j k * _ -
    div G (massA G (reversed s)) (massB G (reversed s)) e i j k * conUa (reversed s) e i j k -
      dz G (sDotU G (reversed s)) e i j k = _
  rw [mass_reversed, conUa_reversed, sDotU_reversed]
  ring

theorem tendV_reversed (e i j k : Nat) : tendV (turned G) (reversed s) e i j k = tendV G s e i j k := by
  have turn : turnB (turned G) (reversed s) e i j k = turnB G s e i j k := by
    unfold turnB
    rw [vorticity_reversed, show covUa (turned G) (reversed s) e i j k = _ from covUa_reversed G s e i j k]
    show -vorticity G s e i j k * (1 / G.jac2d e i j) * -covUa G s e i j k = _
    ring
  have ke : conDbKE (turned G) (reversed s) e i j k = conDbKE G s e i j k := by
    show G.conB e i j 0 * derA G (kinetic G (reversed s)) e i j k +
      G.conB e i j 1 * derB G (kinetic G (reversed s)) e i j k = _
    rw [kinetic_reversed]
    rfl
  unfold tendV
  rw [turn, ke]
  show -conGradB G (pres G s) e i j k - s.r e i j k * _ -
    div G (massA G (reversed s)) (massB G (reversed s)) e i j k * conUb (reversed s) e i j k -
      dz G (sDotV G (reversed s)) e i j k = _
  rw [mass_reversed, conUb_reversed, sDotV_reversed]
  ring

end

/-- The update of the explicit part of the high-speed dynamics over what it combines. -/
noncomputable def gain (coeff : List ℝ) (inst : List Nat) (st st' : Store) (iU : Nat) (part : State → Fld) : Fld :=
  fun e i j k => part (st' iU) e i j k - mixed coeff inst st part e i j k

/-- In the explicit part of the high-speed dynamics, reversing the motion of the argument and the rotation of the planet
leaves the gain of horizontal momentum and reverses the gains of mass and heat.  That it leaves the gain of vertical
momentum is missing, since it is false. -/
theorem C124_reverse_partial (G : Grid) (coeff : List ℝ) (inst : List Nat) (iA iU : Nat) (hA : iA ∉ inst) (dt : ℝ)
    (st st1 st2 : Store) (h1 : explicitCombine G coeff inst iA iU dt st = some st1)
    (h2 : explicitCombine (turned G) coeff inst iA iU dt (putSlot st iA (reversed (st iA))) = some st2)
    (e i j k : Nat) :
    gain coeff inst st st2 iU State.u e i j k = gain coeff inst st st1 iU State.u e i j k ∧
      gain coeff inst st st2 iU State.v e i j k = gain coeff inst st st1 iU State.v e i j k ∧
      gain coeff inst st st2 iU State.r e i j k = -gain coeff inst st st1 iU State.r e i j k ∧
      gain coeff inst st st2 iU State.p e i j k = -gain coeff inst st st1 iU State.p e i j k := by
  unfold explicitCombine at h1 h2
  by_cases hc : combinable coeff inst iU = true
  swap
  · rw [if_pos (by simpa using hc)] at h1
    exact absurd h1 (by simp)
  rw [if_neg (by simp [hc])] at h1 h2
  have e1 : st1 iU = _ := congrFun (Option.some.inj h1).symm iU
  have e2 : st2 iU = _ := congrFun (Option.some.inj h2).symm iU
  rw [putSlot_same] at e1 e2
  have cs : ∀ (st : Store) (part : State → Fld) e i j k,
      combine coeff inst st part e i j k = mixed coeff inst st part e i j k :=
    fun st part e i j k => combine_sum coeff inst iU hc st part e i j k
  have cs' : ∀ (part : State → Fld) e i j k,
      combine coeff inst (putSlot st iA (reversed (st iA))) part e i j k = mixed coeff inst st part e i j k := by
    intro part e i j k
    rw [cs]
    unfold mixed
    congr 1
    refine List.map_congr_left (fun x hx => ?_)
    rw [putSlot_other _ _ _ _ (fun h : x.2 = iA => hA (h ▸ (List.of_mem_zip hx).2))]
  unfold gain
  rw [e1, e2]
  simp only [putSlot_same]
  refine ⟨?_, ?_, ?_, ?_⟩
  · show combine coeff inst _ State.u e i j k + dt * tendU (turned G) (reversed (st iA)) e i j k - _ =
      combine coeff inst _ State.u e i j k + dt * tendU G (st iA) e i j k - _
    rw [cs', cs, tendU_reversed]
  · show combine coeff inst _ State.v e i j k + dt * tendV (turned G) (reversed (st iA)) e i j k - _ =
      combine coeff inst _ State.v e i j k + dt * tendV G (st iA) e i j k - _
    rw [cs', cs, tendV_reversed]
  · show combine coeff inst _ State.r e i j k +
      -dt * div G (massA G (reversed (st iA))) (massB G (reversed (st iA))) e i j k - _ =
      -(combine coeff inst _ State.r e i j k + -dt * div G (massA G (st iA)) (massB G (st iA)) e i j k - _)
    rw [cs', cs, mass_reversed]
    ring
  · show combine coeff inst _ State.p e i j k +
      -dt * div G (heatA G (reversed (st iA))) (heatB G (reversed (st iA))) e i j k - _ =
      -(combine coeff inst _ State.p e i j k + -dt * div G (heatA G (st iA)) (heatB G (st iA)) e i j k - _)
    rw [cs', cs, heat_reversed]
    ring

end Verif.Acoustic
