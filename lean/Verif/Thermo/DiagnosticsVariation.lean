import Verif.Thermo.DiagnosticsFalse

/-!
# C86: how the reported energy changes
-/

namespace Verif.Thermo

open Verif.Horiz Verif.Nonhydro

/-- A state changed by `t` times a tendency. -/
noncomputable def moved (u d : Data) (t : ℝ) : Data := fun x => u x + t * d x

/-- The contravariant velocity in direction `a`. -/
noncomputable def raised (G : Gauge) (u : Data) (i j k a : Nat) : ℝ :=
  ∑ b ∈ Finset.range 3, G.metric i j k a b * wind u i j k b

theorem total_deriv (S : Shape) (n : Nat) (f : ℝ → Nat → Nat → Nat → ℝ) (f' : Nat → Nat → Nat → ℝ) (x : ℝ)
    (h : ∀ i j k, Interior S i j → k < n → HasDerivAt (fun t => f t i j k) (f' i j k) x) :
    HasDerivAt (fun t => total S n (f t)) (total S n f') x := by
  unfold total
  refine HasDerivAt.fun_sum (fun i hi => HasDerivAt.fun_sum (fun j hj => HasDerivAt.fun_sum (fun k hk => ?_)))
  rw [Finset.mem_range] at hi hj hk
  exact h _ _ _ (by unfold Interior; omega) hk

/-- **C86 (variation).**  With vertical velocity on levels and a symmetric metric, the reported energy changes along any
tendency by momentum times the tendency of the wind, kinetic and potential energy per mass times the tendency of density,
and Exner pressure times the tendency of density times potential temperature: the weights of the energy balance of the
horizontal step (C83). -/
theorem C86_variation (calls : List (Quantity × ℝ)) (hg : Gas calls) (G : Gauge) (hG : G.phys = after calls)
    (hs : G.shallow = false) (hw : G.wOnEdge = false)
    (hm : ∀ i j k a b, a < 3 → b < 3 → G.metric i j k a b = G.metric i j k b a) (u d : Data)
    (hp : ∀ i j k, Interior G.S i j → k < G.S.levels → 0 < u ⟨.state 2, i, j, k⟩) :
    HasDerivAt (fun t => energyOf G (moved u d t)) (total G.S G.S.levels (fun i j k => G.area i j k *
      (u ⟨.state 4, i, j, k⟩ * ∑ a ∈ Finset.range 3, raised G u i j k a * wind d i j k a +
        (1 / 2 * square 3 (G.metric i j k) (wind u i j k) + G.phys.g * G.zLevel i j k) * d ⟨.state 4, i, j, k⟩ +
        exnerFromRhoTheta G.phys (u ⟨.state 2, i, j, k⟩) * d ⟨.state 2, i, j, k⟩))) 0 := by
  have he : ∀ t, energyOf G (moved u d t) = total G.S G.S.levels (fun i j k =>
      G.area i j k * levelPoint G (moved u d t) i j k (levelDot G (moved u d t) i j k)) := by
    intro t
    unfold energyOf
    rw [hs, if_neg (by simp), if_pos hw, nodes_add, zero_add]
  simp only [he]
  refine total_deriv G.S G.S.levels _ _ 0 (fun i j k hI hk => ?_)
  refine HasDerivAt.const_mul _ ?_
  have lin : ∀ c, HasDerivAt (fun t => moved u d t ⟨c, i, j, k⟩) (d ⟨c, i, j, k⟩) 0 := by
    intro c
    have := ((hasDerivAt_id (0 : ℝ)).mul_const (d ⟨c, i, j, k⟩)).const_add (u ⟨c, i, j, k⟩)
    refine this.congr_deriv (by ring)
  have z : ∀ c, moved u d 0 c = u c := by
    intro c
    unfold moved
    ring
  have l0 := lin (.state 0)
  have l1 := lin (.state 1)
  have l2 := lin (.state 2)
  have l3 := lin (.state 3)
  have l4 := lin (.state 4)
  have ha := ((l0.const_mul (G.conA i j k 0)).add (l1.const_mul (G.conA i j k 1))).add (l3.const_mul (G.conA i j k 2))
  have hb := ((l0.const_mul (G.conB i j k 0)).add (l1.const_mul (G.conB i j k 1))).add (l3.const_mul (G.conB i j k 2))
  have hx := ((l0.const_mul (G.conXi i j k 0)).add (l1.const_mul (G.conXi i j k 1))).add
    (l3.const_mul (G.conXi i j k 2))
  have hd := ((ha.mul l0).add (hb.mul l1)).add (hx.mul l3)
  have hk' := (l4.const_mul 0.5).mul hd
  have hE : HasDerivAt (fun x => pressureFromRhoTheta G.phys x / (G.phys.gamma - 1))
      (exnerFromRhoTheta G.phys (moved u d 0 ⟨.state 2, i, j, k⟩)) (moved u d 0 ⟨.state 2, i, j, k⟩) := by
    rw [hG, z]
    exact C85_energy calls hg _ (hp i j k hI hk)
  have hi := hE.comp (0 : ℝ) l2
  have hz := (l4.const_mul G.phys.g).mul_const (G.zLevel i j k)
  have key := (hk'.add hi).add hz
  have s01 : G.conA i j k 1 = G.conB i j k 0 := by simpa [Gauge.metric] using hm i j k 0 1 (by omega) (by omega)
  have s02 : G.conA i j k 2 = G.conXi i j k 0 := by simpa [Gauge.metric] using hm i j k 0 2 (by omega) (by omega)
  have s12 : G.conB i j k 2 = G.conXi i j k 1 := by simpa [Gauge.metric] using hm i j k 1 2 (by omega) (by omega)
  refine key.congr_deriv ?_
  simp only [z, Pi.add_apply, Pi.mul_apply]
  simp only [raised, square, wind, Gauge.metric, Finset.sum_range_succ, Finset.sum_range_zero]
  norm_num
  rw [s01, s02, s12]
  ring

/-- The metric of the sample is symmetric. -/
example (i j k a b : Nat) (ha : a < 3) (hb : b < 3) : sampleGauge.metric i j k a b = sampleGauge.metric i j k b a := by
  obtain rfl | rfl | rfl : a = 0 ∨ a = 1 ∨ a = 2 := by omega
  all_goals obtain rfl | rfl | rfl : b = 0 ∨ b = 1 ∨ b = 2 := by omega
  all_goals norm_num [sampleGauge, Gauge.metric]

end Verif.Thermo
