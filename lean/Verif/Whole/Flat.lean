import Verif.Whole.Means

/-!
# Means over the copies of a point of the plane
-/

namespace Verif.Whole

open Verif.Dss (twin twin_twin)
open Halo (Node angle Line)

/-- Same place on a periodic line: the node itself or its other copy. -/
theorem same_place {p res : Int} {x : Nat → ℝ} (L : Line p res x) (g g' : Int) (g0 : 0 ≤ g) (g1 : g < p * res)
    (h0 : 0 ≤ g') (h1 : g' < p * res) : SamePlace p res x g g' ↔ g' = g ∨ g' = wrap (p * res) (twin p g) := by
  have hp := L.order
  have hN : 2 ≤ p * res := L.count
  have hpi := Real.pi_pos
  have low : ∀ g, 0 ≤ g → angle p res x g = -(Real.pi / 4) → g = 0 := by
    intro g h e
    rcases (Halo.angle_eq L 0 g).mp (by rw [e, Halo.angle_zero L]) with h' | h'
    · exact h'
    · rw [Halo.twin_zero hp] at h'; omega
  have high : ∀ g, g < p * res → angle p res x g = Real.pi / 4 → g = p * res - 1 := by
    intro g h e
    rcases (Halo.angle_eq L (p * res - 1) g).mp (by rw [e, Halo.angle_last L]) with h' | h'
    · exact h'
    · rw [Halo.twin_end hp] at h'; omega
  obtain ⟨l, r⟩ := Halo.angle_range L g (by omega) (by omega)
  obtain ⟨l', r'⟩ := Halo.angle_range L g' (by omega) (by omega)
  unfold SamePlace
  rw [Halo.angle_eq L]
  constructor
  · rintro ((rfl | rfl) | h)
    · exact .inl rfl
    · right; rw [wrap_in _ _ h0 h1]
    · right
      rcases abs_eq (by positivity) |>.mp h with h | h
      · have e := low g g0 (by linarith)
        have e' := high g' h1 (by linarith)
        rw [e, Halo.twin_zero hp, wrap_low _ (by omega), e']
      · have e := high g g1 (by linarith)
        have e' := low g' h0 (by linarith)
        rw [e, Halo.twin_end hp, wrap_high _ (by omega), e']
  · rintro (rfl | rfl)
    · exact .inl (.inl rfl)
    · rcases twin_stays p res g hp g0 g1 with ⟨a, b⟩ | ⟨a, b⟩ | ⟨a, b⟩
      · rw [wrap_in _ _ a b]; exact .inl (.inr rfl)
      · right
        rw [b, wrap_low _ (by omega), a, Halo.angle_last L, Halo.angle_zero L,
          show Real.pi / 4 - -(Real.pi / 4) = Real.pi / 2 by ring, abs_of_pos (by positivity)]
      · right
        rw [b, wrap_high _ (by omega), a, Halo.angle_last L, Halo.angle_zero L,
          show -(Real.pi / 4) - Real.pi / 4 = -(Real.pi / 2) by ring, abs_neg, abs_of_pos (by positivity)]

theorem pair_mean (a b : Int) (F : Int → ℝ) : (∑ i ∈ ({a, b} : Finset Int), F i) / (({a, b} : Finset Int).card : ℝ) =
    (F a + F b) / 2 := by
  by_cases h : a = b
  · subst h; simp
  · rw [Finset.sum_pair h, Finset.card_pair h]; norm_num

theorem World.mean_plane (W : World) (hW : W.Tiled) (hk : W.kind = .plane) (xA xB : Nat → ℝ) (LA : Line W.order W.elemA xA)
    (LB : Line W.order W.elemB xB) (f : Node → ℝ) (n : Node) (hn : n ∈ W.nodes) :
    W.mean f n = meanOver (planeCopies W.order W.elemA W.elemB xA xB n) f := by
  obtain ⟨p, g, h⟩ := n
  have hn' := hn
  rw [W.mem_nodes] at hn'
  obtain ⟨⟨p0, p1⟩, ⟨g0, g1⟩, h0, h1⟩ := hn'
  have ho : (2 : Int) ≤ W.order := by exact_mod_cast hW.order
  obtain ⟨⟨a0, a1⟩, -⟩ := wrap_twin W.order W.elemA g ho g0 g1
  obtain ⟨⟨b0, b1⟩, -⟩ := wrap_twin W.order W.elemB h ho h0 h1
  have hp : p = 0 := by
    rw [hk] at p1
    have : p < 1 := p1
    omega
  subst hp
  have hc : planeCopies W.order W.elemA W.elemB xA xB (0, g, h) =
      ({0} : Finset Int) ×ˢ ({g, wrap (W.order * W.elemA) (twin W.order g)} : Finset Int) ×ˢ
        ({h, wrap (W.order * W.elemB) (twin W.order h)} : Finset Int) := by
    ext ⟨p, g', h'⟩
    unfold planeCopies
    simp only [Finset.mem_filter, Finset.mem_product, Finset.mem_Ico, Finset.mem_singleton, Finset.mem_insert]
    constructor
    · rintro ⟨⟨hp, hg, hh⟩, s1, s2⟩
      exact ⟨by omega, (same_place LA g g' g0 g1 hg.1 hg.2).mp s1, (same_place LB h h' h0 h1 hh.1 hh.2).mp s2⟩
    · rintro ⟨hp, hg, hh⟩
      have r1 : 0 ≤ g' ∧ g' < W.order * W.elemA := by rcases hg with rfl | rfl <;> omega
      have r2 : 0 ≤ h' ∧ h' < W.order * W.elemB := by rcases hh with rfl | rfl <;> omega
      exact ⟨⟨by omega, r1, r2⟩, (same_place LA g g' g0 g1 r1.1 r1.2).mpr hg, (same_place LB h h' h0 h1 r2.1 r2.2).mpr hh⟩
  unfold meanOver
  rw [hc, Finset.sum_product, Finset.sum_singleton, Finset.sum_product, Finset.card_product, Finset.card_product,
    Finset.card_singleton, one_mul]
  push_cast
  have e : ∀ (s t : Finset Int) (F : Int → Int → ℝ), (∑ x ∈ s, ∑ y ∈ t, F x y) / ((s.card : ℝ) * (t.card : ℝ)) =
      (∑ x ∈ s, ((∑ y ∈ t, F x y) / (t.card : ℝ))) / (s.card : ℝ) := fun s t F => by
    simp only [div_eq_mul_inv, ← Finset.sum_mul, mul_inv]
    ring
  rw [e]
  simp only [fun x => pair_mean h (wrap (W.order * W.elemB) (twin W.order h)) (fun y => f (0, x, y))]
  rw [pair_mean]
  unfold World.mean World.Triple World.op World.diag World.shift
  simp only [W.see_plane hk, reduceCtorEq, if_false, if_true, Bool.false_eq_true, Option.getD_some]
  rw [wrap_in _ _ g0 g1, wrap_in _ _ h0 h1]
  ring

end Verif.Whole
