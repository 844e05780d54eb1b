import Verif.Halo.Means

/-!
# The mean at a corner of the cube, and the mean in terms of owners
-/

namespace Verif.Halo

open Verif.Dss (twin)
open Verif.Sphere
open Verif.Exchange (Dir)
open Verif.Panel (outside inside IsEdge relativeCoord Rel place panelFromDirection opposingDirection switchParallel)

variable {p res : Int} {x : Nat → ℝ}

/-- Edge across alpha at an end of the range. -/
def edgeA (g : Int) : Dir := if g = 0 then .left else .right
/-- Edge across beta at an end of the range. -/
def edgeB (k : Int) : Dir := if k = 0 then .bottom else .top

theorem edgeA_edge (g : Int) : IsEdge (edgeA g) := by
  unfold edgeA IsEdge; split_ifs <;> simp

theorem edgeB_edge (k : Int) : IsEdge (edgeB k) := by
  unfold edgeB IsEdge; split_ifs <;> simp

theorem inside_A (N g k : Int) (hg : g = 0 ∨ g = N - 1) : inside N (edgeA g) 0 k = (g, k) := by
  unfold edgeA inside
  split_ifs with h
  · simp [h]
  · simp only [Prod.mk.injEq, and_true]; omega

theorem inside_B (N g k : Int) (hk : k = 0 ∨ k = N - 1) : inside N (edgeB k) 0 g = (g, k) := by
  unfold edgeB inside
  split_ifs with h
  · simp [h]
  · simp only [Prod.mk.injEq, true_and]; omega

theorem outside_A (hp : 2 ≤ p) (g k : Int) (hg : g = 0 ∨ g = p * res - 1) :
    outside (p * res) (edgeA g) 0 k = (twin p g, k) := by
  unfold edgeA outside
  split_ifs with h
  · simp [h, twin_zero hp]
  · have : g = p * res - 1 := by omega
    simp [this, twin_end hp res]

theorem outside_B (hp : 2 ≤ p) (g k : Int) (hk : k = 0 ∨ k = p * res - 1) :
    outside (p * res) (edgeB k) 0 g = (g, twin p k) := by
  unfold edgeB outside
  split_ifs with h
  · simp [h, twin_zero hp]
  · have : k = p * res - 1 := by omega
    simp [this, twin_end hp res]

theorem T_end (L : Line p res x) (t : Int) (h : t = 0 ∨ t = p * res - 1) : T p (p * res) t = {t} := by
  have hN := L.count
  refine T_single (by omega) (by omega) ?_
  rcases h with rfl | rfl
  · rw [twin_zero L.order]; omega
  · rw [twin_end L.order]; omega

theorem panels_differ (a : Int) (ha : Panel.IsPanel a) (g k b c : Int) (hb : panelFromDirection a (edgeA g) = some b)
    (hc : panelFromDirection a (edgeB k) = some c) : b ≠ c := by
  obtain ⟨h0, h5⟩ := ha
  unfold edgeA at hb
  unfold edgeB at hc
  interval_cases a <;> split_ifs at hb hc <;> simp [panelFromDirection] at hb hc <;> subst hb <;> subst hc <;> decide

/-- The mean at a corner of the cube. -/
theorem mean_corner (L : Line p res x) (W : Node → Vec3) (a b c : Int) (ha : Panel.IsPanel a) (g k : Int)
    (hg : g = 0 ∨ g = p * res - 1) (hk : k = 0 ∨ k = p * res - 1) (dA dB : Dir)
    (hdA : IsEdge dA) (hdB : IsEdge dB) (hb : Panel.IsPanel b) (hc : Panel.IsPanel c) (hab : b ≠ a) (hac : c ≠ a)
    (hqA : panelFromDirection a (edgeA g) = some b) (hoA : opposingDirection a b (edgeA g) = some dA)
    (hqB : panelFromDirection a (edgeB k) = some c) (hoB : opposingDirection a c (edgeB k) = some dB) :
    meanVector p res x W (a, g, k) = (1 / 3 : ℝ) • (W (a, g, k)
      + W (b, inside (p * res) dA 0 (across (p * res) a b k))
      + W (c, inside (p * res) dB 0 (across (p * res) a c g))) := by
  have hN := L.count
  have g0 : 0 ≤ g := by omega
  have g1 : g < p * res := by omega
  have k0 : 0 ≤ k := by omega
  have k1 : k < p * res := by omega
  have hbc := panels_differ a ha g k b c hqA hqB
  have ak := across_range (p * res) a b k k0 k1
  have ag := across_range (p * res) a c g g0 g1
  have pA := point_out L a b k ha _ dA (edgeA_edge g) k0 k1 hqA hoA
  have pB := point_out L a c g ha _ dB (edgeB_edge k) g0 g1 hqB hoB
  rw [inside_A _ g k hg] at pA
  rw [inside_B _ g k hk] at pB
  have rA := inside_range (p * res) dA hdA _ ak.1 ak.2
  have rB := inside_range (p * res) dB hdB _ ag.1 ag.2
  have cop : copies p res x (a, g, k) = {(a, g, k), (b, inside (p * res) dA 0 (across (p * res) a b k)),
      (c, inside (p * res) dB 0 (across (p * res) a c g))} := by
    ext ⟨e, g', k'⟩
    simp only [Finset.mem_insert, Finset.mem_singleton, Prod.mk.injEq]
    constructor
    · intro h
      have hm := (mem_copies _ _).mp h
      obtain ⟨c1, c2, c3, c4⟩ := hm
      simp only at c1 c2 c3
      by_cases hea : e = a
      · subst hea
        rw [same_panel L e ha g k g' k' g0 g1 k0 k1 c2.1 c2.2 c3.1 c3.2] at c4
        have m1 := (mem_T p (p * res) g g').mpr ⟨c4.1, c2⟩
        have m2 := (mem_T p (p * res) k k').mpr ⟨c4.2, c3⟩
        rw [T_end L g hg, Finset.mem_singleton] at m1
        rw [T_end L k hk, Finset.mem_singleton] at m2
        exact .inl ⟨rfl, m1, m2⟩
      · obtain ⟨f, e1, e2⟩ := other_panel L a g k ha g0 g1 k0 k1 _ h hea
        have hf : f = edgeA g ∨ f = edgeB k := by
          unfold edgeA edgeB
          rcases e2 with ⟨rfl, e2⟩ | ⟨rfl, e2⟩ | ⟨rfl, e2⟩ | ⟨rfl, e2⟩
          · left; rw [if_neg (by omega)]
          · right; rw [if_neg (by omega)]
          · left; rw [if_pos e2]
          · right; rw [if_pos e2]
        rcases hf with rfl | rfl
        · rw [hqA] at e1
          simp only [Option.some.injEq] at e1
          subst e1
          right; left
          rw [← pA] at c4
          obtain ⟨s, hs, e⟩ := (edge_copies L b hb dA hdA _ ak.1 ak.2 g' k' c2.1 c2.2 c3.1 c3.2).mp c4
          have hs' := (across_T L.order a b k s).mp hs
          rw [T_end L k hk, Finset.mem_singleton] at hs'
          rw [← hs', across_across, ← e]
          exact ⟨rfl, rfl⟩
        · rw [hqB] at e1
          simp only [Option.some.injEq] at e1
          subst e1
          right; right
          rw [← pB] at c4
          obtain ⟨s, hs, e⟩ := (edge_copies L c hc dB hdB _ ag.1 ag.2 g' k' c2.1 c2.2 c3.1 c3.2).mp c4
          have hs' := (across_T L.order a c g s).mp hs
          rw [T_end L g hg, Finset.mem_singleton] at hs'
          rw [← hs', across_across, ← e]
          exact ⟨rfl, rfl⟩
    · rw [mem_copies]
      rintro (⟨rfl, rfl, rfl⟩ | ⟨rfl, h⟩ | ⟨rfl, h⟩)
      · exact ⟨⟨ha.1, by have := ha.2; simp only; omega⟩, ⟨g0, g1⟩, ⟨k0, k1⟩, rfl⟩
      · rw [← h] at rA pA
        exact ⟨⟨hb.1, by have := hb.2; simp only; omega⟩, ⟨rA.1, rA.2.1⟩, ⟨rA.2.2.1, rA.2.2.2⟩, pA⟩
      · rw [← h] at rB pB
        exact ⟨⟨hc.1, by have := hc.2; simp only; omega⟩, ⟨rB.1, rB.2.1⟩, ⟨rB.2.2.1, rB.2.2.2⟩, pB⟩
  have n1 : ((a, g, k) : Node) ∉ ({(b, inside (p * res) dA 0 (across (p * res) a b k)),
      (c, inside (p * res) dB 0 (across (p * res) a c g))} : Finset Node) := by
    simp only [Finset.mem_insert, Finset.mem_singleton, Prod.mk.injEq]
    rintro (h | h)
    · exact hab h.1.symm
    · exact hac h.1.symm
  have n2 : ((b, inside (p * res) dA 0 (across (p * res) a b k)) : Node) ∉
      ({(c, inside (p * res) dB 0 (across (p * res) a c g))} : Finset Node) := by
    simp only [Finset.mem_singleton, Prod.mk.injEq]
    exact fun h => hbc h.1
  unfold meanVector
  rw [cop, Finset.sum_insert n1, Finset.sum_insert n2, Finset.sum_singleton, Finset.card_insert_of_notMem n1,
    Finset.card_insert_of_notMem n2, Finset.card_singleton]
  push_cast
  norm_num
  module

/-- The node sits at a corner of the cube. -/
def AtCube (N g k : Int) : Prop := (g = 0 ∨ g = N - 1) ∧ (k = 0 ∨ k = N - 1)

theorem mean_owner (L : Line p res x) (W : Node → Vec3) (a : Int) (ha : Panel.IsPanel a) (g k : Int) (g0 : 0 ≤ g)
    (g1 : g < p * res) (k0 : 0 ≤ k) (k1 : k < p * res) :
    (¬ AtCube (p * res) g k → meanVector p res x W (a, g, k) = (1 / 4 : ℝ) • (W (owner (p * res) a g k)
      + W (owner (p * res) a (twin p g) k) + W (owner (p * res) a g (twin p k))
      + W (owner (p * res) a (twin p g) (twin p k)))) ∧
    (AtCube (p * res) g k → meanVector p res x W (a, g, k) = (1 / 3 : ℝ) • (W (owner (p * res) a g k)
      + W (owner (p * res) a (twin p g) k) + W (owner (p * res) a g (twin p k)))) := by
  have hN := L.count
  have hp := L.order
  constructor
  · intro hc
    by_cases hg : g = 0 ∨ g = p * res - 1
    · have hk : 0 < k ∧ k < p * res - 1 := by unfold AtCube at hc; omega
      obtain ⟨b, d', hq, hb, hab, hd', ho, -⟩ := Panel.C30_edges a ha (edgeA g) (edgeA_edge g)
      have m := mean_edge L W a b ha (edgeA g) d' (edgeA_edge g) hd' hb hab hq ho k hk.1 hk.2
      rw [inside_A _ g k hg, inside_A _ g (twin p k) hg] at m
      have tk := twin_inner hp res k hk.1 hk.2
      have o1 := owner_out (p * res) a b k ha (edgeA g) d' (edgeA_edge g) k0 k1 hq ho
      have o2 := owner_out (p * res) a b (twin p k) ha (edgeA g) d' (edgeA_edge g) tk.1 tk.2 hq ho
      rw [outside_A hp g _ hg] at o1 o2
      rw [m, owner_in _ _ _ _ g0 g1 k0 k1, owner_in _ _ _ _ g0 g1 tk.1 tk.2, o1, o2]
      module
    · by_cases hk : k = 0 ∨ k = p * res - 1
      · obtain ⟨b, d', hq, hb, hab, hd', ho, -⟩ := Panel.C30_edges a ha (edgeB k) (edgeB_edge k)
        have m := mean_edge L W a b ha (edgeB k) d' (edgeB_edge k) hd' hb hab hq ho g (by omega) (by omega)
        rw [inside_B _ g k hk, inside_B _ (twin p g) k hk] at m
        have tg := twin_inner hp res g (by omega) (by omega)
        have o1 := owner_out (p * res) a b g ha (edgeB k) d' (edgeB_edge k) g0 g1 hq ho
        have o2 := owner_out (p * res) a b (twin p g) ha (edgeB k) d' (edgeB_edge k) tg.1 tg.2 hq ho
        rw [outside_B hp _ k hk] at o1 o2
        rw [m, owner_in _ _ _ _ g0 g1 k0 k1, owner_in _ _ _ _ tg.1 tg.2 k0 k1, o1, o2]
      · have tg := twin_inner hp res g (by omega) (by omega)
        have tk := twin_inner hp res k (by omega) (by omega)
        rw [mean_inner L W a ha g k (by omega) (by omega) (by omega) (by omega), owner_in _ _ _ _ g0 g1 k0 k1,
          owner_in _ _ _ _ tg.1 tg.2 k0 k1, owner_in _ _ _ _ g0 g1 tk.1 tk.2, owner_in _ _ _ _ tg.1 tg.2 tk.1 tk.2]
  · rintro ⟨hg, hk⟩
    obtain ⟨b, dA, hqA, hb, hab, hdA, hoA, -⟩ := Panel.C30_edges a ha (edgeA g) (edgeA_edge g)
    obtain ⟨c, dB, hqB, hc, hac, hdB, hoB, -⟩ := Panel.C30_edges a ha (edgeB k) (edgeB_edge k)
    have o1 := owner_out (p * res) a b k ha (edgeA g) dA (edgeA_edge g) k0 k1 hqA hoA
    have o2 := owner_out (p * res) a c g ha (edgeB k) dB (edgeB_edge k) g0 g1 hqB hoB
    rw [outside_A hp g _ hg] at o1
    rw [outside_B hp g _ hk] at o2
    rw [mean_corner L W a b c ha g k hg hk dA dB hdA hdB hb hc hab hac hqA hoA hqB hoB,
      owner_in _ _ _ _ g0 g1 k0 k1, o1, o2]

end Verif.Halo
