import Verif.Halo.Copies

/-!
# The mean over the copies, in terms of the neighbours of a node
-/

namespace Verif.Halo

open Verif.Dss (twin)
open Verif.Sphere
open Verif.Exchange (Dir)
open Verif.Panel (outside inside IsEdge relativeCoord Rel place panelFromDirection opposingDirection switchParallel)

variable {p res : Int} {x : Nat → ℝ}

/-- The copies of a node along one direction of a panel. -/
def T (p N g : Int) : Finset Int := ({g, twin p g} : Finset Int).filter (fun a => 0 ≤ a ∧ a < N)

theorem mem_T (p N g a : Int) : a ∈ T p N g ↔ (a = g ∨ a = twin p g) ∧ 0 ≤ a ∧ a < N := by
  unfold T; simp

theorem T_sum {N g : Int} (h0 : 0 ≤ g) (h1 : g < N) (t0 : 0 ≤ twin p g) (t1 : twin p g < N) (f : Int → Vec3) :
    (1 / ((T p N g).card : ℝ)) • ∑ a ∈ T p N g, f a = (1 / 2 : ℝ) • (f g + f (twin p g)) ∧ 0 < (T p N g).card := by
  have e : T p N g = {g, twin p g} := by
    ext a; rw [mem_T, Finset.mem_insert, Finset.mem_singleton]
    constructor
    · exact fun h => h.1
    · rintro (rfl | rfl)
      · exact ⟨.inl rfl, h0, h1⟩
      · exact ⟨.inr rfl, t0, t1⟩
  rw [e]
  by_cases h : g = twin p g
  · rw [← h]; simp; module
  · rw [Finset.sum_pair h, Finset.card_pair h]; simp

theorem T_single {N g : Int} (h0 : 0 ≤ g) (h1 : g < N) (t : twin p g < 0 ∨ N ≤ twin p g) : T p N g = {g} := by
  ext a; rw [mem_T, Finset.mem_singleton]
  constructor
  · rintro ⟨rfl | rfl, _⟩ <;> omega
  · rintro rfl; exact ⟨.inl rfl, h0, h1⟩

theorem mem_copies (n n' : Node) : n' ∈ copies p res x n ↔
    (0 ≤ n'.1 ∧ n'.1 < 6) ∧ (0 ≤ n'.2.1 ∧ n'.2.1 < p * res) ∧ (0 ≤ n'.2.2 ∧ n'.2.2 < p * res) ∧
      point p res x n' = point p res x n := by
  unfold copies allNodes
  simp only [Finset.mem_filter, Finset.mem_product, Finset.mem_Ico]
  tauto

theorem inside_range (N : Int) (d : Dir) (hd : IsEdge d) (t : Int) (h0 : 0 ≤ t) (h1 : t < N) :
    0 ≤ (inside N d 0 t).1 ∧ (inside N d 0 t).1 < N ∧ 0 ≤ (inside N d 0 t).2 ∧ (inside N d 0 t).2 < N := by
  rcases hd with rfl | rfl | rfl | rfl <;> simp only [inside] <;> omega

theorem twin_inner (hp : 2 ≤ p) (r : Int) (g : Int) (h0 : 0 < g) (h1 : g < p * r - 1) :
    0 ≤ twin p g ∧ twin p g < p * r := by
  unfold twin; split_ifs <;> omega

theorem edge_copies (L : Line p res x) (c : Int) (hc : Panel.IsPanel c) (d : Dir) (hd : IsEdge d) (t : Int)
    (h0 : 0 ≤ t) (h1 : t < p * res) (g k : Int) (hg0 : 0 ≤ g) (hg1 : g < p * res) (hk0 : 0 ≤ k) (hk1 : k < p * res) :
    point p res x (c, g, k) = point p res x (c, inside (p * res) d 0 t) ↔
      ∃ s ∈ T p (p * res) t, (g, k) = inside (p * res) d 0 s := by
  have hN := L.count
  have tz := twin_zero L.order
  have te := twin_end L.order res
  obtain ⟨a, b, e, f⟩ := inside_range (p * res) d hd t h0 h1
  rw [show inside (p * res) d 0 t = ((inside (p * res) d 0 t).1, (inside (p * res) d 0 t).2) from rfl,
    same_panel L c hc _ _ g k a b e f hg0 hg1 hk0 hk1]
  simp only [mem_T]
  rcases hd with rfl | rfl | rfl | rfl <;> simp only [inside, Prod.mk.injEq, sub_zero, te, tz]
  · constructor
    · rintro ⟨h, h'⟩; exact ⟨k, ⟨h', hk0, hk1⟩, by omega, rfl⟩
    · rintro ⟨s, ⟨h, -⟩, h', rfl⟩; exact ⟨by omega, h⟩
  · constructor
    · rintro ⟨h, h'⟩; exact ⟨g, ⟨h, hg0, hg1⟩, rfl, by omega⟩
    · rintro ⟨s, ⟨h, -⟩, rfl, h'⟩; exact ⟨h, by omega⟩
  · constructor
    · rintro ⟨h, h'⟩; exact ⟨k, ⟨h', hk0, hk1⟩, by omega, rfl⟩
    · rintro ⟨s, ⟨h, -⟩, h', rfl⟩; exact ⟨by omega, h⟩
  · constructor
    · rintro ⟨h, h'⟩; exact ⟨g, ⟨h, hg0, hg1⟩, rfl, by omega⟩
    · rintro ⟨s, ⟨h, -⟩, rfl, h'⟩; exact ⟨h, by omega⟩

theorem coord_bounds (L : Line p res x) (g : Int) (h0 : 0 ≤ g) (h1 : g < p * res) :
    -1 ≤ coord p res x g ∧ coord p res x g ≤ 1 := coord_range L g (by omega) (by omega)

/-- Which other panels have a copy of a node. -/
theorem other_panel (L : Line p res x) (a g k : Int) (ha : Panel.IsPanel a) (h0 : 0 ≤ g) (h1 : g < p * res)
    (h2 : 0 ≤ k) (h3 : k < p * res) (n' : Node) (h : n' ∈ copies p res x (a, g, k)) (hne : n'.1 ≠ a) :
    ∃ d, panelFromDirection a d = some n'.1 ∧
      ((d = .right ∧ g = p * res - 1) ∨ (d = .top ∧ k = p * res - 1) ∨ (d = .left ∧ g = 0) ∨
        (d = .bottom ∧ k = 0)) := by
  rw [mem_copies] at h
  obtain ⟨c1, c2, c3, c4⟩ := h
  obtain ⟨d, e1, e2⟩ := common_point a n'.1 ha ⟨c1.1, by omega⟩ (Ne.symm hne) _ _ _ _ (coord_bounds L g h0 h1)
    (coord_bounds L k h2 h3) (coord_bounds L _ c2.1 c2.2) (coord_bounds L _ c3.1 c3.2) c4
  refine ⟨d, e1, ?_⟩
  rcases e2 with ⟨rfl, e⟩ | ⟨rfl, e⟩ | ⟨rfl, e⟩ | ⟨rfl, e⟩
  · exact .inl ⟨rfl, coord_high L g h0 h1 e⟩
  · exact .inr (.inl ⟨rfl, coord_high L k h2 h3 e⟩)
  · exact .inr (.inr (.inl ⟨rfl, coord_low L g h0 h1 e⟩))
  · exact .inr (.inr (.inr ⟨rfl, coord_low L k h2 h3 e⟩))

theorem across_range (N a b t : Int) (h0 : 0 ≤ t) (h1 : t < N) : 0 ≤ across N a b t ∧ across N a b t < N := by
  unfold across; split_ifs <;> omega

theorem across_twin (hp : 2 ≤ p) (a b t : Int) :
    twin p (across (p * res) a b t) = across (p * res) a b (twin p t) := by
  unfold across
  split_ifs
  · obtain ⟨e, s, rfl, h0, h1⟩ := split t p hp
    rw [show p * res - 1 - (e * p + s) = (res - 1 - e) * p + (p - 1 - s) by ring,
      twin_at _ _ hp (by omega) (by omega), twin_at _ _ hp h0 h1]
    by_cases hs : s = 0
    · subst hs
      rw [if_neg (by omega), if_pos (by omega), if_pos rfl]; ring
    · by_cases hs' : s = p - 1
      · subst hs'
        rw [if_pos (by omega), if_neg hs, if_pos rfl]; ring
      · rw [if_neg (by omega), if_neg (by omega), if_neg hs, if_neg hs']; ring
  · rfl

theorem across_across (N a b t : Int) : across N a b (across N a b t) = t := by
  unfold across; split_ifs <;> omega

theorem across_T (hp : 2 ≤ p) (a b t s : Int) :
    s ∈ T p (p * res) (across (p * res) a b t) ↔ across (p * res) a b s ∈ T p (p * res) t := by
  rw [mem_T, mem_T, across_twin hp]
  have h1 := across_across (p * res) a b t
  have h2 := across_across (p * res) a b s
  have h3 := across_across (p * res) a b (twin p t)
  constructor
  · rintro ⟨rfl | rfl, h, h'⟩
    · exact ⟨.inl h1, across_range _ _ _ _ h h'⟩
    · exact ⟨.inr h3, across_range _ _ _ _ h h'⟩
  · rintro ⟨h | h, k, k'⟩
    · have := across_range (p * res) a b _ k k'
      rw [h2] at this
      exact ⟨.inl (by rw [← h, h2]), this⟩
    · have := across_range (p * res) a b _ k k'
      rw [h2] at this
      exact ⟨.inr (by rw [← h, h2]), this⟩

theorem inside_inj (N : Int) (d : Dir) (hd : IsEdge d) (s t : Int) (h : inside N d 0 s = inside N d 0 t) : s = t := by
  rcases hd with rfl | rfl | rfl | rfl <;> simp [inside] at h <;> exact h

/-- The mean at a node on an edge of a panel, away from the ends of the edge. -/
theorem mean_edge (L : Line p res x) (W : Node → Vec3) (a b : Int) (ha : Panel.IsPanel a) (d d' : Dir) (hd : IsEdge d)
    (hd' : IsEdge d') (hb : Panel.IsPanel b) (hab : b ≠ a) (hq : panelFromDirection a d = some b)
    (ho : opposingDirection a b d = some d') (t : Int) (h0 : 0 < t) (h1 : t < p * res - 1) :
    meanVector p res x W (a, inside (p * res) d 0 t) = (1 / 4 : ℝ) • (W (a, inside (p * res) d 0 t)
      + W (a, inside (p * res) d 0 (twin p t)) + W (b, inside (p * res) d' 0 (across (p * res) a b t))
      + W (b, inside (p * res) d' 0 (across (p * res) a b (twin p t)))) := by
  have hN := L.count
  have ir := inside_range (p * res) d hd t (by omega) (by omega)
  have art := across_range (p * res) a b t (by omega) (by omega)
  have cop : copies p res x (a, inside (p * res) d 0 t) =
      (T p (p * res) t).image (fun s => (a, inside (p * res) d 0 s)) ∪
      (T p (p * res) t).image (fun s => (b, inside (p * res) d' 0 (across (p * res) a b s))) := by
    ext ⟨c, g, k⟩
    rw [Finset.mem_union, Finset.mem_image, Finset.mem_image]
    constructor
    · intro h
      have hm := (mem_copies _ _).mp h
      obtain ⟨c1, c2, c3, c4⟩ := hm
      simp only at c1 c2 c3
      by_cases hca : c = a
      · subst hca
        left
        obtain ⟨s, hs, e⟩ := (edge_copies L c ha d hd t (by omega) (by omega) g k c2.1 c2.2 c3.1 c3.2).mp c4
        exact ⟨s, hs, by rw [e]⟩
      · right
        obtain ⟨e, e1, e2⟩ := other_panel L a _ _ ha ir.1 ir.2.1 ir.2.2.1 ir.2.2.2 _ h hca
        have hed : e = d := by
          rcases hd with rfl | rfl | rfl | rfl <;> simp only [inside] at e2 <;>
            rcases e2 with ⟨rfl, e2⟩ | ⟨rfl, e2⟩ | ⟨rfl, e2⟩ | ⟨rfl, e2⟩ <;> first | rfl | omega
        subst hed
        rw [hq] at e1
        simp only [Option.some.injEq] at e1
        subst e1
        rw [← point_out L a b t ha e d' hd (by omega) (by omega) hq ho] at c4
        obtain ⟨s, hs, e⟩ := (edge_copies L b hb d' hd' _ art.1 art.2 g k c2.1 c2.2 c3.1 c3.2).mp c4
        exact ⟨across (p * res) a b s, (across_T L.order a b t s).mp hs, by rw [across_across, e]⟩
    · rintro (⟨s, hs, e⟩ | ⟨s, hs, e⟩)
      · simp only [Prod.mk.injEq] at e
        obtain ⟨rfl, e⟩ := e
        have hs' := (mem_T _ _ _ _).mp hs
        have r := inside_range (p * res) d hd s hs'.2.1 hs'.2.2
        rw [e] at r
        simp only at r
        rw [mem_copies]
        refine ⟨⟨ha.1, by have := ha.2; simp only; omega⟩, ⟨r.1, r.2.1⟩, ⟨r.2.2.1, r.2.2.2⟩, ?_⟩
        exact (edge_copies L a ha d hd t (by omega) (by omega) g k r.1 r.2.1 r.2.2.1 r.2.2.2).mpr ⟨s, hs, e.symm⟩
      · simp only [Prod.mk.injEq] at e
        obtain ⟨rfl, e⟩ := e
        have hs' : across (p * res) a b s ∈ T p (p * res) (across (p * res) a b t) := by
          rw [across_T L.order, across_across]; exact hs
        have hs2 := (mem_T _ _ _ _).mp hs'
        have r := inside_range (p * res) d' hd' _ hs2.2.1 hs2.2.2
        rw [e] at r
        simp only at r
        rw [mem_copies]
        refine ⟨⟨hb.1, by have := hb.2; simp only; omega⟩, ⟨r.1, r.2.1⟩, ⟨r.2.2.1, r.2.2.2⟩, ?_⟩
        rw [← point_out L a b t ha d d' hd (by omega) (by omega) hq ho]
        exact (edge_copies L b hb d' hd' _ art.1 art.2 g k r.1 r.2.1 r.2.2.1 r.2.2.2).mpr ⟨_, hs', e.symm⟩
  have inj1 : Function.Injective (fun s => ((a, inside (p * res) d 0 s) : Node)) := by
    intro s s' h
    simp only [Prod.mk.injEq, true_and] at h
    exact inside_inj _ d hd _ _ h
  have inj2 : Function.Injective (fun s => ((b, inside (p * res) d' 0 (across (p * res) a b s)) : Node)) := by
    intro s s' h
    simp only [Prod.mk.injEq, true_and] at h
    have := inside_inj _ d' hd' _ _ h
    rw [← across_across (p * res) a b s, this, across_across]
  have disj : Disjoint ((T p (p * res) t).image (fun s => ((a, inside (p * res) d 0 s) : Node)))
      ((T p (p * res) t).image (fun s => (b, inside (p * res) d' 0 (across (p * res) a b s)))) := by
    rw [Finset.disjoint_left]
    intro n hn hn'
    obtain ⟨s, -, rfl⟩ := Finset.mem_image.mp hn
    obtain ⟨s', -, e⟩ := Finset.mem_image.mp hn'
    exact hab (congrArg Prod.fst e)
  have tw := twin_inner L.order res t h0 h1
  unfold meanVector
  rw [cop, Finset.sum_union disj, Finset.card_union_of_disjoint disj, Finset.card_image_of_injective _ inj1,
    Finset.card_image_of_injective _ inj2, Finset.sum_image (fun s _ s' _ h => inj1 h),
    Finset.sum_image (fun s _ s' _ h => inj2 h), ← Finset.sum_add_distrib]
  obtain ⟨e, pos⟩ := T_sum (p := p) (N := p * res) (g := t) (by omega) (by omega) tw.1 tw.2
    (fun s => W (a, inside (p * res) d 0 s) + W (b, inside (p * res) d' 0 (across (p * res) a b s)))
  have c : (1 / ((((T p (p * res) t).card + (T p (p * res) t).card : ℕ)) : ℝ)) =
      (1 / 2 : ℝ) * (1 / ((T p (p * res) t).card : ℝ)) := by
    have : ((T p (p * res) t).card : ℝ) ≠ 0 := by exact_mod_cast pos.ne'
    push_cast; field_simp; norm_num
  rw [c, mul_smul, e]
  module

/-- The mean at a node inside a panel. -/
theorem mean_inner (L : Line p res x) (W : Node → Vec3) (a : Int) (ha : Panel.IsPanel a) (g k : Int) (g0 : 0 < g)
    (g1 : g < p * res - 1) (k0 : 0 < k) (k1 : k < p * res - 1) :
    meanVector p res x W (a, g, k) = (1 / 4 : ℝ) • (W (a, g, k) + W (a, twin p g, k) + W (a, g, twin p k)
      + W (a, twin p g, twin p k)) := by
  have tg := twin_inner L.order res g g0 g1
  have tk := twin_inner L.order res k k0 k1
  have cop : copies p res x (a, g, k) = {a} ×ˢ T p (p * res) g ×ˢ T p (p * res) k := by
    ext ⟨c, g', k'⟩
    simp only [Finset.mem_product, Finset.mem_singleton, mem_T]
    constructor
    · intro h
      have hm := (mem_copies _ _).mp h
      obtain ⟨c1, c2, c3, c4⟩ := hm
      simp only at c1 c2 c3
      by_cases hca : c = a
      · subst hca
        rw [same_panel L c ha g k g' k' (by omega) (by omega) (by omega) (by omega) c2.1 c2.2 c3.1 c3.2] at c4
        exact ⟨rfl, ⟨c4.1, c2⟩, c4.2, c3⟩
      · obtain ⟨e, e1, e2⟩ := other_panel L a g k ha (by omega) (by omega) (by omega) (by omega) _ h hca
        omega
    · rintro ⟨rfl, ⟨h1, h2⟩, h3, h4⟩
      rw [mem_copies]
      refine ⟨⟨ha.1, by have := ha.2; simp only; omega⟩, h2, h4, ?_⟩
      exact (same_panel L c ha g k g' k' (by omega) (by omega) (by omega) (by omega) h2.1 h2.2 h4.1 h4.2).mpr ⟨h1, h3⟩
  have sk := fun g' => (T_sum (p := p) (N := p * res) (g := k) (by omega) (by omega) tk.1 tk.2
    (fun s => W (a, g', s))).1
  obtain ⟨sg, posg⟩ := T_sum (p := p) (N := p * res) (g := g) (by omega) (by omega) tg.1 tg.2
    (fun s => (1 / 2 : ℝ) • (W (a, s, k) + W (a, s, twin p k)))
  unfold meanVector
  rw [cop, Finset.sum_product, Finset.sum_singleton, Finset.sum_product, Finset.card_product, Finset.card_singleton,
    Finset.card_product, one_mul, Nat.cast_mul, ← one_div_mul_one_div, mul_smul, Finset.smul_sum]
  simp only [sk]
  rw [sg]
  module

end Verif.Halo
