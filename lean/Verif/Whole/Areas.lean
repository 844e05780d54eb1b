import Verif.Whole.Grids

/-!
# All copies of a node have the same area
-/

namespace Verif.Whole

open Verif.Dss (twin twin_twin twin_cases twin_first twin_last)
open Verif.Panel (outside inside alongAlpha IsEdge IsPanel)
open Verif.Exchange (Dir)

variable (W : World) (density : Int → Int → ℝ)

/-- The weight of a node by its place in its row. -/
noncomputable def World.rowWeight (g : Int) : ℝ := W.weight (g % W.order).toNat

/-- The area of a node, but for the factors all nodes share. -/
noncomputable def World.cell (n : Int × Int × Int) : ℝ :=
  density n.2.1 n.2.2 * W.rowWeight n.2.1 * W.rowWeight n.2.2

theorem World.row_mirror (hQ : W.Quadrature) (ho : (2 : Int) ≤ W.order) (n g : Int) :
    W.rowWeight (W.order * n - 1 - g) = W.rowWeight g := by
  unfold World.rowWeight
  have h1 := Int.emod_nonneg g (show (W.order : Int) ≠ 0 by omega)
  have h2 := Int.emod_lt_of_pos g (show (0 : Int) < W.order by omega)
  have h3 : (W.order * n - 1 - g) % W.order = W.order - 1 - g % W.order := by
    have e := Int.mul_ediv_add_emod g W.order
    rw [show (W.order : Int) * n - 1 - g = (W.order - 1 - g % W.order) + W.order * (n - 1 - g / W.order) by
      rw [mul_sub, mul_sub]; linarith, Int.add_mul_emod_self_left]
    exact Int.emod_eq_of_lt (by omega) (by omega)
  rw [h3]
  have h4 := hQ.symmetric (g % W.order).toNat (by omega)
  rw [← h4]
  congr 1
  omega

theorem World.row_twin (hQ : W.Quadrature) (ho : (2 : Int) ≤ W.order) (g : Int) :
    W.rowWeight (twin W.order g) = W.rowWeight g := by
  have key : ∀ a : Int, W.rowWeight (a * W.order - 1) = W.rowWeight (a * W.order) := by
    intro a
    have h1 := W.row_mirror hQ ho (2 * a) (a * W.order)
    rw [← h1]
    congr 1
    ring
  rcases twin_cases W.order g ho with ⟨a, h, e⟩ | ⟨a, h, e⟩ | ⟨e, -⟩
  · rw [e, h, key]
  · rw [e, h, key, sub_add_cancel]
  · rw [e]

/-- A function of the place in a row that is the same on both sides of each element edge. -/
theorem twin_same (p n : Int) (hp : 2 ≤ p) (f : Int → ℝ) (hf : ∀ e, 0 < e → e < n → f (e * p - 1) = f (e * p))
    (g : Int) (h0 : 0 ≤ g) (h1 : g < p * n) (t0 : 0 ≤ twin p g) (t1 : twin p g < p * n) : f (twin p g) = f g := by
  have low : ∀ a : Int, 0 ≤ a * p - 1 → 0 < a := fun a h => by
    by_contra hc
    have : a * p ≤ 0 := Int.mul_nonpos_of_nonpos_of_nonneg (by omega) (by omega)
    omega
  have high : ∀ a : Int, a * p < p * n → a < n := fun a h => by
    rw [mul_comm] at h
    exact lt_of_mul_lt_mul_left h (by omega)
  rcases twin_cases p g hp with ⟨a, h, e⟩ | ⟨a, h, e⟩ | ⟨e, -⟩
  · rw [e, h]
    rw [e, h] at t0
    rw [h] at h1
    exact hf a (low a t0) (high a h1)
  · rw [e, h, sub_add_cancel]
    rw [e, h, sub_add_cancel] at t1
    rw [h] at h0
    exact (hf a (low a h0) (high a t1)).symm
  · rw [e]

/-! ### Plane -/

theorem World.cell_plane (hW : W.Tiled) (hQ : W.Quadrature) (hk : W.kind = .plane) (hP : W.Periodic density) :
    (∀ d n, n ∈ W.nodes → W.cell density (W.op d n) = W.cell density n) ∧
      ∀ n, n ∈ W.nodes → W.cell density (W.diag n) = W.cell density n := by
  have ho : (2 : Int) ≤ W.order := by exact_mod_cast hW.order
  have wr : ∀ n g : Int, 0 ≤ g → g < W.order * n → W.rowWeight (wrap (W.order * n) (twin W.order g)) = W.rowWeight g := by
    intro n g h0 h1
    rcases twin_stays W.order n g ho h0 h1 with ⟨a, b⟩ | ⟨a, b⟩ | ⟨a, b⟩
    · rw [wrap_in _ _ a b, W.row_twin hQ ho]
    · rw [b, wrap_low _ (by omega), a]
      have := W.row_mirror hQ ho n 0
      rwa [sub_zero] at this
    · rw [b, wrap_high _ (by omega), a]
      have := W.row_mirror hQ ho n 0
      rw [sub_zero] at this
      exact this.symm
  have da : ∀ g h : Int, 0 ≤ g → g < W.order * W.elemA →
      density (wrap (W.order * W.elemA) (twin W.order g)) h = density g h := by
    intro g h h0 h1
    rcases twin_stays W.order W.elemA g ho h0 h1 with ⟨a, b⟩ | ⟨a, b⟩ | ⟨a, b⟩
    · rw [wrap_in _ _ a b]
      exact twin_same W.order W.elemA ho (fun x => density x h) (fun e e0 e1 => hP.alpha e h e0 e1) g h0 h1 a b
    · rw [b, wrap_low _ (by omega), a]
      exact hP.acrossA h
    · rw [b, wrap_high _ (by omega), a]
      exact (hP.acrossA h).symm
  have db : ∀ g h : Int, 0 ≤ h → h < W.order * W.elemB →
      density g (wrap (W.order * W.elemB) (twin W.order h)) = density g h := by
    intro g h h0 h1
    rcases twin_stays W.order W.elemB h ho h0 h1 with ⟨a, b⟩ | ⟨a, b⟩ | ⟨a, b⟩
    · rw [wrap_in _ _ a b]
      exact twin_same W.order W.elemB ho (fun x => density g x) (fun e e0 e1 => hP.beta g e e0 e1) h h0 h1 a b
    · rw [b, wrap_low _ (by omega), a]
      exact hP.acrossB g
    · rw [b, wrap_high _ (by omega), a]
      exact (hP.acrossB g).symm
  constructor
  · rintro d ⟨p, g, h⟩ hn
    rw [W.mem_nodes] at hn
    obtain ⟨-, ⟨g0, g1⟩, h0, h1⟩ := hn
    unfold World.op
    rw [W.see_plane hk]
    simp only [Option.getD_some, World.cell]
    cases d
    · simp only [World.shift, Bool.false_eq_true, if_false]
      rw [wrap_in _ _ g0 g1, wr _ h h0 h1, db g h h0 h1]
    · simp only [World.shift, if_true]
      rw [wrap_in _ h h0 h1, wr _ g g0 g1, da g h g0 g1]
  · rintro ⟨p, g, h⟩ hn
    rw [W.mem_nodes] at hn
    obtain ⟨-, ⟨g0, g1⟩, h0, h1⟩ := hn
    unfold World.diag
    rw [W.see_plane hk]
    simp only [Option.getD_some, World.cell]
    rw [wr _ g g0 g1, wr _ h h0 h1, da g _ g0 g1, db g h h0 h1]

/-! ### Sphere -/

theorem World.cell_sphere (hW : W.Tiled) (hQ : W.Quadrature) (hk : W.kind = .sphere) (hE : W.Equiangular density) :
    (∀ d n, n ∈ W.nodes → W.cell density (W.op d n) = W.cell density n) ∧
      ∀ n, n ∈ W.nodes → ¬ W.Triple n → W.cell density (W.diag n) = W.cell density n := by
  have ho : (2 : Int) ≤ W.order := by exact_mod_cast hW.order
  have hs := hW.square hk
  obtain ⟨x, J, e1, e2, e3, e4, e5⟩ := hE.symmetric
  have pan : ∀ p : Int, (0 ≤ p ∧ p < W.kind.panels) → IsPanel p := fun p h => by
    have h2 := h.2
    rw [hk] at h2
    have h3 : p < 6 := h2
    exact ⟨h.1, by omega⟩
  obtain ⟨D, hD⟩ : ∃ D : Int → Int → ℝ, D = fun g h => density g h * W.rowWeight g * W.rowWeight h := ⟨_, rfl⟩
  have cell : ∀ n : Int × Int × Int, W.cell density n = D n.2.1 n.2.2 := fun n => by rw [hD]; rfl
  have sym : ∀ g h, D g h = D h g := fun g h => by
    simp only [hD, e1]
    rw [e2]
    ring
  have mir : ∀ g h, 0 ≤ g → g < (W.order : Int) * W.elemA → D (W.order * W.elemA - 1 - g) h = D g h := fun g h g0 g1 => by
    simp only [hD, e1]
    rw [e5 g g0 g1, e3, W.row_mirror hQ ho]
  have tw : ∀ g h, 0 ≤ g → g < (W.order : Int) * W.elemA → 0 ≤ twin W.order g → twin W.order g < (W.order : Int) * W.elemA →
      D (twin W.order g) h = D g h := fun g h g0 g1 t0 t1 => by
    simp only [hD, e1]
    rw [twin_same W.order W.elemA ho x e4 g g0 g1 t0 t1, W.row_twin hQ ho]
  -- along an edge only the place along the edge matters
  have edge : ∀ e, IsEdge e → ∀ t, 0 ≤ t → t < (W.order : Int) * W.elemA →
      D (inside (W.order * W.elemA) e 0 t).1 (inside (W.order * W.elemA) e 0 t).2 = D 0 t := by
    intro e he t t0 t1
    have h0 : (0 : Int) < W.order * W.elemA := by omega
    have m := mir 0 t le_rfl h0
    rw [sub_zero] at m
    rcases he with rfl | rfl | rfl | rfl <;> simp only [inside, add_zero, sub_zero]
    · exact m
    · rw [sym, m]
    · rw [sym]
  have along : ∀ t s, 0 ≤ t → t < (W.order : Int) * W.elemA → (s = t ∨ s = W.order * W.elemA - 1 - t) → D 0 s = D 0 t := by
    rintro t s t0 t1 (rfl | rfl)
    · rfl
    · rw [sym, mir t 0 t0 t1, sym]
  constructor
  · rintro d ⟨p, g, h⟩ hn
    rw [W.mem_nodes, ← hs] at hn
    obtain ⟨hp, ⟨g0, g1⟩, h0, h1⟩ := hn
    rw [cell, cell]
    rcases W.leaves ho d p g h g0 g1 h0 h1 with ⟨a, b⟩ | ⟨e, t, he, rfl, t0, t1, hi⟩
    · unfold World.op
      simp only
      rw [W.see_in hk p _ _ a.1 a.2 b.1 b.2]
      simp only [Option.getD_some]
      cases d
      · simp only [World.shift, Bool.false_eq_true, if_false] at b ⊢
        rw [sym, tw h g h0 h1 b.1 b.2, sym]
      · simp only [World.shift, if_true] at a ⊢
        rw [tw g h g0 g1 a.1 a.2]
    · obtain ⟨q, e', r, hr⟩ := W.cross hk ho p (pan p hp) e he
      obtain ⟨-, c2, c3, -, -, c6, c7, -⟩ := hr t t0 t1
      have hpe : (p, g, h) = (p, inside (W.order * W.elemA) e 0 t) := congrArg (Prod.mk p) hi
      rw [hpe]
      unfold World.op
      rw [(W.edge_steps ho e he p t).1]
      simp only
      rw [c7]
      simp only [Option.getD_some]
      rw [edge e' c2 _ c3.1 c3.2, edge e he t t0 t1, along t _ t0 t1 c6]
  · rintro ⟨p, g, h⟩ hn ht
    rw [W.mem_nodes, ← hs] at hn
    obtain ⟨hp, ⟨g0, g1⟩, h0, h1⟩ := hn
    rw [cell, cell]
    have onEdge : ∀ e t, IsEdge e → 0 ≤ t → t < (W.order : Int) * W.elemA → (g, h) = inside (W.order * W.elemA) e 0 t →
        D (W.diag (p, g, h)).2.1 (W.diag (p, g, h)).2.2 = D g h := by
      intro e t he t0 t1 hi
      have hpe : (p, g, h) = (p, inside (W.order * W.elemA) e 0 t) := congrArg (Prod.mk p) hi
      have hgh : D g h = D (inside (W.order * W.elemA) e 0 t).1 (inside (W.order * W.elemA) e 0 t).2 := by rw [← hi]
      rw [hpe] at ht
      rw [hpe, hgh]
      rw [W.triple_edge hk ho e he p t (pan p hp), not_not] at ht
      obtain ⟨q, e', r, hr⟩ := W.cross hk ho p (pan p hp) e he
      obtain ⟨-, c2, c3, -, -, c6, c7, -⟩ := hr (twin W.order t) ht.1 ht.2
      have h2 := (W.edge_steps ho e he p t).2
      have h3 := congrArg Prod.fst h2
      have h4 := congrArg Prod.snd h2
      simp only at h3 h4
      unfold World.diag
      simp only
      rw [h3, h4, c7]
      simp only [Option.getD_some]
      rw [edge e' c2 _ c3.1 c3.2, edge e he t t0 t1, along _ _ ht.1 ht.2 c6, sym, tw t 0 t0 t1 ht.1 ht.2, sym]
    rcases W.leaves ho true p g h g0 g1 h0 h1 with ⟨a, -⟩ | ⟨e, t, he, -, t0, t1, hi⟩
    · rcases W.leaves ho false p g h g0 g1 h0 h1 with ⟨-, b⟩ | ⟨e, t, he, -, t0, t1, hi⟩
      · simp only [World.shift, if_true, Bool.false_eq_true, if_false] at a b
        unfold World.diag
        simp only
        rw [W.see_in hk p _ _ a.1 a.2 b.1 b.2]
        simp only [Option.getD_some]
        rw [tw g _ g0 g1 a.1 a.2, sym, tw h g h0 h1 b.1 b.2, sym]
      · exact onEdge e t he t0 t1 hi
    · exact onEdge e t he t0 t1 hi

end Verif.Whole
