import Verif.Whole.Areas
import Mathlib.Algebra.BigOperators.Intervals

/-!
# Sums over patches are sums over the nodes of the grid
-/

namespace Verif.Whole

open Verif.Dss (twin)

variable (W : World)

/-- The node of the grid at an index of a patch. -/
def World.place (i : Fin W.count) (iA iB : Int) : Int × Int × Int :=
  ((W.tile i).panel, iA - W.halo + (W.tile i).eA * W.order, iB - W.halo + (W.tile i).eB * W.order)

/-- In the patch. -/
theorem World.contains_iff (hW : W.Tiled) (i : Fin W.count) (p g h : Int) : W.contains i p g h = true ↔
    p = (W.tile i).panel ∧ ((W.tile i).eA * W.order ≤ g ∧
      g < ((W.tile i).eA + (W.tile i).M.G.S.elemA) * W.order) ∧
      ((W.tile i).eB * W.order ≤ h ∧ h < ((W.tile i).eB + (W.tile i).M.G.S.elemB) * W.order) := by
  unfold World.contains
  simp only [decide_eq_true_eq, (hW.shape i).1]
  tauto

theorem div_bounds (o : Int) (ho : 0 < o) (e m g : Int) (h0 : e * o ≤ g) (h1 : g < (e + m) * o) :
    e ≤ g / o ∧ g / o < e + m :=
  ⟨Int.le_ediv_of_mul_le ho h0, Int.ediv_lt_of_lt_mul ho h1⟩

theorem mul_bounds (o : Int) (ho : 0 < o) (e m g : Int) (h0 : e ≤ g / o) (h1 : g / o < e + m) :
    e * o ≤ g ∧ g < (e + m) * o := by
  constructor
  · exact Int.mul_le_of_le_ediv ho h0
  · exact Int.lt_mul_of_ediv_lt ho h1

theorem World.contains_once (hW : W.Tiled) (i j : Fin W.count) (p g h : Int) (hi : W.contains i p g h = true)
    (hj : W.contains j p g h = true) : i = j := by
  rw [W.contains_iff hW] at hi hj
  have ho : (0 : Int) < W.order := by have := hW.order; omega
  obtain ⟨a1, ⟨a2, a3⟩, a4, a5⟩ := hi
  obtain ⟨b1, ⟨b2, b3⟩, b4, b5⟩ := hj
  have c1 := div_bounds _ ho _ _ g a2 a3
  have c2 := div_bounds _ ho _ _ h a4 a5
  have d1 := div_bounds _ ho _ _ g b2 b3
  have d2 := div_bounds _ ho _ _ h b4 b5
  refine hW.once i j p (g / W.order).toNat (h / W.order).toNat ⟨a1.symm, ?_⟩ ⟨b1.symm, ?_⟩ <;> omega

theorem World.contains_some (hW : W.Tiled) (p g h : Int) (hn : (p, g, h) ∈ W.nodes) :
    ∃ i, W.contains i p g h = true := by
  rw [W.mem_nodes] at hn
  obtain ⟨⟨p0, p1⟩, ⟨g0, g1⟩, h0, h1⟩ := hn
  have ho : (0 : Int) < W.order := by have := hW.order; omega
  have c1 := div_bounds _ ho 0 W.elemA g (by omega) (by rw [zero_add, mul_comm]; exact g1)
  have c2 := div_bounds _ ho 0 W.elemB h (by omega) (by rw [zero_add, mul_comm]; exact h1)
  obtain ⟨i, hi⟩ := hW.cover p (g / W.order).toNat (h / W.order).toNat p0 p1 (by omega) (by omega)
  refine ⟨i, ?_⟩
  obtain ⟨e1, e2, e3, e4, e5⟩ := hi
  rw [W.contains_iff hW]
  exact ⟨e1.symm, mul_bounds _ ho _ _ g (by omega) (by omega), mul_bounds _ ho _ _ h (by omega) (by omega)⟩

theorem World.contains_node (hW : W.Tiled) (i : Fin W.count) (p g h : Int) (hi : W.contains i p g h = true) :
    (p, g, h) ∈ W.nodes := by
  rw [W.contains_iff hW] at hi
  obtain ⟨a1, ⟨a2, a3⟩, a4, a5⟩ := hi
  have ho : (0 : Int) < W.order := by have := hW.order; omega
  have c1 := div_bounds _ ho _ _ g a2 a3
  have c2 := div_bounds _ ho _ _ h a4 a5
  have i1 := (hW.inside i).1
  have i2 := (hW.inside i).2
  rw [W.mem_nodes, a1]
  refine ⟨hW.panel i, ?_, ?_⟩
  · have := mul_bounds _ ho 0 W.elemA g (by omega) (by omega)
    rw [zero_add, mul_comm (W.elemA : Int)] at this
    omega
  · have := mul_bounds _ ho 0 W.elemB h (by omega) (by omega)
    rw [zero_add, mul_comm (W.elemB : Int)] at this
    omega

theorem World.place_in (hW : W.Tiled) (i : Fin W.count) (iA iB : Nat) (hI : Horiz.Interior (W.tile i).M.G.S iA iB) :
    W.contains i (W.place i iA iB).1 (W.place i iA iB).2.1 (W.place i iA iB).2.2 = true := by
  obtain ⟨s1, s2, -⟩ := hW.shape i
  unfold Horiz.Interior at hI
  rw [s1, s2] at hI
  rw [W.contains_iff hW]
  unfold World.place
  zify at hI
  obtain ⟨h1, h2, h3, h4⟩ := hI
  refine ⟨rfl, ⟨?_, ?_⟩, ?_, ?_⟩ <;> dsimp only <;> try rw [add_mul]
  all_goals linarith

theorem World.owner_of (hW : W.Tiled) (i : Fin W.count) (p g h : Int) (hi : W.contains i p g h = true) :
    W.owner p g h = some i := by
  unfold World.owner
  cases hf : (List.finRange W.count).find? fun i => W.contains i p g h with
  | none =>
    rw [List.find?_eq_none] at hf
    exact absurd hi (by simpa using hf i (List.mem_finRange i))
  | some j =>
    have := List.find?_some hf
    rw [W.contains_once hW i j p g h hi this]

theorem World.field_own (hW : W.Tiled) (v : W.Field) (c k : Nat) (i : Fin W.count) (iA iB : Nat)
    (hI : Horiz.Interior (W.tile i).M.G.S iA iB) : W.field v c k (W.place i iA iB) = v i c iA iB k := by
  unfold World.field
  rw [W.owner_of hW i _ _ _ (W.place_in hW i iA iB hI)]
  obtain ⟨s1, s2, -⟩ := hW.shape i
  simp only [s1, s2, World.place]
  congr 1 <;> omega

/-- A node seen as itself. -/
theorem World.see_self (hW : W.Tiled) (n : Int × Int × Int) (hn : n ∈ W.nodes) : W.see n.1 n.2.1 n.2.2 = some n := by
  obtain ⟨p, g, h⟩ := n
  rw [W.mem_nodes] at hn
  obtain ⟨⟨p0, p1⟩, ⟨g0, g1⟩, h0, h1⟩ := hn
  cases hk : W.kind with
  | sphere =>
    have hs := hW.square hk
    rw [← hs] at h1
    exact W.see_in hk p g h g0 g1 h0 h1
  | plane =>
    rw [W.see_plane hk]
    simp only
    rw [wrap_in _ _ g0 g1, wrap_in _ _ h0 h1]
    rw [hk] at p1
    have : p < 1 := p1
    rw [show p = 0 by omega]

/-- After the exchange each node of a patch and its halo shows the node of the grid it stands for. -/
theorem World.exchange_at (hW : W.Tiled) (v : W.Field) (i : Fin W.count) (c iA iB k : Nat) (n : Int × Int × Int)
    (hn : W.see (W.place i iA iB).1 (W.place i iA iB).2.1 (W.place i iA iB).2.2 = some n) :
    W.exchange v i c iA iB k = W.field v c k n := by
  obtain ⟨s1, s2, -⟩ := hW.shape i
  by_cases hI : Horiz.Interior (W.tile i).M.G.S iA iB
  · have h1 := W.contains_node hW i _ _ _ (W.place_in hW i iA iB hI)
    rw [W.see_self hW (W.place i iA iB) h1, Option.some.injEq] at hn
    rw [← hn, W.field_own hW v c k i iA iB hI]
    unfold World.exchange
    simp only
    unfold Horiz.Interior at hI
    rw [if_pos hI]
  · unfold World.exchange
    simp only
    unfold Horiz.Interior at hI
    rw [if_neg hI]
    simp only [World.place] at hn
    rw [s1, s2, hn]

/-! ### Sums -/

theorem sum_rows (o : Nat) (f : Nat → ℝ) (m : Nat) :
    ∑ x ∈ Finset.range (m * o), f x = ∑ a ∈ Finset.range m, ∑ i ∈ Finset.range o, f (a * o + i) := by
  induction m with
  | zero => simp
  | succ m ih => rw [Nat.succ_mul, Finset.sum_range_add, ih, Finset.sum_range_succ]

theorem sum_Ico (f : Int → ℝ) (e : Int) (m : Nat) :
    ∑ x ∈ Finset.Ico e (e + m), f x = ∑ x ∈ Finset.range m, f (e + x) := by
  refine Finset.sum_bij' (fun x _ => (x - e).toNat) (fun x _ => e + x) ?_ ?_ ?_ ?_ ?_
  · intro x hx; simp only [Finset.mem_Ico, Finset.mem_range] at hx ⊢; omega
  · intro x hx; simp only [Finset.mem_Ico, Finset.mem_range] at hx ⊢; omega
  · intro x hx; simp only [Finset.mem_Ico] at hx; omega
  · intro x hx; simp only [Finset.mem_range] at hx; omega
  · intro x hx
    simp only [Finset.mem_Ico] at hx
    congr 1
    omega

open Classical in
theorem World.sum_tiles (hW : W.Tiled) (F : Int × Int × Int → ℝ) :
    ∑ n, ∑ a ∈ Finset.range (W.tile n).M.G.S.elemA, ∑ b ∈ Finset.range (W.tile n).M.G.S.elemB,
      ∑ i ∈ Finset.range W.order, ∑ j ∈ Finset.range W.order,
        F (W.place n ((W.halo + a * W.order + i : Nat) : Int) ((W.halo + b * W.order + j : Nat) : Int)) =
      ∑ n ∈ W.nodes, F n := by
  have e1 : ∀ n ∈ W.nodes, F n = ∑ i, if W.contains i n.1 n.2.1 n.2.2 = true then F n else 0 := by
    rintro ⟨p, g, h⟩ hn
    obtain ⟨i, hi⟩ := W.contains_some hW p g h hn
    rw [Finset.sum_eq_single i]
    · simp only
      rw [if_pos hi]
    · intro j _ hj
      simp only
      rw [if_neg]
      exact fun hc => hj (W.contains_once hW j i p g h hc hi)
    · intro h; exact absurd (Finset.mem_univ _) h
  rw [Finset.sum_congr rfl e1, Finset.sum_comm]
  refine Finset.sum_congr rfl fun t _ => ?_
  rw [← Finset.sum_filter]
  have e2 : W.nodes.filter (fun n => W.contains t n.1 n.2.1 n.2.2 = true) =
      {(W.tile t).panel} ×ˢ
        Finset.Ico ((W.tile t).eA * W.order : Int) ((W.tile t).eA * W.order + ((W.tile t).M.G.S.elemA * W.order : Nat)) ×ˢ
        Finset.Ico ((W.tile t).eB * W.order : Int) ((W.tile t).eB * W.order + ((W.tile t).M.G.S.elemB * W.order : Nat)) := by
    ext ⟨p, g, h⟩
    simp only [Finset.mem_filter, Finset.mem_product, Finset.mem_singleton, Finset.mem_Ico, Nat.cast_mul, ← add_mul]
    constructor
    · rintro ⟨-, hc⟩
      exact (W.contains_iff hW t p g h).mp hc
    · intro hc
      have := (W.contains_iff hW t p g h).mpr hc
      exact ⟨W.contains_node hW t p g h this, this⟩
  rw [e2, Finset.sum_product, Finset.sum_singleton, Finset.sum_product, sum_Ico, sum_rows]
  refine Finset.sum_congr rfl fun a _ => ?_
  rw [Finset.sum_comm]
  refine Finset.sum_congr rfl fun i _ => ?_
  rw [sum_Ico, sum_rows]
  refine Finset.sum_congr rfl fun b _ => Finset.sum_congr rfl fun j _ => ?_
  congr 1
  unfold World.place
  simp only [Nat.cast_add, Nat.cast_mul, Prod.mk.injEq, true_and]
  constructor <;> ring

end Verif.Whole
