import Verif.Acoustic.Spec
import Verif.Horiz.PartsLemmas

/-!
# Lemmas: integrals, means and solves
-/

namespace Verif.Acoustic

open Verif.Horiz

/-- The element as a geometry, for the lemmas on summation by parts. -/
def geo (G : Grid) (e : Nat) : Geometry :=
  ⟨⟨G.order, 1, 1, 1, 1, 1⟩, G.deltaA e, G.deltaB e, fun _ _ => 1, fun _ _ _ => 0, fun _ _ _ => 0, fun _ _ => 0,
    fun _ _ => 0, 0⟩

theorem weakA_geo (G : Grid) (φ : Fld) (e i j k : Nat) :
    weakA G φ e i j k = Horiz.weakA (geo G e) G.B (fun i j => φ e i j k) i j := rfl

theorem weakB_geo (G : Grid) (φ : Fld) (e i j k : Nat) :
    weakB G φ e i j k = Horiz.weakB (geo G e) G.B (fun i j => φ e i j k) i j := rfl

theorem derA_geo (G : Grid) (φ : Fld) (e i j k : Nat) :
    derA G φ e i j k = Horiz.derivA (geo G e) G.B (fun i j => φ e i j k) i j := rfl

theorem derB_geo (G : Grid) (φ : Fld) (e i j k : Nat) :
    derB G φ e i j k = Horiz.derivB (geo G e) G.B (fun i j => φ e i j k) i j := rfl

theorem slab_div (G : Grid) (area φ ψ : Fld) (h : Fits G area) (e k : Nat) (he : e < G.elements) (hk : k < G.levels) :
    slab G area (div G φ ψ) e k = 0 := by
  obtain ⟨ω, layer, hp, hw⟩ := h.weights
  have := weak_integral (geo G e) G.B ω hp (fun i j => φ e i j k) (fun i j => ψ e i j k)
  unfold quad at this
  calc slab G area (div G φ ψ) e k = layer e k * ∑ i ∈ Finset.range G.order, ∑ j ∈ Finset.range G.order,
        ω i * ω j * (weakA G φ e i j k + weakB G ψ e i j k) := by
        unfold slab
        rw [Finset.mul_sum]
        refine Finset.sum_congr rfl (fun i hi => ?_)
        rw [Finset.mul_sum]
        refine Finset.sum_congr rfl (fun j hj => ?_)
        have hi' := Finset.mem_range.1 hi
        have hj' := Finset.mem_range.1 hj
        rw [hw e i j k he hi' hj' hk]
        unfold div
        have := h.jac e i j k he hi' hj' hk
        field_simp
    _ = 0 := by
        have h0 : ∑ i ∈ Finset.range G.order, ∑ j ∈ Finset.range G.order,
          ω i * ω j * (weakA G φ e i j k + weakB G ψ e i j k) = 0 := this
        rw [h0, mul_zero]

theorem total_slab (G : Grid) (area φ : Fld) :
    total G area φ = ∑ e ∈ Finset.range G.elements, ∑ k ∈ Finset.range G.levels, slab G area φ e k := by
  unfold total slab
  refine Finset.sum_congr rfl (fun e _ => ?_)
  rw [Finset.sum_congr rfl (fun i _ => Finset.sum_comm), Finset.sum_comm]

theorem total_div (G : Grid) (area φ ψ : Fld) (h : Fits G area) : total G area (div G φ ψ) = 0 := by
  rw [total_slab]
  exact Finset.sum_eq_zero (fun e he => Finset.sum_eq_zero (fun k hk =>
    slab_div G area φ ψ h e k (Finset.mem_range.1 he) (Finset.mem_range.1 hk)))

theorem total_dz (G : Grid) (area F : Fld) (h : Fits G area)
    (h0 : ∀ e i j, e < G.elements → i < G.order → j < G.order → F e i j 0 = 0)
    (hn : ∀ e i j, e < G.elements → i < G.order → j < G.order → F e i j G.levels = 0) :
    total G area (dz G F) = 0 := by
  obtain ⟨base, hb⟩ := h.thickness
  unfold total
  refine Finset.sum_eq_zero (fun e he => Finset.sum_eq_zero (fun i hi => Finset.sum_eq_zero (fun j hj => ?_)))
  have he' := Finset.mem_range.1 he
  have hi' := Finset.mem_range.1 hi
  have hj' := Finset.mem_range.1 hj
  calc ∑ k ∈ Finset.range G.levels, area e i j k * dz G F e i j k
      = ∑ k ∈ Finset.range G.levels, base e i j * (F e i j (k + 1) - F e i j k) := by
        refine Finset.sum_congr rfl (fun k hk => ?_)
        have hk' := Finset.mem_range.1 hk
        rw [hb e i j k he' hi' hj' hk']
        unfold dz
        have := h.thick e i j k he' hi' hj' hk'
        field_simp
    _ = 0 := by
        rw [← Finset.mul_sum, Finset.sum_range_sub (fun k => F e i j k), h0 e i j he' hi' hj', hn e i j he' hi' hj']
        ring

theorem total_add (G : Grid) (area φ ψ : Fld) :
    total G area (fun e i j k => φ e i j k + ψ e i j k) = total G area φ + total G area ψ := by
  unfold total
  simp only [mul_add, Finset.sum_add_distrib]

theorem total_mul (G : Grid) (area φ : Fld) (c : ℝ) :
    total G area (fun e i j k => c * φ e i j k) = c * total G area φ := by
  unfold total
  simp only [Finset.mul_sum]
  refine Finset.sum_congr rfl (fun e _ => Finset.sum_congr rfl (fun i _ => Finset.sum_congr rfl (fun j _ =>
    Finset.sum_congr rfl (fun k _ => by ring))))

theorem slab_add (G : Grid) (area φ ψ : Fld) (e k : Nat) :
    slab G area (fun e i j k => φ e i j k + ψ e i j k) e k = slab G area φ e k + slab G area ψ e k := by
  unfold slab
  simp only [mul_add, Finset.sum_add_distrib]

theorem slab_mul (G : Grid) (area φ : Fld) (c : ℝ) (e k : Nat) :
    slab G area (fun e i j k => c * φ e i j k) e k = c * slab G area φ e k := by
  unfold slab
  simp only [Finset.mul_sum]
  refine Finset.sum_congr rfl (fun i _ => Finset.sum_congr rfl (fun j _ => by ring))

/-- The nodes of a level. -/
def nodes (G : Grid) : Finset (Nat × Nat × Nat) :=
  Finset.range G.elements ×ˢ (Finset.range G.order ×ˢ Finset.range G.order)

def at' (G : Grid) (x : Nat × Nat × Nat) : Nat := G.point x.1 x.2.1 x.2.2

theorem sum_nodes (G : Grid) (f : Nat → Nat → Nat → ℝ) :
    ∑ e ∈ Finset.range G.elements, ∑ i ∈ Finset.range G.order, ∑ j ∈ Finset.range G.order, f e i j =
      ∑ x ∈ nodes G, f x.1 x.2.1 x.2.2 := by
  unfold nodes
  rw [Finset.sum_product]
  refine Finset.sum_congr rfl (fun e _ => ?_)
  rw [Finset.sum_product]

theorem mean_nodes (G : Grid) (φ : Fld) (e i j k : Nat) :
    mean G φ e i j k = (∑ x ∈ nodes G, if at' G x = G.point e i j then φ x.1 x.2.1 x.2.2 k else 0) /
      (∑ x ∈ nodes G, if at' G x = G.point e i j then 1 else 0) := by
  unfold mean
  rw [sum_nodes G (fun e' i' j' => if G.point e' i' j' = G.point e i j then φ e' i' j' k else 0),
    sum_nodes G (fun e' i' j' => if G.point e' i' j' = G.point e i j then 1 else 0)]
  rfl

theorem mem_nodes (G : Grid) (e i j : Nat) (he : e < G.elements) (hi : i < G.order) (hj : j < G.order) :
    (e, i, j) ∈ nodes G := by
  unfold nodes
  simp [he, hi, hj]

theorem in_range (G : Grid) (x : Nat × Nat × Nat) (h : x ∈ nodes G) :
    x.1 < G.elements ∧ x.2.1 < G.order ∧ x.2.2 < G.order := by
  simpa [nodes] using h

theorem count_pos (G : Grid) (y : Nat × Nat × Nat) (hy : y ∈ nodes G) :
    (0 : ℝ) < ∑ x ∈ nodes G, if at' G x = at' G y then (1 : ℝ) else 0 := by
  refine Finset.sum_pos' (fun x _ => by split <;> norm_num) ⟨y, hy, by simp⟩

theorem mean_same (G : Grid) (φ : Fld) (e i j k : Nat) (he : e < G.elements) (hi : i < G.order) (hj : j < G.order)
    (h : ∀ e' i' j', e' < G.elements → i' < G.order → j' < G.order → G.point e' i' j' = G.point e i j →
      φ e' i' j' k = φ e i j k) : mean G φ e i j k = φ e i j k := by
  rw [mean_nodes]
  have hc : (0 : ℝ) < ∑ x ∈ nodes G, if at' G x = G.point e i j then (1 : ℝ) else 0 :=
    count_pos G (e, i, j) (mem_nodes G e i j he hi hj)
  have : (∑ x ∈ nodes G, if at' G x = G.point e i j then φ x.1 x.2.1 x.2.2 k else 0) =
      φ e i j k * ∑ x ∈ nodes G, if at' G x = G.point e i j then 1 else 0 := by
    rw [Finset.mul_sum]
    refine Finset.sum_congr rfl (fun x hx => ?_)
    split
    · rename_i hx'
      unfold nodes at hx
      simp only [Finset.mem_product, Finset.mem_range] at hx
      rw [h x.1 x.2.1 x.2.2 hx.1 hx.2.1 hx.2.2 hx', mul_one]
    · rw [mul_zero]
  rw [this, mul_div_assoc, div_self (ne_of_gt hc), mul_one]

theorem mean_zero (G : Grid) (φ : Fld) (e i j k : Nat)
    (h : ∀ e' i' j', e' < G.elements → i' < G.order → j' < G.order → φ e' i' j' k = 0) : mean G φ e i j k = 0 := by
  rw [mean_nodes, Finset.sum_eq_zero, zero_div]
  intro x hx
  unfold nodes at hx
  simp only [Finset.mem_product, Finset.mem_range] at hx
  rw [h x.1 x.2.1 x.2.2 hx.1 hx.2.1 hx.2.2, ite_self]

theorem total_mean (G : Grid) (area φ : Fld) (h : Fits G area) : total G area (mean G φ) = total G area φ := by
  have swap : ∀ ψ : Fld, total G area ψ = ∑ k ∈ Finset.range G.levels, ∑ x ∈ nodes G,
      area x.1 x.2.1 x.2.2 k * ψ x.1 x.2.1 x.2.2 k := by
    intro ψ
    unfold total
    rw [sum_nodes G (fun e i j => ∑ k ∈ Finset.range G.levels, area e i j k * ψ e i j k), Finset.sum_comm]
  rw [swap, swap]
  refine Finset.sum_congr rfl (fun k _ => ?_)
  set N : Nat × Nat × Nat → ℝ := fun y => ∑ x ∈ nodes G, if at' G x = at' G y then (1 : ℝ) else 0 with hN
  calc ∑ x ∈ nodes G, area x.1 x.2.1 x.2.2 k * mean G φ x.1 x.2.1 x.2.2 k
      = ∑ x ∈ nodes G, ∑ y ∈ nodes G,
          if at' G y = at' G x then area x.1 x.2.1 x.2.2 k * φ y.1 y.2.1 y.2.2 k / N x else 0 := by
        refine Finset.sum_congr rfl (fun x _ => ?_)
        rw [mean_nodes, div_eq_mul_inv, Finset.sum_mul, Finset.mul_sum]
        refine Finset.sum_congr rfl (fun y _ => ?_)
        by_cases hxy : at' G y = at' G x
        · rw [if_pos hxy, if_pos (show at' G y = G.point x.1 x.2.1 x.2.2 from hxy), mul_div_assoc, div_eq_mul_inv]
          rfl
        · rw [if_neg hxy, if_neg (show ¬at' G y = G.point x.1 x.2.1 x.2.2 from hxy), zero_mul, mul_zero]
    _ = ∑ y ∈ nodes G, ∑ x ∈ nodes G,
          if at' G x = at' G y then area y.1 y.2.1 y.2.2 k * φ y.1 y.2.1 y.2.2 k / N y else 0 := by
        rw [Finset.sum_comm]
        refine Finset.sum_congr rfl (fun y hy => Finset.sum_congr rfl (fun x hx => ?_))
        have hx' := in_range G x hx
        have hy' := in_range G y hy
        by_cases hxy : at' G y = at' G x
        · have hn : N x = N y := by
            simp only [hN, hxy]
          rw [if_pos hxy, if_pos hxy.symm, h.shared x.1 x.2.1 x.2.2 y.1 y.2.1 y.2.2 k hx'.1 hx'.2.1 hx'.2.2 hy'.1 hy'.2.1
            hy'.2.2 hxy.symm, hn]
        · rw [if_neg hxy, if_neg (fun h => hxy h.symm)]
    _ = ∑ y ∈ nodes G, area y.1 y.2.1 y.2.2 k * φ y.1 y.2.1 y.2.2 k := by
        refine Finset.sum_congr rfl (fun y hy => ?_)
        have hc := count_pos G y hy
        have : ∀ c : ℝ, (∑ x ∈ nodes G, if at' G x = at' G y then c else 0) = c * N y := by
          intro c
          rw [hN, Finset.mul_sum]
          refine Finset.sum_congr rfl (fun x _ => ?_)
          split <;> simp
        rw [this]
        have : N y ≠ 0 := ne_of_gt hc
        field_simp

theorem inner_of (G : Grid) (k : Nat) (x : ℝ) (h : 0 < k ∧ k < G.levels) : inner G k x = x := if_pos h

theorem inner_zero (G : Grid) (x : ℝ) : inner G 0 x = 0 := if_neg (fun h => absurd h.1 (lt_irrefl 0))

theorem inner_top (G : Grid) (x : ℝ) : inner G G.levels x = 0 := if_neg (fun h => absurd h.2 (lt_irrefl _))

theorem solveAll_eq (G : Grid) (solver : Solver) (τ : ℝ) (q θ rhs X : Fld) (h : solveAll G solver τ q θ rhs = some X)
    (e i j : Nat) (he : e < G.elements) (hi : i < G.order) (hj : j < G.order) :
    solver (lower G τ q θ e i j) (diag G τ q θ e i j) (upper G τ q θ e i j) (rhs e i j) = some (X e i j) := by
  unfold solveAll at h
  split at h
  · rename_i hall
    have := hall e i j he hi hj
    obtain ⟨x, hx⟩ := Option.isSome_iff_exists.1 this
    injection h with h
    rw [← h]
    show _ = some (Option.getD _ _)
    rw [hx]
    rfl
  · exact absurd h (by simp)

theorem solveAll_rows (G : Grid) (solver : Solver) (hs : Exact G.levels solver) (τ : ℝ) (q θ rhs X : Fld)
    (h : solveAll G solver τ q θ rhs = some X) (e i j : Nat) (he : e < G.elements) (hi : i < G.order)
    (hj : j < G.order) :
    Rows G.levels (lower G τ q θ e i j) (diag G τ q θ e i j) (upper G τ q θ e i j) (rhs e i j) (X e i j) :=
  (hs _ _ _ _ _ (solveAll_eq G solver τ q θ rhs X h e i j he hi hj)).1

theorem solveAll_ends (G : Grid) (solver : Solver) (hs : Exact G.levels solver) (hn : 0 < G.levels) (τ : ℝ)
    (q θ rhs X : Fld) (h : solveAll G solver τ q θ rhs = some X) (h0 : ∀ e i j, rhs e i j 0 = 0)
    (hl : ∀ e i j, rhs e i j G.levels = 0) (e i j : Nat) (he : e < G.elements) (hi : i < G.order)
    (hj : j < G.order) : X e i j 0 = 0 ∧ X e i j G.levels = 0 := by
  obtain ⟨r0, _, rn⟩ := solveAll_rows G solver hs τ q θ rhs X h e i j he hi hj
  constructor
  · rw [h0] at r0
    simpa [diag, upper] using r0
  · rw [hl] at rn
    have : lower G τ q θ e i j (G.levels - 1) = 0 := by
      unfold lower
      rw [if_neg (by omega)]
    rw [this] at rn
    simpa [diag] using rn

theorem combine_sum (coeff : List ℝ) (inst : List Nat) (iU : Nat) (h : combinable coeff inst iU = true) (st : Store)
    (part : State → Fld) (e i j k : Nat) :
    combine coeff inst st part e i j k = ((coeff.zip inst).map fun x => x.1 * part (st x.2) e i j k).sum := by
  have fold : ∀ (l : List (ℝ × Nat)) (a : ℝ), l.foldl (fun acc x => acc + x.1 * part (st x.2) e i j k) a =
      a + (l.map fun x => x.1 * part (st x.2) e i j k).sum := by
    intro l
    induction l with
    | nil => intro a; simp
    | cons x l ih => intro a; rw [List.foldl_cons, ih, List.map_cons, List.sum_cons]; ring
  unfold combinable at h
  match coeff, inst, h with
  | c :: cs, m :: ms, _ => simp only [combine]; rw [fold]; simp
  | [], m :: ms, h => simp at h
  | c :: cs, [], h => simp at h
  | [], [], h => simp at h

end Verif.Acoustic
