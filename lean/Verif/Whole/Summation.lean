import Verif.Whole.Tiling

/-!
# Direct stiffness summation over the whole grid averages copies, and conserves mass
-/

namespace Verif.Whole

open Verif.Dss (twin twin_twin twin_cases twin_first twin_last twin_shift Corner sharedMean)
open Verif.Panel (outside inside alongAlpha IsEdge IsPanel)

variable (W : World)

theorem World.patch_ok (hW : W.Tiled) (i : Fin W.count) : (W.patch i).Ok := by
  obtain ⟨s1, s2, -⟩ := hW.shape i
  have h1 := hW.halo
  have h2 := hW.order
  have h3 := hW.some i
  constructor
  · show (1 : Int) ≤ (W.tile i).M.G.S.halo; rw [s2]; omega
  · show (2 : Int) ≤ (W.tile i).M.G.S.order; rw [s1]; omega
  · show (1 : Int) ≤ (W.tile i).M.G.S.elemA; omega
  · show (1 : Int) ≤ (W.tile i).M.G.S.elemB; omega

theorem World.patch_halo (hW : W.Tiled) (i : Fin W.count) : (W.patch i).halo = W.halo := by
  show ((W.tile i).M.G.S.halo : Int) = W.halo
  rw [(hW.shape i).2.1]

theorem World.patch_order (hW : W.Tiled) (i : Fin W.count) : (W.patch i).order = W.order := by
  show ((W.tile i).M.G.S.order : Int) = W.order
  rw [(hW.shape i).1]

/-- A corner has no neighbour if the node one step out in both directions is seen nowhere. -/
theorem World.missing_see (hW : W.Tiled) (i : Fin W.count) (c : Corner) :
    (W.patch i).missing c = (W.see (W.place i ((W.patch i).cornerA c + c.outA) ((W.patch i).cornerB c + c.outB)).1
      (W.place i ((W.patch i).cornerA c + c.outA) ((W.patch i).cornerB c + c.outB)).2.1
      (W.place i ((W.patch i).cornerA c + c.outA) ((W.patch i).cornerB c + c.outB)).2.2).isNone := by
  obtain ⟨s1, s2, -⟩ := hW.shape i
  cases c <;> simp only [Dss.Patch.missing, World.patch, World.blind, World.place, Dss.Patch.cornerA, Dss.Patch.cornerB,
    Corner.outA, Corner.outB, s1, s2] <;> congr 2 <;> ring

/-- One step out of a corner is the other copy. -/
theorem World.corner_twin (hW : W.Tiled) (i : Fin W.count) (c : Corner) :
    (W.patch i).cornerA c + c.outA - W.halo = twin W.order ((W.patch i).cornerA c - W.halo) ∧
      (W.patch i).cornerB c + c.outB - W.halo = twin W.order ((W.patch i).cornerB c - W.halo) := by
  have ho : (2 : Int) ≤ W.order := by exact_mod_cast hW.order
  have z := twin_zero W.order ho
  have l1 := twin_last W.order (W.patch i).elemA ho
  have l2 := twin_last W.order (W.patch i).elemB ho
  have e1 := W.patch_halo hW i
  have e2 := W.patch_order hW i
  have r : ∀ x : Int, (W.halo : Int) + x - 1 - W.halo = x - 1 := fun x => by ring
  cases c <;> simp only [Dss.Patch.cornerA, Dss.Patch.cornerB, Corner.outA, Corner.outB, e1, e2, r, sub_self, z, l1, l2] <;>
    constructor <;> ring

theorem World.place_twin (i : Fin W.count) (a b : Int) :
    (W.place i (twin W.order (a - W.halo) + W.halo) b).2.1 = twin W.order (W.place i a b).2.1 ∧
    (W.place i a (twin W.order (b - W.halo) + W.halo)).2.2 = twin W.order (W.place i a b).2.2 := by
  unfold World.place
  simp only [add_sub_cancel_right, twin_shift, and_self]

/-- Three panels meet at a corner of the patch that has no neighbour. -/
theorem World.triple_of (hW : W.Tiled) (i : Fin W.count) (a b : Int) (h : (W.patch i).Triple a b) :
    W.Triple (W.place i a b) := by
  obtain ⟨c, hc, rfl, rfl⟩ := h
  rw [W.missing_see hW, Option.isNone_iff_eq_none] at hc
  obtain ⟨t1, t2⟩ := W.corner_twin hW i c
  unfold World.Triple
  rw [← (W.place_twin i _ ((W.patch i).cornerB c)).1, ← (W.place_twin i ((W.patch i).cornerA c) _).2, ← t1, ← t2,
    sub_add_cancel, sub_add_cancel]
  exact hc

theorem World.triple_ends (hW : W.Tiled) (hk : W.kind = .sphere) (p g h : Int) (hn : (p, g, h) ∈ W.nodes)
    (ht : W.Triple (p, g, h)) : (g = 0 ∨ g = W.order * W.elemA - 1) ∧ (h = 0 ∨ h = W.order * W.elemA - 1) := by
  have ho : (2 : Int) ≤ W.order := by exact_mod_cast hW.order
  have hs := hW.square hk
  rw [W.mem_nodes, ← hs] at hn
  obtain ⟨⟨p0, p1⟩, ⟨g0, g1⟩, h0, h1⟩ := hn
  have hp : IsPanel p := by
    rw [hk] at p1
    have h3 : p < 6 := p1
    exact ⟨p0, by omega⟩
  have ends : ∀ g : Int, 0 ≤ g → g < W.order * W.elemA → ¬ (0 ≤ twin W.order g ∧ twin W.order g < W.order * W.elemA) →
      g = 0 ∨ g = W.order * W.elemA - 1 := by
    intro g g0 g1 hg
    rcases twin_stays W.order W.elemA g ho g0 g1 with h | h | h
    · exact absurd h hg
    · exact .inl h.1
    · exact .inr h.1
  rcases W.leaves ho true p g h g0 g1 h0 h1 with ⟨a, -⟩ | ⟨e, t, he, ha, t0, t1, hi⟩
  · simp only [World.shift, if_true] at a
    rcases W.leaves ho false p g h g0 g1 h0 h1 with ⟨-, b⟩ | ⟨e, t, he, ha, t0, t1, hi⟩
    · simp only [World.shift, Bool.false_eq_true, if_false] at b
      unfold World.Triple at ht
      simp only at ht
      rw [W.see_in hk p _ _ a.1 a.2 b.1 b.2] at ht
      simp at ht
    · have hpe : (p, g, h) = (p, inside (W.order * W.elemA) e 0 t) := congrArg (Prod.mk p) hi
      rw [hpe, W.triple_edge hk ho e he p t hp] at ht
      have : t = g := by
        rcases he with rfl | rfl | rfl | rfl <;> simp [alongAlpha, inside] at ha hi <;> omega
      rw [this] at ht
      exact absurd a ht
  · have hpe : (p, g, h) = (p, inside (W.order * W.elemA) e 0 t) := congrArg (Prod.mk p) hi
    rw [hpe, W.triple_edge hk ho e he p t hp] at ht
    have : t = h := by
      rcases he with rfl | rfl | rfl | rfl <;> simp [alongAlpha, inside] at ha hi <;> omega
    rw [this] at ht
    refine ⟨?_, ends h h0 h1 ht⟩
    rcases he with rfl | rfl | rfl | rfl <;> simp [alongAlpha, inside] at ha hi <;> omega

/-- The converse. -/
theorem World.of_triple (hW : W.Tiled) (i : Fin W.count) (iA iB : Nat) (hI : Horiz.Interior (W.tile i).M.G.S iA iB)
    (ht : W.Triple (W.place i iA iB)) : (W.patch i).Triple iA iB := by
  cases hk : W.kind with
  | plane =>
    unfold World.Triple at ht
    rw [W.see_plane hk] at ht
    simp at ht
  | sphere =>
    have ho : (2 : Int) ≤ W.order := by exact_mod_cast hW.order
    have hn := W.contains_node hW i _ _ _ (W.place_in hW i iA iB hI)
    obtain ⟨ga, gb⟩ := W.triple_ends hW hk _ _ _ hn ht
    obtain ⟨s1, s2, -⟩ := hW.shape i
    have i1 := (hW.inside i).1
    have i2 := (hW.inside i).2
    rw [← hW.square hk] at i2
    have e1 := W.patch_halo hW i
    have e2 := W.patch_order hW i
    have l1 : (((W.tile i).eA : Int) + (W.tile i).M.G.S.elemA) * W.order ≤ W.order * W.elemA := by
      rw [mul_comm (W.order : Int)]
      exact mul_le_mul_of_nonneg_right (by omega) (by omega)
    have l2 : (((W.tile i).eB : Int) + (W.tile i).M.G.S.elemB) * W.order ≤ W.order * W.elemA := by
      rw [mul_comm (W.order : Int)]
      exact mul_le_mul_of_nonneg_right (by omega) (by omega)
    have n1 : (0 : Int) ≤ (W.tile i).eA * W.order := by positivity
    have n2 : (0 : Int) ≤ (W.tile i).eB * W.order := by positivity
    rw [add_mul] at l1 l2
    unfold Horiz.Interior at hI
    rw [s1, s2] at hI
    zify at hI
    obtain ⟨h1, h2, h3, h4⟩ := hI
    have key : ∀ c : Corner, (iA : Int) = (W.patch i).cornerA c → (iB : Int) = (W.patch i).cornerB c →
        (W.patch i).Triple iA iB := by
      intro c ca cb
      refine ⟨c, ?_, ca, cb⟩
      rw [W.missing_see hW, Option.isNone_iff_eq_none]
      unfold World.Triple at ht
      rw [← (W.place_twin i _ (iB : Int)).1, ← (W.place_twin i (iA : Int) _).2, ca, cb, ← (W.corner_twin hW i c).1,
        ← (W.corner_twin hW i c).2, sub_add_cancel, sub_add_cancel] at ht
      exact ht
    have ea : (W.patch i).elemA = (W.tile i).M.G.S.elemA := rfl
    have eb : (W.patch i).elemB = (W.tile i).M.G.S.elemB := rfl
    simp only [World.place] at ga gb
    rcases ga with ga | ga <;> rcases gb with gb | gb
    · refine key .bottomLeft ?_ ?_ <;> simp only [Dss.Patch.cornerA, Dss.Patch.cornerB, e1, e2, ea, eb] <;> linarith
    · refine key .topLeft ?_ ?_ <;> simp only [Dss.Patch.cornerA, Dss.Patch.cornerB, e1, e2, ea, eb] <;> linarith
    · refine key .bottomRight ?_ ?_ <;> simp only [Dss.Patch.cornerA, Dss.Patch.cornerB, e1, e2, ea, eb] <;> linarith
    · refine key .topRight ?_ ?_ <;> simp only [Dss.Patch.cornerA, Dss.Patch.cornerB, e1, e2, ea, eb] <;> linarith

open Classical in
/-- The mean over the copies of a node. -/
noncomputable def World.mean (f : Int × Int × Int → ℝ) (n : Int × Int × Int) : ℝ :=
  if W.Triple n then (f n + f (W.op true n) + f (W.op false n)) / 3
  else (f n + f (W.op true n) + f (W.op false n) + f (W.diag n)) / 4

theorem twin_low (p g : Int) (h : 0 ≤ g) : -1 ≤ twin p g := by
  unfold twin
  split_ifs <;> omega

/-- What a patch averages: anything that shows the field of the grid. -/
theorem World.average_at (hW : W.Tiled) (turn : Int × Int × Int → Bool → Bool) (hM : W.Mutual turn) (i : Fin W.count)
    (u : Dss.Field) (f : Int × Int × Int → ℝ)
    (hu : ∀ a b : Int, 0 ≤ a → 0 ≤ b → ∀ n, W.see (W.place i a b).1 (W.place i a b).2.1 (W.place i a b).2.2 = some n →
      u a b = f n) (iA iB : Nat) (hI : Horiz.Interior (W.tile i).M.G.S iA iB) :
    W.average i u iA iB = W.mean f (W.place i iA iB) := by
  obtain ⟨s1, s2, -⟩ := hW.shape i
  have hok := W.patch_ok hW i
  have hh : (1 : Int) ≤ W.halo := by have := hW.halo; omega
  have hn := W.contains_node hW i _ _ _ (W.place_in hW i iA iB hI)
  have hc : (W.patch i).Interior iA iB := by
    unfold Dss.Patch.Interior
    rw [W.patch_halo hW, W.patch_order hW]
    show (W.halo : Int) ≤ iA ∧ (iA : Int) < W.halo + (W.tile i).M.G.S.elemA * W.order ∧ (W.halo : Int) ≤ iB ∧
      (iB : Int) < W.halo + (W.tile i).M.G.S.elemB * W.order
    unfold Horiz.Interior at hI
    rw [s1, s2] at hI
    exact_mod_cast hI
  have hlow : (W.halo : Int) ≤ iA ∧ (W.halo : Int) ≤ iB := by
    unfold Horiz.Interior at hI
    rw [s2] at hI
    omega
  have hd : W.average i u = Dss.dss (W.patch i) u := by
    unfold World.average
    cases hk : W.kind with
    | sphere => rfl
    | plane =>
      simp only
      refine Dss.C58_cartesian _ hok (fun c => ?_) u
      rw [W.missing_see hW, W.see_plane hk]
      rfl
  have p0 : u iA iB = f (W.place i iA iB) := by
    refine hu iA iB (by omega) (by omega) _ ?_
    exact W.see_self hW _ hn
  have p1 : u (twin W.order ((iA : Int) - W.halo) + W.halo) iB = f (W.op true (W.place i iA iB)) := by
    have h1 := twin_low W.order ((iA : Int) - W.halo) (by omega)
    refine hu _ iB (by omega) (by omega) _ ?_
    rw [(W.place_twin i _ (iB : Int)).1]
    exact hM.seen true _ hn
  have p2 : u iA (twin W.order ((iB : Int) - W.halo) + W.halo) = f (W.op false (W.place i iA iB)) := by
    have h1 := twin_low W.order ((iB : Int) - W.halo) (by omega)
    refine hu iA _ (by omega) (by omega) _ ?_
    rw [(W.place_twin i (iA : Int) _).2]
    exact hM.seen false _ hn
  rw [hd]
  unfold World.mean
  by_cases ht : W.Triple (W.place i iA iB)
  · rw [if_pos ht]
    obtain ⟨c, hm, ca, cb⟩ := W.of_triple hW i iA iB hI ht
    rw [ca, cb, Dss.C58_corner _ hok u c hm]
    obtain ⟨t1, t2⟩ := W.corner_twin hW i c
    rw [ca, cb, ← t1, sub_add_cancel] at p1
    rw [ca, cb, ← t2, sub_add_cancel] at p2
    rw [ca, cb] at p0
    rw [p0, p1, p2]
  · rw [if_neg ht, Dss.C58_mean _ hok u iA iB hc (fun h => ht (W.triple_of hW i iA iB h))]
    unfold sharedMean
    rw [W.patch_halo hW, W.patch_order hW]
    simp only [sub_add_cancel]
    have p3 : u (twin W.order ((iA : Int) - W.halo) + W.halo) (twin W.order ((iB : Int) - W.halo) + W.halo) =
        f (W.diag (W.place i iA iB)) := by
      have h1 := twin_low W.order ((iA : Int) - W.halo) (by omega)
      have h2 := twin_low W.order ((iB : Int) - W.halo) (by omega)
      refine hu _ _ (by omega) (by omega) _ ?_
      rw [(W.place_twin i _ _).1]
      have e3 : (W.place i (twin W.order ((iA : Int) - W.halo) + W.halo) (twin W.order ((iB : Int) - W.halo) + W.halo)).2.2 =
        (W.place i (iA : Int) (twin W.order ((iB : Int) - W.halo) + W.halo)).2.2 := rfl
      have e4 : (W.place i (iA : Int) (twin W.order ((iB : Int) - W.halo) + W.halo)).2.1 =
        (W.place i (iA : Int) (iB : Int)).2.1 := rfl
      rw [e3, (W.place_twin i (iA : Int) _).2, e4]
      unfold World.Triple at ht
      unfold World.diag
      show W.see (W.place i iA iB).1 _ _ = _
      cases hs : W.see (W.place i iA iB).1 (twin W.order (W.place i iA iB).2.1) (twin W.order (W.place i iA iB).2.2) with
      | none => exact absurd hs ht
      | some m => rfl
    rw [p0, p1, p2, p3]

/-- Averaging the exchanged field gives each node of the grid the mean over its copies. -/
theorem World.averageAll_field (hW : W.Tiled) (turn : Int × Int × Int → Bool → Bool) (hM : W.Mutual turn) (v w : W.Field)
    (m c k : Nat) (hc : c < m) (hk : k < W.levels) (hw : ∀ i, w i c = W.exchange v i c) (n : Int × Int × Int)
    (hn : n ∈ W.nodes) : W.field (W.averageAll m w) c k n = W.mean (W.field v c k) n := by
  obtain ⟨p, g, h⟩ := n
  obtain ⟨i, hi⟩ := W.contains_some hW p g h hn
  have hc' := (W.contains_iff hW i p g h).mp hi
  obtain ⟨a1, ⟨a2, a3⟩, a4, a5⟩ := hc'
  obtain ⟨s1, s2, -⟩ := hW.shape i
  rw [add_mul] at a3 a5
  obtain ⟨iA, hA⟩ : ∃ iA : Nat, (iA : Int) = g - (W.tile i).eA * W.order + W.halo :=
    ⟨(g - (W.tile i).eA * W.order + W.halo).toNat, by omega⟩
  obtain ⟨iB, hB⟩ : ∃ iB : Nat, (iB : Int) = h - (W.tile i).eB * W.order + W.halo :=
    ⟨(h - (W.tile i).eB * W.order + W.halo).toNat, by omega⟩
  have hI : Horiz.Interior (W.tile i).M.G.S iA iB := by
    unfold Horiz.Interior
    rw [s1, s2]
    zify
    refine ⟨?_, ?_, ?_, ?_⟩ <;> linarith
  have hp : (p, g, h) = W.place i iA iB := by
    unfold World.place
    rw [a1, hA, hB]
    simp
  rw [hp, W.field_own hW _ c k i iA iB hI]
  unfold World.averageAll
  rw [if_pos ⟨hc, hk⟩]
  refine W.average_at hW turn hM i _ _ (fun a b ha hb n hn => ?_) iA iB hI
  rw [hw i]
  refine W.exchange_at hW v i c a.toNat b.toNat k n ?_
  rw [Int.toNat_of_nonneg ha, Int.toNat_of_nonneg hb]
  exact hn

/-! ### Mass over the nodes of the grid -/

theorem World.mass_nodes (hW : W.Tiled) (a b : ℝ) (density : Int → Int → ℝ) (hD : W.Measured a b density) (c : Nat)
    (v : W.Field) : W.mass c v =
      ∑ k ∈ Finset.range W.levels, a * b * W.level k * ∑ n ∈ W.nodes, W.cell density n * W.field v c k n := by
  have ho : (2 : Int) ≤ W.order := by exact_mod_cast hW.order
  unfold World.mass
  have e1 : ∀ k, a * b * W.level k * ∑ n ∈ W.nodes, W.cell density n * W.field v c k n =
      ∑ n, ∑ x ∈ Finset.range (W.tile n).M.G.S.elemA, ∑ y ∈ Finset.range (W.tile n).M.G.S.elemB,
        ∑ i ∈ Finset.range W.order, ∑ j ∈ Finset.range W.order, W.nodeMass n v c x y k i j := by
    intro k
    rw [← W.sum_tiles hW]
    simp only [Finset.mul_sum]
    refine Finset.sum_congr rfl fun t _ => Finset.sum_congr rfl fun x hx => Finset.sum_congr rfl fun y hy =>
      Finset.sum_congr rfl fun i hi => Finset.sum_congr rfl fun j hj => ?_
    rw [Finset.mem_range] at hx hy hi hj
    obtain ⟨s1, s2, -⟩ := hW.shape t
    have row : ∀ m x i : Nat, x < m → i < W.order → W.halo + x * W.order + i < W.halo + m * W.order := by
      intro m x i hx hi
      have : (x + 1) * W.order ≤ m * W.order := Nat.mul_le_mul_right _ hx
      rw [Nat.succ_mul] at this
      omega
    have hI : Horiz.Interior (W.tile t).M.G.S (W.halo + x * W.order + i) (W.halo + y * W.order + j) := by
      unfold Horiz.Interior
      rw [s1, s2]
      have r1 := row _ x i hx hi
      have r2 := row _ y j hy hj
      omega
    have rw' : ∀ e x i : Nat, i < W.order →
        W.rowWeight (((W.halo + x * W.order + i : Nat) : Int) - W.halo + e * W.order) = W.weight i := by
      intro e x i hi
      unfold World.rowWeight
      have : (((W.halo + x * W.order + i : Nat) : Int) - W.halo + e * W.order) = i + W.order * (x + e) := by
        push_cast; ring
      rw [this, Int.add_mul_emod_self_left, Int.emod_eq_of_lt (by omega) (by omega)]
      rfl
    rw [W.field_own hW v c k t _ _ hI]
    unfold World.nodeMass World.cell World.place
    simp only
    rw [hD.jacobian t _ _ hI, rw' _ _ _ hi, rw' _ _ _ hj, (hD.width t).1, (hD.width t).2]
    ring
  rw [Finset.sum_congr rfl fun k _ => e1 k]
  symm
  rw [Finset.sum_comm]
  refine Finset.sum_congr rfl fun n _ => ?_
  rw [Finset.sum_comm]
  refine Finset.sum_congr rfl fun x _ => ?_
  rw [Finset.sum_comm]

/-- Summation conserves mass. -/
theorem World.averageAll_mass (hW : W.Tiled) (turn : Int × Int × Int → Bool → Bool) (hM : W.Mutual turn) (a b : ℝ)
    (density : Int → Int → ℝ) (hD : W.Measured a b density)
    (hA : ∀ d n, n ∈ W.nodes → W.cell density (W.op d n) = W.cell density n)
    (hB : ∀ n, n ∈ W.nodes → ¬ W.Triple n → W.cell density (W.diag n) = W.cell density n) (v w : W.Field)
    (m c : Nat) (hc : c < m) (hw : ∀ i, w i c = W.exchange v i c) : W.mass c (W.averageAll m w) = W.mass c v := by
  rw [W.mass_nodes hW a b density hD, W.mass_nodes hW a b density hD]
  refine Finset.sum_congr rfl fun k hk => ?_
  rw [Finset.mem_range] at hk
  congr 1
  have := mean_conserved W.nodes W.Triple W.op turn W.diag (W.cell density) (W.field v c k) hM.closed hM.back hM.dclosed
    hM.triple hA hB
  rw [← this]
  refine Finset.sum_congr rfl fun n hn => ?_
  rw [W.averageAll_field hW turn hM v w m c k hc hk hw n hn]
  rfl

end Verif.Whole
