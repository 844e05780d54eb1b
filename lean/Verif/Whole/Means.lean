import Verif.Whole.Points
import Verif.Whole.Conserve
import Verif.Halo.Props

/-!
# Means over the copies of a point
-/

namespace Verif.Whole

open Verif.Dss (twin twin_twin)
open Halo (Node Momenta Placed Components coord angle copies Line)
open Verif.Panel (relativeCoord)

variable (W : World)

theorem World.at_place (i : Fin W.count) (iA iB : Nat) : W.at_ i iA iB = W.place i iA iB := rfl

theorem World.at_mem (hW : W.Tiled) (i : Fin W.count) (iA iB : Nat) (hI : Horiz.Interior (W.tile i).M.G.S iA iB) :
    W.at_ i iA iB ∈ W.nodes :=
  W.contains_node hW i _ _ _ (W.place_in hW i iA iB hI)

/-- Every field is held by some function of the nodes. -/
theorem World.holds_field (hW : W.Tiled) (v : W.Field) (c k : Nat) : W.Holds v c k (W.field v c k) :=
  fun i iA iB hI => (W.field_own hW v c k i iA iB hI).symm

theorem World.holds_iff (hW : W.Tiled) (v : W.Field) (c k : Nat) (f : Node → ℝ) :
    W.Holds v c k f ↔ ∀ n ∈ W.nodes, W.field v c k n = f n := by
  constructor
  · rintro h ⟨p, g, j⟩ hn
    obtain ⟨i, hi⟩ := W.contains_some hW p g j hn
    obtain ⟨a1, ⟨a2, a3⟩, a4, a5⟩ := (W.contains_iff hW i p g j).mp hi
    obtain ⟨s1, s2, -⟩ := hW.shape i
    rw [add_mul] at a3 a5
    obtain ⟨iA, hA⟩ : ∃ iA : Nat, (iA : Int) = g - (W.tile i).eA * W.order + W.halo :=
      ⟨(g - (W.tile i).eA * W.order + W.halo).toNat, by omega⟩
    obtain ⟨iB, hB⟩ : ∃ iB : Nat, (iB : Int) = j - (W.tile i).eB * W.order + W.halo :=
      ⟨(j - (W.tile i).eB * W.order + W.halo).toNat, by omega⟩
    have hI : Horiz.Interior (W.tile i).M.G.S iA iB := by
      unfold Horiz.Interior
      rw [s1, s2]
      zify
      refine ⟨?_, ?_, ?_, ?_⟩ <;> linarith
    have hp : (p, g, j) = W.place i iA iB := by
      unfold World.place
      rw [a1, hA, hB]
      simp
    rw [hp, W.field_own hW v c k i iA iB hI, h i iA iB hI]
    rfl
  · intro h i iA iB hI
    rw [← W.field_own hW v c k i iA iB hI]
    exact h _ (W.at_mem hW i iA iB hI)

/-! ### Sphere -/

theorem World.nodes_sphere (hW : W.Tiled) (hk : W.kind = .sphere) : W.nodes = Halo.allNodes W.order W.elemA := by
  unfold World.nodes Halo.allNodes
  rw [← hW.square hk, hk]
  rfl

theorem World.see_owner (hk : W.kind = .sphere) (p g h : Int) (n : Node) (hn : W.see p g h = some n) :
    Halo.owner (W.order * W.elemA) p g h = n := by
  unfold World.see at hn
  rw [hk] at hn
  simp only at hn
  unfold Halo.owner
  cases hr : relativeCoord (W.order * W.elemA) p g h with
  | none => rw [hr] at hn; cases hn
  | some r =>
    rw [hr] at hn
    simp only at hn ⊢
    split at hn
    · cases hn
    · exact Option.some.inj hn

theorem World.triple_cube (hW : W.Tiled) (hk : W.kind = .sphere) (p g h : Int) (hn : (p, g, h) ∈ W.nodes) :
    W.Triple (p, g, h) ↔ Halo.AtCube (W.order * W.elemA) g h := by
  have ho : (2 : Int) ≤ W.order := by exact_mod_cast hW.order
  rw [W.mem_nodes, ← hW.square hk] at hn
  obtain ⟨⟨p0, p1⟩, ⟨g0, g1⟩, h0, h1⟩ := hn
  have hp : Panel.IsPanel p := by
    rw [hk] at p1
    have : p < 6 := p1
    exact ⟨p0, by omega⟩
  have hg := twin_stays W.order W.elemA g ho g0 g1
  have hh := twin_stays W.order W.elemA h ho h0 h1
  have N0 : 0 < (W.order : Int) * W.elemA := by omega
  unfold World.Triple Halo.AtCube
  dsimp only
  constructor
  · intro ht
    by_contra hc
    have reach : Panel.Reach (W.order * W.elemA) (twin W.order g, twin W.order h) := by
      unfold Panel.Reach
      simp only
      have tg := twin_low W.order g g0
      have th := twin_low W.order h h0
      rcases hg with hg | hg | hg <;> rcases hh with hh | hh | hh <;> omega
    obtain ⟨r, hr, -, on⟩ := Panel.C31_valid (W.order * W.elemA) p _ _ hp reach
    unfold World.see at ht
    rw [hk] at ht
    simp only at ht
    rw [hr] at ht
    simp only at ht
    rw [if_neg (by
      unfold Panel.OnPanel at on
      simp only at on
      omega)] at ht
    cases ht
  · rintro ⟨a, b⟩
    refine W.see_out hk _ _ _ ?_ ?_
    · rcases a with rfl | rfl
      · left; rw [twin_zero W.order ho]; omega
      · right; rw [twin_end W.order W.elemA ho]
    · rcases b with rfl | rfl
      · left; rw [twin_zero W.order ho]; omega
      · right; rw [twin_end W.order W.elemA ho]

/-- The mean over copies is the mean over the nodes at the point. -/
theorem World.mean_sphere (hW : W.Tiled) (hk : W.kind = .sphere) (x : Nat → ℝ) (L : Line W.order W.elemA x)
    (f : Node → ℝ) (n : Node) (hn : n ∈ W.nodes) : W.mean f n = meanOver (copies W.order W.elemA x n) f := by
  have hM := W.mutual_sphere hW hk
  obtain ⟨p, g, h⟩ := n
  have hn' := hn
  rw [W.mem_nodes, ← hW.square hk] at hn'
  obtain ⟨⟨p0, p1⟩, ⟨g0, g1⟩, h0, h1⟩ := hn'
  have hp : Panel.IsPanel p := by
    rw [hk] at p1
    have : p < 6 := p1
    exact ⟨p0, by omega⟩
  have mo := Halo.mean_owner L (fun n => (f n, 0, 0)) p hp g h g0 g1 h0 h1
  have e : (Halo.meanVector W.order W.elemA x (fun n => (f n, 0, 0)) (p, g, h)).1 =
      meanOver (copies W.order W.elemA x (p, g, h)) f := by
    unfold Halo.meanVector meanOver
    rw [Prod.smul_fst, Prod.fst_sum, smul_eq_mul]
    simp only
    ring
  have o0 := W.see_owner hk p g h _ (W.see_self hW (p, g, h) hn)
  have o1 := W.see_owner hk p _ _ _ (hM.seen true (p, g, h) hn)
  have o2 := W.see_owner hk p _ _ _ (hM.seen false (p, g, h) hn)
  simp only [World.shift, if_true, Bool.false_eq_true, if_false] at o1 o2
  rw [← e]
  unfold World.mean
  by_cases ht : W.Triple (p, g, h)
  · rw [if_pos ht, mo.2 ((W.triple_cube hW hk p g h hn).mp ht), o0, o1, o2]
    simp only [Prod.smul_fst, Prod.fst_add, smul_eq_mul]
    ring
  · have o3 : Halo.owner (W.order * W.elemA) p (twin W.order g) (twin W.order h) = W.diag (p, g, h) := by
      refine W.see_owner hk _ _ _ _ ?_
      unfold World.diag
      unfold World.Triple at ht
      cases hs : W.see p (twin W.order g) (twin W.order h) with
      | none => exact absurd hs ht
      | some m => simp [hs]
    rw [if_neg ht, mo.1 (fun hc => ht ((W.triple_cube hW hk p g h hn).mpr hc)), o0, o1, o2, o3]
    simp only [Prod.smul_fst, Prod.fst_add, smul_eq_mul]
    ring

end Verif.Whole
