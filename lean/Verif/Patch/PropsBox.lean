/-
C60: sizes and index ranges of a patch box.
-/
import Verif.Patch.Spec
import Mathlib.Data.List.Nodup
import Mathlib.Tactic.Ring
import Mathlib.Tactic.Linarith

namespace Verif.Patch

open Verif.Exchange (up down)

theorem contains_iff {x : Box} {p a b : Int} : x.contains p a b = true ↔
    p = x.panel ∧ (x.aGlobalInteriorBegin ≤ a ∧ a < x.aGlobalInteriorEnd) ∧
      (x.bGlobalInteriorBegin ≤ b ∧ b < x.bGlobalInteriorEnd) := by
  unfold Box.contains
  by_cases hp : p = x.panel
  · rw [if_neg (by simpa using hp)]
    split <;> simp_all
  · rw [if_pos hp]; simp [hp]

/-- **C60.**  A box built from an interior range reports that range back; the total range is the interior range
widened by the halo on both sides; the local interior range has the same width as the global one and starts
after the halo. -/
theorem C60_ranges (p l h a0 a1 b0 b1 : Int) :
    let x := Box.make p l h a0 a1 b0 b1
    (x.panel = p ∧ x.level = l ∧ x.halo = h) ∧
    (x.aGlobalInteriorBegin = a0 ∧ x.aGlobalInteriorEnd = a1 ∧ x.bGlobalInteriorBegin = b0 ∧ x.bGlobalInteriorEnd = b1) ∧
    (x.aGlobalBegin = a0 - h ∧ x.aGlobalEnd = a1 + h ∧ x.bGlobalBegin = b0 - h ∧ x.bGlobalEnd = b1 + h) ∧
    (x.aInteriorWidth = a1 - a0 ∧ x.bInteriorWidth = b1 - b0) ∧
    (x.aTotalWidth = a1 - a0 + 2 * h ∧ x.bTotalWidth = b1 - b0 + 2 * h) ∧
    (x.aInteriorBegin = h ∧ x.aInteriorEnd = h + (a1 - a0) ∧ x.bInteriorBegin = h ∧ x.bInteriorEnd = h + (b1 - b0)) ∧
    x.interiorPerimeter = 2 * (a1 - a0) + 2 * (b1 - b0) := by
  simp only [Box.make, Box.aGlobalInteriorBegin, Box.aGlobalInteriorEnd, Box.bGlobalInteriorBegin,
    Box.bGlobalInteriorEnd, Box.aGlobalBegin, Box.aGlobalEnd, Box.bGlobalBegin, Box.bGlobalEnd, Box.aInteriorWidth,
    Box.bInteriorWidth, Box.aTotalWidth, Box.bTotalWidth, Box.aInteriorBegin, Box.aInteriorEnd, Box.bInteriorBegin,
    Box.bInteriorEnd, Box.interiorPerimeter]
  refine ⟨⟨trivial, trivial, trivial⟩, ⟨?_, ?_, ?_, ?_⟩, ⟨trivial, trivial, trivial, trivial⟩, ⟨?_, ?_⟩, ⟨?_, ?_⟩,
    ⟨trivial, ?_, trivial, ?_⟩, ?_⟩ <;> ring

/-- **C60 (conversion).**  Adding the global begin turns local into global indices: local interior nodes become
exactly the global interior nodes, i.e. the points the box says it contains, and local array indices exactly the
global range with halo. -/
theorem C60_local_global (x : Box) (i j : Int) :
    (InteriorNode x i j ↔ x.contains x.panel (x.aGlobalBegin + i) (x.bGlobalBegin + j) = true) ∧
    ((0 ≤ i ∧ i < x.aTotalWidth) ↔ (x.aGlobalBegin ≤ x.aGlobalBegin + i ∧ x.aGlobalBegin + i < x.aGlobalEnd)) ∧
    ((0 ≤ j ∧ j < x.bTotalWidth) ↔ (x.bGlobalBegin ≤ x.bGlobalBegin + j ∧ x.bGlobalBegin + j < x.bGlobalEnd)) := by
  rw [contains_iff]
  simp only [InteriorNode, Box.aGlobalInteriorBegin, Box.aGlobalInteriorEnd, Box.bGlobalInteriorBegin,
    Box.bGlobalInteriorEnd, Box.aGlobalBegin, Box.aGlobalEnd, Box.bGlobalBegin, Box.bGlobalEnd,
    Box.aTotalWidth, Box.bTotalWidth, Box.aInteriorBegin, Box.aInteriorEnd, Box.bInteriorBegin,
    Box.bInteriorEnd, true_and]
  omega

theorem mem_up {a b i : Int} : i ∈ up a b ↔ a ≤ i ∧ i < b := by
  simp only [up, List.mem_map, List.mem_range]
  constructor
  · rintro ⟨n, h, rfl⟩; omega
  · intro h; exact ⟨(i - a).toNat, by omega, by omega⟩

theorem mem_down {a b i : Int} : i ∈ down a b ↔ a ≤ i ∧ i < b := by
  simp only [down, List.mem_map, List.mem_range]
  constructor
  · rintro ⟨n, h, rfl⟩; omega
  · intro h; exact ⟨(b - 1 - i).toNat, by omega, by omega⟩

theorem nodup_up (a b : Int) : (up a b).Nodup := by
  unfold up
  apply List.Nodup.map _ List.nodup_range
  intro x y h; simp at h; exact h

theorem nodup_down (a b : Int) : (down a b).Nodup := by
  unfold down
  apply List.Nodup.map _ List.nodup_range
  intro x y h; simp at h; exact h

theorem length_up (a b : Int) : (up a b).length = (b - a).toNat := by simp [up]
theorem length_down (a b : Int) : (down a b).length = (b - a).toNat := by simp [down]

/-- **C60 (counts).**  The node counts are the number of array nodes: the number of pairs of a global alpha index
and a global beta index in the range with halo. -/
theorem C60_total_nodes (x : Box) (ha : 0 ≤ x.aTotalWidth) (hb : 0 ≤ x.bTotalWidth) :
    x.totalNodes = ((up x.aGlobalBegin x.aGlobalEnd).flatMap fun i =>
      (up x.bGlobalBegin x.bGlobalEnd).map fun j => (i, j)).length ∧
    x.totalNodeCount2D = x.totalNodes := by
  refine ⟨?_, rfl⟩
  simp only [List.length_flatMap, List.length_map, length_up]
  rw [show (fun (_ : Int) => (x.bGlobalEnd - x.bGlobalBegin).toNat) =
    Function.const Int (x.bGlobalEnd - x.bGlobalBegin).toNat from rfl, List.map_const, List.sum_replicate_nat, length_up]
  unfold Box.totalNodes
  simp only [Box.aTotalWidth, Box.bTotalWidth, Box.aGlobalBegin, Box.aGlobalEnd, Box.bGlobalBegin,
    Box.bGlobalEnd] at *
  push_cast
  rw [Int.toNat_of_nonneg ha, Int.toNat_of_nonneg hb]

/-- **C60 (perimeter).**  The list of nodes around a patch has the length the code expects. -/
theorem C60_perimeter_length (x : Box) (ha : 0 ≤ x.aInteriorWidth) (hb : 0 ≤ x.bInteriorWidth) :
    ((perimeter x).length : Int) = x.interiorPerimeter + 4 := by
  simp only [perimeter, List.length_append, List.length_map, length_up, length_down, List.length_cons, List.length_nil,
    Box.interiorPerimeter, Box.aInteriorWidth, Box.bInteriorWidth, Box.aGlobalInteriorBegin,
    Box.aGlobalInteriorEnd, Box.bGlobalInteriorBegin, Box.bGlobalInteriorEnd] at *
  omega

/-- **C60 (perimeter).**  It contains exactly the nodes outside the interior that touch it, straight or diagonally
(are within one of the interior range in both directions). -/
theorem C60_perimeter_mem (x : Box) (ha : 0 ≤ x.aInteriorWidth) (hb : 0 ≤ x.bInteriorWidth) (p a b : Int) :
    (p, a, b) ∈ perimeter x ↔
      p = x.panel ∧ x.contains p a b = false ∧
      (x.aGlobalInteriorBegin - 1 ≤ a ∧ a ≤ x.aGlobalInteriorEnd) ∧
      (x.bGlobalInteriorBegin - 1 ≤ b ∧ b ≤ x.bGlobalInteriorEnd) := by
  have hc : x.contains p a b = false ↔ ¬ (p = x.panel ∧ (x.aGlobalInteriorBegin ≤ a ∧ a < x.aGlobalInteriorEnd) ∧
      (x.bGlobalInteriorBegin ≤ b ∧ b < x.bGlobalInteriorEnd)) := by
    rw [← contains_iff, Bool.not_eq_true]
  rw [hc]
  simp only [perimeter, List.mem_append, List.mem_map, List.mem_singleton, mem_up, mem_down, Prod.mk.injEq]
  have ha' : x.aGlobalInteriorBegin ≤ x.aGlobalInteriorEnd := by
    simp only [Box.aInteriorWidth, Box.aGlobalInteriorBegin, Box.aGlobalInteriorEnd] at *; omega
  have hb' : x.bGlobalInteriorBegin ≤ x.bGlobalInteriorEnd := by
    simp only [Box.bInteriorWidth, Box.bGlobalInteriorBegin, Box.bGlobalInteriorEnd] at *; omega
  generalize x.aGlobalInteriorBegin = a0 at *
  generalize x.aGlobalInteriorEnd = a1 at *
  generalize x.bGlobalInteriorBegin = b0 at *
  generalize x.bGlobalInteriorEnd = b1 at *
  constructor
  · rintro (((((((h | ⟨i, h, e⟩) | h) | ⟨i, h, e⟩) | h) | ⟨i, h, e⟩) | h) | ⟨i, h, e⟩) <;> omega
  · rintro ⟨hp, hn, h1, h2⟩
    subst hp
    have hn' : ¬ ((a0 ≤ a ∧ a < a1) ∧ b0 ≤ b ∧ b < b1) := fun h => hn ⟨rfl, h.1, h.2⟩
    rcases Int.lt_or_le a a0 with h3 | h3
    · rcases Int.lt_or_le b b0 with h4 | h4
      · left; left; left; left; left; left; left; exact ⟨rfl, by omega, by omega⟩
      · rcases Int.lt_or_le b b1 with h5 | h5
        · right; exact ⟨b, ⟨h4, h5⟩, rfl, by omega, rfl⟩
        · left; right; exact ⟨rfl, by omega, by omega⟩
    · rcases Int.lt_or_le a a1 with h6 | h6
      · rcases Int.lt_or_le b b0 with h4 | h4
        · left; left; left; left; left; left; right; exact ⟨a, ⟨h3, h6⟩, rfl, rfl, by omega⟩
        · left; left; right; exact ⟨a, ⟨h3, h6⟩, rfl, rfl, by omega⟩
      · rcases Int.lt_or_le b b0 with h4 | h4
        · left; left; left; left; left; right; exact ⟨rfl, by omega, by omega⟩
        · rcases Int.lt_or_le b b1 with h5 | h5
          · left; left; left; left; right; exact ⟨b, ⟨h4, h5⟩, rfl, by omega, rfl⟩
          · left; left; left; right; exact ⟨rfl, by omega, by omega⟩

/-- A 4 by 6 interior with halo 1: 20 nodes around it, 48 nodes in all. -/
example : (perimeter (Box.make 2 0 1 4 8 0 6)).length = 24 ∧ (Box.make 2 0 1 4 8 0 6).totalNodes = 48 ∧
    (2, 3, 6) ∈ perimeter (Box.make 2 0 1 4 8 0 6) := by decide

/-- **C60 (grid counts).**  The grid totals are the sum and the maximum of the counts of its boxes. -/
theorem C60_grid_counts (rows : List Box) :
    totalNodeCount2D rows = (rows.map Box.totalNodeCount2D).sum ∧
    (∀ x ∈ rows, x.totalNodeCount2D ≤ maxNodeCount2D rows) ∧
    (maxNodeCount2D rows = 0 ∨ ∃ x ∈ rows, x.totalNodeCount2D = maxNodeCount2D rows) := by
  have h1 : ∀ (l : List Box) (m : Int), l.foldl (fun m x => m + x.totalNodeCount2D) m =
      m + (l.map Box.totalNodeCount2D).sum := by
    intro l
    induction l with
    | nil => intro m; simp
    | cons x l ih => intro m; rw [List.foldl_cons, ih, List.map_cons, List.sum_cons]; ring
  have h2 : ∀ (l : List Box) (m : Int),
      let r := l.foldl (fun m x => if x.totalNodeCount2D > m then x.totalNodeCount2D else m) m
      m ≤ r ∧ (∀ x ∈ l, x.totalNodeCount2D ≤ r) ∧ (r = m ∨ ∃ x ∈ l, x.totalNodeCount2D = r) := by
    intro l
    induction l with
    | nil => intro m; simp
    | cons x l ih =>
      intro m
      simp only [List.foldl_cons]
      obtain ⟨i1, i2, i3⟩ := ih (if x.totalNodeCount2D > m then x.totalNodeCount2D else m)
      generalize List.foldl _ _ l = r at *
      by_cases hc : x.totalNodeCount2D > m
      · rw [if_pos hc] at i1 i3
        refine ⟨by omega, ?_, ?_⟩
        · intro y hy
          rcases List.mem_cons.1 hy with rfl | hy
          · exact i1
          · exact i2 y hy
        · rcases i3 with i3 | ⟨y, hy, e⟩
          · right; exact ⟨x, List.mem_cons_self, i3.symm⟩
          · right; exact ⟨y, List.mem_cons_of_mem _ hy, e⟩
      · rw [if_neg hc] at i1 i3
        refine ⟨i1, ?_, ?_⟩
        · intro y hy
          rcases List.mem_cons.1 hy with rfl | hy
          · omega
          · exact i2 y hy
        · rcases i3 with i3 | ⟨y, hy, e⟩
          · left; exact i3
          · right; exact ⟨y, List.mem_cons_of_mem _ hy, e⟩
  refine ⟨by rw [totalNodeCount2D, h1]; simp, (h2 rows 0).2.1, (h2 rows 0).2.2⟩

example : totalNodeCount2D [Box.make 0 0 1 0 4 0 4, Box.make 0 0 1 4 8 0 4] = 72 ∧
    maxNodeCount2D [Box.make 0 0 1 0 4 0 4, Box.make 0 0 1 4 6 0 4] = 36 := by decide

end Verif.Patch
