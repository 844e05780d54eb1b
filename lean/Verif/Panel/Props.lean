/-
C30 and C31: the direction tables and the index crossings of the cubed sphere.
-/
import Verif.Panel.Spec
import Mathlib.Tactic.IntervalCases
import Mathlib.Tactic.Linarith

namespace Verif.Panel

open Verif.Exchange (Dir)

/-! ### C30 -/

/-- **C30.**  Crossing edge `d` of panel `p` reaches panel `q`, by every table that answers this question; the
opposing direction is the one in which `q` reaches `p`, going back reaches `p`, and the opposing direction of the
opposing direction is `d`. -/
theorem C30_edges (p : Int) (hp : IsPanel p) (d : Dir) (hd : IsEdge d) :
    ∃ q d', panelFromDirection p d = some q ∧ IsPanel q ∧ q ≠ p ∧ IsEdge d' ∧
      opposingDirection p q d = some d' ∧ relativePanel p d = some (q, d') ∧
      directionFromPanel p q = some d ∧ directionFromPanel q p = some d' ∧
      panelFromDirection q d' = some p ∧ opposingDirection q p d' = some d := by
  obtain ⟨h0, h5⟩ := hp
  interval_cases p <;> rcases hd with rfl | rfl | rfl | rfl <;>
    exact ⟨_, _, rfl, by unfold IsPanel; decide, by decide, by unfold IsEdge; decide, rfl, rfl, rfl, rfl, rfl, rfl⟩

/-- **C30 (all directions).**  Whenever the opposing direction of `d` (edge, diagonal or middle) from panel `p` to
panel `q` is defined for a pair of panels that are equal or adjacent in that direction, going back gives `d`. For
an edge direction `q` must be the panel reached; for a diagonal direction either panel the tables accept. -/
theorem C30_involutive (p q : Int) (hp : IsPanel p) (hq : IsPanel q) (d d' : Dir)
    (hd : IsEdge d → q = p ∨ panelFromDirection p d = some q) (h : opposingDirection p q d = some d') :
    opposingDirection q p d' = some d := by
  obtain ⟨h0, h5⟩ := hp
  obtain ⟨g0, g5⟩ := hq
  interval_cases p <;> interval_cases q <;> cases d <;> revert hd h <;> unfold IsEdge <;> cases d' <;> decide

/-- **C30 (diagonals).**  A diagonal opposing direction across two panels is defined exactly when the destination
panel is the one beyond one of the two edges meeting in that corner, and is itself a diagonal. -/
theorem C30_diagonals (p q : Int) (hp : IsPanel p) (hq : IsPanel q) (hne : p ≠ q) (d e₁ e₂ : Dir)
    (hd : (d, e₁, e₂) ∈ [(Dir.topRight, Dir.top, Dir.right), (.topLeft, .top, .left),
      (.bottomLeft, .bottom, .left), (.bottomRight, .bottom, .right)]) :
    ((∃ d', opposingDirection p q d = some d' ∧ ¬ IsEdge d' ∧ d' ≠ .middle ∧ d' ≠ .unreachable) ↔
      panelFromDirection p e₁ = some q ∨ panelFromDirection p e₂ = some q) := by
  obtain ⟨h0, h5⟩ := hp
  obtain ⟨g0, g5⟩ := hq
  have key : ∀ o : Option Dir, (∃ d', o = some d' ∧ ¬ IsEdge d' ∧ d' ≠ .middle ∧ d' ≠ .unreachable) ↔
      (o = some .topRight ∨ o = some .topLeft ∨ o = some .bottomLeft ∨ o = some .bottomRight) := by
    intro o
    constructor
    · rintro ⟨d', rfl, h1, h2, h3⟩
      revert h1 h2 h3; unfold IsEdge; cases d' <;> decide
    · rintro (rfl | rfl | rfl | rfl) <;> exact ⟨_, rfl, by unfold IsEdge; decide⟩
  rw [key]
  simp only [List.mem_cons, List.not_mem_nil, or_false, Prod.mk.injEq] at hd
  rcases hd with ⟨rfl, rfl, rfl⟩ | ⟨rfl, rfl, rfl⟩ | ⟨rfl, rfl, rfl⟩ | ⟨rfl, rfl, rfl⟩ <;>
    interval_cases p <;> interval_cases q <;> revert hne <;> decide

/-- **C30 (opposite).**  On a single panel (Cartesian grid, or patches of one cubed sphere panel) the opposing
direction undoes an increment. -/
theorem C30_opposite (d : Dir) (n m : Int × Int) (h : directionIncrement d n = some m) :
    directionIncrement (directionOpposite d) m = some n ∧ directionOpposite (directionOpposite d) = d := by
  obtain ⟨i, j⟩ := n
  cases d <;> simp [directionIncrement] at h <;> subst h <;>
    simp [directionIncrement, directionOpposite]

/-- **C30 (both grids).**  The direction reported to the exchange code for two patches is the table's; on the
Cartesian grid it is the geometric opposite without any reversal. -/
theorem C30_grids (p q : Int) (d : Dir) :
    (IsPanel p → IsPanel q → csOpposing p q d =
      (opposingDirection p q d).map fun o => (o, switchParallel p q, switchPerpendicular p q)) ∧
    (IsPanel p → d ≠ .middle → d ≠ .unreachable → cartOpposing p p d = some (directionOpposite d, false, false)) := by
  constructor
  · rintro ⟨h0, h5⟩ ⟨g0, g5⟩
    unfold csOpposing
    rw [if_neg (by omega), if_neg (by omega)]
  · rintro ⟨h0, h5⟩ h1 h2
    unfold cartOpposing
    rw [if_neg (by omega), if_neg (by omega), if_neg (by simp)]
    cases d <;> first | rfl | contradiction

-- from panel 1 over its top edge to panel 4, whose right edge it is
example : panelFromDirection 1 .top = some 4 ∧ opposingDirection 1 4 .top = some .right ∧
    panelFromDirection 4 .right = some 1 := by decide

/-! ### C31 -/

theorem rel_right {N p i j : Int} (hi : N ≤ i) (h0 : 0 ≤ j) (h1 : j < N) :
    relativeCoord N p i j =
      if p = 0 then some ⟨1, i - N, j, false, false, false⟩
      else if p = 1 then some ⟨2, i - N, j, false, false, false⟩
      else if p = 2 then some ⟨3, i - N, j, false, false, false⟩
      else if p = 3 then some ⟨0, i - N, j, false, false, false⟩
      else if p = 4 then some ⟨1, j, 2 * N - 1 - i, true, false, true⟩
      else if p = 5 then some ⟨1, N - 1 - j, i - N, true, true, false⟩
      else none := by
  unfold relativeCoord
  rw [if_neg (by omega), if_neg (by omega)]
  simp only [if_pos hi]

theorem rel_top {N p i j : Int} (hj : N ≤ j) (h0 : 0 ≤ i) (h1 : i < N) :
    relativeCoord N p i j =
      if p = 0 then some ⟨4, i, j - N, false, false, false⟩
      else if p = 1 then some ⟨4, 2 * N - 1 - j, i, true, false, true⟩
      else if p = 2 then some ⟨4, N - i - 1, 2 * N - 1 - j, false, true, true⟩
      else if p = 3 then some ⟨4, j - N, N - i - 1, true, true, false⟩
      else if p = 4 then some ⟨2, N - 1 - i, 2 * N - 1 - j, false, true, true⟩
      else if p = 5 then some ⟨0, i, j - N, false, false, false⟩
      else none := by
  unfold relativeCoord
  rw [if_neg (by omega), if_neg (by omega)]
  simp only [if_neg (show ¬ N ≤ i by omega), if_pos hj]

theorem rel_left {N p i j : Int} (hi : i < 0) (h0 : 0 ≤ j) (h1 : j < N) :
    relativeCoord N p i j =
      if p = 0 then some ⟨3, i + N, j, false, false, false⟩
      else if p = 1 then some ⟨0, i + N, j, false, false, false⟩
      else if p = 2 then some ⟨1, i + N, j, false, false, false⟩
      else if p = 3 then some ⟨2, i + N, j, false, false, false⟩
      else if p = 4 then some ⟨3, N - 1 - j, i + N, true, true, false⟩
      else if p = 5 then some ⟨3, j, -i - 1, true, false, true⟩
      else none := by
  unfold relativeCoord
  rw [if_neg (by omega), if_neg (by omega)]
  simp only [if_neg (show ¬ N ≤ i by omega), if_neg (show ¬ N ≤ j by omega), if_pos hi]

theorem rel_bottom {N p i j : Int} (hj : j < 0) (h0 : 0 ≤ i) (h1 : i < N) :
    relativeCoord N p i j =
      if p = 0 then some ⟨5, i, j + N, false, false, false⟩
      else if p = 1 then some ⟨5, N + j, N - 1 - i, true, true, false⟩
      else if p = 2 then some ⟨5, N - i - 1, -j - 1, false, true, true⟩
      else if p = 3 then some ⟨5, -j - 1, i, true, false, true⟩
      else if p = 4 then some ⟨0, i, j + N, false, false, false⟩
      else if p = 5 then some ⟨2, N - 1 - i, -j - 1, false, true, true⟩
      else none := by
  unfold relativeCoord
  rw [if_neg (by omega), if_neg (by omega)]
  simp only [if_neg (show ¬ N ≤ i by omega), if_neg (show ¬ N ≤ j by omega), if_neg (show ¬ i < 0 by omega)]

theorem crossing (N p q k t : Int) (hp : IsPanel p) (d d' : Dir) (hd : IsEdge d) (hk : 0 ≤ k) (ht : 0 ≤ t)
    (ht' : t < N) (hq : panelFromDirection p d = some q) (ho : opposingDirection p q d = some d') :
    relativeCoord N p (outside N d k t).1 (outside N d k t).2 =
      some ⟨q, (inside N d' k (if switchParallel p q then N - 1 - t else t)).1,
        (inside N d' k (if switchParallel p q then N - 1 - t else t)).2,
        alongAlpha d != alongAlpha d', switchParallel p q, switchPerpendicular p q⟩ := by
  obtain ⟨h0, h5⟩ := hp
  have hqv := hq
  interval_cases p <;> rcases hd with rfl | rfl | rfl | rfl <;>
  · simp [panelFromDirection] at hq
    subst hq
    simp [opposingDirection] at ho
    subst ho
    simp only [outside]
    first
      | rw [rel_right (by omega) ht ht']
      | rw [rel_top (by omega) ht ht']
      | rw [rel_left (by omega) ht ht']
      | rw [rel_bottom (by omega) ht ht']
    simp [switchParallel, switchPerpendicular, inside, alongAlpha] <;> omega

theorem switch_symm (p q : Int) (hp : IsPanel p) (hq : IsPanel q) : switchParallel q p = switchParallel p q := by
  obtain ⟨h0, h5⟩ := hp
  obtain ⟨g0, g5⟩ := hq
  interval_cases p <;> interval_cases q <;> rfl

/-- **C31.**  The node at depth `k` outside edge `d` of panel `p`, at position `t` along it, is the node at the same
depth inside the opposing edge of the neighbouring panel, at the same position, or at the mirrored position if
the parallel direction switches; the reported flags say exactly which coordinates switch; and the mirror image of
that node, at depth `k` outside the neighbour's edge, is the node at depth `k` inside edge `d` of panel `p`. -/
theorem C31_crossing (N p k t : Int) (hp : IsPanel p) (d : Dir) (hd : IsEdge d) (hk : 0 ≤ k) (hk' : k < N)
    (ht : 0 ≤ t) (ht' : t < N) :
    ∃ q d' t' r r', panelFromDirection p d = some q ∧ opposingDirection p q d = some d' ∧
      t' = (if r.switchPar then N - 1 - t else t) ∧
      relativeCoord N p (outside N d k t).1 (outside N d k t).2 = some r ∧ place r = (q, inside N d' k t') ∧
      r.switchPerp = (positive d == positive d') ∧ r.switchAB = (alongAlpha d != alongAlpha d') ∧
      csOpposing p q d = some (d', r.switchPar, r.switchPerp) ∧
      relativeCoord N q (outside N d' k t').1 (outside N d' k t').2 = some r' ∧ place r' = (p, inside N d k t) ∧
      OnPanel N (inside N d k t) ∧ OnPanel N (inside N d' k t') := by
  obtain ⟨q, d', h1, h2, h3, h4, h5, _, _, _, h9, h10⟩ := C30_edges p hp d hd
  have hc := crossing N p q k t hp d d' hd hk ht ht' h1 h5
  have ht1 : 0 ≤ (if switchParallel p q then N - 1 - t else t) ∧ (if switchParallel p q then N - 1 - t else t) < N := by
    split_ifs <;> omega
  have hc' := crossing N q p k _ h2 d' d h4 hk ht1.1 ht1.2 h9 h10
  refine ⟨q, d', _, _, _, h1, h5, rfl, hc, rfl, ?_, rfl, ?_, hc', ?_, ?_, ?_⟩
  · clear hc hc' ht1
    obtain ⟨a, b⟩ := hp
    interval_cases p <;> rcases hd with rfl | rfl | rfl | rfl <;>
    · simp [panelFromDirection] at h1
      subst h1
      simp [opposingDirection] at h5
      subst h5
      rfl
  · rw [(C30_grids p q d).1 hp h2, h5]; rfl
  · rw [switch_symm p q hp h2]
    simp only [place]
    by_cases hs : switchParallel p q = true
    · simp only [hs, if_true]
      rw [show N - 1 - (N - 1 - t) = t by omega]
    · simp only [hs, Bool.false_eq_true, if_false]
  · rcases hd with rfl | rfl | rfl | rfl <;> simp only [OnPanel, inside] <;> omega
  · simp only
    rcases h4 with rfl | rfl | rfl | rfl <;> simp only [OnPanel, inside] <;> omega

/-- **C31 (validity).**  Every index up to one panel beyond an edge is reported as a node of one of the six
panels: the panel itself for an index inside. -/
theorem C31_valid (N p i j : Int) (hp : IsPanel p) (h : Reach N (i, j)) :
    ∃ r, relativeCoord N p i j = some r ∧ IsPanel r.panel ∧ OnPanel N (r.ix, r.jx) ∧
      (OnPanel N (i, j) → place r = (p, i, j)) ∧ (¬ OnPanel N (i, j) → r.panel ≠ p) := by
  by_cases hin : OnPanel N (i, j)
  · refine ⟨⟨p, i, j, false, false, false⟩, ?_, hp, hin, fun _ => rfl, fun h => absurd hin h⟩
    obtain ⟨a, b, c, d⟩ := hin
    unfold relativeCoord
    exact if_pos ⟨c, a, d, b⟩
  · have : ∃ d k t, IsEdge d ∧ 0 ≤ k ∧ k < N ∧ 0 ≤ t ∧ t < N ∧ outside N d k t = (i, j) := by
      unfold Reach at h
      unfold OnPanel at hin
      simp only at h hin
      rcases h with h | h
      · by_cases hi : i < 0
        · exact ⟨.left, -1 - i, j, by simp [IsEdge], by omega, by omega, by omega, by omega, by simp [outside]⟩
        · exact ⟨.right, i - N, j, by simp [IsEdge], by omega, by omega, by omega, by omega, by simp [outside]⟩
      · by_cases hj : j < 0
        · exact ⟨.bottom, -1 - j, i, by simp [IsEdge], by omega, by omega, by omega, by omega, by simp [outside]⟩
        · exact ⟨.top, j - N, i, by simp [IsEdge], by omega, by omega, by omega, by omega, by simp [outside]⟩
    obtain ⟨d, k, t, hd, hk, hk', ht, ht', ho⟩ := this
    obtain ⟨q, d', t', r, r', h1, _, _, h3, h4, _, _, _, _, _, _, h9⟩ := C31_crossing N p k t hp d hd hk hk' ht ht'
    obtain ⟨q2, d2, g1, g2, g3, _⟩ := C30_edges p hp d hd
    rw [h1] at g1
    cases g1
    rw [ho] at h3
    have hq : r.panel = q := congrArg Prod.fst h4
    have hn : (r.ix, r.jx) = inside N d' k t' := congrArg Prod.snd h4
    refine ⟨r, h3, by rw [hq]; exact g2, by rw [hn]; exact h9, fun h => absurd h hin, fun _ => by rw [hq]; exact g3⟩

/-- **C31 (injectivity).**  Two different indices up to one panel beyond an edge denote different nodes. -/
theorem C31_injective (N p : Int) (hp : IsPanel p) (i j i' j' : Int) (h : Reach N (i, j)) (h' : Reach N (i', j'))
    (r r' : Rel) (hr : relativeCoord N p i j = some r) (hr' : relativeCoord N p i' j' = some r')
    (he : place r = place r') : i = i' ∧ j = j' := by
  obtain ⟨s, hs, _, _, s3, s4⟩ := C31_valid N p i j hp h
  obtain ⟨s', hs', _, _, s3', s4'⟩ := C31_valid N p i' j' hp h'
  rw [hr] at hs; cases hs
  rw [hr'] at hs'; cases hs'
  have hpan : r.panel = r'.panel := congrArg Prod.fst he
  have hix : r.ix = r'.ix := congrArg (fun x => x.2.1) he
  have hjx : r.jx = r'.jx := congrArg (fun x => x.2.2) he
  by_cases hin : OnPanel N (i, j)
  · by_cases hin' : OnPanel N (i', j')
    · have a := s3 hin
      have b := s3' hin'
      rw [he, b] at a
      simp only [Prod.mk.injEq, true_and] at a
      exact ⟨a.1.symm, a.2.symm⟩
    · have a : r.panel = p := congrArg Prod.fst (s3 hin)
      exact absurd (hpan.symm.trans a) (s4' hin')
  · by_cases hin' : OnPanel N (i', j')
    · have a : r'.panel = p := congrArg Prod.fst (s3' hin')
      exact absurd (hpan.trans a) (s4 hin)
    · clear s3 s3' s4 s4' he
      unfold OnPanel at hin hin'
      unfold Reach at h h'
      simp only at hin hin' h h'
      obtain ⟨a, b⟩ := hp
      have c : (N ≤ i ∧ 0 ≤ j ∧ j < N) ∨ (N ≤ j ∧ 0 ≤ i ∧ i < N) ∨ (i < 0 ∧ 0 ≤ j ∧ j < N) ∨ (j < 0 ∧ 0 ≤ i ∧ i < N) := by
        omega
      have c' : (N ≤ i' ∧ 0 ≤ j' ∧ j' < N) ∨ (N ≤ j' ∧ 0 ≤ i' ∧ i' < N) ∨ (i' < 0 ∧ 0 ≤ j' ∧ j' < N) ∨
          (j' < 0 ∧ 0 ≤ i' ∧ i' < N) := by omega
      clear h h' hin hin'
      rcases c with ⟨c1, c2, c3⟩ | ⟨c1, c2, c3⟩ | ⟨c1, c2, c3⟩ | ⟨c1, c2, c3⟩ <;>
      rcases c' with ⟨d1, d2, d3⟩ | ⟨d1, d2, d3⟩ | ⟨d1, d2, d3⟩ | ⟨d1, d2, d3⟩ <;>
      (first | rw [rel_right c1 c2 c3] at hr | rw [rel_top c1 c2 c3] at hr | rw [rel_left c1 c2 c3] at hr | rw [rel_bottom c1 c2 c3] at hr) <;>
      (first | rw [rel_right d1 d2 d3] at hr' | rw [rel_top d1 d2 d3] at hr' | rw [rel_left d1 d2 d3] at hr' | rw [rel_bottom d1 d2 d3] at hr') <;>
      interval_cases p <;> simp at hr hr' <;> subst hr <;> subst hr' <;> simp only at hpan hix hjx <;> omega

/-- **C31 (corners).**  An index outside by both coordinates is reported invalid, on every panel and at every
distance. -/
theorem C31_corner (N p i j : Int) (hi : i < 0 ∨ N ≤ i) (hj : j < 0 ∨ N ≤ j) :
    ∃ r, relativeCoord N p i j = some r ∧ place r = (-1, -1, -1) ∧ ¬ IsPanel r.panel := by
  refine ⟨⟨invalidPanel, -1, -1, false, false, false⟩, ?_, rfl, ?_⟩
  · unfold relativeCoord
    rw [if_neg (by omega), if_pos ⟨hi, hj⟩]
  · unfold IsPanel invalidPanel; simp

-- panel 5, one row below its bottom edge: panel 2, bottom row, mirrored
example : (relativeCoord 8 5 3 (-1)).map place = some (2, 4, 0) ∧ (relativeCoord 8 2 4 (-1)).map place = some (5, 3, 0) := by
  decide

example : Reach 8 (3, -1) ∧ ¬ OnPanel 8 (3, -1) := by unfold Reach OnPanel; decide

end Verif.Panel
