/-
Lemmas for C68: diagonal neighbours in the default layout of the cubed sphere.
-/
import Verif.Patch.LinkLemmas

namespace Verif.Patch

open Verif.Exchange (Dir Res)
open Verif.Panel (csOpposing IsPanel IsEdge)

/-- Global node at depths `u`, `v` outside corner `c` of box `(i, j)`. -/
def cHaloG (w i j : Int) (c : Dir) (u v : Int) : Int × Int :=
  match c with
  | .topRight => (w * i + w + u, w * j + w + v)
  | .topLeft => (w * i - 1 - u, w * j + w + v)
  | .bottomLeft => (w * i - 1 - u, w * j - 1 - v)
  | .bottomRight => (w * i + w + u, w * j - 1 - v)
  | _ => (0, 0)

/-- Global node at depths `u`, `v` inside corner `c`. -/
def cIntG (w i j : Int) (c : Dir) (u v : Int) : Int × Int :=
  match c with
  | .topRight => (w * i + w - 1 - u, w * j + w - 1 - v)
  | .topLeft => (w * i + u, w * j + w - 1 - v)
  | .bottomLeft => (w * i + u, w * j + v)
  | .bottomRight => (w * i + w - 1 - u, w * j + v)
  | _ => (0, 0)

/-- The corner at the upper (`up`) or lower end of a side. -/
def cornerDir (e : Dir) (up : Bool) : Dir :=
  match e, up with
  | .right, true => .topRight
  | .right, false => .bottomRight
  | .left, true => .topLeft
  | .left, false => .bottomLeft
  | .top, true => .topRight
  | .top, false => .topLeft
  | .bottom, true => .bottomRight
  | .bottom, false => .bottomLeft
  | _, _ => .middle

/-- The box at position `pos` of side `e` of a panel. -/
def sideBox (d : Int) (e : Dir) (pos : Int) : Int × Int :=
  match e with
  | .right => (d - 1, pos)
  | .left => (0, pos)
  | .top => (pos, d - 1)
  | .bottom => (pos, 0)
  | _ => (0, 0)

/-- The tables for a corner next to an edge of the panel. -/
theorem corner_table (q : Int) (hq : IsPanel q) (e : Dir) (he : IsEdge e) (up : Bool) :
    ∃ q' e', IsPanel q' ∧ IsEdge e' ∧ q' ≠ q ∧ Panel.panelFromDirection q e = some q' ∧ Panel.panelFromDirection q' e' = some q ∧
      Panel.opposingDirection q q' e = some e' ∧ Panel.opposingDirection q' q e' = some e ∧
      Panel.opposingDirection q q' (cornerDir e up) = some (cornerDir e' (up == Panel.switchParallel q q')) ∧
      Panel.opposingDirection q' q (cornerDir e' (up == Panel.switchParallel q q')) = some (cornerDir e up) ∧
      ((q, q') ∈ transposedPairs ↔ (Panel.alongAlpha e != Panel.alongAlpha e') ≠ Panel.switchParallel q q') := by
  obtain ⟨h0, h5⟩ := hq
  interval_cases q <;> rcases he with rfl | rfl | rfl | rfl <;> cases up <;>
    exact ⟨_, _, by unfold IsPanel; decide, by unfold IsEdge; decide, by decide, rfl, rfl, rfl, rfl, rfl, rfl, by decide⟩

/-- A halo node beside the corner: it is beyond edge `e` of the panel only. -/
theorem corner_halo (w d : Int) (e : Dir) (he : IsEdge e) (pos : Int) (up : Bool) (u v : Int) :
    cHaloG w (sideBox d e pos).1 (sideBox d e pos).2 (cornerDir e up) (if Panel.alongAlpha e then v else u)
      (if Panel.alongAlpha e then u else v) =
    Panel.outside (w * d) e v (if up then w * pos + w + u else w * pos - 1 - u) := by
  have e1 : w * (d - 1) = w * d - w := by ring
  rcases he with rfl | rfl | rfl | rfl <;> cases up <;>
    simp [sideBox, cornerDir, cHaloG, Panel.alongAlpha, Panel.outside, e1]

theorem corner_int (w d : Int) (e : Dir) (he : IsEdge e) (pos : Int) (up : Bool) (u v : Int) :
    cIntG w (sideBox d e pos).1 (sideBox d e pos).2 (cornerDir e up) (if Panel.alongAlpha e then v else u)
      (if Panel.alongAlpha e then u else v) =
    Panel.inside (w * d) e v (if up then w * pos + w - 1 - u else w * pos + u) := by
  have e1 : w * (d - 1) = w * d - w := by ring
  rcases he with rfl | rfl | rfl | rfl <;> cases up <;>
    simp [sideBox, cornerDir, cIntG, Panel.alongAlpha, Panel.inside, e1]

/-- What a corner is linked to, in global nodes. -/
structure CornerStep (w d q i j : Int) (c : Dir) (q' i' j' : Int) (c' : Dir) (rev swap : Bool) : Prop where
  panel : IsPanel q'
  hi : 0 ≤ i' ∧ i' < d
  hj : 0 ≤ j' ∧ j' < d
  opp : ∃ f, csOpposing q q' c = some (c', rev, f)
  opp' : ∃ f, csOpposing q' q c' = some (c, rev, f)
  forth : ∀ u v, 0 ≤ u → u < w → 0 ≤ v → v < w → Located (w * d) q (cHaloG w i j c u v).1 (cHaloG w i j c u v).2
    (some (q', cIntG w i' j' c' (if swap then v else u) (if swap then u else v)))
  back : ∀ u v, 0 ≤ u → u < w → 0 ≤ v → v < w → Located (w * d) q' (cHaloG w i' j' c' u v).1 (cHaloG w i' j' c' u v).2
    (some (q, cIntG w i j c (if swap then v else u) (if swap then u else v)))

theorem corner_across (w d : Int) (hw : 0 < w) (q : Int) (hq : IsPanel q) (e : Dir) (he : IsEdge e) (up : Bool)
    (pos : Int) (h0 : 0 ≤ pos ∧ pos < d) (h1 : if up then pos + 1 < d else 0 < pos) :
    ∃ q' i' j' c' rev swap, CornerStep w d q (sideBox d e pos).1 (sideBox d e pos).2 (cornerDir e up) q' i' j' c' rev swap ∧
      ((q, q') ∈ transposedPairs ↔ swap ≠ rev) ∧ q' ≠ q := by
  obtain ⟨q', e', hq', he', hne, p1, p2, o1, o2, c1, c2, ht⟩ := corner_table q hq e he up
  have hsym := Panel.switch_symm q q' hq hq'
  -- the position of the neighbouring box along the other panel's edge
  obtain ⟨n, hn, hn1⟩ : ∃ n, (n = if up then pos + 1 else pos - 1) ∧ (0 ≤ n ∧ n < d) := by
    refine ⟨_, rfl, ?_⟩; cases up <;> simp at h1 ⊢ <;> omega
  obtain ⟨pos', hpos', hr⟩ : ∃ pos', (0 ≤ pos' ∧ pos' < d) ∧
      (w * pos' = if Panel.switchParallel q q' then w * d - w - w * n else w * n) := by
    by_cases hs : Panel.switchParallel q q' = true
    · refine ⟨d - 1 - n, ⟨by omega, by omega⟩, ?_⟩; rw [if_pos hs]; ring
    · refine ⟨n, hn1, ?_⟩; rw [if_neg hs]
  have hwn : w * n = if up then w * pos + w else w * pos - w := by rw [hn]; cases up <;> simp <;> ring
  have hp1 := in_range hw h0.1 h0.2
  have hp2 := in_range hw hpos'.1 hpos'.2
  have hp3 := in_range hw hn1.1 hn1.2
  refine ⟨q', (sideBox d e' pos').1, (sideBox d e' pos').2, cornerDir e' (up == Panel.switchParallel q q'),
    Panel.switchParallel q q', Panel.alongAlpha e != Panel.alongAlpha e', ⟨hq', ?_, ?_, ⟨Panel.switchPerpendicular q q', ?_⟩, ⟨Panel.switchPerpendicular q' q, ?_⟩, ?_, ?_⟩, ht, hne⟩
  · rcases he' with rfl | rfl | rfl | rfl <;> simp only [sideBox] <;> omega
  · rcases he' with rfl | rfl | rfl | rfl <;> simp only [sideBox] <;> omega
  · rw [(Panel.C30_grids q q' _).1 hq hq', c1]; rfl
  · rw [(Panel.C30_grids q' q _).1 hq' hq, c2, hsym]; rfl
  · intro u v u0 u1 v0 v1
    have ch := corner_halo w d e he pos up (if Panel.alongAlpha e then v else u) (if Panel.alongAlpha e then u else v)
    have ci := corner_int w d e' he' pos' (up == Panel.switchParallel q q') (if Panel.alongAlpha e then v else u)
      (if Panel.alongAlpha e then u else v)
    have hd0 : 0 ≤ (if Panel.alongAlpha e then v else u) ∧ (if Panel.alongAlpha e then v else u) < w := by split <;> omega
    have hd1 : 0 ≤ (if Panel.alongAlpha e then u else v) ∧ (if Panel.alongAlpha e then u else v) < w := by split <;> omega
    have E1 : (if Panel.alongAlpha e = true then if Panel.alongAlpha e = true then u else v
        else if Panel.alongAlpha e = true then v else u) = u := by cases Panel.alongAlpha e <;> rfl
    have E2 : (if Panel.alongAlpha e = true then if Panel.alongAlpha e = true then v else u
        else if Panel.alongAlpha e = true then u else v) = v := by cases Panel.alongAlpha e <;> rfl
    have E3 : (if Panel.alongAlpha e' = true then if Panel.alongAlpha e = true then u else v
        else if Panel.alongAlpha e = true then v else u) = if (Panel.alongAlpha e != Panel.alongAlpha e') = true then v else u := by
      cases Panel.alongAlpha e <;> cases Panel.alongAlpha e' <;> rfl
    have E4 : (if Panel.alongAlpha e' = true then if Panel.alongAlpha e = true then v else u
        else if Panel.alongAlpha e = true then u else v) = if (Panel.alongAlpha e != Panel.alongAlpha e') = true then u else v := by
      cases Panel.alongAlpha e <;> cases Panel.alongAlpha e' <;> rfl
    rw [E1, E2] at ch
    rw [E3, E4] at ci
    rw [ch, ci]
    clear ch ci E1 E2 E3 E4
    generalize (if Panel.alongAlpha e then v else u) = s at *
    generalize (if Panel.alongAlpha e then u else v) = t at *
    have hR : 0 ≤ (if up = true then w * pos + w + s else w * pos - 1 - s) ∧
        (if up = true then w * pos + w + s else w * pos - 1 - s) < w * d := by
      cases up <;> simp at hwn ⊢ <;> omega
    have := located_across hq he hd1.1 hR.1 hR.2 p1 o1
    have E : (if Panel.switchParallel q q' = true then w * d - 1 - (if up = true then w * pos + w + s else w * pos - 1 - s)
        else (if up = true then w * pos + w + s else w * pos - 1 - s)) =
        (if (up == Panel.switchParallel q q') = true then w * pos' + w - 1 - s else w * pos' + s) := by
      rw [hr, hwn]
      cases up <;> cases Panel.switchParallel q q' <;> simp <;> ring
    rw [E] at this
    exact this
  · intro u v u0 u1 v0 v1
    have ch := corner_halo w d e' he' pos' (up == Panel.switchParallel q q') (if Panel.alongAlpha e' then v else u)
      (if Panel.alongAlpha e' then u else v)
    have ci := corner_int w d e he pos up (if Panel.alongAlpha e' then v else u) (if Panel.alongAlpha e' then u else v)
    have hd0 : 0 ≤ (if Panel.alongAlpha e' then v else u) ∧ (if Panel.alongAlpha e' then v else u) < w := by split <;> omega
    have hd1 : 0 ≤ (if Panel.alongAlpha e' then u else v) ∧ (if Panel.alongAlpha e' then u else v) < w := by split <;> omega
    have E1 : (if Panel.alongAlpha e' = true then if Panel.alongAlpha e' = true then u else v
        else if Panel.alongAlpha e' = true then v else u) = u := by cases Panel.alongAlpha e' <;> rfl
    have E2 : (if Panel.alongAlpha e' = true then if Panel.alongAlpha e' = true then v else u
        else if Panel.alongAlpha e' = true then u else v) = v := by cases Panel.alongAlpha e' <;> rfl
    have E3 : (if Panel.alongAlpha e = true then if Panel.alongAlpha e' = true then u else v
        else if Panel.alongAlpha e' = true then v else u) = if (Panel.alongAlpha e != Panel.alongAlpha e') = true then v else u := by
      cases Panel.alongAlpha e <;> cases Panel.alongAlpha e' <;> rfl
    have E4 : (if Panel.alongAlpha e = true then if Panel.alongAlpha e' = true then v else u
        else if Panel.alongAlpha e' = true then u else v) = if (Panel.alongAlpha e != Panel.alongAlpha e') = true then u else v := by
      cases Panel.alongAlpha e <;> cases Panel.alongAlpha e' <;> rfl
    rw [E1, E2] at ch
    rw [E3, E4] at ci
    rw [ch, ci]
    clear ch ci E1 E2 E3 E4
    generalize (if Panel.alongAlpha e' then v else u) = s at *
    generalize (if Panel.alongAlpha e' then u else v) = t at *
    have hR : 0 ≤ (if (up == Panel.switchParallel q q') = true then w * pos' + w + s else w * pos' - 1 - s) ∧
        (if (up == Panel.switchParallel q q') = true then w * pos' + w + s else w * pos' - 1 - s) < w * d := by
      rw [hr, hwn] at *
      cases up <;> cases Panel.switchParallel q q' <;> simp at * <;> omega
    have := located_across hq' he' hd1.1 hR.1 hR.2 p2 o2
    have E : (if Panel.switchParallel q' q = true then w * d - 1 - (if (up == Panel.switchParallel q q') = true then w * pos' + w + s else w * pos' - 1 - s)
        else (if (up == Panel.switchParallel q q') = true then w * pos' + w + s else w * pos' - 1 - s)) =
        (if up = true then w * pos + w - 1 - s else w * pos + s) := by
      rw [hr, hwn, hsym]
      cases up <;> cases Panel.switchParallel q q' <;> simp <;> ring
    rw [E] at this
    exact this

theorem opp_corner : ∀ (p q : Int) (c c' : Dir), IsPanel p → IsPanel q → c.Corner → Panel.opposingDirection p q c = some c' →
    c'.Corner := by
  intro p q c c' hp hq hc h
  obtain ⟨h0, h5⟩ := hp
  obtain ⟨g0, g5⟩ := hq
  revert h
  interval_cases p <;> interval_cases q <;> rcases hc with rfl | rfl | rfl | rfl <;>
    (unfold Dir.Corner; cases c' <;> decide)

theorem cstep_corner {w d q i j : Int} {c : Dir} {q' i' j' : Int} {c' : Dir} {rev swap : Bool} (hq : IsPanel q) (hc : c.Corner)
    (h : CornerStep w d q i j c q' i' j' c' rev swap) : c'.Corner := by
  obtain ⟨f, hf⟩ := h.opp
  rw [(Panel.C30_grids q q' _).1 hq h.panel] at hf
  cases ho : Panel.opposingDirection q q' c with
  | none => rw [ho] at hf; cases hf
  | some o =>
    rw [ho] at hf
    simp at hf
    rw [← hf.1]
    exact opp_corner q q' c o hq h.panel hc ho

/-- The diagonal neighbour of box `(q, i, j)`, if there is one. -/
theorem corner_core (w d : Int) (hw : 0 < w) (q i j : Int) (hq : IsPanel q) (hi : 0 ≤ i ∧ i < d) (hj : 0 ≤ j ∧ j < d)
    (c : Dir) (hc : c.Corner) :
    (∀ u v, 0 ≤ u → 0 ≤ v → Located (w * d) q (cHaloG w i j c u v).1 (cHaloG w i j c u v).2 none) ∨
    ∃ q' i' j' c' rev swap, CornerStep w d q i j c q' i' j' c' rev swap ∧ c'.Corner ∧
      ((q, q') ∈ transposedPairs ↔ swap ≠ rev) ∧ (q' = q → rev = false) := by
  have hi' := in_range hw hi.1 hi.2
  have hj' := in_range hw hj.1 hj.2
  have hop : ∀ e : Dir, e.Corner → csOpposing q q e = some (Panel.directionOpposite e, false, false) := by
    intro e he
    rw [(Panel.C30_grids q q e).1 hq hq]
    obtain ⟨h0, h5⟩ := hq
    interval_cases q <;> rcases he with rfl | rfl | rfl | rfl <;> rfl
  have hself : (q, q) ∉ transposedPairs := by
    obtain ⟨h0, h5⟩ := hq
    interval_cases q <;> decide
  rcases hc with rfl | rfl | rfl | rfl
  · by_cases hA : i + 1 < d
    · by_cases hB : j + 1 < d
      · right
        have e1 : w * (i + 1) = w * i + w := by ring
        have e2 : w * (j + 1) = w * j + w := by ring
        have r1 := in_range hw (show 0 ≤ i + 1 by omega) (show i + 1 < d by omega)
        have r2 := in_range hw (show 0 ≤ j + 1 by omega) (show j + 1 < d by omega)
        rw [e1] at r1
        rw [e2] at r2
        refine ⟨q, i + 1, j + 1, .bottomLeft, false, false, ⟨hq, ⟨by omega, by omega⟩, ⟨by omega, by omega⟩, ⟨_, hop _ (by simp [Dir.Corner])⟩,
          ⟨_, hop _ (by simp [Dir.Corner])⟩, ?_, ?_⟩, by simp [Dir.Corner], by simp [hself], fun _ => rfl⟩ <;>
        · intro u v u0 u1 v0 v1
          apply located_here <;>
            simp only [cHaloG, cIntG, Bool.false_eq_true, if_false, e1, e2, Prod.mk.injEq, and_true, true_and] <;> omega
      · right
        obtain ⟨q', i', j', c', rev, swap, hs, ht, hne⟩ := corner_across w d hw q hq .top (by unfold IsEdge; decide) true i hi
          (by simpa using hA)
        rw [show (sideBox d .top i).1 = i from rfl, show (sideBox d .top i).2 = j by simp only [sideBox]; omega] at hs
        exact ⟨q', i', j', c', rev, swap, hs, cstep_corner hq (by simp [Dir.Corner, cornerDir]) hs, ht, fun h => absurd h hne⟩
    · by_cases hB : j + 1 < d
      · right
        obtain ⟨q', i', j', c', rev, swap, hs, ht, hne⟩ := corner_across w d hw q hq .right (by unfold IsEdge; decide) true j hj
          (by simpa using hB)
        rw [show (sideBox d .right j).2 = j from rfl, show (sideBox d .right j).1 = i by simp only [sideBox]; omega] at hs
        exact ⟨q', i', j', c', rev, swap, hs, cstep_corner hq (by simp [Dir.Corner, cornerDir]) hs, ht, fun h => absurd h hne⟩
      · left
        have z1 : w * i + w = w * d := by rw [show i = d - 1 by omega]; ring
        have z2 : w * j + w = w * d := by rw [show j = d - 1 by omega]; ring
        intro u v u0 v0
        apply Located.nowhere <;> simp only [cHaloG] <;> omega
  · by_cases hA : 0 < i
    · by_cases hB : j + 1 < d
      · right
        have e1 : w * (i - 1) = w * i - w := by ring
        have e2 : w * (j + 1) = w * j + w := by ring
        have r1 := in_range hw (show 0 ≤ i - 1 by omega) (show i - 1 < d by omega)
        have r2 := in_range hw (show 0 ≤ j + 1 by omega) (show j + 1 < d by omega)
        rw [e1] at r1
        rw [e2] at r2
        refine ⟨q, i - 1, j + 1, .bottomRight, false, false, ⟨hq, ⟨by omega, by omega⟩, ⟨by omega, by omega⟩, ⟨_, hop _ (by simp [Dir.Corner])⟩,
          ⟨_, hop _ (by simp [Dir.Corner])⟩, ?_, ?_⟩, by simp [Dir.Corner], by simp [hself], fun _ => rfl⟩ <;>
        · intro u v u0 u1 v0 v1
          apply located_here <;>
            simp only [cHaloG, cIntG, Bool.false_eq_true, if_false, e1, e2, Prod.mk.injEq, and_true, true_and] <;> omega
      · right
        obtain ⟨q', i', j', c', rev, swap, hs, ht, hne⟩ := corner_across w d hw q hq .top (by unfold IsEdge; decide) false i hi
          (by simpa using hA)
        rw [show (sideBox d .top i).1 = i from rfl, show (sideBox d .top i).2 = j by simp only [sideBox]; omega] at hs
        exact ⟨q', i', j', c', rev, swap, hs, cstep_corner hq (by simp [Dir.Corner, cornerDir]) hs, ht, fun h => absurd h hne⟩
    · by_cases hB : j + 1 < d
      · right
        obtain ⟨q', i', j', c', rev, swap, hs, ht, hne⟩ := corner_across w d hw q hq .left (by unfold IsEdge; decide) true j hj
          (by simpa using hB)
        rw [show (sideBox d .left j).2 = j from rfl, show (sideBox d .left j).1 = i by simp only [sideBox]; omega] at hs
        exact ⟨q', i', j', c', rev, swap, hs, cstep_corner hq (by simp [Dir.Corner, cornerDir]) hs, ht, fun h => absurd h hne⟩
      · left
        have z1 : w * i = 0 := by rw [show i = 0 by omega]; ring
        have z2 : w * j + w = w * d := by rw [show j = d - 1 by omega]; ring
        intro u v u0 v0
        apply Located.nowhere <;> simp only [cHaloG] <;> omega
  · by_cases hA : 0 < i
    · by_cases hB : 0 < j
      · right
        have e1 : w * (i - 1) = w * i - w := by ring
        have e2 : w * (j - 1) = w * j - w := by ring
        have r1 := in_range hw (show 0 ≤ i - 1 by omega) (show i - 1 < d by omega)
        have r2 := in_range hw (show 0 ≤ j - 1 by omega) (show j - 1 < d by omega)
        rw [e1] at r1
        rw [e2] at r2
        refine ⟨q, i - 1, j - 1, .topRight, false, false, ⟨hq, ⟨by omega, by omega⟩, ⟨by omega, by omega⟩, ⟨_, hop _ (by simp [Dir.Corner])⟩,
          ⟨_, hop _ (by simp [Dir.Corner])⟩, ?_, ?_⟩, by simp [Dir.Corner], by simp [hself], fun _ => rfl⟩ <;>
        · intro u v u0 u1 v0 v1
          apply located_here <;>
            simp only [cHaloG, cIntG, Bool.false_eq_true, if_false, e1, e2, Prod.mk.injEq, and_true, true_and] <;> omega
      · right
        obtain ⟨q', i', j', c', rev, swap, hs, ht, hne⟩ := corner_across w d hw q hq .bottom (by unfold IsEdge; decide) false i hi
          (by simpa using hA)
        rw [show (sideBox d .bottom i).1 = i from rfl, show (sideBox d .bottom i).2 = j by simp only [sideBox]; omega] at hs
        exact ⟨q', i', j', c', rev, swap, hs, cstep_corner hq (by simp [Dir.Corner, cornerDir]) hs, ht, fun h => absurd h hne⟩
    · by_cases hB : 0 < j
      · right
        obtain ⟨q', i', j', c', rev, swap, hs, ht, hne⟩ := corner_across w d hw q hq .left (by unfold IsEdge; decide) false j hj
          (by simpa using hB)
        rw [show (sideBox d .left j).2 = j from rfl, show (sideBox d .left j).1 = i by simp only [sideBox]; omega] at hs
        exact ⟨q', i', j', c', rev, swap, hs, cstep_corner hq (by simp [Dir.Corner, cornerDir]) hs, ht, fun h => absurd h hne⟩
      · left
        have z1 : w * i = 0 := by rw [show i = 0 by omega]; ring
        have z2 : w * j = 0 := by rw [show j = 0 by omega]; ring
        intro u v u0 v0
        apply Located.nowhere <;> simp only [cHaloG] <;> omega
  · by_cases hA : i + 1 < d
    · by_cases hB : 0 < j
      · right
        have e1 : w * (i + 1) = w * i + w := by ring
        have e2 : w * (j - 1) = w * j - w := by ring
        have r1 := in_range hw (show 0 ≤ i + 1 by omega) (show i + 1 < d by omega)
        have r2 := in_range hw (show 0 ≤ j - 1 by omega) (show j - 1 < d by omega)
        rw [e1] at r1
        rw [e2] at r2
        refine ⟨q, i + 1, j - 1, .topLeft, false, false, ⟨hq, ⟨by omega, by omega⟩, ⟨by omega, by omega⟩, ⟨_, hop _ (by simp [Dir.Corner])⟩,
          ⟨_, hop _ (by simp [Dir.Corner])⟩, ?_, ?_⟩, by simp [Dir.Corner], by simp [hself], fun _ => rfl⟩ <;>
        · intro u v u0 u1 v0 v1
          apply located_here <;>
            simp only [cHaloG, cIntG, Bool.false_eq_true, if_false, e1, e2, Prod.mk.injEq, and_true, true_and] <;> omega
      · right
        obtain ⟨q', i', j', c', rev, swap, hs, ht, hne⟩ := corner_across w d hw q hq .bottom (by unfold IsEdge; decide) true i hi
          (by simpa using hA)
        rw [show (sideBox d .bottom i).1 = i from rfl, show (sideBox d .bottom i).2 = j by simp only [sideBox]; omega] at hs
        exact ⟨q', i', j', c', rev, swap, hs, cstep_corner hq (by simp [Dir.Corner, cornerDir]) hs, ht, fun h => absurd h hne⟩
    · by_cases hB : 0 < j
      · right
        obtain ⟨q', i', j', c', rev, swap, hs, ht, hne⟩ := corner_across w d hw q hq .right (by unfold IsEdge; decide) false j hj
          (by simpa using hB)
        rw [show (sideBox d .right j).2 = j from rfl, show (sideBox d .right j).1 = i by simp only [sideBox]; omega] at hs
        exact ⟨q', i', j', c', rev, swap, hs, cstep_corner hq (by simp [Dir.Corner, cornerDir]) hs, ht, fun h => absurd h hne⟩
      · left
        have z1 : w * i + w = w * d := by rw [show i = d - 1 by omega]; ring
        have z2 : w * j = 0 := by rw [show j = 0 by omega]; ring
        intro u v u0 v0
        apply Located.nowhere <;> simp only [cHaloG] <;> omega

end Verif.Patch
