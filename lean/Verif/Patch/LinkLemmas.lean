/-
Lemmas for C67 and C68: neighbours in the default layout of the cubed sphere.
-/
import Verif.Patch.LinkSpec
import Verif.Patch.PropsConn

namespace Verif.Patch

open Verif.Exchange (Dir Res)
open Verif.Panel (csOpposing IsPanel IsEdge)

/-- Global node at depth `k` outside side `dir` of box `(i, j)` with `w` by `w` nodes. -/
def haloG (w i j : Int) (dir : Dir) (k t : Int) : Int × Int :=
  match dir with
  | .right => (w * i + w + k, w * j + t)
  | .left => (w * i - 1 - k, w * j + t)
  | .top => (w * i + t, w * j + w + k)
  | .bottom => (w * i + t, w * j - 1 - k)
  | _ => (0, 0)

/-- Global node at depth `k` inside side `dir`. -/
def intG (w i j : Int) (dir : Dir) (k t : Int) : Int × Int :=
  match dir with
  | .right => (w * i + w - 1 - k, w * j + t)
  | .left => (w * i + k, w * j + t)
  | .top => (w * i + t, w * j + w - 1 - k)
  | .bottom => (w * i + t, w * j + k)
  | _ => (0, 0)

theorem in_range {w d i : Int} (hw : 0 < w) (h0 : 0 ≤ i) (h1 : i < d) : 0 ≤ w * i ∧ w * i + w ≤ w * d := by
  constructor
  · positivity
  · nlinarith

theorem located_here {N p a b : Int} {c : Int × Int} (ha : 0 ≤ a ∧ a < N) (hb : 0 ≤ b ∧ b < N) (hc : c = (a, b)) :
    Located N p a b (some (p, c)) := by
  subst hc; exact .here ha hb

theorem located_across {N p q k t : Int} (hp : IsPanel p) {d d' : Dir} (hd : IsEdge d) (hk : 0 ≤ k)
    (ht : 0 ≤ t) (ht' : t < N) (hq : Panel.panelFromDirection p d = some q)
    (ho : Panel.opposingDirection p q d = some d') :
    Located N p (Panel.outside N d k t).1 (Panel.outside N d k t).2
      (some (q, Panel.inside N d' k (if Panel.switchParallel p q then N - 1 - t else t))) := by
  have := Panel.crossing N p q k t hp d d' hd hk ht ht' hq ho
  refine .across ?_ ?_ this
  · rcases hd with rfl | rfl | rfl | rfl <;> simp only [Panel.outside] <;> omega
  · rcases hd with rfl | rfl | rfl | rfl <;> simp only [Panel.outside] <;> omega

/-- The neighbour across side `dir` of box `(q, i, j)`. -/
theorem edge_core (w d : Int) (hw : 0 < w) (q i j : Int) (hq : IsPanel q) (hi : 0 ≤ i ∧ i < d) (hj : 0 ≤ j ∧ j < d)
    (dir : Dir) (hd : IsEdge dir) :
    ∃ q' i' j' dir' rev, IsPanel q' ∧ (0 ≤ i' ∧ i' < d) ∧ (0 ≤ j' ∧ j' < d) ∧ IsEdge dir' ∧
      (∃ f, csOpposing q q' dir = some (dir', rev, f)) ∧ (∃ f, csOpposing q' q dir' = some (dir, rev, f)) ∧
      (∀ k t, 0 ≤ k → k < w → 0 ≤ t → t < w → Located (w * d) q (haloG w i j dir k t).1 (haloG w i j dir k t).2
        (some (q', intG w i' j' dir' k (if rev then w - 1 - t else t)))) ∧
      (∀ k t, 0 ≤ k → k < w → 0 ≤ t → t < w → Located (w * d) q' (haloG w i' j' dir' k t).1 (haloG w i' j' dir' k t).2
        (some (q, intG w i j dir k (if rev then w - 1 - t else t)))) := by
  have hi' := in_range hw hi.1 hi.2
  have hj' := in_range hw hj.1 hj.2
  by_cases hin : (dir = .right ∧ i + 1 < d) ∨ (dir = .left ∧ 0 < i) ∨ (dir = .top ∧ j + 1 < d) ∨ (dir = .bottom ∧ 0 < j)
  · -- within the panel
    have hop : ∀ e : Dir, IsEdge e → csOpposing q q e = some (Panel.directionOpposite e, false, false) := by
      intro e he
      rw [(Panel.C30_grids q q e).1 hq hq]
      obtain ⟨h0, h5⟩ := hq
      interval_cases q <;> rcases he with rfl | rfl | rfl | rfl <;> rfl
    rcases hin with ⟨rfl, h⟩ | ⟨rfl, h⟩ | ⟨rfl, h⟩ | ⟨rfl, h⟩
    · have e : w * (i + 1) = w * i + w := by ring
      have hr := in_range hw (show 0 ≤ i + 1 by omega) h
      refine ⟨q, i + 1, j, .left, false, hq, ⟨by omega, h⟩, hj, by unfold IsEdge; decide, ⟨_, hop _ hd⟩,
        ⟨_, hop _ (by unfold IsEdge; decide)⟩, ?_, ?_⟩ <;>
      · intro k t k0 k1 t0 t1
        apply located_here <;> simp only [haloG, intG, Bool.false_eq_true, if_false, e, Prod.mk.injEq, and_true, true_and] <;> omega
    · have e : w * (i - 1) = w * i - w := by ring
      have hr := in_range hw (show 0 ≤ i - 1 by omega) (show i - 1 < d by omega)
      refine ⟨q, i - 1, j, .right, false, hq, ⟨by omega, by omega⟩, hj, by unfold IsEdge; decide, ⟨_, hop _ hd⟩,
        ⟨_, hop _ (by unfold IsEdge; decide)⟩, ?_, ?_⟩ <;>
      · intro k t k0 k1 t0 t1
        apply located_here <;> simp only [haloG, intG, Bool.false_eq_true, if_false, e, Prod.mk.injEq, and_true, true_and] <;> omega
    · have e : w * (j + 1) = w * j + w := by ring
      have hr := in_range hw (show 0 ≤ j + 1 by omega) h
      refine ⟨q, i, j + 1, .bottom, false, hq, hi, ⟨by omega, h⟩, by unfold IsEdge; decide, ⟨_, hop _ hd⟩,
        ⟨_, hop _ (by unfold IsEdge; decide)⟩, ?_, ?_⟩ <;>
      · intro k t k0 k1 t0 t1
        apply located_here <;> simp only [haloG, intG, Bool.false_eq_true, if_false, e, Prod.mk.injEq, and_true, true_and] <;> omega
    · have e : w * (j - 1) = w * j - w := by ring
      have hr := in_range hw (show 0 ≤ j - 1 by omega) (show j - 1 < d by omega)
      refine ⟨q, i, j - 1, .top, false, hq, hi, ⟨by omega, by omega⟩, by unfold IsEdge; decide, ⟨_, hop _ hd⟩,
        ⟨_, hop _ (by unfold IsEdge; decide)⟩, ?_, ?_⟩ <;>
      · intro k t k0 k1 t0 t1
        apply located_here <;> simp only [haloG, intG, Bool.false_eq_true, if_false, e, Prod.mk.injEq, and_true, true_and] <;> omega
  · -- across the edge of the panel
    obtain ⟨q', dir', e1, hq', -, hd', e2, -, -, -, e3, e4⟩ := Panel.C30_edges q hq dir hd
    have hsym := Panel.switch_symm q q' hq hq'
    have o1 : csOpposing q q' dir = some (dir', Panel.switchParallel q q', Panel.switchPerpendicular q q') := by
      rw [(Panel.C30_grids q q' dir).1 hq hq', e2]; rfl
    have o2 : csOpposing q' q dir' = some (dir, Panel.switchParallel q q', Panel.switchPerpendicular q' q) := by
      rw [(Panel.C30_grids q' q dir').1 hq' hq, e4, hsym]; rfl
    -- position of the box along the edge, here and there
    obtain ⟨pos, hpos, hL⟩ : ∃ pos, (0 ≤ pos ∧ pos < d) ∧ ∀ k t, haloG w i j dir k t = Panel.outside (w * d) dir k (w * pos + t) ∧
        intG w i j dir k t = Panel.inside (w * d) dir k (w * pos + t) := by
      rcases hd with rfl | rfl | rfl | rfl
      · have : w * i + w = w * d := by rw [show d = i + 1 by simp at hin; omega]; ring
        refine ⟨j, hj, fun k t => ?_⟩
        simp only [haloG, Panel.outside, intG, Panel.inside, Prod.mk.injEq, and_true, true_and, mul_zero]; omega
      · have : w * j + w = w * d := by rw [show d = j + 1 by simp at hin; omega]; ring
        refine ⟨i, hi, fun k t => ?_⟩
        simp only [haloG, Panel.outside, intG, Panel.inside, Prod.mk.injEq, and_true, true_and, mul_zero]; omega
      · have : w * i = 0 := by rw [show i = 0 by simp at hin; omega]; ring
        refine ⟨j, hj, fun k t => ?_⟩
        simp only [haloG, Panel.outside, intG, Panel.inside, Prod.mk.injEq, and_true, true_and, mul_zero]; omega
      · have : w * j = 0 := by rw [show j = 0 by simp at hin; omega]; ring
        refine ⟨i, hi, fun k t => ?_⟩
        simp only [haloG, Panel.outside, intG, Panel.inside, Prod.mk.injEq, and_true, true_and, mul_zero]; omega
    obtain ⟨pos', hpos', hrel, hrel'⟩ : ∃ pos', (0 ≤ pos' ∧ pos' < d) ∧
        (∀ t, (if Panel.switchParallel q q' then w * d - 1 - (w * pos + t) else w * pos + t) =
          w * pos' + (if Panel.switchParallel q q' then w - 1 - t else t)) ∧
        (∀ t, (if Panel.switchParallel q q' then w * d - 1 - (w * pos' + t) else w * pos' + t) =
          w * pos + (if Panel.switchParallel q q' then w - 1 - t else t)) := by
      by_cases hs : Panel.switchParallel q q' = true
      · refine ⟨d - 1 - pos, ⟨by omega, by omega⟩, fun t => ?_, fun t => ?_⟩ <;> rw [if_pos hs, if_pos hs] <;> ring
      · refine ⟨pos, hpos, fun t => ?_, fun t => ?_⟩ <;> rw [if_neg hs, if_neg hs]
    obtain ⟨i', j', hi1, hj1, hL'⟩ : ∃ i' j', (0 ≤ i' ∧ i' < d) ∧ (0 ≤ j' ∧ j' < d) ∧
        ∀ k t, haloG w i' j' dir' k t = Panel.outside (w * d) dir' k (w * pos' + t) ∧
          intG w i' j' dir' k t = Panel.inside (w * d) dir' k (w * pos' + t) := by
      have e : w * (d - 1) = w * d - w := by ring
      rcases hd' with rfl | rfl | rfl | rfl
      · refine ⟨d - 1, pos', ⟨by omega, by omega⟩, hpos', fun k t => ?_⟩
        simp only [haloG, Panel.outside, intG, Panel.inside, Prod.mk.injEq, and_true, true_and, mul_zero]; omega
      · refine ⟨pos', d - 1, hpos', ⟨by omega, by omega⟩, fun k t => ?_⟩
        simp only [haloG, Panel.outside, intG, Panel.inside, Prod.mk.injEq, and_true, true_and, mul_zero]; omega
      · refine ⟨0, pos', ⟨by omega, by omega⟩, hpos', fun k t => ?_⟩
        simp only [haloG, Panel.outside, intG, Panel.inside, Prod.mk.injEq, and_true, true_and, mul_zero]; omega
      · refine ⟨pos', 0, hpos', ⟨by omega, by omega⟩, fun k t => ?_⟩
        simp only [haloG, Panel.outside, intG, Panel.inside, Prod.mk.injEq, and_true, true_and, mul_zero]; omega
    have hp1 := in_range hw hpos.1 hpos.2
    have hp2 := in_range hw hpos'.1 hpos'.2
    refine ⟨q', i', j', dir', Panel.switchParallel q q', hq', hi1, hj1, hd', ⟨_, o1⟩, ⟨_, o2⟩, ?_, ?_⟩
    · intro k t k0 k1 t0 t1
      have := located_across (N := w * d) (k := k) (t := w * pos + t) hq hd k0 (by omega) (by omega) e1 e2
      rw [hrel] at this
      rw [(hL k t).1, (hL' k _).2]
      exact this
    · intro k t k0 k1 t0 t1
      have := located_across (N := w * d) (k := k) (t := w * pos' + t) hq' hd' k0 (by omega) (by omega) e3 e4
      rw [hsym, hrel'] at this
      rw [(hL' k t).1, (hL k _).2]
      exact this

end Verif.Patch
