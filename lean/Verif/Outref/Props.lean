/-
C97: the output on the reference grid is the state at that place.
-/
import Verif.Outref.Values
import Verif.Patch.PropsLayout
import Verif.Sphere.PropsLonLat
import Verif.Sphere.PropsVector

namespace Verif.Outref

open Polynomial
open Verif.Exchange (Res)
open Verif.Patch (Box Partition CSNode CartNode OwnedBy csLayout cartLayout csSplit)
open Verif.Column (Op applyRow identity InElement)
open Verif.Sphere (IsPanel image lonlat wind tangentA tangentB dot LonOK atPole rllFromXYP)

open Real (pi)

/-! ### The points of the file -/

/-- **C97 (points).**  The coordinates of the file are the centres of `n` equal cells between the bounds: inside, increasing,
the same distance apart and half of it from the bounds.  Entry `(k, j, i)` of a variable of the file is level `k` of the point
`(x i, y j)`. -/
theorem C97_points (lo hi : ℝ) (n : Nat) (hn : 0 < n) (hb : lo < hi) :
    (∀ i, refCoord lo hi n (i + 1) - refCoord lo hi n i = (hi - lo) / n) ∧
    refCoord lo hi n 0 - lo = (hi - lo) / n / 2 ∧ hi - refCoord lo hi n (n - 1) = (hi - lo) / n / 2 ∧
    (∀ i < n, lo < refCoord lo hi n i ∧ refCoord lo hi n i < hi) ∧
    ∀ (nX nY : Nat) (x y : Nat → ℝ), (refPoints nX nY x y).length = nX * nY ∧
      ∀ i < nX, ∀ j < nY, ∃ m, (refPoints nX nY x y)[m]? = some (x i, y j) ∧
        ∀ (D : Nat → Nat → Nat → ℝ) c k, fileEntry nX D c k j i = D c k m := by
  have hn' : (0 : ℝ) < n := by exact_mod_cast hn
  have hd : 0 < (hi - lo) / n := div_pos (by linarith) hn'
  have hmul : (hi - lo) / n * n = hi - lo := div_mul_cancel₀ _ hn'.ne'
  have hlast : hi - refCoord lo hi n (n - 1) = (hi - lo) / n / 2 := by
    unfold refCoord
    rw [Nat.cast_sub hn]
    push_cast
    linear_combination (-1 : ℝ) * hmul
  refine ⟨fun i => by unfold refCoord; push_cast; ring, by unfold refCoord; push_cast; ring, hlast, fun i hi' => ?_, fun nX nY x y => ?_⟩
  · have hi2 : (i : ℝ) + 1 ≤ n := by exact_mod_cast hi'
    have hi0 : (0 : ℝ) ≤ i := Nat.cast_nonneg i
    unfold refCoord
    generalize (hi - lo) / n = q at *
    constructor <;> nlinarith
  · have hrow : ∀ j, ((List.range nX).map fun i => (x i, y j)).length = nX := by simp
    have hlen : ∀ nY, (refPoints nX nY x y).length = nX * nY := by
      intro nY
      unfold refPoints
      rw [List.length_flatMap]
      simp [mul_comm]
    refine ⟨hlen nY, fun i hi j hj => ⟨j * nX + i, ?_, fun D c k => rfl⟩⟩
    induction nY with
    | zero => omega
    | succ nY ih =>
      have hs : refPoints nX (nY + 1) x y = refPoints nX nY x y ++ (List.range nX).map fun i => (x i, y nY) := by
        unfold refPoints; rw [List.range_succ, List.flatMap_append]; simp
      rw [hs]
      by_cases hj' : j < nY
      · rw [List.getElem?_append_left]
        · exact ih hj'
        · rw [hlen nY]
          calc j * nX + i < j * nX + nX := by omega
            _ = nX * (j + 1) := by ring
            _ ≤ nX * nY := Nat.mul_le_mul_left _ hj'
      · have e : j = nY := by omega
        rw [List.getElem?_append_right (by rw [hlen nY, e, mul_comm]; omega), hlen nY, e, mul_comm nX nY]
        simp [hi]

example : refCoord 0 360 4 1 = 135 := by norm_num [refCoord]

/-! ### The patch of a point -/

theorem whole_make {p l h : Int} {order a0 a1 b0 b1 : Nat} (ha : a0 < a1) (hb : b0 < b1) :
    Whole order (Box.make p l h (order * a0 : Nat) (order * a1 : Nat) (order * b0 : Nat) (order * b1 : Nat)) := by
  refine ⟨a0, a1, b0, b1, ?_⟩
  constructor <;> (try simp only [Box.make]) <;> first | omega | (push_cast; ring)

theorem whole_cs {rows done halo order res nPatch : Nat} {boxes : List Box} (hres : 0 < res)
    (h : csLayout rows done halo order res nPatch = .ok boxes) : ∀ x ∈ boxes, Whole order x := by
  unfold csLayout at h
  split_ifs at h with h1 h2 h3
  cases h
  intro x hx
  have hd : res % csSplit nPatch = 0 := by omega
  have hs : 0 < csSplit nPatch := by unfold csSplit; omega
  obtain ⟨q, hq⟩ := Nat.dvd_of_mod_eq_zero hd
  have hq' : res / csSplit nPatch = q := by rw [hq]; exact Nat.mul_div_cancel_left _ hs
  have hq0 : 0 < q := Nat.pos_of_ne_zero fun h => by rw [h] at hq; omega
  have lt : ∀ i, Patch.boxBegin res (csSplit nPatch) i < Patch.boxBegin res (csSplit nPatch) (i + 1) := by
    intro i
    rw [Patch.boxBegin_even _ _ i hd, Patch.boxBegin_even _ _ (i + 1) hd, hq', add_mul]; omega
  unfold Patch.csBoxes at hx
  obtain ⟨p, -, hm⟩ := List.mem_flatMap.1 hx
  obtain ⟨i, -, hm⟩ := List.mem_flatMap.1 hm
  obtain ⟨j, -, rfl⟩ := List.mem_map.1 hm
  exact whole_make (lt i) (lt j)

/-- The box with the node at the start of an element covers the element. -/
theorem owned_covers {order : Nat} (ho : 0 < order) {x : Box} {a0 a1 b0 b1 : Int} (h : Elements order x a0 a1 b0 b1) {p e f : Int}
    (hc : x.contains p (order * e) (order * f) = true) : x.panel = p ∧ a0 ≤ e ∧ e < a1 ∧ b0 ≤ f ∧ f < b1 := by
  have hp : (0 : Int) < order := by exact_mod_cast ho
  unfold Box.contains at hc
  by_cases h1 : p ≠ x.panel
  · rw [if_pos h1] at hc; simp at hc
  · rw [if_neg h1] at hc
    have hc' : order * e ≥ x.aGlobalInteriorBegin ∧ order * e < x.aGlobalInteriorEnd ∧
      order * f ≥ x.bGlobalInteriorBegin ∧ order * f < x.bGlobalInteriorEnd := by
      by_contra hn; rw [if_neg hn] at hc; simp at hc
    unfold Box.aGlobalInteriorBegin Box.aGlobalInteriorEnd Box.bGlobalInteriorBegin Box.bGlobalInteriorEnd at hc'
    rw [h.aBegin, h.aEnd, h.bBegin, h.bEnd] at hc'
    obtain ⟨c1, c2, c3, c4⟩ := hc'
    exact ⟨by simpa using (not_not.1 h1).symm, le_of_mul_le_mul_left c1 hp, lt_of_mul_lt_mul_left c2 hp.le,
      le_of_mul_le_mul_left c3 hp, lt_of_mul_lt_mul_left c4 hp.le⟩

theorem within_mono {zero delta x : ℝ} (hd : 0 < delta) {e a0 a1 : Int} (h : Within zero delta e (e + 1) x) (h0 : a0 ≤ e) (h1 : e < a1) :
    Within zero delta a0 a1 x := by
  obtain ⟨x1, x2⟩ := h
  have h0' : (a0 : ℝ) ≤ e := by exact_mod_cast h0
  have h1' : (e : ℝ) + 1 ≤ a1 := by exact_mod_cast h1
  push_cast at x2
  constructor <;> nlinarith

/-- The search finds a patch for a point of a panel whose elements are covered. -/
theorem find_partition {order resA resB : Nat} (ho : 0 < order) (hA : 0 < resA) (hB : 0 < resB) {za da zb db : ℝ} (hda : 0 < da)
    (hdb : 0 < db) {boxes : List Box} (hw : ∀ x ∈ boxes, Whole order x) {p : Int} {panel : Option Int} (hpanel : panel = none ∨ panel = some p)
    (hpart : ∀ a b : Int, 0 ≤ a → a < (order * resA : Nat) → 0 ≤ b → b < (order * resB : Nat) → ∃ n, OwnedBy boxes n p a b)
    {A B : ℝ} (hwA : Within za da 0 resA A) (hwB : Within zb db 0 resB B) :
    ∃ n x a0 a1 b0 b1, findPatch order za da zb db panel A B boxes 0 = .ok n ∧ boxes[n]? = some x ∧
      (panel = none ∨ panel = some x.panel) ∧ Elements order x a0 a1 b0 b1 ∧ Within za da a0 a1 A ∧ Within zb db b0 b1 B := by
  obtain ⟨e, e1, e2, e3⟩ := some_element hda hA (by simpa using hwA)
  obtain ⟨f, f1, f2, f3⟩ := some_element hdb hB (by simpa using hwB)
  have hp : (0 : Int) < order := by exact_mod_cast ho
  obtain ⟨n, x, hx, hc⟩ := hpart (order * e) (order * f) (by positivity)
    (by push_cast; exact mul_lt_mul_of_pos_left e2 hp) (by positivity) (by push_cast; exact mul_lt_mul_of_pos_left f2 hp)
  have hxm := List.mem_of_getElem? hx
  obtain ⟨a0, a1, b0, b1, hE⟩ := hw x hxm
  obtain ⟨q1, q2, q3, q4, q5⟩ := owned_covers ho hE hc
  obtain ⟨N, hN⟩ := findPatch_exists (order := order) (za := za) (da := da) (zb := zb) (db := db) (panel := panel) (A := A) (B := B) boxes 0
    (fun y hy => aligned_whole ho (hw y hy))
    ⟨x, hxm, by rw [q1]; exact hpanel, (covers_iff ho hE za da zb db A B).2 ⟨within_mono hda e3 q2 q3, within_mono hdb f3 q4 q5⟩⟩
  obtain ⟨-, y, hy, hpy, hcy⟩ := findPatch_ok boxes 0 N hN
  rw [Nat.sub_zero] at hy
  obtain ⟨c0, c1, d0, d1, hE'⟩ := hw y (List.mem_of_getElem? hy)
  obtain ⟨w1, w2⟩ := (covers_iff ho hE' za da zb db A B).1 hcy
  exact ⟨N, y, c0, c1, d0, d1, hN, hy, hpy, hE', w1, w2⟩

/-- **C97 (located, sphere).**  Every longitude and latitude is found: with the default layout of the cubed sphere the lookup
gives a patch and coordinates in it.  The coordinates are those of the place on the patch's panel, and the place is in the
elements of the patch. -/
theorem C97_located_sphere (rows done halo order res nPatch : Nat) (ho : 0 < order) (hr : 0 < res) (boxes : List Box)
    (h : csLayout rows done halo order res nPatch = .ok boxes) (lon lat : ℝ) :
    ∃ A B n x a0 a1 b0 b1, csCoord order res res boxes lon lat = .ok (A, B, n) ∧ boxes[n]? = some x ∧ IsPanel x.panel ∧
      image x.panel (Real.tan A) (Real.tan B) = lonlat (lon * pi / 180) (lat * pi / 180) ∧ Elements order x a0 a1 b0 b1 ∧
      Within (-(0.25 * pi)) (0.5 * pi / res) a0 a1 A ∧ Within (-(0.25 * pi)) (0.5 * pi / res) b0 b1 B := by
  obtain ⟨A, B, p, h1, hp, hA, hB, hi⟩ := Sphere.C36_total_angles (lon * pi / 180) (lat * pi / 180)
  have hr' : (0 : ℝ) < res := by exact_mod_cast hr
  have hd : 0 < 0.5 * pi / res := by have := Real.pi_pos; positivity
  have hmul : 0.5 * pi / res * res = 0.5 * pi := div_mul_cancel₀ _ hr'.ne'
  have hw : ∀ x : ℝ, |x| ≤ pi / 4 → Within (-(0.25 * pi)) (0.5 * pi / res) 0 res x := by
    intro x hx
    rw [abs_le] at hx
    constructor
    · push_cast; rw [mul_zero]; linarith [hx.1]
    · push_cast; rw [hmul]; linarith [hx.2]
  have hpart := (Patch.C25_cubed_sphere rows done halo order res nPatch boxes h).2
  obtain ⟨n, x, a0, a1, b0, b1, f1, f2, f3, f4, f5, f6⟩ := find_partition ho hr hr hd hd (whole_cs hr h) (p := p) (panel := some p) (Or.inr rfl)
    (fun a b ha ha' hb hb' => (hpart p a b).1 ⟨by unfold IsPanel at hp; omega, ⟨ha, ha'⟩, ⟨hb, hb'⟩⟩) (hw A hA) (hw B hB)
  have e : p = x.panel := by simpa using f3
  rw [e] at hp hi
  refine ⟨A, B, n, x, a0, a1, b0, b1, ?_, f2, hp, hi, f4, f5, f6⟩
  unfold csCoord
  rw [h1]
  simp only
  rw [f1]; rfl

example : ∃ boxes, csLayout 24 0 1 4 6 24 = .ok boxes := ⟨_, by
  unfold csLayout
  have : csSplit 24 = 2 := by decide
  rw [this]; simp [Patch.csBoxes_length]; rfl⟩

/-- **C97 (located, plane).**  A point of the plane is found if no patch is empty: the coordinates are its own and it is in the
elements of the patch. -/
theorem C97_located_plane (rows done halo order resA resB : Nat) (nPatch : Int) (ho : 0 < order) (hA : 0 < resA) (hB : 0 < resB)
    (x0 x1 y0 y1 : ℝ) (hx : x0 < x1) (hy : y0 < y1) (boxes : List Box)
    (h : cartLayout rows done halo order resA resB nPatch = .ok boxes) (hne : ∀ x ∈ boxes, Whole order x) (x y : ℝ)
    (hx' : x0 ≤ x ∧ x ≤ x1) (hy' : y0 ≤ y ∧ y ≤ y1) :
    ∃ n z a0 a1 b0 b1, cartCoord order resA resB x0 x1 y0 y1 boxes x y = .ok (x, y, n) ∧ boxes[n]? = some z ∧
      Elements order z a0 a1 b0 b1 ∧ Within x0 ((x1 - x0) / resA) a0 a1 x ∧ Within y0 ((y1 - y0) / resB) b0 b1 y := by
  have hA' : (0 : ℝ) < resA := by exact_mod_cast hA
  have hB' : (0 : ℝ) < resB := by exact_mod_cast hB
  have hw : ∀ {l u v : ℝ} {r : Nat}, (0 : ℝ) < r → l ≤ v ∧ v ≤ u → Within l ((u - l) / r) 0 r v := by
    intro l u v r hr hv
    constructor
    · push_cast; rw [mul_zero]; linarith [hv.1]
    · push_cast; rw [div_mul_cancel₀ _ hr.ne']; linarith [hv.2]
  have hpart := (Patch.C25_cartesian rows done halo order resA resB nPatch boxes h).2
  obtain ⟨n, z, a0, a1, b0, b1, f1, f2, f3, f4, f5, f6⟩ := find_partition ho hA hB (div_pos (by linarith) hA') (div_pos (by linarith) hB') hne
    (p := 0) (panel := none) (Or.inl rfl)
    (fun a b ha ha' hb hb' => (hpart 0 a b).1 ⟨rfl, ⟨ha, ha'⟩, ⟨hb, hb'⟩⟩) (hw hA' hx') (hw hB' hy')
  refine ⟨n, z, a0, a1, b0, b1, ?_, f2, f4, f5, f6⟩
  unfold cartCoord
  rw [f1]; rfl

example : ∃ boxes, cartLayout 3 0 1 4 6 5 3 = .ok boxes ∧ ∀ x ∈ boxes, Whole 4 x := by
  refine ⟨Patch.cartBoxes 1 4 6 5 3 1, by unfold cartLayout; simp [Patch.cartBoxes_length], fun x hx => ?_⟩
  unfold Patch.cartBoxes at hx
  obtain ⟨i, hi, hm⟩ := List.mem_flatMap.1 hx
  obtain ⟨j, hj, rfl⟩ := List.mem_map.1 hm
  rw [List.mem_range] at hi hj
  refine whole_make ?_ ?_
  · unfold Patch.boxBegin; interval_cases i <;> simp
  · unfold Patch.boxBegin; interval_cases j; simp

/-- **C97 (outside the plane).**  A point outside the plane is refused. -/
theorem C97_refused_plane (rows done halo order resA resB : Nat) (nPatch : Int) (ho : 0 < order) (hA : 0 < resA) (hB : 0 < resB)
    (x0 x1 y0 y1 : ℝ) (hx : x0 < x1) (hy : y0 < y1) (boxes : List Box)
    (h : cartLayout rows done halo order resA resB nPatch = .ok boxes) (hne : ∀ x ∈ boxes, Whole order x) (x y : ℝ)
    (hout : x < x0 ∨ x1 < x ∨ y < y0 ∨ y1 < y) : cartCoord order resA resB x0 x1 y0 y1 boxes x y = .exc := by
  have hA' : (0 : ℝ) < resA := by exact_mod_cast hA
  have hB' : (0 : ℝ) < resB := by exact_mod_cast hB
  have hpart := (Patch.C25_cartesian rows done halo order resA resB nPatch boxes h).2
  unfold cartCoord
  rw [findPatch_none boxes 0]
  · rfl
  · intro z hz _ hc
    obtain ⟨a0, a1, b0, b1, hE⟩ := hne z hz
    obtain ⟨⟨w1, w2⟩, w3, w4⟩ := (covers_iff ho hE _ _ _ _ x y).1 hc
    obtain ⟨n, hn, rfl⟩ := List.getElem_of_mem hz
    have hp : (0 : Int) < order := by exact_mod_cast ho
    have own : ∀ a b : Int, order * a0 ≤ a → a < order * a1 → order * b0 ≤ b → b < order * b1 →
        (0 ≤ a ∧ a < (order * resA : Nat)) ∧ (0 ≤ b ∧ b < (order * resB : Nat)) := by
      intro a b q1 q2 q3 q4
      refine ((hpart boxes[n].panel a b).2 ⟨n, boxes[n], by simp [hn], ?_⟩).2
      rw [Patch.contains_iff]
      unfold Box.aGlobalInteriorBegin Box.aGlobalInteriorEnd Box.bGlobalInteriorBegin Box.bGlobalInteriorEnd
      rw [hE.aBegin, hE.aEnd, hE.bBegin, hE.bEnd]
      exact ⟨rfl, ⟨q1, q2⟩, q3, q4⟩
    have s1 := hE.aSome
    have s2 := hE.bSome
    have last := own (order * a1 - 1) (order * b1 - 1)
      (by have := mul_le_mul_of_nonneg_left (show a0 + 1 ≤ a1 by omega) hp.le; rw [mul_add, mul_one] at this; omega) (by omega)
      (by have := mul_le_mul_of_nonneg_left (show b0 + 1 ≤ b1 by omega) hp.le; rw [mul_add, mul_one] at this; omega) (by omega)
    have la : a1 ≤ resA := by
      have h2 := last.1.2
      push_cast at h2
      exact le_of_mul_le_mul_left (show (order : Int) * a1 ≤ order * resA by omega) hp
    have lb : b1 ≤ resB := by
      have h2 := last.2.2
      push_cast at h2
      exact le_of_mul_le_mul_left (show (order : Int) * b1 ≤ order * resB by omega) hp
    have dA : 0 < (x1 - x0) / resA := div_pos (by linarith) hA'
    have dB : 0 < (y1 - y0) / resB := div_pos (by linarith) hB'
    have mA : (x1 - x0) / resA * resA = x1 - x0 := div_mul_cancel₀ _ hA'.ne'
    have mB : (y1 - y0) / resB * resB = y1 - y0 := div_mul_cancel₀ _ hB'.ne'
    have i1 : (0 : ℝ) ≤ a0 := by exact_mod_cast hE.aNonneg
    have i2 : (0 : ℝ) ≤ b0 := by exact_mod_cast hE.bNonneg
    have i3 : (a1 : ℝ) ≤ resA := by exact_mod_cast la
    have i4 : (b1 : ℝ) ≤ resB := by exact_mod_cast lb
    generalize (x1 - x0) / (resA : ℝ) = qa at *
    generalize (y1 - y0) / (resB : ℝ) = qb at *
    rcases hout with ho | ho | ho | ho
    · have := mul_nonneg dA.le i1; linarith
    · have := mul_le_mul_of_nonneg_left i3 dA.le; linarith
    · have := mul_nonneg dB.le i2; linarith
    · have := mul_le_mul_of_nonneg_left i4 dB.le; linarith

end Verif.Outref
