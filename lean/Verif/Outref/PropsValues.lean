/-
C97: the values of the output on the reference grid.
-/
import Verif.Outref.Props

namespace Verif.Outref

open Polynomial
open Verif.Exchange (Res)
open Verif.Patch (Box)
open Verif.Column (Op applyRow identity InElement)
open Verif.Sphere (IsPanel wind tangentA tangentB dot LonOK atPole rllFromXYP)

section
variable (G : Grid) (P : Patch) (ty : DataType) (incl conv : Bool) (only : Option Location) (rows nOut : Nat) (out : Nat → ℝ)
  (pts : List Point) (D D' : Nat → Nat → Nat → ℝ)

/-- **C97 (values).**  What a patch writes for a point that it holds is the field asked for, at that place: the column `y` at the
point of the polynomials of the element that holds it, and of that column the value at the height of each output level.  This
holds for all data and variables, except for the fourth component and the horizontal winds of a sphere if primitive variables
are asked for; see the next two theorems. -/
theorem C97_value (hA : ElementNodes G.order G.gA G.deltaA) (hB : ElementNodes G.order G.gB G.deltaB)
    (h : interpolateData G ty incl conv only rows nOut out pts D P = .ok D')
    (c : Nat) (hc : c < count G ty) (hq : Requested G ty only c) (h3 : conv = true → c ≠ 3)
    (hw : G.sphere = true → ty = .state → conv = true → 2 ≤ c)
    (hcol : sizeOf G ty c ≠ 1 → ColumnOk (levelsPerElement G) G.levels G.node G.edge) (hfit : Fits G ty c nOut)
    (i : Nat) (p : Point) (hi : pts[i]? = some p) (hp : p.patch = P.index) (hh : Holds G P p.A p.B) :
    ∃ y, ColumnAt G P p.A p.B (fun _ _ => asked P ty incl c) y ∧ ∀ k < nOut, ColumnOutput G ty c nOut k y (out k) (D' c k i) := by
  obtain ⟨n, flat, hs⟩ := interpolate_shape h
  obtain ⟨w, h1, h2, h4⟩ := interpolate_parts G P ty incl conv h hs
  obtain ⟨y, hy, hv⟩ := value_before G P hA hB ty incl conv hs h1 hc hq hcol hfit hi hp hh
  refine ⟨y, columnAt_congr hy fun i0 j0 m j k => ?_, fun k hk => ?_⟩
  · unfold nodeValue asked
    rw [if_neg (by tauto)]
    simp
  · by_cases hy' : G.sphere = true ∧ ty = .state ∧ conv = true
    · rw [windAll_other G P (h4 hy') (Or.inl (by have := hw hy'.1 hy'.2.1 hy'.2.2; omega))]
      exact hv k hk
    · rw [h2 hy']; exact hv k hk

/-- **C97 (fourth component).**  If primitive variables are asked for, the fourth component of any data is divided by the
vertical derivative at the first node of the element, and the reference state is taken off after that. -/
theorem C97_fourth (hA : ElementNodes G.order G.gA G.deltaA) (hB : ElementNodes G.order G.gB G.deltaB)
    (h : interpolateData G ty incl true only rows nOut out pts D P = .ok D') (hc : 3 < count G ty) (hq : Requested G ty only 3)
    (hcol : sizeOf G ty 3 ≠ 1 → ColumnOk (levelsPerElement G) G.levels G.node G.edge) (hfit : Fits G ty 3 nOut)
    (i : Nat) (p : Point) (hi : pts[i]? = some p) (hp : p.patch = P.index) (hh : Holds G P p.A p.B) :
    ∃ y, ColumnAt G P p.A p.B (fun i0 j0 i j k =>
        P.field ty 3 i j k / (if G.loc 3 = .redge then P.derivREdge i0 j0 k else P.derivNode i0 j0 k) -
          if ty = .state ∧ incl = false then P.ref 3 i j k else 0) y ∧
      ∀ k < nOut, ColumnOutput G ty 3 nOut k y (out k) (D' 3 k i) := by
  obtain ⟨n, flat, hs⟩ := interpolate_shape h
  obtain ⟨w, h1, h2, h4⟩ := interpolate_parts G P ty incl true h hs
  obtain ⟨y, hy, hv⟩ := value_before G P hA hB ty incl true hs h1 hc hq hcol hfit hi hp hh
  refine ⟨y, columnAt_congr hy fun i0 j0 m j k => ?_, fun k hk => ?_⟩
  · unfold nodeValue
    simp only [and_self, if_true, add_sub_cancel_left, Int.toNat_natCast]
    split_ifs <;> rfl
  · by_cases hy' : G.sphere = true ∧ ty = .state ∧ true = true
    · rw [windAll_other G P (h4 hy') (Or.inl (by omega))]
      exact hv k hk
    · rw [h2 hy']; exact hv k hk

/-- **C97 (winds).**  On a sphere, if primitive variables are asked for, the first two components are the eastward and northward
wind: if the interpolated components `U` and `V` are those of a wind along the coordinate lines, times the radius, the output
is that wind. -/
theorem C97_winds (hsp : G.sphere = true) (hR : G.radius ≠ 0) (hpanel : IsPanel P.box.panel)
    (hA : ElementNodes G.order G.gA G.deltaA) (hB : ElementNodes G.order G.gB G.deltaB)
    (h : interpolateData G .state incl true only rows nOut out pts D P = .ok D') (hc : 2 ≤ G.components)
    (hq : Requested G .state only 0 ∧ Requested G .state only 1)
    (hcol : (sizeOf G .state 0 ≠ 1 ∨ sizeOf G .state 1 ≠ 1) → ColumnOk (levelsPerElement G) G.levels G.node G.edge)
    (hfit : Fits G .state 0 nOut ∧ Fits G .state 1 nOut) (i : Nat) (p : Point) (hi : pts[i]? = some p) (hp : p.patch = P.index)
    (hh : Holds G P p.A p.B) :
    ∃ yU yV, ColumnAt G P p.A p.B (fun _ _ => asked P .state incl 0) yU ∧ ColumnAt G P p.A p.B (fun _ _ => asked P .state incl 1) yV ∧
      ∀ k < nOut, ∃ U V, ColumnOutput G .state 0 nOut k yU (out k) U ∧ ColumnOutput G .state 1 nOut k yV (out k) V ∧
        ∀ lon lat ulon ulat, LonOK P.box.panel (Real.tan p.A) → ¬ atPole (Real.tan p.A) (Real.tan p.B) P.box.panel →
          rllFromXYP (Real.tan p.A) (Real.tan p.B) P.box.panel = some (lon, lat) →
          U = G.radius * dot (wind lon lat ulon ulat) (tangentA P.box.panel (Real.tan p.A) (Real.tan p.B)) →
          V = G.radius * dot (wind lon lat ulon ulat) (tangentB P.box.panel (Real.tan p.A) (Real.tan p.B)) →
          D' 0 k i = ulon ∧ D' 1 k i = ulat := by
  obtain ⟨n, flat, hs⟩ := interpolate_shape h
  obtain ⟨w, h1, -, h4⟩ := interpolate_parts G P .state incl true h hs
  have hcn : count G .state = G.components := rfl
  obtain ⟨y0, hy0, hv0⟩ := value_before G P hA hB .state incl true hs h1 (c := 0) (by rw [hcn]; omega) hq.1 (fun h => hcol (Or.inl h)) hfit.1 hi hp hh
  obtain ⟨y1, hy1, hv1⟩ := value_before G P hA hB .state incl true hs h1 (c := 1) (by rw [hcn]; omega) hq.2 (fun h => hcol (Or.inr h)) hfit.2 hi hp hh
  refine ⟨y0, y1, columnAt_congr hy0 fun i0 j0 m j k => ?_, columnAt_congr hy1 fun i0 j0 m j k => ?_, fun k hk =>
    ⟨w.D 0 k i, w.D 1 k i, hv0 k hk, hv1 k hk, fun lon lat ulon ulat hl hpo hr hU hV => ?_⟩⟩
  · unfold nodeValue asked; simp
  · unfold nodeValue asked; simp
  · have key := windAll_set G P (h4 ⟨hsp, rfl, rfl⟩) hi hp hk
    rw [hU, hV] at key
    unfold windStep at key
    rw [mul_div_cancel_left₀ _ hR, mul_div_cancel_left₀ _ hR, Sphere.C34_covector_to _ _ ulon ulat lon lat _ hpanel hl hpo hr] at key
    simp only [Res.ok.injEq, Prod.mk.injEq] at key
    exact ⟨key.1.symm, key.2.symm⟩

/-- **C97 (only its own).**  A patch changes nothing at the points of other patches, nor variables that were not asked for. -/
theorem C97_untouched (h : interpolateData G ty incl conv only rows nOut out pts D P = .ok D') (c k i : Nat)
    (hn : (∀ p, pts[i]? = some p → p.patch ≠ P.index) ∨
      ((¬ Requested G ty only c ∨ count G ty ≤ c) ∧ (G.sphere = true → ty = .state → conv = true → 2 ≤ c))) : D' c k i = D c k i := by
  rcases hn with hn | ⟨hn, hw⟩
  · exact interpolate_other G P ty incl conv h hn
  · obtain ⟨n, flat, hs⟩ := interpolate_shape h
    obtain ⟨w, h1, h2, h4⟩ := interpolate_parts G P ty incl conv h hs
    have hwD : w.D c k i = D c k i := by
      refine loop_invariant (fun v : Work => v.D c k i = D c k i) _ _ w (fun c' hc' s s' hI hf => ?_) rfl h1
      rw [← hI]
      refine componentStep_other G P ty incl conv hf ?_
      rw [List.mem_range, (shape_spec hs).1] at hc'
      by_cases e : c = c'
      · rcases hn with hn | hn
        · exact Or.inr (Or.inl (by rw [← e]; exact hn))
        · omega
      · exact Or.inl e
    by_cases hy' : G.sphere = true ∧ ty = .state ∧ conv = true
    · rw [windAll_other G P (h4 hy') (Or.inl (by have := hw hy'.1 hy'.2.1 hy'.2.2; omega)), hwD]
    · rw [h2 hy', hwD]

/-- **C97 (succeeds).**  The interpolation succeeds if every point given to a patch is one that it holds, every component is kept
on levels or interfaces, the vertical elements divide the levels, and the array has the right number of rows. -/
theorem C97_succeeds (hA : ElementNodes G.order G.gA G.deltaA) (hB : ElementNodes G.order G.gB G.deltaB)
    (hty : ty ≠ .other ∧ (G.sphere = true → ty ≠ .richardson)) (hrows : rows = count G ty)
    (hwind : G.sphere = true → ty = .state → conv = true → (5 ≤ rows ∨ rows = 3) ∧ IsPanel P.box.panel)
    (hloc : ty = .state → ∀ c < G.components, G.loc c ≠ .other) (h3 : 3 < count G ty → conv = true → 3 < G.components)
    (hfit : ∀ c < count G ty, Fits G ty c nOut)
    (hcol : ∀ c < count G ty, sizeOf G ty c ≠ 1 → (G.finiteElement = true ∨ G.sphere = true) →
      G.levels ≠ 0 ∧ G.levels % levelsPerElement G = 0 ∧ (locOf G ty c = .redge ∨ levelsPerElement G ≠ 1))
    (hh : ∀ p ∈ pts, p.patch = P.index → Holds G P p.A p.B) :
    ∃ E, interpolateData G ty incl conv only rows nOut out pts D P = .ok E := by
  have hs : shape G ty = some (count G ty, flatData ty) := by
    cases ty <;> simp [shape, count, flatData] at hty ⊢
    exact hty
  have hflat : ∀ c, sizeF G ty (flatData ty) c = sizeOf G ty c := (shape_spec hs).2.2
  have hloop : ∃ w, loop (componentStep G P ty (flatData ty) incl conv only nOut out pts) (List.range (count G ty)) ⟨fun _ => 0, D⟩ = .ok w := by
    refine loop_succeeds _ _ fun c hc s => ?_
    rw [List.mem_range] at hc
    have hl : locOf G ty c ≠ .other := by
      unfold locOf
      by_cases h1 : ty = .state
      · rw [if_pos h1]
        refine hloc h1 c ?_
        rw [h1] at hc; exact hc
      · rw [if_neg h1]; simp
    have hop : ∃ op, verticalOp G (locOf G ty c) (sizeOf G ty c) nOut out = .ok op ∧ op.rows ≤ nOut := by
      by_cases h1 : sizeOf G ty c = 1
      · refine ⟨identity 1, by unfold verticalOp; rw [if_neg (by simpa using h1)], ?_⟩
        have := (hfit c hc).1 h1
        exact le_of_eq this.symm
      · by_cases hi : G.finiteElement = true ∨ G.sphere = true
        · obtain ⟨q1, q2, q3⟩ := hcol c hc h1 hi
          rw [verticalOp_eq G _ _ nOut out h1 hi]
          cases hlc : locOf G ty c with
          | other => exact absurd hlc hl
          | node =>
            obtain ⟨A, hA'⟩ := (Column.C69_refused .levels (levelsPerElement G) G.levels (G.levels + 1) G.node G.edge nOut out false).2 q1 rfl q2
              (Or.inr (by rw [hlc] at q3; simpa using q3))
            exact ⟨A, by simp only [hA']; rfl, le_of_eq (Column.C69_ranges _ _ _ _ _ _ _ _ _ _ hA').1⟩
          | redge =>
            obtain ⟨A, hA'⟩ := (Column.C69_refused .interfaces (levelsPerElement G) G.levels (G.levels + 1) G.node G.edge nOut out false).2 q1 rfl q2
              (Or.inl rfl)
            exact ⟨A, by simp only [hA']; rfl, le_of_eq (Column.C69_ranges _ _ _ _ _ _ _ _ _ _ hA').1⟩
        · have hi' := not_or.1 hi
          refine ⟨identity (sizeOf G ty c), by unfold verticalOp; rw [if_pos h1, if_neg hi'.1, if_neg hi'.2], ?_⟩
          exact le_of_eq ((hfit c hc).2 h1 (by simpa using hi'.1) (by simpa using hi'.2)).symm
    obtain ⟨op, ho1, ho2⟩ := hop
    refine componentStep_succeeds G P ty incl conv (fun p hp hpi => ?_) (fun hc3 => ?_) hl (by rw [hflat]; exact ho1) ho2 s
    · obtain ⟨a0, a1, b0, b1, hE, hwA, hwB⟩ := hh p hp hpi
      exact in_range G P hA hB hE p.A p.B hwA hwB
    · have := h3 (by omega) hc3.2.1; omega
  obtain ⟨w, hw⟩ := hloop
  unfold interpolateData
  rw [hs]
  simp only
  rw [if_neg (by rw [hrows]; simp), hw]
  by_cases hy : G.sphere = true ∧ ty = .state ∧ conv = true
  · obtain ⟨E, hE⟩ := windAll_succeeds G P (hwind hy.1 hy.2.1 hy.2.2).1 (hwind hy.1 hy.2.1 hy.2.2).2 (nOut := nOut) (pts := pts) w.D
    exact ⟨E, by simp only [Res.bind]; rw [if_pos hy]; exact hE⟩
  · exact ⟨w.D, by simp only [Res.bind]; rw [if_neg hy]⟩

end

/-! ### Polynomials and native levels -/

/-- **C97 (polynomials).**  If the values of a field at the nodes are those of a polynomial of degree less than the order in each
coordinate, so is the column: its value is that of the polynomial at the point. -/
theorem C97_polynomial (G : Grid) (P : Patch) (A B : ℝ) (g : Int → Int → Nat → ℝ) (y : Nat → ℝ)
    (h : ColumnAt G P A B (fun _ _ => g) y) (coef : Nat → Nat → Nat → ℝ)
    (hg : ∀ k (e e' i0 j0 : Int) (m j : Nat), P.box.aBegin + i0 = G.order * e → P.box.bBegin + j0 = G.order * e' → m < G.order → j < G.order →
      g (i0 + m) (j0 + j) k = ∑ s ∈ Finset.range G.order, ∑ t ∈ Finset.range G.order,
        coef k s t * nodeCoord G.zeroA G.deltaA G.gA e m ^ s * nodeCoord G.zeroB G.deltaB G.gB e' j ^ t) (k : Nat) :
    y k = ∑ s ∈ Finset.range G.order, ∑ t ∈ Finset.range G.order, coef k s t * A ^ s * B ^ t := by
  obtain ⟨e, e', i0, j0, -, -, h3, h4, -, -, -, -, h9⟩ := h
  have deg : ∀ a : Nat → ℝ, (∑ t ∈ Finset.range G.order, C (a t) * X ^ t : ℝ[X]).degree < (G.order : ℕ) := by
    intro a
    rw [Polynomial.degree_lt_iff_coeff_zero]
    intro m hm
    rw [Polynomial.finset_sum_coeff]
    refine Finset.sum_eq_zero fun t ht => ?_
    rw [Finset.mem_range] at ht
    rw [Polynomial.coeff_C_mul_X_pow, if_neg (by omega)]
  have ev : ∀ (a : Nat → ℝ) (x : ℝ), (∑ t ∈ Finset.range G.order, C (a t) * X ^ t : ℝ[X]).eval x = ∑ t ∈ Finset.range G.order, a t * x ^ t := by
    intro a x
    rw [Polynomial.eval_finset_sum]
    exact Finset.sum_congr rfl fun t _ => by simp
  have := h9 k (fun m => ∑ t ∈ Finset.range G.order, C (∑ s ∈ Finset.range G.order, coef k s t * nodeCoord G.zeroA G.deltaA G.gA e m ^ s) * X ^ t)
    (∑ s ∈ Finset.range G.order, C (∑ t ∈ Finset.range G.order, coef k s t * B ^ t) * X ^ s)
    (fun m hm => ⟨deg _, fun j hj => ?_⟩) (deg _) (fun m hm => ?_)
  · rw [this, ev]
    refine Finset.sum_congr rfl fun s _ => ?_
    rw [Finset.sum_mul]
    exact Finset.sum_congr rfl fun t _ => by ring
  · change _ = g (i0 + m) (j0 + j) k
    rw [ev, hg k e e' i0 j0 m j h3 h4 hm hj, Finset.sum_comm]
    refine Finset.sum_congr rfl fun t _ => ?_
    rw [Finset.sum_mul]
  · rw [ev, ev]
    simp only [Finset.sum_mul]
    rw [Finset.sum_comm]
    refine Finset.sum_congr rfl fun t _ => Finset.sum_congr rfl fun s _ => ?_
    ring

/-- A uniform field. -/
theorem columnAt_const {G : Grid} {P : Patch} (ho : 0 < G.order) {A B : ℝ} {f : Int → Int → Int → Int → Nat → ℝ} {y : Nat → ℝ}
    (h : ColumnAt G P A B f y) {q : ℝ} {k : Nat} (hf : ∀ i0 j0 i j, f i0 j0 i j k = q) : y k = q := by
  obtain ⟨e, e', i0, j0, -, -, -, -, -, -, -, -, h9⟩ := h
  have hd : (C q : ℝ[X]).degree < (G.order : ℕ) := lt_of_le_of_lt Polynomial.degree_C_le (by exact_mod_cast ho)
  have := h9 k (fun _ => C q) (C q) (fun m _ => ⟨hd, fun j _ => by simp [hf]⟩) hd (fun m _ => by simp)
  simpa using this

/-- **C97 (native levels).**  If the output levels are the levels of the model, each inside its vertical element, a variable kept
on levels is written unchanged: output level `k` is level `k` of the column. -/
theorem C97_native (G : Grid) (hcol : ColumnOk (levelsPerElement G) G.levels G.node G.edge) (h1 : levelsPerElement G ≠ 1)
    (y : Nat → ℝ) (v : Nat → ℝ) (k : Nat) (hk : k < G.levels)
    (hin : InElement (fun b => G.edge (b * levelsPerElement G)) (G.levels / levelsPerElement G) (k / levelsPerElement G) (G.node k))
    (h : VerticalValue G .node G.levels k y (G.node k) (v k)) : v k = y k := by
  unfold VerticalValue at h
  simp only at h
  have hl := ((h.1 (Or.inl h1)) (k / levelsPerElement G)).1 hin
  generalize levelsPerElement G = n at *
  have hn := hcol.order
  have hinj : Set.InjOn (fun i => G.node (k / n * n + i)) (Finset.range n) := by
    intro i hi j hj hij
    by_contra hne
    exact hcol.levels (k / n) hin.1 i j (Finset.mem_range.1 hi) (Finset.mem_range.1 hj) hne hij
  have e := hl (Lagrange.interpolate (Finset.range n) (fun i => G.node (k / n * n + i)) fun i => y (k / n * n + i))
    (by simpa using Lagrange.degree_interpolate_lt _ hinj)
    (fun i hi => Lagrange.eval_interpolate_at_node (s := Finset.range n) (v := fun i => G.node (k / n * n + i)) _ hinj (Finset.mem_range.2 hi))
  have hm : k / n * n + k % n = k := by rw [mul_comm]; exact Nat.div_add_mod k n
  have e2 := Lagrange.eval_interpolate_at_node (s := Finset.range n) (v := fun i => G.node (k / n * n + i))
    (fun i => y (k / n * n + i)) hinj (Finset.mem_range.2 (Nat.mod_lt k hn))
  simp only [hm] at e2
  rw [e]
  exact e2

/-! ### The processes -/

section
variable (G : Grid) (ty : DataType) (incl conv : Bool) (only : Option Location) (rows nOut : Nat) (out : Nat → ℝ)
  (pts : List Point)

/-- What the processes, with the patches `procs`, contribute. -/
def Contributions (procs : List (List Patch)) (Ds : List (Nat → Nat → Nat → ℝ)) : Prop :=
  List.Forall₂ (fun active D => localInterpolate G ty incl conv only rows nOut out pts active = .ok D) procs Ds

/-- **C97 (reduction).**  The array of the root has at each point what the one patch of the point writes into zeros, and zero
at a point without a patch, whatever the order in which the contributions are added. -/
theorem C97_reduce (procs : List (List Patch)) (hd : (procs.flatten.map Patch.index).Nodup) (t : Checksum.Tree (Nat → Nat → Nat → ℝ))
    (h : Contributions G ty incl conv only rows nOut out pts procs t.leaves) (i : Nat) (p : Point) (hi : pts[i]? = some p) :
    (∀ P ∈ procs.flatten, p.patch = P.index → ∃ D0 D1, (∀ c k, D0 c k i = 0) ∧
      interpolateData G ty incl conv only rows nOut out pts D0 P = .ok D1 ∧ ∀ c k, reduceInterpolate t c k i = D1 c k i) ∧
    ((∀ P ∈ procs.flatten, p.patch ≠ P.index) → ∀ c k, reduceInterpolate t c k i = 0) := by
  constructor
  · intro P hP hp
    obtain ⟨D0, D1, r1, r2, r3⟩ := sum_local_some G ty incl conv only rows nOut out pts h hd hi hP hp
    exact ⟨D0, D1, r1, r2, fun c k => by rw [reduce_sum, r3]⟩
  · intro hn c k
    rw [reduce_sum]
    exact sum_local G ty incl conv only rows nOut out pts h c k fun q hq => by rw [hi] at hq; cases hq; exact hn

/-- **C97 (a process).**  A process completes if each of its patches does and the array has one row for each component; for
tracers there must be some. -/
theorem C97_process (hty : ty ≠ .other) (hrows : rows = count G ty) (htr : ty = .tracers → G.tracers ≠ 0) (active : List Patch)
    (h : ∀ P ∈ active, ∀ D, ∃ E, interpolateData G ty incl conv only rows nOut out pts D P = .ok E) :
    ∃ D, localInterpolate G ty incl conv only rows nOut out pts active = .ok D := by
  unfold localInterpolate
  have hr : rowsChecked G ty rows := by
    unfold rowsChecked
    cases ty <;> simp [count] at hrows htr hty ⊢ <;> first | exact hrows | exact ⟨htr, hrows⟩
  rw [if_pos hr]
  exact loop_succeeds _ _ fun P hP D => h P hP D

/-- **C97 (levels).**  Without a number of output levels the output levels are the levels of the model, and else the centres of
so many equal layers. -/
theorem C97_levels (nZ levels : Nat) (node : Nat → ℝ) :
    (nZ = 0 → outLevels nZ levels node = (levels, node)) ∧
    (nZ ≠ 0 → (outLevels nZ levels node).1 = nZ ∧ ∀ k : Nat, (outLevels nZ levels node).2 k = ((k : ℝ) + 1 / 2) / nZ) := by
  unfold outLevels
  refine ⟨fun h => by rw [if_pos h], fun h => ?_⟩
  rw [if_neg h]
  refine ⟨rfl, fun k => ?_⟩
  unfold refCoord
  have : (nZ : ℝ) ≠ 0 := by exact_mod_cast h
  field_simp
  norm_num
  ring

/-- **C97 (distribution).**  The output does not depend on how the patches are distributed over processes, nor on the order of
the patches or of the reduction. -/
theorem C97_distribution (procs procs' : List (List Patch)) (hd : (procs.flatten.map Patch.index).Nodup)
    (hd' : (procs'.flatten.map Patch.index).Nodup) (hsame : ∀ P, P ∈ procs.flatten ↔ P ∈ procs'.flatten)
    (t t' : Checksum.Tree (Nat → Nat → Nat → ℝ)) (h : Contributions G ty incl conv only rows nOut out pts procs t.leaves)
    (h' : Contributions G ty incl conv only rows nOut out pts procs' t'.leaves) (c k i : Nat) :
    reduceInterpolate t c k i = reduceInterpolate t' c k i := by
  cases hi : pts[i]? with
  | none =>
    rw [reduce_sum, reduce_sum, sum_local G ty incl conv only rows nOut out pts h c k (fun q hq => by rw [hi] at hq; simp at hq),
      sum_local G ty incl conv only rows nOut out pts h' c k (fun q hq => by rw [hi] at hq; simp at hq)]
  | some p =>
    by_cases hex : ∃ P ∈ procs.flatten, p.patch = P.index
    · obtain ⟨P, hP, hp⟩ := hex
      obtain ⟨D0, D1, r1, r2, r3⟩ := (C97_reduce G ty incl conv only rows nOut out pts procs hd t h i p hi).1 P hP hp
      obtain ⟨E0, E1, q1, q2, q3⟩ := (C97_reduce G ty incl conv only rows nOut out pts procs' hd' t' h' i p hi).1 P ((hsame P).1 hP) hp
      rw [r3, q3]
      exact interpolate_rel G P ty incl conv i (fun c k => by rw [r1, q1]) r2 q2 c k
    · have hn : ∀ P ∈ procs.flatten, p.patch ≠ P.index := fun P hP hp => hex ⟨P, hP, hp⟩
      rw [(C97_reduce G ty incl conv only rows nOut out pts procs hd t h i p hi).2 hn,
        (C97_reduce G ty incl conv only rows nOut out pts procs' hd' t' h' i p hi).2 fun P hP => hn P ((hsame P).2 hP)]

end

end Verif.Outref
