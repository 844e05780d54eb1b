/-
Lemmas for the output on the reference grid: coordinates and elements of a patch, the search for a patch, the tensor
product of interpolations.
-/
import Verif.Outref.Spec
import Verif.Vert.PropsSpacing
import Verif.Column.FemProps
import Verif.Patch.PropsLayout
import Verif.Sphere.PropsLonLat

namespace Verif.Outref

open Verif.Exchange (Res)
open Verif.Patch (Box)
open Verif.Interp (lagrangeCoeffs DistinctNodes)
open Finset Polynomial

theorem edgeAt_node {order : Nat} (ho : 0 < order) (g : Nat → ℝ) (delta zero : ℝ) (start i e : Int) (m : Nat) (he : 0 ≤ e)
    (hm : m < order) (h : start + i = order * e + m) : edgeAt order g delta zero start i = nodeCoord zero delta g e m := by
  have hpos : (0 : Int) < order := by exact_mod_cast ho
  have h0 : 0 ≤ start + i := by rw [h]; positivity
  have key := (Vert.C52_repeated_partial order hpos g delta zero (start + i)).1 (Or.inl h0)
  unfold edgeAt
  rw [key]
  unfold Vert.pattern nodeCoord
  have e1 : (start + i) / (order : Int) = e := by
    rw [h, Int.add_ediv_of_dvd_left ⟨e, rfl⟩, Int.mul_ediv_cancel_left _ (by omega), Int.ediv_eq_zero_of_lt (by omega) (by exact_mod_cast hm)]
    simp
  have e2 : (start + i) % (order : Int) = m := by
    rw [h, Int.mul_add_emod_self_left]
    exact Int.emod_eq_of_lt (by omega) (by exact_mod_cast hm)
  simp only [e1, e2, Int.toNat_natCast]

theorem edgeAt_start {order : Nat} (ho : 0 < order) (g : Nat → ℝ) (h0 : g 0 = 0) (delta zero : ℝ) (start i e : Int) (he : 0 ≤ e)
    (h : start + i = order * e) : edgeAt order g delta zero start i = zero + delta * e := by
  rw [edgeAt_node ho g delta zero start i e 0 he ho (by simpa using h)]
  unfold nodeCoord; rw [h0, add_zero]

theorem ElementNodes.pos {n : Nat} {g : Nat → ℝ} {delta : ℝ} (h : ElementNodes n g delta) : 0 < delta := by
  have h2 := h.two
  have := h.increasing 0 (n - 1) (by omega) (by omega)
  rw [h.start, h.stop] at this
  exact this

theorem ElementNodes.distinct {n : Nat} {g : Nat → ℝ} {delta : ℝ} (h : ElementNodes n g delta) (zero : ℝ) (e : Int) :
    DistinctNodes n (nodeCoord zero delta g e) := by
  intro i j hi hj hij
  unfold nodeCoord
  rcases Nat.lt_or_gt_of_ne hij with hlt | hlt
  · have := h.increasing i j hlt hj; intro hc; linarith
  · have := h.increasing j i hlt hi; intro hc; linarith

/-- The element of a point of a row of elements is one that holds it. -/
theorem element_holds {zero delta : ℝ} (hd : 0 < delta) {order : Nat} (ho : 0 < order) {e0 e1 : Int} (hne : e0 < e1) {x : ℝ}
    (hx : Within zero delta e0 e1 x) {width : Int} (hw : width = order * (e1 - e0)) :
    ∃ t, element (zero + delta * e0) delta width order x = t ∧ 0 ≤ t ∧ t < e1 - e0 ∧
      Within zero delta (e0 + t) (e0 + t + 1) x := by
  obtain ⟨h1, h2⟩ := hx
  have hpos : (0 : Int) < order := by exact_mod_cast ho
  have hdiv : width.tdiv order = e1 - e0 := by rw [hw]; exact Int.mul_tdiv_cancel_left _ hpos.ne'
  have hq : 0 ≤ (x - (zero + delta * e0)) / delta := div_nonneg (by linarith) hd.le
  have hq2 : (x - (zero + delta * e0)) / delta ≤ ((e1 - e0 : Int) : ℝ) := by
    rw [div_le_iff₀ hd]; push_cast; nlinarith
  have hmul : (x - (zero + delta * e0)) / delta * delta = x - (zero + delta * e0) := div_mul_cancel₀ _ hd.ne'
  unfold element trunc
  simp only [if_pos hq, hdiv]
  generalize hqq : (x - (zero + delta * e0)) / delta = q at *
  have hf : 0 ≤ ⌊q⌋ := Int.floor_nonneg.2 hq
  simp only [if_neg (show ¬ (⌊q⌋ < 0) by omega)]
  have f1 := Int.floor_le q
  have f2 := Int.lt_floor_add_one q
  by_cases hge : ⌊q⌋ ≥ e1 - e0
  · rw [if_pos hge]
    refine ⟨_, rfl, by omega, by omega, ?_, ?_⟩
    · push_cast
      have : ((e1 - e0 : Int) : ℝ) ≤ ⌊q⌋ := by exact_mod_cast hge
      push_cast at this
      nlinarith
    · push_cast
      push_cast at hq2
      nlinarith
  · rw [if_neg hge]
    refine ⟨_, rfl, hf, by omega, ?_, ?_⟩
    · push_cast; nlinarith
    · push_cast; nlinarith

/-! ### The tensor product -/

theorem foldl_add_sum (n : Nat) (f : Nat → ℝ) (s : ℝ) : (List.range n).foldl (fun s j => s + f j) s = s + ∑ j ∈ range n, f j := by
  induction n with
  | zero => simp
  | succ n ih => rw [List.range_succ, List.foldl_append, ih, sum_range_succ]; simp [add_assoc]

theorem tensor_eq (n : Nat) (cA cB : List ℝ) (f : Nat → Nat → ℝ) :
    tensor n cA cB f = ∑ m ∈ range n, cA.getD m 0 * ∑ j ∈ range n, cB.getD j 0 * f m j := by
  unfold tensor
  have : ∀ s m, (List.range n).foldl (fun s j => s + cA.getD m 0 * cB.getD j 0 * f m j) s =
      s + cA.getD m 0 * ∑ j ∈ range n, cB.getD j 0 * f m j := by
    intro s m
    rw [foldl_add_sum n (fun j => cA.getD m 0 * cB.getD j 0 * f m j), mul_sum]
    congr 1
    exact sum_congr rfl fun j _ => by ring
  simp only [this]
  rw [foldl_add_sum, zero_add]

theorem foldl_sub_sum (n : Nat) (f : Nat → ℝ) (s : ℝ) : (List.range n).foldl (fun s j => s - f j) s = s - ∑ j ∈ range n, f j := by
  induction n with
  | zero => simp
  | succ n ih => rw [List.range_succ, List.foldl_append, ih, sum_range_succ]; simp; ring

theorem tensorOff_eq (n : Nat) (cA cB : List ℝ) (f : Nat → Nat → ℝ) (v : ℝ) :
    tensorOff n cA cB f v = v - ∑ m ∈ range n, cA.getD m 0 * ∑ j ∈ range n, cB.getD j 0 * f m j := by
  unfold tensorOff
  have : ∀ s m, (List.range n).foldl (fun s j => s - cA.getD m 0 * cB.getD j 0 * f m j) s =
      s - cA.getD m 0 * ∑ j ∈ range n, cB.getD j 0 * f m j := by
    intro s m
    rw [foldl_sub_sum n (fun j => cA.getD m 0 * cB.getD j 0 * f m j), mul_sum]
    congr 1
    exact sum_congr rfl fun j _ => by ring
  simp only [this]
  rw [foldl_sub_sum]

theorem lagrange_sum (n : Nat) (x y : Nat → ℝ) (hx : DistinctNodes n x) (s : ℝ) (p : ℝ[X]) (hp : p.degree < n)
    (hy : ∀ i < n, p.eval (x i) = y i) : ∑ i ∈ range n, (lagrangeCoeffs n x s).getD i 0 * y i = p.eval s := by
  rw [← Interp.C38_exact n x hx s p hp, Column.apply_eq, Column.length_lagrange]
  exact sum_congr rfl fun t ht => by rw [mem_range] at ht; rw [hy t ht]

theorem horizontal_sum (n : Nat) (xa xb : Nat → ℝ) (ha : DistinctNodes n xa) (hb : DistinctNodes n xb) (f : Nat → Nat → ℝ)
    (A B : ℝ) : HorizontalValue n xa xb f A B
      (∑ m ∈ range n, (lagrangeCoeffs n xa A).getD m 0 * ∑ j ∈ range n, (lagrangeCoeffs n xb B).getD j 0 * f m j) := by
  intro q r hq hr hr'
  rw [← lagrange_sum n xa (fun m => (q m).eval B) ha A r hr hr']
  refine sum_congr rfl fun m hm => ?_
  rw [mem_range] at hm
  rw [lagrange_sum n xb (f m) hb B (q m) (hq m hm).1 (hq m hm).2]

/-- There is such a value, and only one. -/
theorem horizontal_unique (n : Nat) (xa xb : Nat → ℝ) (ha : DistinctNodes n xa) (hb : DistinctNodes n xb) (f : Nat → Nat → ℝ)
    (A B : ℝ) : ∃! v, HorizontalValue n xa xb f A B v := by
  refine ⟨_, horizontal_sum n xa xb ha hb f A B, fun v hv => ?_⟩
  have hinj : ∀ {x : Nat → ℝ}, DistinctNodes n x → Set.InjOn x (Finset.range n) := by
    intro x hx i hi j hj hij
    by_contra hne
    exact hx i j (Finset.mem_range.1 hi) (Finset.mem_range.1 hj) hne hij
  have h := hv (fun m => Lagrange.interpolate (Finset.range n) xb (f m))
    (Lagrange.interpolate (Finset.range n) xa fun m => (Lagrange.interpolate (Finset.range n) xb (f m)).eval B)
    (fun m _ => ⟨by simpa using Lagrange.degree_interpolate_lt (f m) (hinj hb),
      fun j hj => Lagrange.eval_interpolate_at_node _ (hinj hb) (Finset.mem_range.2 hj)⟩)
    (by simpa using Lagrange.degree_interpolate_lt _ (hinj ha))
    (fun m hm => Lagrange.eval_interpolate_at_node _ (hinj ha) (Finset.mem_range.2 hm))
  have h' := horizontal_sum n xa xb ha hb f A B (fun m => Lagrange.interpolate (Finset.range n) xb (f m))
    (Lagrange.interpolate (Finset.range n) xa fun m => (Lagrange.interpolate (Finset.range n) xb (f m)).eval B)
    (fun m _ => ⟨by simpa using Lagrange.degree_interpolate_lt (f m) (hinj hb),
      fun j hj => Lagrange.eval_interpolate_at_node _ (hinj hb) (Finset.mem_range.2 hj)⟩)
    (by simpa using Lagrange.degree_interpolate_lt _ (hinj ha))
    (fun m hm => Lagrange.eval_interpolate_at_node _ (hinj ha) (Finset.mem_range.2 hm))
  rw [h, h']

theorem lagrange_congr (n : Nat) (x y : Nat → ℝ) (s : ℝ) (h : ∀ i < n, x i = y i) : lagrangeCoeffs n x s = lagrangeCoeffs n y s := by
  unfold Interp.lagrangeCoeffs
  apply List.map_congr_left
  intro i hi
  rw [List.mem_range] at hi
  unfold Interp.lagrangeCoeff
  have : ∀ (l : List Nat) (c : ℝ), (∀ j ∈ l, j < n) → l.foldl (Interp.lagrangeStep x s i) c = l.foldl (Interp.lagrangeStep y s i) c := by
    intro l
    induction l with
    | nil => intros; rfl
    | cons j l ih =>
      intro c hl
      rw [List.foldl_cons, List.foldl_cons, ih _ (fun k hk => hl k (List.mem_cons_of_mem _ hk))]
      congr 1
      unfold Interp.lagrangeStep
      rw [h i hi, h j (hl j List.mem_cons_self)]
  exact this _ _ fun j hj => List.mem_range.1 hj

/-! ### The column of a point -/

/-- What the interpolation sees at node `(m, j)` of an element whose first node is `(iA, iB)`. -/
noncomputable def seen (G : Grid) (P : Patch) (ty : DataType) (incl conv : Bool) (c : Nat) (iA iB : Int) (k m j : Nat) : ℝ :=
  nodeValue G P ty conv c iA iB k m j - if ty = .state ∧ incl = false then P.ref c (iA + m) (iB + j) k else 0

theorem columnData_value (G : Grid) (P : Patch) (hA : ElementNodes G.order G.gA G.deltaA) (hB : ElementNodes G.order G.gB G.deltaB)
    {a0 a1 b0 b1 : Int} (hE : Elements G.order P.box a0 a1 b0 b1) (ty : DataType) (incl conv : Bool) (c : Nat) (A B : ℝ)
    (hwA : Within G.zeroA G.deltaA a0 a1 A) (hwB : Within G.zeroB G.deltaB b0 b1 B) :
    ∃ e f : Int, a0 ≤ e ∧ e < a1 ∧ b0 ≤ f ∧ f < b1 ∧ Within G.zeroA G.deltaA e (e + 1) A ∧ Within G.zeroB G.deltaB f (f + 1) B ∧
      ∀ k, HorizontalValue G.order (nodeCoord G.zeroA G.deltaA G.gA e) (nodeCoord G.zeroB G.deltaB G.gB f)
        (seen G P ty incl conv c (G.order * e - P.box.aBegin) (G.order * f - P.box.bBegin) k) A B
        (columnData G P ty incl conv c A B k) := by
  have ho : 0 < G.order := by have := hA.two; omega
  have hA0 := hE.aBegin
  have hA1 := hE.aEnd
  have hB0 := hE.bBegin
  have hB1 := hE.bEnd
  have ea : edgeA G P P.box.aInteriorBegin = G.zeroA + G.deltaA * a0 := by
    unfold edgeA
    refine edgeAt_start ho G.gA hA.start _ _ _ _ a0 hE.aNonneg ?_
    unfold Box.aGlobalBegin Box.aInteriorBegin; exact hA0
  have eb : edgeB G P P.box.bInteriorBegin = G.zeroB + G.deltaB * b0 := by
    unfold edgeB
    refine edgeAt_start ho G.gB hB.start _ _ _ _ b0 hE.bNonneg ?_
    unfold Box.bGlobalBegin Box.bInteriorBegin; exact hB0
  have da : elementDeltaA G P = G.deltaA := by
    have e1 : edgeA G P (P.box.halo + G.order) = G.zeroA + G.deltaA * ((a0 + 1 : Int) : ℝ) := by
      unfold edgeA
      refine edgeAt_start ho G.gA hA.start _ _ _ _ (a0 + 1) (by have := hE.aNonneg; omega) ?_
      unfold Box.aGlobalBegin; rw [mul_add, ← hA0]; ring
    have e2 : edgeA G P P.box.halo = G.zeroA + G.deltaA * a0 := ea
    unfold elementDeltaA
    rw [e1, e2]; push_cast; ring
  have db : elementDeltaB G P = G.deltaB := by
    have e1 : edgeB G P (P.box.halo + G.order) = G.zeroB + G.deltaB * ((b0 + 1 : Int) : ℝ) := by
      unfold edgeB
      refine edgeAt_start ho G.gB hB.start _ _ _ _ (b0 + 1) (by have := hE.bNonneg; omega) ?_
      unfold Box.bGlobalBegin; rw [mul_add, ← hB0]; ring
    have e2 : edgeB G P P.box.halo = G.zeroB + G.deltaB * b0 := eb
    unfold elementDeltaB
    rw [e1, e2]; push_cast; ring
  obtain ⟨t, ht, t0, t1, tw⟩ := element_holds hA.pos ho hE.aSome hwA (width := P.box.aInteriorWidth)
    (by unfold Box.aInteriorWidth; rw [mul_sub, ← hA0, ← hA1]; ring)
  obtain ⟨s, hs, s0, s1, sw⟩ := element_holds hB.pos ho hE.bSome hwB (width := P.box.bInteriorWidth)
    (by unfold Box.bInteriorWidth; rw [mul_sub, ← hB0, ← hB1]; ring)
  have fa : firstA G P A = G.order * (a0 + t) - P.box.aBegin := by
    unfold firstA
    rw [ea, da, ht, mul_add, ← hA0]; ring
  have fb : firstB G P B = G.order * (b0 + s) - P.box.bBegin := by
    unfold firstB
    rw [eb, db, hs, mul_add, ← hB0]; ring
  refine ⟨a0 + t, b0 + s, by omega, by omega, by omega, by omega, tw, sw, fun k => ?_⟩
  have cA : lagrangeCoeffs G.order (fun m => edgeA G P (firstA G P A + m)) A =
      lagrangeCoeffs G.order (nodeCoord G.zeroA G.deltaA G.gA (a0 + t)) A := by
    refine lagrange_congr _ _ _ _ fun i hi => ?_
    unfold edgeA
    refine edgeAt_node ho _ _ _ _ _ (a0 + t) i (by have := hE.aNonneg; omega) hi ?_
    rw [fa]; unfold Box.aGlobalBegin; ring
  have cB : lagrangeCoeffs G.order (fun m => edgeB G P (firstB G P B + m)) B =
      lagrangeCoeffs G.order (nodeCoord G.zeroB G.deltaB G.gB (b0 + s)) B := by
    refine lagrange_congr _ _ _ _ fun i hi => ?_
    unfold edgeB
    refine edgeAt_node ho _ _ _ _ _ (b0 + s) i (by have := hE.bNonneg; omega) hi ?_
    rw [fb]; unfold Box.bGlobalBegin; ring
  have key := horizontal_sum G.order _ _ (hA.distinct G.zeroA (a0 + t)) (hB.distinct G.zeroB (b0 + s))
    (seen G P ty incl conv c (G.order * (a0 + t) - P.box.aBegin) (G.order * (b0 + s) - P.box.bBegin) k) A B
  convert key using 1
  unfold columnData
  simp only [cA, cB]
  rw [fa, fb]
  by_cases hr : ty = .state ∧ incl = false
  · rw [if_pos hr, tensorOff_eq, tensor_eq, ← sum_sub_distrib]
    refine sum_congr rfl fun m _ => ?_
    rw [← mul_sub, ← sum_sub_distrib]
    congr 1
    refine sum_congr rfl fun j _ => ?_
    unfold seen
    rw [if_pos hr]; ring
  · rw [if_neg hr, tensor_eq]
    refine sum_congr rfl fun m _ => ?_
    congr 1
    refine sum_congr rfl fun j _ => ?_
    unfold seen
    rw [if_neg hr, sub_zero]

theorem in_range (G : Grid) (P : Patch) (hA : ElementNodes G.order G.gA G.deltaA) (hB : ElementNodes G.order G.gB G.deltaB)
    {a0 a1 b0 b1 : Int} (hE : Elements G.order P.box a0 a1 b0 b1) (A B : ℝ)
    (hwA : Within G.zeroA G.deltaA a0 a1 A) (hwB : Within G.zeroB G.deltaB b0 b1 B) : ¬ outOfRange G P A B := by
  have ho : 0 < G.order := by have := hA.two; omega
  have e1 : edgeA G P P.box.aInteriorBegin = G.zeroA + G.deltaA * a0 := by
    unfold edgeA
    refine edgeAt_start ho G.gA hA.start _ _ _ _ a0 hE.aNonneg ?_
    have := hE.aBegin
    unfold Box.aGlobalBegin Box.aInteriorBegin; omega
  have e2 : edgeA G P P.box.aInteriorEnd = G.zeroA + G.deltaA * a1 := by
    unfold edgeA
    refine edgeAt_start ho G.gA hA.start _ _ _ _ a1 (by have := hE.aNonneg; have := hE.aSome; omega) ?_
    have := hE.aEnd
    unfold Box.aGlobalBegin Box.aInteriorEnd; omega
  have e3 : edgeB G P P.box.bInteriorBegin = G.zeroB + G.deltaB * b0 := by
    unfold edgeB
    refine edgeAt_start ho G.gB hB.start _ _ _ _ b0 hE.bNonneg ?_
    have := hE.bBegin
    unfold Box.bGlobalBegin Box.bInteriorBegin; omega
  have e4 : edgeB G P P.box.bInteriorEnd = G.zeroB + G.deltaB * b1 := by
    unfold edgeB
    refine edgeAt_start ho G.gB hB.start _ _ _ _ b1 (by have := hE.bNonneg; have := hE.bSome; omega) ?_
    have := hE.bEnd
    unfold Box.bGlobalBegin Box.bInteriorEnd; omega
  unfold outOfRange
  rw [e1, e2, e3, e4]
  obtain ⟨h1, h2⟩ := hwA
  obtain ⟨h3, h4⟩ := hwB
  norm_num
  refine ⟨by linarith, by linarith, by linarith, by linarith⟩

/-! ### The search for a patch -/

theorem aligned_whole {order : Nat} (ho : 0 < order) {x : Box} (h : Whole order x) : ¬ misaligned order x := by
  obtain ⟨a0, a1, b0, b1, h⟩ := h
  unfold misaligned Box.aGlobalInteriorBegin Box.aGlobalInteriorEnd Box.bGlobalInteriorBegin Box.bGlobalInteriorEnd
  rw [h.aBegin, h.aEnd, h.bBegin, h.bEnd]
  simp

theorem covers_iff {order : Nat} (ho : 0 < order) {x : Box} {a0 a1 b0 b1 : Int} (h : Elements order x a0 a1 b0 b1)
    (za da zb db A B : ℝ) : covers order za da zb db x A B ↔ Within za da a0 a1 A ∧ Within zb db b0 b1 B := by
  have hp : (order : Int) ≠ 0 := by exact_mod_cast ho.ne'
  unfold covers Within Box.aGlobalInteriorBegin Box.aGlobalInteriorEnd Box.bGlobalInteriorBegin Box.bGlobalInteriorEnd
  rw [h.aBegin, h.aEnd, h.bBegin, h.bEnd]
  simp only [Int.mul_tdiv_cancel_left _ hp, mul_comm da, mul_comm db]
  tauto

/-- The search finds the first patch on the panel that covers the point. -/
theorem findPatch_ok {order : Int} {za da zb db : ℝ} {panel : Option Int} {A B : ℝ} :
    ∀ (boxes : List Box) (s n : Nat), findPatch order za da zb db panel A B boxes s = .ok n →
      s ≤ n ∧ ∃ x, boxes[n - s]? = some x ∧ (panel = none ∨ panel = some x.panel) ∧ covers order za da zb db x A B := by
  intro boxes
  induction boxes with
  | nil => intro s n h; simp [findPatch] at h
  | cons x xs ih =>
    intro s n h
    unfold findPatch at h
    have next : findPatch order za da zb db panel A B xs (s + 1) = .ok n → s ≤ n ∧ ∃ y, (x :: xs)[n - s]? = some y ∧
        (panel = none ∨ panel = some y.panel) ∧ covers order za da zb db y A B := by
      intro h
      obtain ⟨h1, y, h2, h3⟩ := ih (s + 1) n h
      refine ⟨by omega, y, ?_, h3⟩
      rw [show n - s = (n - (s + 1)) + 1 by omega, List.getElem?_cons_succ]; exact h2
    by_cases hp : panel ≠ none ∧ panel ≠ some x.panel
    · rw [if_pos hp] at h; exact next h
    · rw [if_neg hp] at h
      by_cases hm : misaligned order x
      · rw [if_pos hm] at h; simp at h
      · rw [if_neg hm] at h
        by_cases hc : covers order za da zb db x A B
        · rw [if_pos hc] at h
          cases h
          exact ⟨le_refl _, x, by simp, by tauto, hc⟩
        · rw [if_neg hc] at h; exact next h

theorem findPatch_exists {order : Int} {za da zb db : ℝ} {panel : Option Int} {A B : ℝ} :
    ∀ (boxes : List Box) (s : Nat), (∀ x ∈ boxes, ¬ misaligned order x) →
      (∃ x ∈ boxes, (panel = none ∨ panel = some x.panel) ∧ covers order za da zb db x A B) →
      ∃ n, findPatch order za da zb db panel A B boxes s = .ok n := by
  intro boxes
  induction boxes with
  | nil => intro s _ ⟨x, hx, _⟩; simp at hx
  | cons x xs ih =>
    intro s hm ⟨y, hy, hc⟩
    unfold findPatch
    have hm' : ∀ z ∈ xs, ¬ misaligned order z := fun z hz => hm z (List.mem_cons_of_mem _ hz)
    rw [List.mem_cons] at hy
    by_cases hp : panel ≠ none ∧ panel ≠ some x.panel
    · rw [if_pos hp]
      refine ih _ hm' ⟨y, ?_, hc⟩
      rcases hy with rfl | hy
      · exact absurd hc.1 (by tauto)
      · exact hy
    · rw [if_neg hp, if_neg (hm x List.mem_cons_self)]
      by_cases hcx : covers order za da zb db x A B
      · rw [if_pos hcx]; exact ⟨s, rfl⟩
      · rw [if_neg hcx]
        refine ih _ hm' ⟨y, ?_, hc⟩
        rcases hy with rfl | hy
        · exact absurd hc.2 hcx
        · exact hy

theorem findPatch_none {order : Int} {za da zb db : ℝ} {panel : Option Int} {A B : ℝ} :
    ∀ (boxes : List Box) (s : Nat),
      (∀ x ∈ boxes, (panel = none ∨ panel = some x.panel) → ¬ covers order za da zb db x A B) →
      findPatch order za da zb db panel A B boxes s = .exc := by
  intro boxes
  induction boxes with
  | nil => intro s _; rfl
  | cons x xs ih =>
    intro s h
    unfold findPatch
    have h' := ih (s + 1) fun z hz => h z (List.mem_cons_of_mem _ hz)
    by_cases hp : panel ≠ none ∧ panel ≠ some x.panel
    · rw [if_pos hp]; exact h'
    · rw [if_neg hp, if_neg (h x List.mem_cons_self (by tauto)), h']
      simp

/-- Some element of a row of `n` holds each point of it. -/
theorem some_element {zero delta : ℝ} (hd : 0 < delta) {n : Nat} (hn : 0 < n) {x : ℝ} (hx : Within zero delta 0 n x) :
    ∃ e : Int, 0 ≤ e ∧ e < n ∧ Within zero delta e (e + 1) x := by
  obtain ⟨t, -, h1, h2, h3⟩ := element_holds (order := 1) hd one_pos (e0 := 0) (e1 := n) (by exact_mod_cast hn)
    (by simpa using hx) (width := n) (by simp)
  exact ⟨t, h1, by omega, by simpa using h3⟩

end Verif.Outref
