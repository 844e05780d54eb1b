/-
Lemmas for the output on the reference grid: the value written at a point, and the reduction.
-/
import Verif.Outref.Loops
import Verif.Column.FemProps

namespace Verif.Outref

open Polynomial
open Verif.Exchange (Res)
open Verif.Column (Op applyAll applyRow identity InElement OnEdge Through)

theorem shape_spec {G : Grid} {ty : DataType} {n : Nat} {flat : Bool} (h : shape G ty = some (n, flat)) :
    n = count G ty ∧ flat = flatData ty ∧ ∀ c, sizeF G ty flat c = sizeOf G ty c := by
  have key : n = count G ty ∧ flat = flatData ty := by
    cases ty <;> simp only [shape] at h
    case richardson =>
      by_cases hs : G.sphere = true
      · simp [hs] at h
      · simp [hs] at h; simp [count, flatData, h]
    all_goals first | (simp at h; simp [count, flatData, h]) | simp at h
  refine ⟨key.1, key.2, fun c => ?_⟩
  unfold sizeF sizeOf
  rw [key.2]

theorem interpolate_shape {G : Grid} {P : Patch} {ty : DataType} {incl conv : Bool} {only : Option Location} {rows nOut : Nat}
    {out : Nat → ℝ} {pts : List Point} {D D' : Nat → Nat → Nat → ℝ}
    (h : interpolateData G ty incl conv only rows nOut out pts D P = .ok D') : ∃ n flat, shape G ty = some (n, flat) := by
  cases hs : shape G ty with
  | none => unfold interpolateData at h; rw [hs] at h; simp at h
  | some nf => exact ⟨nf.1, nf.2, rfl⟩

theorem ofColumn_ok {r : Column.Res} {op : Op} (h : ofColumn r = .ok op) : r = .ok op := by
  cases r <;> simp [ofColumn] at h ⊢
  exact h

theorem verticalOp_eq (G : Grid) (l : Location) (nR nOut : Nat) (out : Nat → ℝ) (hn : nR ≠ 1)
    (hi : G.finiteElement = true ∨ G.sphere = true) : verticalOp G l nR nOut out =
      match l with
      | .node => ofColumn (Column.interpInit .levels (levelsPerElement G) G.levels (G.levels + 1) G.node G.edge nOut out false)
      | .redge => ofColumn (Column.interpInit .interfaces (levelsPerElement G) G.levels (G.levels + 1) G.node G.edge nOut out false)
      | .other => .exc := by
  unfold verticalOp levelsPerElement
  rw [if_pos hn]
  by_cases hf : G.finiteElement = true
  · rw [if_pos hf]; simp only [hf, if_true]; cases l <;> rfl
  · rw [if_neg hf, if_pos (by tauto)]; simp only [hf]; cases l <;> rfl

/-- The operator gives the value at the height. -/
theorem verticalOp_value {G : Grid} {l : Location} {nR nOut : Nat} {out : Nat → ℝ} {op : Op} (hn : nR ≠ 1)
    (hi : G.finiteElement = true ∨ G.sphere = true) (hc : ColumnOk (levelsPerElement G) G.levels G.node G.edge)
    (hop : verticalOp G l nR nOut out = .ok op) :
    op.rows = nOut ∧ ∀ k < nOut, ∀ y, VerticalValue G l nOut k y (out k) (applyRow op y k) := by
  rw [verticalOp_eq G l nR nOut out hn hi] at hop
  have hz : ∀ k, ¬ Column.Zeroed false nOut out k := fun k h => by simp [Column.Zeroed] at h
  cases l with
  | other => simp at hop
  | redge =>
    simp only at hop
    have h := ofColumn_ok hop
    refine ⟨(Column.C69_ranges _ _ _ _ _ _ _ _ _ _ h).1, fun k hk y a => ?_⟩
    obtain ⟨h1, h2⟩ := Column.C69_interfaces _ _ _ _ _ _ _ _ _ h hc.separated k hk (hz k) a y
    exact ⟨fun hin p hp ht => h1 hin (hc.interfaces a hin.1) p hp ht, h2⟩
  | node =>
    simp only at hop
    have h := ofColumn_ok hop
    refine ⟨(Column.C69_ranges _ _ _ _ _ _ _ _ _ _ h).1, fun k hk y => ⟨fun hr a => ?_, fun h1 hk0 a ha hin p hp ht => ?_,
      fun h1 hk1 hk0 a ha hin p hp ht => ?_⟩⟩
    · obtain ⟨h1, h2⟩ := Column.C69_levels _ _ _ _ _ _ _ _ _ h hc.separated k hk (hz k) hr a y
      exact ⟨fun hin p hp ht => h1 hin (hc.levels a hin.1) p hp ht,
        fun hon p q hp hq ht hu => h2 hon (hc.levels a (by have := hon.1; omega)) (hc.levels (a + 1) hon.1) p q hp hq ht hu⟩
    · rw [h1] at h
      have hs : Column.Separated G.edge G.levels := by have := hc.separated; rw [h1] at this; simpa using this
      exact (Column.C69_order_one _ _ _ _ _ _ _ _ h hs a y p hp).1 k hk hk0 (hz k) (by simpa using hin) (hc.neighbours a ha) ht
    · rw [h1] at h
      have hs : Column.Separated G.edge G.levels := by have := hc.separated; rw [h1] at this; simpa using this
      exact (Column.C69_order_one _ _ _ _ _ _ _ _ h hs a y p hp).2 k hk hk1 hk0 (hz k) (by simpa using hin) (hc.neighbours a ha) ht

/-- The operator of a component, and its rows. -/
theorem verticalOp_output {G : Grid} {ty : DataType} {c nOut : Nat} {out : Nat → ℝ} {op : Op}
    (hcol : sizeOf G ty c ≠ 1 → ColumnOk (levelsPerElement G) G.levels G.node G.edge) (hfit : Fits G ty c nOut)
    (hop : verticalOp G (locOf G ty c) (sizeOf G ty c) nOut out = .ok op) :
    op.rows = nOut ∧ ∀ k < nOut, ∀ y, ColumnOutput G ty c nOut k y (out k) (applyRow op y k) := by
  by_cases h1 : sizeOf G ty c = 1
  · have e : nOut = 1 := hfit.1 h1
    unfold verticalOp at hop
    rw [if_neg (by simpa using h1)] at hop
    cases hop
    refine ⟨by rw [e]; rfl, fun k hk y => ?_⟩
    unfold ColumnOutput
    rw [if_pos h1]
    have hk0 : k = 0 := by omega
    rw [hk0, (Column.C53_identity 1).2.1 y 0 (by omega)]
  · by_cases hi : G.finiteElement = true ∨ G.sphere = true
    · obtain ⟨r1, r2⟩ := verticalOp_value h1 hi (hcol h1) hop
      refine ⟨r1, fun k hk y => ?_⟩
      unfold ColumnOutput
      rw [if_neg h1, if_pos hi]
      exact r2 k hk y
    · have hi' := not_or.1 hi
      have e : nOut = sizeOf G ty c := hfit.2 h1 (by simpa using hi'.1) (by simpa using hi'.2)
      unfold verticalOp at hop
      rw [if_pos h1, if_neg hi'.1, if_neg hi'.2] at hop
      cases hop
      refine ⟨by rw [e]; rfl, fun k hk y => ?_⟩
      unfold ColumnOutput
      rw [if_neg h1, if_neg hi, (Column.C53_identity _).2.1 y k (by omega)]

theorem loop_each {σ ι : Type} {f : σ → ι → Res σ} : ∀ (l : List ι) (s t : σ), loop f l s = .ok t → ∀ x ∈ l, ∃ s s', f s x = .ok s' := by
  intro l
  induction l with
  | nil => intro _ _ _ x hx; simp at hx
  | cons y ys ih =>
    intro s t h x hx
    obtain ⟨s1, h1, h2⟩ := bind_ok h
    rcases List.mem_cons.1 hx with rfl | hx
    · exact ⟨s, s1, h1⟩
    · exact ih s1 t h2 x hx

/-- The value of a component before the conversion of the winds. -/
theorem value_before (G : Grid) (P : Patch) (hA : ElementNodes G.order G.gA G.deltaA) (hB : ElementNodes G.order G.gB G.deltaB)
    (ty : DataType) (incl conv : Bool) {only : Option Location} {nOut : Nat} {out : Nat → ℝ} {pts : List Point}
    {D : Nat → Nat → Nat → ℝ} {n : Nat} {flat : Bool} {w : Work} (hsh : shape G ty = some (n, flat))
    (h : loop (componentStep G P ty flat incl conv only nOut out pts) (List.range n) ⟨fun _ => 0, D⟩ = .ok w)
    {c : Nat} (hc : c < count G ty) (hq : Requested G ty only c)
    (hcol : sizeOf G ty c ≠ 1 → ColumnOk (levelsPerElement G) G.levels G.node G.edge) (hfit : Fits G ty c nOut)
    {i : Nat} {p : Point} (hi : pts[i]? = some p) (hp : p.patch = P.index) (hh : Holds G P p.A p.B) :
    ∃ y, ColumnAt G P p.A p.B (fun i0 j0 i j k => nodeValue G P ty conv c i0 j0 k (i - i0).toNat (j - j0).toNat -
        if ty = .state ∧ incl = false then P.ref c i j k else 0) y ∧
      ∀ k < nOut, ColumnOutput G ty c nOut k y (out k) (w.D c k i) := by
  obtain ⟨s1, s2, s3⟩ := shape_spec hsh
  obtain ⟨a0, a1, b0, b1, hE, hwA, hwB⟩ := hh
  obtain ⟨e, f, e1, e2, f1, f2, hwe, hwf, hv⟩ := columnData_value G P hA hB hE ty incl conv c p.A p.B hwA hwB
  refine ⟨columnData G P ty incl conv c p.A p.B, ⟨e, f, G.order * e - P.box.aBegin, G.order * f - P.box.bBegin, hwe, hwf, by ring, by ring,
    ?_, ?_, ?_, ?_, fun k => ?_⟩, fun k hk => ?_⟩
  · have := hE.aBegin; have := mul_le_mul_of_nonneg_left e1 (Int.natCast_nonneg G.order); omega
  · have := hE.aEnd
    have h2 := mul_le_mul_of_nonneg_left (show e + 1 ≤ a1 by omega) (Int.natCast_nonneg G.order)
    rw [mul_add, mul_one] at h2; omega
  · have := hE.bBegin; have := mul_le_mul_of_nonneg_left f1 (Int.natCast_nonneg G.order); omega
  · have := hE.bEnd
    have h2 := mul_le_mul_of_nonneg_left (show f + 1 ≤ b1 by omega) (Int.natCast_nonneg G.order)
    rw [mul_add, mul_one] at h2; omega
  · have := hv k
    unfold seen at this
    convert this using 4 with m j
    simp
  · obtain ⟨s, s', hs⟩ := loop_each _ _ _ h c (List.mem_range.2 (by rw [s1]; exact hc))
    have hs0 := hs
    rw [componentStep_eq, if_neg (by rw [skipped_iff]; simpa using hq)] at hs
    by_cases h2 : locOf G ty c = .other
    · rw [if_pos h2] at hs; simp at hs
    rw [if_neg h2] at hs
    obtain ⟨op, hop, -⟩ := bind_ok hs
    have hop' := hop
    rw [s3 c] at hop'
    obtain ⟨hr, hval⟩ := verticalOp_output hcol hfit hop'
    rw [interpolate_set G P ty incl conv h (by rw [s1]; exact hc) hq hi hp hop hr hk]
    exact hval k hk _

theorem columnAt_congr {G : Grid} {P : Patch} {A B : ℝ} {f g : Int → Int → Int → Int → Nat → ℝ} {y : Nat → ℝ}
    (h : ColumnAt G P A B f y) (hfg : ∀ i0 j0 : Int, ∀ m j : Nat, ∀ k, f i0 j0 (i0 + m) (j0 + j) k = g i0 j0 (i0 + m) (j0 + j) k) :
    ColumnAt G P A B g y := by
  obtain ⟨e, e', i0, j0, h1, h2, h3, h4, h5, h6, h7, h8, h9⟩ := h
  refine ⟨e, e', i0, j0, h1, h2, h3, h4, h5, h6, h7, h8, fun k => ?_⟩
  have := h9 k
  simp only [hfg] at this
  exact this

/-! ### The reduction -/

theorem reduce_sum (t : Checksum.Tree (Nat → Nat → Nat → ℝ)) (c k i : Nat) :
    reduceInterpolate t c k i = (t.leaves.map fun D => D c k i).sum := by
  unfold reduceInterpolate
  induction t with
  | leaf x => simp [Checksum.Tree.reduce, Checksum.Tree.leaves]
  | node l r hl hr =>
    simp only [Checksum.Tree.reduce, Checksum.Tree.leaves, List.map_append, List.sum_append, hl, hr]

section
variable (G : Grid) (ty : DataType) (incl conv : Bool) (only : Option Location) (rows nOut : Nat) (out : Nat → ℝ) (pts : List Point)

theorem local_ok {active : List Patch} {D : Nat → Nat → Nat → ℝ}
    (h : localInterpolate G ty incl conv only rows nOut out pts active = .ok D) :
    loop (interpolateData G ty incl conv only rows nOut out pts) active (fun _ _ _ => 0) = .ok D := by
  unfold localInterpolate at h
  by_cases hr : rowsChecked G ty rows
  · rw [if_pos hr] at h; exact h
  · rw [if_neg hr] at h; simp at h

/-- A process without the patch of a point contributes nothing to it. -/
theorem local_none {active : List Patch} {D : Nat → Nat → Nat → ℝ}
    (h : localInterpolate G ty incl conv only rows nOut out pts active = .ok D) {i : Nat}
    (hn : ∀ p, pts[i]? = some p → ∀ P ∈ active, p.patch ≠ P.index) (c k : Nat) : D c k i = 0 := by
  refine loop_invariant (fun E : Nat → Nat → Nat → ℝ => E c k i = 0) active _ D (fun P hP s s' hI hf => ?_) rfl (local_ok G ty incl conv only rows nOut out pts h)
  rw [interpolate_other G P ty incl conv hf (fun p hp => hn p hp P hP), hI]

/-- The process with the patch of a point contributes what the patch makes of zeros. -/
theorem local_some {active : List Patch} {D : Nat → Nat → Nat → ℝ}
    (h : localInterpolate G ty incl conv only rows nOut out pts active = .ok D) (hd : (active.map Patch.index).Nodup) {i : Nat} {p : Point}
    (hi : pts[i]? = some p) {P : Patch} (hP : P ∈ active) (hp : p.patch = P.index) :
    ∃ D0 D1, (∀ c k, D0 c k i = 0) ∧ interpolateData G ty incl conv only rows nOut out pts D0 P = .ok D1 ∧
      ∀ c k, D c k i = D1 c k i := by
  have h1 := local_ok G ty incl conv only rows nOut out pts h
  obtain ⟨l1, l2, hl⟩ := List.append_of_mem hP
  rw [hl] at h1 hd
  rw [List.map_append, List.map_cons, List.nodup_append] at hd
  obtain ⟨-, n2, n3⟩ := hd
  rw [List.nodup_cons] at n2
  rw [loop_append] at h1
  obtain ⟨D0, h2, h3⟩ := bind_ok h1
  obtain ⟨D1, h4, h5⟩ := bind_ok h3
  refine ⟨D0, D1, fun c k => ?_, h4, fun c k => ?_⟩
  · refine loop_invariant (fun E : Nat → Nat → Nat → ℝ => E c k i = 0) l1 _ D0 (fun Q hQ s s' hI hf => ?_) rfl h2
    rw [interpolate_other G Q ty incl conv hf (fun q hq => ?_), hI]
    rw [hi] at hq; cases hq
    rw [hp]
    exact fun he => n3 Q.index (List.mem_map_of_mem hQ) P.index (by simp) he.symm
  · refine loop_invariant (fun E : Nat → Nat → Nat → ℝ => E c k i = D1 c k i) l2 D1 D (fun Q hQ s s' hI hf => ?_) rfl h5
    rw [interpolate_other G Q ty incl conv hf (fun q hq => ?_), hI]
    rw [hi] at hq; cases hq
    rw [hp]
    exact fun he => n2.1 (by rw [he]; exact List.mem_map_of_mem hQ)

/-- The sum over the processes. -/
theorem sum_local {procs : List (List Patch)} {Ds : List (Nat → Nat → Nat → ℝ)}
    (h : List.Forall₂ (fun active D => localInterpolate G ty incl conv only rows nOut out pts active = .ok D) procs Ds) {i : Nat} (c k : Nat) :
    (∀ p, pts[i]? = some p → ∀ P ∈ procs.flatten, p.patch ≠ P.index) → (Ds.map fun D => D c k i).sum = 0 := by
  induction h with
  | nil => intro _; rfl
  | cons h1 _ ih =>
    intro hn
    rw [List.map_cons, List.sum_cons, local_none G ty incl conv only rows nOut out pts h1 (fun p hp P hP => hn p hp P (by simp [hP])),
      ih (fun p hp P hP => hn p hp P (by rw [List.flatten_cons, List.mem_append]; exact Or.inr hP)), zero_add]

theorem sum_local_some {procs : List (List Patch)} {Ds : List (Nat → Nat → Nat → ℝ)}
    (h : List.Forall₂ (fun active D => localInterpolate G ty incl conv only rows nOut out pts active = .ok D) procs Ds)
    (hd : (procs.flatten.map Patch.index).Nodup) {i : Nat} {p : Point} (hi : pts[i]? = some p) {P : Patch} (hP : P ∈ procs.flatten)
    (hp : p.patch = P.index) :
    ∃ D0 D1, (∀ c k, D0 c k i = 0) ∧ interpolateData G ty incl conv only rows nOut out pts D0 P = .ok D1 ∧
      ∀ c k, (Ds.map fun D => D c k i).sum = D1 c k i := by
  induction h with
  | nil => simp at hP
  | @cons active D procs Ds h1 h2 ih =>
    rw [List.flatten_cons, List.map_append, List.nodup_append] at hd
    obtain ⟨n1, n2, n3⟩ := hd
    rw [List.flatten_cons, List.mem_append] at hP
    rcases hP with hP | hP
    · obtain ⟨D0, D1, r1, r2, r3⟩ := local_some G ty incl conv only rows nOut out pts h1 n1 hi hP hp
      refine ⟨D0, D1, r1, r2, fun c k => ?_⟩
      rw [List.map_cons, List.sum_cons, r3, sum_local G ty incl conv only rows nOut out pts h2 c k, add_zero]
      intro q hq Q hQ
      rw [hi] at hq; cases hq
      rw [hp]
      exact n3 P.index (List.mem_map_of_mem hP) Q.index (List.mem_map_of_mem hQ)
    · obtain ⟨D0, D1, r1, r2, r3⟩ := ih n2 hP
      refine ⟨D0, D1, r1, r2, fun c k => ?_⟩
      rw [List.map_cons, List.sum_cons, local_none G ty incl conv only rows nOut out pts h1, r3, zero_add]
      intro q hq Q hQ
      rw [hi] at hq; cases hq
      rw [hp]
      exact fun he => n3 Q.index (List.mem_map_of_mem hQ) P.index (List.mem_map_of_mem hP) he.symm

end

end Verif.Outref
