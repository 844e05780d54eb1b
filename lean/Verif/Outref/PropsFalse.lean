/-
C97: where the output on the reference grid is not the state at that place.
-/
import Verif.Outref.PropsValues

namespace Verif.Outref

open Polynomial
open Verif.Exchange (Res)
open Verif.Patch (Box)
open Verif.Column (Op applyRow applyAll identity)
open Verif.Sphere (IsPanel LonOK atPole rllFromXYP)

/-! ### A small grid: one element of two by two nodes over the unit square, one level -/

/-- The grid. -/
noncomputable def unitGrid (components tracers userFields : Nat) : Grid where
  sphere := false
  order := 2
  zeroA := 0
  deltaA := 1
  gA := fun i => i
  zeroB := 0
  deltaB := 1
  gB := fun i => i
  radius := 1
  components := components
  loc := fun _ => .node
  tracers := tracers
  userFields := userFields
  levels := 1
  finiteElement := true
  vorder := 1
  node := fun _ => 1 / 2
  edge := fun i => i

/-- Its only patch. -/
noncomputable def unitPatch (field : DataType → Nat → Int → Int → Nat → ℝ) (ref : Nat → Int → Int → Nat → ℝ) (deriv : Int → Int → Nat → ℝ) :
    Patch := ⟨Box.make 0 0 1 0 2 0 2, 0, field, ref, deriv, deriv⟩

theorem unit_nodes : ElementNodes 2 (fun i : Nat => (i : ℝ)) 1 := by
  refine ⟨le_rfl, by simp, fun i j hij _ => by exact_mod_cast hij, by norm_num⟩

theorem unit_holds (n t u : Nat) (f : DataType → Nat → Int → Int → Nat → ℝ) (r : Nat → Int → Int → Nat → ℝ) (d : Int → Int → Nat → ℝ) {A B : ℝ}
    (hA : 0 ≤ A ∧ A ≤ 1) (hB : 0 ≤ B ∧ B ≤ 1) : Holds (unitGrid n t u) (unitPatch f r d) A B := by
  refine ⟨0, 1, 0, 1, ?_, ?_, ?_⟩
  · constructor <;> simp [unitGrid, unitPatch, Box.make]
  · simpa [Within, unitGrid] using hA
  · simpa [Within, unitGrid] using hB

theorem unit_size (n t u c : Nat) (ty : DataType) : sizeOf (unitGrid n t u) ty c = 1 := by
  unfold sizeOf locOf
  by_cases h : flatData ty = true <;> simp [h, unitGrid]

theorem unit_fits (n t u c : Nat) (ty : DataType) : Fits (unitGrid n t u) ty c 1 :=
  ⟨fun _ => rfl, fun h => absurd (unit_size n t u c ty) h⟩

/-- On the small grid the interpolation to one point and one level succeeds. -/
theorem unit_succeeds (n t u : Nat) (f : DataType → Nat → Int → Int → Nat → ℝ) (r : Nat → Int → Int → Nat → ℝ) (d : Int → Int → Nat → ℝ) (ty : DataType)
    (hty : ty ≠ .other) (h3 : 3 < count (unitGrid n t u) ty → 3 < n) (incl conv : Bool) {A B : ℝ} (hA : 0 ≤ A ∧ A ≤ 1) (hB : 0 ≤ B ∧ B ≤ 1) :
    ∃ D', interpolateData (unitGrid n t u) ty incl conv none (count (unitGrid n t u) ty) 1 (fun _ => 1 / 2) [⟨A, B, 0⟩] (fun _ _ _ => 0)
      (unitPatch f r d) = .ok D' := by
  refine C97_succeeds _ _ _ _ _ _ _ _ _ _ _ unit_nodes unit_nodes ⟨hty, fun h => ?_⟩ rfl (fun h => ?_) (fun _ c _ => ?_) (fun h _ => h3 h)
    (fun c _ => unit_fits n t u c ty) (fun c _ h => absurd (unit_size n t u c ty) h) (fun p hp _ => ?_)
  · simp [unitGrid] at h
  · simp [unitGrid] at h
  · simp [unitGrid]
  · rw [List.mem_singleton] at hp
    rw [hp]; exact unit_holds n t u f r d hA hB

/-- Hypotheses of `C97_value` are met: temperature 300 everywhere is written as 300. -/
example : ∃ D', interpolateData (unitGrid 5 0 0) .temperature true true none 1 1 (fun _ => 1 / 2) [⟨1 / 3, 1 / 4, 0⟩] (fun _ _ _ => 0)
    (unitPatch (fun _ _ _ _ _ => 300) (fun _ _ _ _ => 0) fun _ _ _ => 2) = .ok D' ∧ D' 0 0 0 = 300 := by
  obtain ⟨D', h⟩ := unit_succeeds 5 0 0 (fun _ _ _ _ _ => 300) (fun _ _ _ _ => 0) (fun _ _ _ => 2) .temperature (by simp) (by simp [count]) true true
    (A := 1 / 3) (B := 1 / 4) (by norm_num) (by norm_num)
  refine ⟨D', h, ?_⟩
  obtain ⟨y, h1, h2⟩ := C97_value _ _ _ _ _ _ _ _ _ _ _ _ unit_nodes unit_nodes h 0 (by simp [count]) (fun h => by simp at h) (by simp)
    (by simp [unitGrid]) (fun h => absurd (unit_size _ _ _ _ _) h) (unit_fits _ _ _ _ _) 0 ⟨1 / 3, 1 / 4, 0⟩ rfl rfl
    (unit_holds _ _ _ _ _ _ (by norm_num) (by norm_num))
  have h3 := h2 0 one_pos
  unfold ColumnOutput at h3
  rw [if_pos (unit_size _ _ _ _ _)] at h3
  rw [h3]
  exact columnAt_const (by simp [unitGrid]) h1 fun _ _ _ _ => by simp [asked, unitPatch]

/-- Hypotheses of `C97_winds` are met. -/
example : ∃ D', interpolateData { unitGrid 5 0 0 with sphere := true } .state true true none 5 1 (fun _ => 1 / 2) [⟨1 / 3, 1 / 4, 0⟩] (fun _ _ _ => 0)
    (unitPatch (fun _ _ _ _ _ => 300) (fun _ _ _ _ => 0) fun _ _ _ => 2) = .ok D' := by
  have hz : ∀ c, sizeOf { unitGrid 5 0 0 with sphere := true } .state c = 1 := fun c => unit_size 5 0 0 c .state
  have hf : ∀ c, Fits { unitGrid 5 0 0 with sphere := true } .state c 1 := fun c => ⟨fun _ => rfl, fun h => absurd (hz c) h⟩
  refine C97_succeeds _ _ _ _ _ _ _ _ _ _ _ unit_nodes unit_nodes ⟨by simp, fun _ => by simp⟩ rfl (fun _ _ _ => ⟨by simp, Or.inl rfl⟩)
    (fun _ c _ => by simp [unitGrid]) (fun h _ => h) (fun c _ => hf c) (fun c _ h => absurd (hz c) h) (fun p hp _ => ?_)
  rw [List.mem_singleton] at hp
  rw [hp]; exact unit_holds 5 0 0 _ _ _ (by norm_num) (by norm_num)

example : IsPanel 0 ∧ LonOK 0 (Real.tan 0) ∧ ¬ atPole (Real.tan 0) (Real.tan 0) 0 ∧ ∃ r, rllFromXYP (Real.tan 0) (Real.tan 0) 0 = some r := by
  refine ⟨Or.inl rfl, ?_, ?_, ?_⟩
  · simp [LonOK]
  · simp [atPole]
  · simp [rllFromXYP]

/-- Hypotheses of `C97_reduce` are met. -/
example : ∃ D, Contributions (unitGrid 5 0 0) .temperature true true none 1 1 (fun _ => 1 / 2) [⟨1 / 3, 1 / 4, 0⟩]
    [[unitPatch (fun _ _ _ _ _ => 300) (fun _ _ _ _ => 0) fun _ _ _ => 2], []] [D, fun _ _ _ => 0] := by
  obtain ⟨D', h⟩ := unit_succeeds 5 0 0 (fun _ _ _ _ _ => 300) (fun _ _ _ _ => 0) (fun _ _ _ => 2) .temperature (by simp) (by simp [count]) true true
    (A := 1 / 3) (B := 1 / 4) (by norm_num) (by norm_num)
  refine ⟨D', ?_⟩
  have hr : rowsChecked (unitGrid 5 0 0) .temperature 1 := rfl
  refine List.Forall₂.cons ?_ (List.Forall₂.cons ?_ List.Forall₂.nil)
  · unfold localInterpolate
    rw [if_pos hr, loop]
    have h' : interpolateData (unitGrid 5 0 0) .temperature true true none 1 1 (fun _ => 1 / 2) [⟨1 / 3, 1 / 4, 0⟩] (fun _ _ _ => 0)
      (unitPatch (fun _ _ _ _ _ => 300) (fun _ _ _ _ => 0) fun _ _ _ => 2) = .ok D' := h
    rw [h']; rfl
  · unfold localInterpolate
    rw [if_pos hr]; rfl

/-- **C97 fails (fourth tracer).**  With the primitive variables that are asked for by default, a fourth tracer that is `q`
everywhere is written as `q / d`, where `d` is the vertical derivative of the coordinate. -/
theorem C97_tracer_false (q d : ℝ) : ∃ D', interpolateData (unitGrid 5 4 0) .tracers true true none 4 1 (fun _ => 1 / 2) [⟨1 / 3, 1 / 4, 0⟩]
    (fun _ _ _ => 0) (unitPatch (fun _ _ _ _ _ => q) (fun _ _ _ _ => 0) fun _ _ _ => d) = .ok D' ∧ D' 2 0 0 = q ∧ D' 3 0 0 = q / d := by
  obtain ⟨D', h⟩ := unit_succeeds 5 4 0 (fun _ _ _ _ _ => q) (fun _ _ _ _ => 0) (fun _ _ _ => d) .tracers (by simp) (by simp) true true
    (A := 1 / 3) (B := 1 / 4) (by norm_num) (by norm_num)
  refine ⟨D', h, ?_, ?_⟩
  · obtain ⟨y, h1, h2⟩ := C97_value _ _ _ _ _ _ _ _ _ _ _ _ unit_nodes unit_nodes h 2 (by simp [count, unitGrid]) (fun h => by simp at h) (by simp)
      (by simp [unitGrid]) (fun h => absurd (unit_size _ _ _ _ _) h) (unit_fits _ _ _ _ _) 0 ⟨1 / 3, 1 / 4, 0⟩ rfl rfl
      (unit_holds _ _ _ _ _ _ (by norm_num) (by norm_num))
    have h3 := h2 0 one_pos
    unfold ColumnOutput at h3
    rw [if_pos (unit_size _ _ _ _ _)] at h3
    rw [h3]
    exact columnAt_const (by simp [unitGrid]) h1 fun _ _ _ _ => by simp [asked, unitPatch]
  · obtain ⟨y, h1, h2⟩ := C97_fourth _ _ _ _ _ _ _ _ _ _ _ unit_nodes unit_nodes h (by simp [count, unitGrid]) (fun h => by simp at h)
      (fun h => absurd (unit_size _ _ _ _ _) h) (unit_fits _ _ _ _ _) 0 ⟨1 / 3, 1 / 4, 0⟩ rfl rfl
      (unit_holds _ _ _ _ _ _ (by norm_num) (by norm_num))
    have h3 := h2 0 one_pos
    unfold ColumnOutput at h3
    rw [if_pos (unit_size _ _ _ _ _)] at h3
    rw [h3]
    exact columnAt_const (by simp [unitGrid]) h1 fun _ _ _ _ => by simp [unitGrid, unitPatch]

/-- **C97 fails (fourth user field).**  The same for the fourth two-dimensional field of a user. -/
theorem C97_userdata_false (q d : ℝ) : ∃ D', interpolateData (unitGrid 5 0 4) .auxiliary2D true true none 4 1 (fun _ => 1 / 2) [⟨1 / 3, 1 / 4, 0⟩]
    (fun _ _ _ => 0) (unitPatch (fun _ _ _ _ _ => q) (fun _ _ _ _ => 0) fun _ _ _ => d) = .ok D' ∧ D' 3 0 0 = q / d := by
  obtain ⟨D', h⟩ := unit_succeeds 5 0 4 (fun _ _ _ _ _ => q) (fun _ _ _ _ => 0) (fun _ _ _ => d) .auxiliary2D (by simp) (by simp) true true
    (A := 1 / 3) (B := 1 / 4) (by norm_num) (by norm_num)
  refine ⟨D', h, ?_⟩
  obtain ⟨y, h1, h2⟩ := C97_fourth _ _ _ _ _ _ _ _ _ _ _ unit_nodes unit_nodes h (by simp [count, unitGrid]) (fun h => by simp at h)
    (fun h => absurd (unit_size _ _ _ _ _) h) (unit_fits _ _ _ _ _) 0 ⟨1 / 3, 1 / 4, 0⟩ rfl rfl
    (unit_holds _ _ _ _ _ _ (by norm_num) (by norm_num))
  have h3 := h2 0 one_pos
  unfold ColumnOutput at h3
  rw [if_pos (unit_size _ _ _ _ _)] at h3
  rw [h3]
  exact columnAt_const (by simp [unitGrid]) h1 fun _ _ _ _ => by simp [unitGrid, unitPatch]

/-- **C97 fails (reference state).**  A vertical velocity that equals its reference state `q` is written, as a perturbation, as
`q / d - q` and not as zero. -/
theorem C97_reference_false (q d : ℝ) : ∃ D', interpolateData (unitGrid 5 0 0) .state false true none 5 1 (fun _ => 1 / 2) [⟨1 / 3, 1 / 4, 0⟩]
    (fun _ _ _ => 0) (unitPatch (fun _ _ _ _ _ => q) (fun _ _ _ _ => q) fun _ _ _ => d) = .ok D' ∧ D' 2 0 0 = 0 ∧ D' 3 0 0 = q / d - q := by
  obtain ⟨D', h⟩ := unit_succeeds 5 0 0 (fun _ _ _ _ _ => q) (fun _ _ _ _ => q) (fun _ _ _ => d) .state (by simp) (by simp) false true
    (A := 1 / 3) (B := 1 / 4) (by norm_num) (by norm_num)
  refine ⟨D', h, ?_, ?_⟩
  · obtain ⟨y, h1, h2⟩ := C97_value _ _ _ _ _ _ _ _ _ _ _ _ unit_nodes unit_nodes h 2 (by simp [count, unitGrid]) (fun _ => Or.inl rfl) (by simp)
      (by simp [unitGrid]) (fun h => absurd (unit_size _ _ _ _ _) h) (unit_fits _ _ _ _ _) 0 ⟨1 / 3, 1 / 4, 0⟩ rfl rfl
      (unit_holds _ _ _ _ _ _ (by norm_num) (by norm_num))
    have h3 := h2 0 one_pos
    unfold ColumnOutput at h3
    rw [if_pos (unit_size _ _ _ _ _)] at h3
    rw [h3]
    exact columnAt_const (by simp [unitGrid]) h1 fun _ _ _ _ => by simp [asked, unitPatch]
  · obtain ⟨y, h1, h2⟩ := C97_fourth _ _ _ _ _ _ _ _ _ _ _ unit_nodes unit_nodes h (by simp [count, unitGrid]) (fun _ => Or.inl rfl)
      (fun h => absurd (unit_size _ _ _ _ _) h) (unit_fits _ _ _ _ _) 0 ⟨1 / 3, 1 / 4, 0⟩ rfl rfl
      (unit_holds _ _ _ _ _ _ (by norm_num) (by norm_num))
    have h3 := h2 0 one_pos
    unfold ColumnOutput at h3
    rw [if_pos (unit_size _ _ _ _ _)] at h3
    rw [h3]
    exact columnAt_const (by simp [unitGrid]) h1 fun _ _ _ _ => by simp [unitGrid, unitPatch]

/-- **C97 fails (vertical velocity over a slope).**  A vertical velocity of one everywhere, kept as the vertical derivative, which
is one at the nodes on the left and two at those on the right, is written as two at the node on the lower right: the whole element is
divided by the derivative at its first node. -/
theorem C97_vertical_velocity_false : ∃ D',
    interpolateData (unitGrid 5 0 0) .state true true none 5 1 (fun _ => 1 / 2) [⟨1, 0, 0⟩] (fun _ _ _ => 0)
      (unitPatch (fun _ _ i _ _ => if i = 1 then 1 else 2) (fun _ _ _ _ => 0) fun i _ _ => if i = 1 then 1 else 2) = .ok D' ∧ D' 3 0 0 = 2 := by
  obtain ⟨D', h⟩ := unit_succeeds 5 0 0 (fun _ _ i _ _ => if i = 1 then 1 else 2) (fun _ _ _ _ => 0) (fun i _ _ => if i = 1 then 1 else 2) .state (by simp) (by simp)
    true true (A := 1) (B := 0) (by norm_num) (by norm_num)
  refine ⟨D', h, ?_⟩
  obtain ⟨y, h1, h2⟩ := C97_fourth _ _ _ _ _ _ _ _ _ _ _ unit_nodes unit_nodes h (by simp [count, unitGrid]) (fun _ => Or.inl rfl)
    (fun h => absurd (unit_size _ _ _ _ _) h) (unit_fits _ _ _ _ _) 0 ⟨1, 0, 0⟩ rfl rfl
    (unit_holds _ _ _ _ _ _ (by norm_num) (by norm_num))
  have h3 := h2 0 one_pos
  unfold ColumnOutput at h3
  rw [if_pos (unit_size _ _ _ _ _)] at h3
  rw [h3]
  obtain ⟨e, e', i0, j0, w1, w2, b1, b2, c1, c2, c3, c4, hv⟩ := h1
  simp only [unitGrid, unitPatch, Box.make] at b1 c1 c2
  have hi0 : i0 = 1 := by push_cast at *; omega
  have he : e = 0 := by push_cast at *; omega
  subst hi0
  subst he
  have hd : ∀ q : ℝ, (C q : ℝ[X]).degree < (2 : ℕ) := fun q => lt_of_le_of_lt Polynomial.degree_C_le (by norm_num)
  have hX : (X + 1 : ℝ[X]).degree < (2 : ℕ) := by
    have : (X + 1 : ℝ[X]) = X + C 1 := by simp
    rw [this, Polynomial.degree_X_add_C]; norm_num
  have := hv 0 (fun m => C (if m = 0 then 1 else 2)) (X + 1) (fun m hm => ⟨hd _, fun j _ => ?_⟩) hX (fun m hm => ?_)
  · rw [this]; norm_num
  · have hm' : m < 2 := hm
    interval_cases m <;> simp [unitGrid, unitPatch]
  · have hm' : m < 2 := hm
    interval_cases m <;> norm_num [nodeCoord, unitGrid]

/-- **C97 fails (several output levels for one).**  A model with one level writes zero at all output levels but the first. -/
theorem C97_single_level_false (q : ℝ) : ∃ D',
    interpolateData (unitGrid 5 0 0) .temperature true true none 1 2 (fun k => k) [⟨1 / 3, 1 / 4, 0⟩] (fun _ _ _ => 0)
      (unitPatch (fun _ _ _ _ _ => q) (fun _ _ _ _ => 0) fun _ _ _ => 2) = .ok D' ∧ D' 0 1 0 = 0 := by
  have hin : ¬ outOfRange (unitGrid 5 0 0) (unitPatch (fun _ _ _ _ _ => q) (fun _ _ _ _ => 0) fun _ _ _ => 2) (1 / 3) (1 / 4) := by
    obtain ⟨a0, a1, b0, b1, hE, hwA, hwB⟩ := unit_holds 5 0 0 (fun _ _ _ _ _ => q) (fun _ _ _ _ => 0) (fun _ _ _ => 2) (A := 1 / 3) (B := 1 / 4)
      (by norm_num) (by norm_num)
    exact in_range _ _ unit_nodes unit_nodes hE _ _ hwA hwB
  have hbuf : ∀ x : Nat → ℝ, applyAll (identity 1) x (fun _ => 0) 1 1 1 = 0 := by
    intro x
    unfold applyAll identity
    simp [Function.update]
  refine ⟨fun c k i => if c = 0 ∧ i = 0 ∧ k < 2 then applyAll (identity 1) (columnData (unitGrid 5 0 0) (unitPatch (fun _ _ _ _ _ => q) (fun _ _ _ _ => 0) fun _ _ _ => 2)
    .temperature true true 0 (1 / 3) (1 / 4)) (fun _ => 0) 1 1 k else 0, ?_, ?_⟩
  · unfold interpolateData
    have hs : shape (unitGrid 5 0 0) .temperature = some (1, false) := rfl
    rw [hs]
    simp only
    rw [if_neg (by simp)]
    have hl : (List.range 1) = [0] := rfl
    rw [hl, loop, componentStep_eq, if_neg (by simp), if_neg (by simp [locOf])]
    have hop : verticalOp (unitGrid 5 0 0) (locOf (unitGrid 5 0 0) .temperature 0) (sizeF (unitGrid 5 0 0) .temperature false 0) 2 (fun k => k) = .ok (identity 1) := by
      unfold verticalOp
      rw [if_neg (by simp [sizeF, locOf, unitGrid])]
    rw [hop]
    simp only [Res.bind, numbered, List.zipIdx_cons, List.zipIdx_nil, List.map_cons, List.map_nil, loop]
    unfold pointStep
    rw [if_neg (by simp [unitPatch]), if_neg hin, if_neg (by simp), if_neg (by simp [identity])]
    simp only [reduceCtorEq, false_and, and_false, if_false]
    congr 1
  · simp only [hbuf]
    simp

/-- **C97 fails (Richardson number).**  The Richardson number cannot be written on a sphere. -/
theorem C97_richardson_false (G : Grid) (hs : G.sphere = true) (P : Patch) (incl conv : Bool) (only : Option Location) (rows nOut : Nat)
    (out : Nat → ℝ) (pts : List Point) (D : Nat → Nat → Nat → ℝ) :
    interpolateData G .richardson incl conv only rows nOut out pts D P = .exc := by
  unfold interpolateData shape
  simp [hs]

/-- **C97 fails (finite volumes on the plane).**  With vertical finite volumes on the plane a variable kept at the interfaces
cannot be written at the levels of the model: its column is longer than the buffer, so no such call that has a point in the
patch completes. -/
theorem C97_finite_volume_false (G : Grid) (hs : G.sphere = false) (hf : G.finiteElement = false) (hl : 0 < G.levels) (P : Patch)
    (incl conv : Bool) (only : Option Location) (rows : Nat) (out : Nat → ℝ) (pts : List Point) (D : Nat → Nat → Nat → ℝ)
    (c : Nat) (hc : c < G.components) (hloc : G.loc c = .redge) (hq : Requested G .state only c) (p : Point) (hp : p ∈ pts)
    (hpp : p.patch = P.index) : ¬ ∃ D', interpolateData G .state incl conv only rows G.levels out pts D P = .ok D' := by
  rintro ⟨D', h⟩
  obtain ⟨w, h1, -, -⟩ := interpolate_parts G P .state incl conv h (n := G.components) (flat := false) rfl
  obtain ⟨s, s', h2⟩ := loop_each _ _ _ h1 c (List.mem_range.2 hc)
  have hlc : locOf G .state c = .redge := by simp [locOf, hloc]
  have hsz : sizeF G .state false c = G.levels + 1 := by simp [sizeF, hlc]
  rw [componentStep_eq, if_neg (by rw [skipped_iff]; simpa using hq), hlc, hsz] at h2
  simp only [reduceCtorEq, if_false] at h2
  have hop : verticalOp G .redge (G.levels + 1) G.levels out = .ok (identity (G.levels + 1)) := by
    unfold verticalOp
    rw [if_pos (by omega), if_neg (by simp [hf]), if_neg (by simp [hs])]
  rw [hop] at h2
  obtain ⟨i, hi⟩ := List.getElem?_of_mem hp
  obtain ⟨v, v', h3⟩ := loop_each _ _ _ h2 (i, p) (mem_numbered.2 hi)
  unfold pointStep at h3
  simp only at h3
  rw [if_neg (by simpa using hpp)] at h3
  by_cases h4 : outOfRange G P p.A p.B
  · rw [if_pos h4] at h3; simp at h3
  rw [if_neg h4] at h3
  by_cases h5 : c = 3 ∧ conv ∧ 0 < G.levels + 1 ∧ G.components ≤ 3
  · rw [if_pos h5] at h3; simp at h3
  rw [if_neg h5, if_pos (by simp [identity])] at h3
  simp at h3

/-- **C97 fails (tracers of a shallow water model).**  In a model of three components a fourth tracer makes the output read a
location that does not exist: no call that has a point in the patch completes. -/
theorem C97_shallow_water_false (G : Grid) (h3 : G.components = 3) (ht : 4 ≤ G.tracers) (hl : 0 < G.levels) (P : Patch) (incl : Bool)
    (only : Option Location) (rows nOut : Nat) (out : Nat → ℝ) (pts : List Point) (D : Nat → Nat → Nat → ℝ) (p : Point) (hp : p ∈ pts)
    (hpp : p.patch = P.index) : ¬ ∃ D', interpolateData G .tracers incl true only rows nOut out pts D P = .ok D' := by
  rintro ⟨D', h⟩
  obtain ⟨w, h1, -, -⟩ := interpolate_parts G P .tracers incl true h (n := G.tracers) (flat := false) rfl
  obtain ⟨s, s', h2⟩ := loop_each _ _ _ h1 3 (List.mem_range.2 ht)
  rw [componentStep_eq, if_neg (by simp), if_neg (by simp [locOf])] at h2
  obtain ⟨op, -, h4⟩ := bind_ok h2
  obtain ⟨i, hi⟩ := List.getElem?_of_mem hp
  obtain ⟨v, v', h5⟩ := loop_each _ _ _ h4 (i, p) (mem_numbered.2 hi)
  unfold pointStep at h5
  simp only at h5
  rw [if_neg (by simpa using hpp)] at h5
  by_cases h6 : outOfRange G P p.A p.B
  · rw [if_pos h6] at h5; simp at h5
  rw [if_neg h6, if_pos (by simp [sizeF, locOf, hl, h3])] at h5
  simp at h5

end Verif.Outref
