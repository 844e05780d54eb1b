/-
C94: the implicit step of a patch steps every column once, whatever the order and the columns before; shared columns agree afterwards;
the filter of tracers.
-/
import Verif.Vdyn.PatchLemmas
import Verif.Vdyn.TracerExamples

namespace Verif.Vdyn

open Verif.Column Verif.Interp Finset Polynomial

/-! ### The filter -/

theorem filter_eq (S : Setup) (area q : Nat → ℝ) (k : Nat) (hk : k < S.levels) :
    filterColumn S area q k = open Classical in if 0 < q k then
      q k * (columnMass S.levels area q / ∑ k ∈ range S.levels, if 0 ≤ q k then q k * area k else 0) else 0 := by
  unfold filterColumn columnMass
  dsimp only
  rw [if_pos hk, sum_range, sum_range]

theorem filter_congr (S : Setup) (area q q' : Nat → ℝ) (h : ∀ k < S.levels, q k = q' k) (k : Nat) (hk : k < S.levels) :
    filterColumn S area q k = filterColumn S area q' k := by
  rw [filter_eq S area q k hk, filter_eq S area q' k hk, h k hk]
  have h1 : columnMass S.levels area q = columnMass S.levels area q' := sum_congr rfl fun j hj => by rw [h j (mem_range.1 hj)]
  have h2 : (open Classical in ∑ k ∈ range S.levels, if 0 ≤ q k then q k * area k else 0) =
      open Classical in ∑ k ∈ range S.levels, if 0 ≤ q' k then q' k * area k else 0 :=
    sum_congr rfl fun j hj => by rw [h j (mem_range.1 hj)]
  rw [h1, h2]

/-- The mass of the levels where there is some. -/
theorem positive_mass (S : Setup) (area q : Nat → ℝ) (ha : ∀ k < S.levels, 0 < area k) (k : Nat) (hk : k < S.levels) (hq : 0 < q k) :
    0 < (open Classical in ∑ k ∈ range S.levels, if 0 ≤ q k then q k * area k else 0) := by
  classical
  refine sum_pos' (fun j hj => ?_) ⟨k, mem_range.2 hk, ?_⟩
  · split_ifs with h
    · exact mul_nonneg h (ha j (mem_range.1 hj)).le
    · exact le_rfl
  · rw [if_pos hq.le]
    exact mul_pos hq (ha k hk)

/-- **C94 (filter).**  In a column with positive areas whose tracer has no negative mass in sum, the filter leaves no negative values,
zero where there was nothing or less, the mass of the column as it was, and a tracer without negative values as it was. -/
theorem C94_filter (S : Setup) (area q : Nat → ℝ) (ha : ∀ k < S.levels, 0 < area k) :
    (0 ≤ columnMass S.levels area q → (∀ k < S.levels, 0 ≤ filterColumn S area q k) ∧
      columnMass S.levels area (filterColumn S area q) = columnMass S.levels area q) ∧
    (∀ k < S.levels, q k ≤ 0 → filterColumn S area q k = 0) ∧
    ((∀ k < S.levels, 0 ≤ q k) → ∀ k < S.levels, filterColumn S area q k = q k) ∧
    ∀ k, S.levels ≤ k → filterColumn S area q k = q k := by
  classical
  have hzero : ∀ k < S.levels, q k ≤ 0 → filterColumn S area q k = 0 := fun k hk h => by
    rw [filter_eq S area q k hk, if_neg (not_lt.2 h)]
  refine ⟨fun hm => ⟨fun k hk => ?_, ?_⟩, hzero, fun hq k hk => ?_, fun k hk => ?_⟩
  · rw [filter_eq S area q k hk]
    split_ifs with h
    · exact mul_nonneg h.le (div_nonneg hm (positive_mass S area q ha k hk h).le)
    · exact le_rfl
  · by_cases hex : ∃ k < S.levels, 0 < q k
    · obtain ⟨k, hk, hq⟩ := hex
      have hp := positive_mass S area q ha k hk hq
      have : columnMass S.levels area (filterColumn S area q) =
          (∑ k ∈ range S.levels, if 0 ≤ q k then q k * area k else 0) *
            (columnMass S.levels area q / ∑ k ∈ range S.levels, if 0 ≤ q k then q k * area k else 0) := by
        rw [sum_mul]
        refine sum_congr rfl fun j hj => ?_
        rw [filter_eq S area q j (mem_range.1 hj)]
        rcases lt_trichotomy (q j) 0 with h | h | h
        · rw [if_neg (not_lt.2 h.le), if_neg (not_le.2 h)]
          ring
        · rw [h]
          simp
        · rw [if_pos h, if_pos h.le]
          ring
      rw [this]
      field_simp
    · have hle : ∀ k < S.levels, q k ≤ 0 := fun k hk => not_lt.1 fun h => hex ⟨k, hk, h⟩
      have h1 : columnMass S.levels area (filterColumn S area q) = 0 :=
        sum_eq_zero fun k hk => by rw [hzero k (mem_range.1 hk) (hle k (mem_range.1 hk)), zero_mul]
      have h2 : columnMass S.levels area q ≤ 0 :=
        sum_nonpos fun k hk => mul_nonpos_of_nonpos_of_nonneg (hle k (mem_range.1 hk)) (ha k (mem_range.1 hk)).le
      linarith
  · by_cases h : 0 < q k
    · have hp := positive_mass S area q ha k hk h
      have he : columnMass S.levels area q = ∑ k ∈ range S.levels, if 0 ≤ q k then q k * area k else 0 :=
        sum_congr rfl fun j hj => (if_pos (hq j (mem_range.1 hj))).symm
      rw [filter_eq S area q k hk, if_pos h, he, div_self hp.ne', mul_one]
    · rw [hzero k hk (not_lt.1 h)]
      exact le_antisymm (hq k hk) (not_lt.1 h)
  · unfold filterColumn
    dsimp only
    rw [if_neg (by omega)]

/-- **C94, where the code does something else.**  In a column of two or more levels where the negative values of a tracer outweigh the
positive ones, the filter makes the positive values negative. -/
theorem C94_filter_false (S : Setup) (hN : 2 ≤ S.levels) : ∃ q : Nat → ℝ, 0 < q 0 ∧ filterColumn S (fun _ => 1) q 0 < 0 := by
  classical
  let q : Nat → ℝ := fun k => (if k = 0 then 1 else 0) + if k = 1 then -2 else 0
  refine ⟨q, by simp [q], ?_⟩
  have h0 : q 0 = 1 := by simp [q]
  have hm : columnMass S.levels (fun _ => 1) q = -1 := by
    unfold columnMass
    simp only [mul_one, q]
    rw [sum_add_distrib, sum_ite_eq', sum_ite_eq', if_pos (mem_range.2 (by omega)), if_pos (mem_range.2 (by omega))]
    norm_num
  have hp : (∑ k ∈ range S.levels, if 0 ≤ q k then q k * 1 else 0) = 1 := by
    rw [sum_eq_single 0]
    · rw [h0]
      norm_num
    · intro k _ hk
      by_cases h1 : k = 1
      · subst h1
        norm_num [q]
      · simp [q, hk, h1]
    · intro h
      exact absurd (mem_range.2 (by omega)) h
  rw [filter_eq S _ q 0 (by omega), h0, if_pos one_pos, hm]
  have hp' : (open Classical in ∑ k ∈ range S.levels, if 0 ≤ q k then q k * (fun _ => (1 : ℝ)) k else 0) = 1 := by
    simpa using hp
  rw [hp']
  norm_num

/-! ### The patch -/

section
variable {S : Setup} {node edge sNode sEdge : Nat → ℝ} {gauss lob : List ℝ × List ℝ}

/-- The step of a column does not depend on the columns before it. -/
theorem column_history (E : Elements S node edge gauss lob) (T : Stencils S node edge sNode sEdge gauss lob)
    (hNN : SecondOnLevels S node edge gauss lob) (hL : Lorenz S) (href : S.useRef = true) (solve : BandSolver) (hs : Lapack solve)
    (hdt : S.dt ≠ 0) (F : Fixed) (count : Nat) (M M' : Memory) (x : Place) (I U : State) :
    stepColumn solve S F count M x I U = stepColumn solve S F count M' x I U := by
  unfold stepColumn
  dsimp only
  rw [C92_history E T hNN hL href solve hs (F.metric x) (columnData F x I) M M' U]
  cases implicitColumn solve S (F.metric x) (columnData F x I) M' U with
  | none => rfl
  | some V =>
    dsimp only
    rw [C93_history E T hL href solve hs (F.metric x) (columnData F x I) M M' false hdt V count]

/-- **C94 (refused).**  Fully explicit, nothing is done.  Otherwise the step of a patch succeeds if and only if the step of every column
that is not shared, or stands for shared ones, does. -/
theorem C94_refused (E : Elements S node edge gauss lob) (T : Stencils S node edge sNode sEdge gauss lob)
    (hNN : SecondOnLevels S node edge gauss lob) (hL : Lorenz S) (href : S.useRef = true) (solve : BandSolver) (hs : Lapack solve)
    (hdt : S.dt ≠ 0) (F : Fixed) (count : Nat) (B : Box) (p : Nat) (hB : B.Whole p) (same : Bool) (init : Columns)
    (leave : Place → Columns → Memory → Memory) (M M0 : Memory) (P : Columns) :
    implicitPatch solve S F count true B p same init leave M P = .ok P ∧
    ((∃ P', implicitPatch solve S F count false B p same init leave M P = .ok P') ↔
      ∀ x, B.Inside x → B.owner p x = x → ∃ V, stepColumn solve S F count M0 x (if same then P x else init x) (P x) = .ok V) := by
  refine ⟨by simp [implicitPatch], ?_⟩
  obtain ⟨h1, h2⟩ := stepColumns_spec (column_history E T hNN hL href solve hs hdt F count) same init leave M0 (stepPlaces B p)
    (stepPlaces_nodup B p) M P
  unfold implicitPatch
  simp only [Bool.false_eq_true, if_false]
  constructor
  · rintro ⟨P', h⟩ x hx ho
    cases hc : stepColumns solve S F count same init leave (stepPlaces B p) M P with
    | exc => rw [hc] at h; simp at h
    | ub => rw [hc] at h; simp at h
    | ok P1 => exact ⟨_, (h1 P1 hc).1 x ((mem_stepPlaces B p hB x).2 ⟨hx, ho⟩)⟩
  · intro h
    obtain ⟨P1, hP1⟩ := h2 fun x hx => by
      obtain ⟨a, b⟩ := (mem_stepPlaces B p hB x).1 hx
      exact h x a b
    rw [hP1]
    exact ⟨_, rfl⟩

/-- **C94 (columns).**  A step that succeeds leaves everything outside the interior as it was.  Every column of the interior gets the
density, density times potential temperature, vertical velocity and tracers that the step of the column that stands for it computes, from
the data before the step and whatever columns were stepped before, with the filter on the tracers; nothing else in it changes. -/
theorem C94_columns (E : Elements S node edge gauss lob) (T : Stencils S node edge sNode sEdge gauss lob)
    (hNN : SecondOnLevels S node edge gauss lob) (hL : Lorenz S) (href : S.useRef = true) (solve : BandSolver) (hs : Lapack solve)
    (hdt : S.dt ≠ 0) (F : Fixed) (count : Nat) (B : Box) (p : Nat) (hB : B.Whole p) (same : Bool) (init : Columns)
    (leave : Place → Columns → Memory → Memory) (M M0 : Memory) (P P' : Columns)
    (hP : implicitPatch solve S F count false B p same init leave M P = .ok P') (x : Place) :
    (¬ B.Inside x → P' x = P x) ∧
    (B.Inside x → ∃ V, stepColumn solve S F count M0 (B.owner p x) (if same then P (B.owner p x) else init (B.owner p x))
        (P (B.owner p x)) = .ok V ∧
      (∀ c k, (P' x).node c k = if (c = 2 ∨ c = 3 ∨ c = 4) ∧ k < S.levels then V.node c k else (P x).node c k) ∧
      (∀ c k, (P' x).edge c k = if (c = 2 ∨ c = 3 ∨ c = 4) ∧ k ≤ S.levels then V.edge c k else (P x).edge c k) ∧
      (∀ c k, (P' x).tracer c k = if c < count ∧ k < S.levels then filterColumn S (F.area x) (V.tracer c) k else (P x).tracer c k)) := by
  obtain ⟨hp, hA, hBw⟩ := id hB
  obtain ⟨h1, -⟩ := stepColumns_spec (column_history E T hNN hL href solve hs hdt F count) same init leave M0 (stepPlaces B p)
    (stepPlaces_nodup B p) M P
  unfold implicitPatch at hP
  simp only [Bool.false_eq_true, if_false] at hP
  cases hc : stepColumns solve S F count same init leave (stepPlaces B p) M P with
  | exc => rw [hc] at hP; simp at hP
  | ub => rw [hc] at hP; simp at hP
  | ok P1 =>
    rw [hc] at hP
    dsimp only at hP
    obtain rfl := PatchRes.ok.inj hP
    obtain ⟨g1, g2⟩ := h1 P1 hc
    obtain ⟨k1, k2⟩ := copies_spec S count B p hB P1 x
    constructor
    · intro hx
      unfold filterPatch
      rw [if_neg (show ¬ (B.aBegin ≤ x.1 ∧ x.1 < B.aBegin + B.aWidth ∧ B.bBegin ≤ x.2 ∧ x.2 < B.bBegin + B.bWidth) from hx), k2 hx, g2 x (fun h => hx ((mem_stepPlaces B p hB x).1 h).1)]
    · intro hx
      have oa := stands_idem B.aBegin B.aWidth p x.1 hp ⟨hx.1, hx.2.1⟩
      have ob := stands_idem B.bBegin B.bWidth p x.2 hp ⟨hx.2.2.1, hx.2.2.2⟩
      have hown : B.owner p x ∈ stepPlaces B p := (mem_stepPlaces B p hB _).2
        ⟨⟨oa.2.1, oa.2.2, ob.2.1, ob.2.2⟩, Prod.ext oa.1 ob.1⟩
      have hV := g1 _ hown
      -- what the step of the column leaves of its own column
      have hleft : (∀ c k, ¬ ((c = 2 ∨ c = 3 ∨ c = 4) ∧ k < S.levels) → (P1 x).node c k = (P x).node c k) ∧
          (∀ c k, ¬ ((c = 2 ∨ c = 3 ∨ c = 4) ∧ k ≤ S.levels) → (P1 x).edge c k = (P x).edge c k) ∧
          (∀ c k, ¬ (c < count ∧ k < S.levels) → (P1 x).tracer c k = (P x).tracer c k) := by
        by_cases hin : x ∈ stepPlaces B p
        · have hst := g1 x hin
          unfold stepColumn at hst
          dsimp only at hst
          cases hi : implicitColumn solve S (F.metric x) (columnData F x (if same then P x else init x)) M0 (P x) with
          | none => rw [hi] at hst; simp at hst
          | some W =>
            rw [hi] at hst
            dsimp only at hst
            have hu := C92_untouched hL solve (F.metric x) (columnData F x (if same then P x else init x)) M0 (P x) W hi
            cases ht : updateTracers S (F.metric x) (setupColumn S (columnData F x (if same then P x else init x)) M0) solve false
                (columnData F x (if same then P x else init x)) W count (if same then P x else init x).tracer (F.refTracer x) W.tracer with
            | exc => rw [ht] at hst; simp at hst
            | ub => rw [ht] at hst; simp at hst
            | ok t =>
              rw [ht] at hst
              have hst := ColumnRes.ok.inj hst
              rw [← hst]
              dsimp only
              refine ⟨fun c k h => ?_, fun c k h => ?_, fun c k h => ?_⟩
              · by_cases hk : S.levels ≤ k
                · exact (hu c k).2.2.2.1 hk
                · exact (hu c k).1 (by omega) (by omega)
              · by_cases hk : S.levels < k
                · exact (hu c k).2.2.2.2 hk
                · exact (hu c k).2.1 (by omega)
              · rw [C93_untouched solve (F.metric x) _ _ false W count _ _ W.tracer t ht c k (by omega), (hu c k).2.2.1]
        · rw [g2 x hin]
          exact ⟨fun _ _ _ => rfl, fun _ _ _ => rfl, fun _ _ _ => rfl⟩
      refine ⟨P1 (B.owner p x), hV, fun c k => ?_, fun c k => ?_, fun c k => ?_⟩
      · unfold filterPatch
        rw [if_pos (show B.aBegin ≤ x.1 ∧ x.1 < B.aBegin + B.aWidth ∧ B.bBegin ≤ x.2 ∧ x.2 < B.bBegin + B.bWidth from hx), k1 hx]
        unfold copyColumn
        dsimp only
        split_ifs with h
        · rfl
        · exact hleft.1 c k h
      · unfold filterPatch
        rw [if_pos (show B.aBegin ≤ x.1 ∧ x.1 < B.aBegin + B.aWidth ∧ B.bBegin ≤ x.2 ∧ x.2 < B.bBegin + B.bWidth from hx), k1 hx]
        unfold copyColumn
        dsimp only
        split_ifs with h
        · rfl
        · exact hleft.2.1 c k h
      · unfold filterPatch
        rw [if_pos (show B.aBegin ≤ x.1 ∧ x.1 < B.aBegin + B.aWidth ∧ B.bBegin ≤ x.2 ∧ x.2 < B.bBegin + B.bWidth from hx), k1 hx]
        unfold copyColumn
        dsimp only
        by_cases hcc : c < count
        · rw [if_pos hcc]
          by_cases hk : k < S.levels
          · rw [if_pos ⟨hcc, hk⟩]
            exact filter_congr S _ _ _ (fun j hj => if_pos ⟨hcc, hj⟩) k hk
          · rw [if_neg (fun h => hk h.2)]
            unfold filterColumn
            dsimp only
            rw [if_neg hk, if_neg (fun h => hk h.2)]
            exact hleft.2.2 c k (fun h => hk h.2)
        · rw [if_neg hcc, if_neg (fun h => hcc h.1), if_neg (fun h => hcc h.1)]
          exact hleft.2.2 c k (fun h => hcc h.1)

/-- **C94 (shared).**  After the step, columns of the interior that are at the same place on the two sides of an element edge have the
same density, density times potential temperature and vertical velocity, and with the same areas the same tracers. -/
theorem C94_shared (E : Elements S node edge gauss lob) (T : Stencils S node edge sNode sEdge gauss lob)
    (hNN : SecondOnLevels S node edge gauss lob) (hL : Lorenz S) (href : S.useRef = true) (solve : BandSolver) (hs : Lapack solve)
    (hdt : S.dt ≠ 0) (F : Fixed) (count : Nat) (B : Box) (p : Nat) (hB : B.Whole p) (same : Bool) (init : Columns)
    (leave : Place → Columns → Memory → Memory) (M : Memory) (P P' : Columns)
    (hP : implicitPatch solve S F count false B p same init leave M P = .ok P') (x y : Place) (hx : B.Inside x) (hy : B.Inside y)
    (hxy : B.owner p x = B.owner p y) :
    (∀ c, c = 2 ∨ c = 3 ∨ c = 4 → (∀ k < S.levels, (P' x).node c k = (P' y).node c k) ∧ ∀ k ≤ S.levels, (P' x).edge c k = (P' y).edge c k) ∧
    ((∀ k, F.area x k = F.area y k) → ∀ c < count, ∀ k < S.levels, (P' x).tracer c k = (P' y).tracer c k) := by
  obtain ⟨V, hV, a1, a2, a3⟩ := (C94_columns E T hNN hL href solve hs hdt F count B p hB same init leave M M P P' hP x).2 hx
  obtain ⟨W, hW, b1, b2, b3⟩ := (C94_columns E T hNN hL href solve hs hdt F count B p hB same init leave M M P P' hP y).2 hy
  rw [hxy, hW] at hV
  obtain rfl := ColumnRes.ok.inj hV
  refine ⟨fun c hc => ⟨fun k hk => ?_, fun k hk => ?_⟩, fun harea c hc k hk => ?_⟩
  · rw [a1, b1, if_pos ⟨hc, hk⟩, if_pos ⟨hc, hk⟩]
  · rw [a2, b2, if_pos ⟨hc, hk⟩, if_pos ⟨hc, hk⟩]
  · rw [a3, b3, if_pos ⟨hc, hk⟩, if_pos ⟨hc, hk⟩, show F.area x = F.area y from funext harea]

/-- The two halves of the step of a column. -/
theorem step_halves (solve : BandSolver) (F : Fixed) (count : Nat) (M : Memory) (x : Place) (I U V : State)
    (h : stepColumn solve S F count M x I U = .ok V) : ∃ W t, implicitColumn solve S (F.metric x) (columnData F x I) M U = some W ∧
      updateTracers S (F.metric x) (setupColumn S (columnData F x I) M) solve false (columnData F x I) W count I.tracer (F.refTracer x)
        W.tracer = .ok t ∧ V = { W with tracer := t } := by
  unfold stepColumn at h
  dsimp only at h
  cases hi : implicitColumn solve S (F.metric x) (columnData F x I) M U with
  | none => rw [hi] at h; simp at h
  | some W =>
    rw [hi] at h
    dsimp only at h
    cases ht : updateTracers S (F.metric x) (setupColumn S (columnData F x I) M) solve false (columnData F x I) W count I.tracer
        (F.refTracer x) W.tracer with
    | exc => rw [ht] at h; simp at h
    | ub => rw [ht] at h; simp at h
    | ok t =>
      rw [ht] at h
      exact ⟨W, t, rfl, ht, (ColumnRes.ok.inj h).symm⟩

/-- **C94 (mass; partial).**  Where the volume element does not jump over element edges, the mass of every column of the interior is,
after the step, what it was in the initial data of the column that stands for it.  Missing: volume elements that jump, see
`C90_conserved_false`. -/
theorem C94_mass_partial (E : Elements S node edge gauss lob) (T : Stencils S node edge sNode sEdge gauss lob)
    (hNN : SecondOnLevels S node edge gauss lob) (hL : Lorenz S) (href : S.useRef = true) (solve : BandSolver) (hs : Lapack solve)
    (hdt : S.dt ≠ 0) (F : Fixed) (count : Nat) (B : Box) (p : Nat) (hB : B.Whole p) (same : Bool) (init : Columns)
    (leave : Place → Columns → Memory → Memory) (M : Memory) (P P' : Columns)
    (hP : implicitPatch solve S F count false B p same init leave M P = .ok P') (x : Place) (hx : B.Inside x)
    (hJ : ∀ k < S.levels, (F.metric (B.owner p x)).jac k ≠ 0) (pJ : Nat → ℝ[X]) (hpJ : Fits S node pJ (F.metric (B.owner p x)).jac)
    (hjoin : ∀ a < S.levels / S.order - 1, jump S.order edge pJ a = 0) :
    overLevels S edge gauss (fun k => (F.metric (B.owner p x)).jac k * (P' x).node 4 k) =
      overLevels S edge gauss (fun k => (F.metric (B.owner p x)).jac k *
        (if same then P (B.owner p x) else init (B.owner p x)).node 4 k) := by
  obtain ⟨V, hV, a1, -, -⟩ := (C94_columns E T hNN hL href solve hs hdt F count B p hB same init leave M M P P' hP x).2 hx
  obtain ⟨W, t, h1, -, rfl⟩ := step_halves solve F count M _ _ _ V hV
  have := (C92_conserved_partial E T hNN hL href solve hs _ hJ _ M _ W h1 hdt pJ hpJ hjoin).1
  rw [show (columnData F (B.owner p x) (if same then P (B.owner p x) else init (B.owner p x))).node =
    (if same then P (B.owner p x) else init (B.owner p x)).node from rfl] at this
  rw [← this]
  exact overLevels_congr S edge gauss _ _ fun k hk => by rw [a1, if_pos ⟨Or.inr (Or.inr rfl), hk⟩]

/-- **C94 (constant mixing ratio).**  A tracer that was a constant, not negative, times density before the step is that constant times
the new density after it, if the new density is not negative: copies and filter keep that too. -/
theorem C94_constant (E : Elements S node edge gauss lob) (T : Stencils S node edge sNode sEdge gauss lob)
    (hNN : SecondOnLevels S node edge gauss lob) (hL : Lorenz S) (href : S.useRef = true) (solve : BandSolver) (hs : Lapack solve)
    (hdt : S.dt ≠ 0) (F : Fixed) (count : Nat) (B : Box) (p : Nat) (hB : B.Whole p) (leave : Place → Columns → Memory → Memory)
    (M : Memory) (P P' : Columns) (hP : implicitPatch solve S F count false B p true P leave M P = .ok P')
    (harea : ∀ x, B.Inside x → ∀ k < S.levels, 0 < F.area x k) (c : Nat) (hc : c < count) (r : ℝ) (hr : 0 ≤ r)
    (hq : ∀ x, B.Inside x → ∀ k < S.levels, (P x).tracer c k = r * (P x).node 4 k)
    (hpos : ∀ x, B.Inside x → ∀ k < S.levels, 0 ≤ (P' x).node 4 k) (x : Place) (hx : B.Inside x) (k : Nat) (hk : k < S.levels) :
    (P' x).tracer c k = r * (P' x).node 4 k := by
  obtain ⟨hp, -, -⟩ := id hB
  obtain ⟨V, hV, a1, -, a3⟩ := (C94_columns E T hNN hL href solve hs hdt F count B p hB true P leave M M P P' hP x).2 hx
  have oa := stands_idem B.aBegin B.aWidth p x.1 hp ⟨hx.1, hx.2.1⟩
  have ob := stands_idem B.bBegin B.bWidth p x.2 hp ⟨hx.2.2.1, hx.2.2.2⟩
  have hown : B.Inside (B.owner p x) := ⟨oa.2.1, oa.2.2, ob.2.1, ob.2.2⟩
  obtain ⟨W, t, h1, h2, rfl⟩ := step_halves solve F count M _ _ _ V hV
  have hWt : W.tracer = (P (B.owner p x)).tracer := (C92_untouched hL solve _ _ M _ W h1 0 0).2.2.1
  simp only [if_true] at h1 h2
  rw [hWt] at h2
  have ht : ∀ j < S.levels, t c j = r * W.node 4 j := fun j hj =>
    C93_consistent E T hNN hL href solve hs _ _ M M hdt _ W h1 count _ _ t h2 c hc r (fun j hj => hq _ hown j hj) j hj
  have hW : ∀ j < S.levels, (P' x).node 4 j = W.node 4 j := fun j hj => by rw [a1, if_pos ⟨Or.inr (Or.inr rfl), hj⟩]
  rw [a3, if_pos ⟨hc, hk⟩, (C94_filter S (F.area x) _ (harea x hx)).2.2.1 (fun j hj => ?_) k hk, hW k hk]
  · exact ht k hk
  · show 0 ≤ t c j
    rw [ht j hj]
    have := hpos x hx j hj
    rw [hW j hj] at this
    exact mul_nonneg hr this

end

/-- Patches of columns with ten levels meet the hypotheses, for all data: there is a time step with which the step succeeds. -/
example (phys : Thermo.Constants) (solve : BandSolver) (hs : Lapack solve) (F : Fixed) (count : Nat) (same : Bool) (init P : Columns)
    (leave : Place → Columns → Memory → Memory) (M : Memory) :
    ∃ S : Setup, ∃ P', Elements S (fun k => (k : ℝ) + 1 / 2) (fun k => (k : ℝ)) ([0], [2]) ([-1, 1], [1, 1]) ∧ Lorenz S ∧ S.levels = 10 ∧
    S.dt ≠ 0 ∧ (Box.mk 1 8 1 12).Whole 4 ∧ (Box.mk 1 8 1 12).Inside (4, 4) ∧ (Box.mk 1 8 1 12).owner 4 (4, 4) = (5, 5) ∧
    implicitPatch solve S F count false ⟨1, 8, 1, 12⟩ 4 same init leave M P = .ok P' := by
  obtain ⟨S, E, T, hL, hN, hn, href, hu, hp, -⟩ := unit_setup 10 (by omega) phys
  have hB : (Box.mk 1 8 1 12).Whole 4 := ⟨by omega, rfl, rfl⟩
  have hcol : ∀ l : List Place, ∃ h0 : ℝ, 0 < h0 ∧ ∀ h : ℝ, h ≠ 0 → |h| < h0 → ∀ x ∈ l,
      ∃ V, stepColumn solve { S with dt := h } F count M x (if same then P x else init x) (P x) = .ok V := by
    intro l
    induction l with
    | nil => exact ⟨1, one_pos, fun _ _ _ x hx => by simp at hx⟩
    | cons x l ih =>
      obtain ⟨h0, p0, H0⟩ := ih
      obtain ⟨h1, p1, H1⟩ := C92_small_steps E T hL (by omega) (d := 4) (by simp [offDiagonals, E.elements, hn]) (by omega) solve hs
        (F.metric x) (columnData F x (if same then P x else init x)) M (P x)
      obtain ⟨h2, p2, H2⟩ := C93_small_steps E T hL (by omega) solve hs (F.metric x) (columnData F x (if same then P x else init x)) false
        (by simp [hu])
      refine ⟨min h0 (min h1 h2), lt_min p0 (lt_min p1 p2), fun h hh hlt y hy => ?_⟩
      rcases List.mem_cons.1 hy with rfl | hy
      · obtain ⟨V, hV⟩ := H1 h hh (lt_of_lt_of_le hlt (le_trans (min_le_right _ _) (min_le_left _ _)))
        obtain ⟨t, ht⟩ := H2 h hh (lt_of_lt_of_le hlt (le_trans (min_le_right _ _) (min_le_right _ _))) M V count
          (if same then P y else init y).tracer (F.refTracer y) V.tracer
        refine ⟨{ V with tracer := t }, ?_⟩
        unfold stepColumn
        dsimp only
        rw [hV]
        dsimp only
        rw [ht]
      · exact H0 h hh (lt_of_lt_of_le hlt (min_le_left _ _)) y hy
  obtain ⟨h0, hpos, H⟩ := hcol (stepPlaces ⟨1, 8, 1, 12⟩ 4)
  have hh : h0 / 2 ≠ 0 := by positivity
  have hlt : |h0 / 2| < h0 := by rw [abs_of_pos (by positivity)]; linarith
  have hNN : SecondOnLevels { S with dt := h0 / 2 } (fun k => (k : ℝ) + 1 / 2) (fun k => (k : ℝ)) ([0], [2]) ([-1, 1], [1, 1]) :=
    fun h => by rw [show S.uniform = false from hu] at h; simp at h
  obtain ⟨P', hP'⟩ := (C94_refused (elements_dt E (h0 / 2)) (stencils_dt T (h0 / 2)) hNN hL href solve hs hh F count
    ⟨1, 8, 1, 12⟩ 4 hB same init leave M M P).2.2 fun x hx ho => H _ hh hlt x ((mem_stepPlaces _ 4 hB x).2 ⟨hx, ho⟩)
  exact ⟨{ S with dt := h0 / 2 }, P', elements_dt E _, hL, hN, hh, hB, by simp [Box.Inside], by simp [Box.owner, standsFor], hP'⟩

end Verif.Vdyn
