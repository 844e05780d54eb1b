/-
C135: with vertical method v2 the vertical wind carries the horizontal wind.
-/
import Verif.VertV2.AdvectSpec
import Verif.Vdyn.JacobianLemmas

namespace Verif.VertV2

open Finset Column

variable {P : Patch}

theorem address_eq (i j l : Nat) : areaAddress P l i j = P.taken i j l := by
  unfold areaAddress Patch.taken
  ring

theorem foldl_sub (f : Nat → ℝ) (n : Nat) (a : ℝ) : (List.range n).foldl (fun d l => d - f l) a = a - ∑ l ∈ range n, f l := by
  induction n with
  | zero => simp
  | succ n ih =>
    rw [List.range_succ, List.foldl_append, ih, sum_range_succ]
    simp only [List.foldl_cons, List.foldl_nil]
    ring

theorem delta_eq (s : State) (c i j k : Nat) :
    delta P s c i j k = P.advection s (fun l => P.areaEdge (P.taken i j l)) c i j k := by
  unfold delta Patch.advection
  rw [foldl_sub, zero_sub]
  congr 2
  apply sum_congr rfl
  intro l hl
  have hl := mem_range.1 hl
  unfold Patch.passing
  rw [address_eq]
  have : xiDot P s i j l = P.wind s i j l := by
    unfold xiDot Patch.wind
    by_cases h : l = 0
    · rw [if_pos h, if_pos (Or.inl h)]
    · rw [if_neg h, if_neg (by omega)]
      ring
  rw [this]
  ring

theorem mem_interior (i j : Nat) : (i, j) ∈ interior P ↔ P.Inside i j := by
  unfold interior Patch.Inside
  simp only [List.mem_flatMap, List.mem_range'_1, List.mem_map, Prod.mk.injEq]
  constructor
  · rintro ⟨a, ha, b, hb, rfl, rfl⟩
    omega
  · intro h
    exact ⟨i, by omega, j, by omega, rfl, rfl⟩

theorem nodup_interior : (interior P).Nodup := by
  unfold interior
  rw [List.nodup_flatMap]
  refine ⟨fun i _ => (List.nodup_range' (step := 1)).map fun a b h => by simpa using h, ?_⟩
  refine (List.pairwise_lt_range' (s := P.aBegin) (n := P.aEnd - P.aBegin)).imp ?_
  intro a b hab
  rw [Function.onFun, List.disjoint_left]
  rintro ⟨x, y⟩ h1 h2
  simp only [List.mem_map, Prod.mk.injEq] at h1 h2
  obtain ⟨_, _, rfl, _⟩ := h1
  obtain ⟨_, _, rfl, _⟩ := h2
  omega

/-- All interfaces of the column are read within the array. -/
def Reads (P : Patch) (x : Nat × Nat) : Prop := ∀ l < P.levels, P.taken x.1 x.2 l < P.aTotal * P.bTotal * (P.levels + 1)

/-- The state after one column. -/
noncomputable def after (P : Patch) (s : State) (dt : ℝ) (i j : Nat) (t : State) : State :=
  ⟨fun c a b k =>
    if (c = 0 ∨ c = 1) ∧ a = i ∧ b = j ∧ k < P.levels then t.node c a b k + dt * delta P s c i j k + dt * smooth P s c i j k
    else t.node c a b k, t.edge⟩

theorem column_eq (s : State) (dt : ℝ) (i j : Nat) (t : State) :
    (Reads P (i, j) → column P s dt i j t = .ok (after P s dt i j t)) ∧ (¬ Reads P (i, j) → column P s dt i j t = .ub) := by
  have e : ((List.range P.levels).all fun l => decide (areaAddress P l i j < P.aTotal * P.bTotal * (P.levels + 1))) = true ↔
      Reads P (i, j) := by
    rw [List.all_eq_true]
    unfold Reads
    simp only [List.mem_range, decide_eq_true_iff, address_eq]
  unfold column
  constructor
  · intro h
    rw [if_pos (e.2 h)]
    rfl
  · intro h
    rw [if_neg (fun c => h (e.1 c))]

theorem sweep_ok (s : State) (dt : ℝ) : ∀ (L : List (Nat × Nat)) (_ : L.Nodup) (_ : ∀ x ∈ L, Reads P x) (t : State),
    ∃ t', sweep P s dt L t = .ok t' ∧ t'.edge = t.edge ∧
      ∀ c i j k, ((c = 0 ∨ c = 1) ∧ (i, j) ∈ L ∧ k < P.levels →
        t'.node c i j k = t.node c i j k + dt * delta P s c i j k + dt * smooth P s c i j k) ∧
      (¬ ((c = 0 ∨ c = 1) ∧ (i, j) ∈ L ∧ k < P.levels) → t'.node c i j k = t.node c i j k)
  | [], _, _, t => ⟨t, rfl, rfl, fun c i j k => ⟨fun h => by simp at h, fun _ => rfl⟩⟩
  | x :: L, hn, hr, t => by
    obtain ⟨i0, j0⟩ := x
    have hx : (i0, j0) ∉ L := (List.nodup_cons.1 hn).1
    rw [sweep, (column_eq s dt i0 j0 t).1 (hr _ (List.mem_cons_self ..))]
    dsimp only
    obtain ⟨t', h1, h2, h3⟩ := sweep_ok s dt L (List.nodup_cons.1 hn).2 (fun y hy => hr y (List.mem_cons_of_mem _ hy))
      (after P s dt i0 j0 t)
    refine ⟨t', h1, h2, fun c i j k => ?_⟩
    obtain ⟨a1, a2⟩ := h3 c i j k
    unfold after at a1 a2
    dsimp only at a1 a2
    constructor
    · rintro ⟨hc, hm, hk⟩
      rcases List.mem_cons.1 hm with he | hm'
      · obtain ⟨rfl, rfl⟩ := Prod.mk.inj he
        rw [a2 (fun h => hx h.2.1), if_pos ⟨hc, rfl, rfl, hk⟩]
      · have hne : ¬ (i = i0 ∧ j = j0) := by
          rintro ⟨rfl, rfl⟩
          exact hx hm'
        rw [a1 ⟨hc, hm', hk⟩, if_neg (fun h => hne ⟨h.2.1, h.2.2.1⟩)]
    · intro h
      rw [a2 (fun h' => h ⟨h'.1, List.mem_cons_of_mem _ h'.2.1, h'.2.2⟩), if_neg]
      rintro ⟨hc, rfl, rfl, hk⟩
      exact h ⟨hc, List.mem_cons_self .., hk⟩

theorem sweep_ub (s : State) (dt : ℝ) : ∀ (L : List (Nat × Nat)) (_ : ∃ x ∈ L, ¬ Reads P x) (t : State), sweep P s dt L t = .ub
  | [], h, t => by simp at h
  | x :: L, h, t => by
    obtain ⟨i0, j0⟩ := x
    rw [sweep]
    by_cases h0 : Reads P (i0, j0)
    · rw [(column_eq s dt i0 j0 t).1 h0]
      apply sweep_ub
      obtain ⟨y, hy, hn⟩ := h
      rcases List.mem_cons.1 hy with rfl | hy
      · exact absurd h0 hn
      · exact ⟨y, hy, hn⟩
    · rw [(column_eq s dt i0 j0 t).2 h0]

/-- **C135 (outside).**  The step leaves the array of volume elements exactly if the place taken for the uppermost interface but one of
some column is behind its end; so it does in every patch with fewer columns in the first direction than levels. -/
theorem C135_outside (hl : 0 < P.levels) (s t : State) (dt : ℝ) :
    (stepExplicit P s dt t = .ub ↔
      ∃ i j, P.Inside i j ∧ P.aTotal * P.bTotal * (P.levels + 1) ≤ P.taken i j (P.levels - 1)) ∧
    (P.aTotal < P.levels → (∃ i j, P.Inside i j) → stepExplicit P s dt t = .ub) := by
  have first : stepExplicit P s dt t = .ub ↔
      ∃ i j, P.Inside i j ∧ P.aTotal * P.bTotal * (P.levels + 1) ≤ P.taken i j (P.levels - 1) := by
    unfold stepExplicit
    constructor
    · intro h
      by_contra hno
      push Not at hno
      obtain ⟨t', h1, -⟩ := sweep_ok s dt (interior P) nodup_interior (fun x hx l hlt => by
        obtain ⟨i, j⟩ := x
        refine lt_of_le_of_lt ?_ (hno i j ((mem_interior i j).1 hx))
        unfold Patch.taken
        gcongr
        omega) t
      rw [h1] at h
      cases h
    · rintro ⟨i, j, hij, hle⟩
      exact sweep_ub s dt _ ⟨(i, j), (mem_interior i j).2 hij, fun h => by
        have := h (P.levels - 1) (by omega)
        dsimp only at this
        omega⟩ t
  refine ⟨first, fun ha ⟨i, j, hij⟩ => first.2 ⟨i, j, hij, ?_⟩⟩
  unfold Patch.taken
  calc P.aTotal * P.bTotal * (P.levels + 1) ≤ (P.levels - 1) * P.bTotal * (P.levels + 1) := by
        gcongr
        omega
    _ ≤ ((P.levels - 1) * P.bTotal + i) * (P.levels + 1) + j := by
        rw [Nat.add_mul]
        omega

/-- **C135 (step).**  A step that does not leave the array adds vertical advection, with the volume elements that are taken, and diffusion
to both components of the horizontal wind on every level of the interior. -/
theorem C135_step (s t t' : State) (dt : ℝ) (h : stepExplicit P s dt t = .ok t') (c i j k : Nat) (hc : c < 2) (hij : P.Inside i j)
    (hk : k < P.levels) :
    t'.node c i j k = t.node c i j k + dt * P.advection s (fun l => P.areaEdge (P.taken i j l)) c i j k +
      dt * (if P.uniform = true then P.nu / P.ztop ^ 2 *
        (applyRow P.diffDiffNN (s.node c i j) k - applyRow P.diffDiffNN (P.refNode c i j) k) else 0) := by
  unfold stepExplicit at h
  by_cases hr : ∀ x ∈ interior P, Reads P x
  · obtain ⟨t'', h1, -, h3⟩ := sweep_ok s dt (interior P) nodup_interior hr t
    rw [h1] at h
    cases h
    rw [(h3 c i j k).1 ⟨by omega, (mem_interior i j).2 hij, hk⟩, delta_eq]
    unfold smooth
    rw [sq]
  · push Not at hr
    rw [sweep_ub s dt _ hr t] at h
    cases h

/-- **C135 (untouched).**  Nothing else changes. -/
theorem C135_untouched (s t t' : State) (dt : ℝ) (h : stepExplicit P s dt t = .ok t') :
    t'.edge = t.edge ∧ ∀ c i j k, 2 ≤ c ∨ ¬ P.Inside i j ∨ P.levels ≤ k → t'.node c i j k = t.node c i j k := by
  unfold stepExplicit at h
  by_cases hr : ∀ x ∈ interior P, Reads P x
  · obtain ⟨t'', h1, h2, h3⟩ := sweep_ok s dt (interior P) nodup_interior hr t
    rw [h1] at h
    cases h
    refine ⟨h2, fun c i j k ho => (h3 c i j k).2 ?_⟩
    rintro ⟨hc, hm, hk⟩
    rcases ho with ho | ho | ho
    · omega
    · exact ho ((mem_interior i j).1 hm)
    · omega
  · push Not at hr
    rw [sweep_ub s dt _ hr t] at h
    cases h

/-- **C135 (uniform).**  A component of the wind that does not change with height is not advected. -/
theorem C135_uniform (hu : P.uniform = false) (s t t' : State) (dt : ℝ) (h : stepExplicit P s dt t = .ok t') (c i j k : Nat) (hc : c < 2)
    (hij : P.Inside i j) (hk : k < P.levels) (a : ℝ) (ha : ∀ k, s.node c i j k = a)
    (hd : ∀ l < P.levels, applyRow P.diffNE (fun _ => a) l = 0) : t'.node c i j k = t.node c i j k := by
  rw [C135_step s t t' dt h c i j k hc hij hk, hu]
  have : P.advection s (fun l => P.areaEdge (P.taken i j l)) c i j k = 0 := by
    unfold Patch.advection
    rw [sum_eq_zero, neg_zero, zero_div]
    intro l hl
    rw [show s.node c i j = fun _ => a from funext ha, hd l (mem_range.1 hl)]
    ring
  rw [this]
  simp

theorem weighted (hS : P.Stencils) (s : State) (area : Nat → ℝ) (c i j : Nat)
    (h0 : ∀ k < P.levels, s.node 4 i j k * P.areaNode i j k ≠ 0) (f : Nat → ℝ) :
    ∑ k ∈ range P.levels, s.node 4 i j k * P.areaNode i j k * f k * P.advection s area c i j k =
      -∑ l ∈ range P.levels, applyRow P.interpNE f l * (P.passing s area i j l * applyRow P.diffNE (s.node c i j) l) := by
  have e : ∀ k ∈ range P.levels, s.node 4 i j k * P.areaNode i j k * f k * P.advection s area c i j k =
      -∑ l ∈ range P.levels, (P.interpNE.row l).coeff k * f k *
        (P.passing s area i j l * applyRow P.diffNE (s.node c i j) l) := by
    intro k hk
    have := h0 k (mem_range.1 hk)
    unfold Patch.advection
    generalize s.node 4 i j k * P.areaNode i j k = z at *
    rw [mul_div_assoc', div_eq_iff this, ← sum_neg_distrib, ← sum_neg_distrib, mul_sum, sum_mul]
    apply sum_congr rfl
    intro l _
    ring
  rw [sum_congr rfl e, sum_neg_distrib, sum_comm]
  congr 1
  apply sum_congr rfl
  intro l hl
  obtain ⟨h1, h2⟩ := hS l (mem_range.1 hl)
  rw [← sum_mul, Vdyn.applyRow_eq P.interpNE f l]
  congr 1
  symm
  apply sum_subset
  · intro k hk
    have := (mem_Ico.1 hk).2
    exact mem_range.2 (by omega)
  · intro k _ hk
    rw [mem_Ico] at hk
    rw [h2 k (by omega), zero_mul]

/-- **C135 (momentum).**  Summed over the column, the change of momentum in time is what the mass that passes the interfaces finds as
difference of the wind across them. -/
theorem C135_momentum_partial (hu : P.uniform = false) (hS : P.Stencils) (s t t' : State) (dt : ℝ) (h : stepExplicit P s dt t = .ok t')
    (c i j : Nat) (hc : c < 2) (hij : P.Inside i j) (h0 : ∀ k < P.levels, s.node 4 i j k * P.areaNode i j k ≠ 0)
    (h1 : ∀ l < P.levels, applyRow P.interpNE (fun _ => 1) l = 1) :
    ∑ k ∈ range P.levels, s.node 4 i j k * P.areaNode i j k * (t'.node c i j k - t.node c i j k) =
      -dt * ∑ l ∈ range P.levels, P.passing s (fun l => P.areaEdge (P.taken i j l)) i j l * applyRow P.diffNE (s.node c i j) l := by
  have key := weighted hS s (fun l => P.areaEdge (P.taken i j l)) c i j h0 fun _ => 1
  have e : ∑ l ∈ range P.levels, applyRow P.interpNE (fun _ => 1) l *
      (P.passing s (fun l => P.areaEdge (P.taken i j l)) i j l * applyRow P.diffNE (s.node c i j) l) =
      ∑ l ∈ range P.levels, P.passing s (fun l => P.areaEdge (P.taken i j l)) i j l * applyRow P.diffNE (s.node c i j) l :=
    sum_congr rfl fun l hl => by rw [h1 l (mem_range.1 hl), one_mul]
  rw [e] at key
  rw [neg_mul, mul_comm dt, ← neg_mul, ← key, sum_mul]
  apply sum_congr rfl
  intro k hk
  rw [C135_step s t t' dt h c i j k hc hij (mem_range.1 hk), hu]
  simp only [Bool.false_eq_true, if_false]
  ring

/-- **C135 (energy).**  The change of kinetic energy in time is what the mass that passes the interfaces finds there: the wind
interpolated to the interface times its difference across. -/
theorem C135_energy_partial (hu : P.uniform = false) (hS : P.Stencils) (s t t' : State) (dt : ℝ) (h : stepExplicit P s dt t = .ok t')
    (c i j : Nat) (hc : c < 2) (hij : P.Inside i j) (h0 : ∀ k < P.levels, s.node 4 i j k * P.areaNode i j k ≠ 0) :
    ∑ k ∈ range P.levels, s.node 4 i j k * P.areaNode i j k * s.node c i j k * (t'.node c i j k - t.node c i j k) =
      -dt * ∑ l ∈ range P.levels, applyRow P.interpNE (s.node c i j) l *
        (P.passing s (fun l => P.areaEdge (P.taken i j l)) i j l * applyRow P.diffNE (s.node c i j) l) := by
  have key := weighted hS s (fun l => P.areaEdge (P.taken i j l)) c i j h0 (s.node c i j)
  rw [neg_mul, mul_comm dt, ← neg_mul, ← key, sum_mul]
  apply sum_congr rfl
  intro k hk
  rw [C135_step s t t' dt h c i j k hc hij (mem_range.1 hk), hu]
  simp only [Bool.false_eq_true, if_false]
  ring

end Verif.VertV2
