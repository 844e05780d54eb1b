import Verif.Checksum.Lemmas
import Mathlib.Tactic.NormNum

/-!
# C59: checksums do not depend on how the grid is split over processors
-/

namespace Verif.Checksum

/-- A run of `Grid::Checksum`: `procs` lists the active patches of each process,
every process obtained its local values, and the reduction tree combines exactly
those local values, in some order. -/
structure Run (g : Setup) (ty : DataType) (kind : Kind) (patches : List Patch)
    (t : Tree (Nat → ℝ)) where
  procs : List (List Patch)
  locals : List (Nat → ℝ)
  split : procs.flatten.Perm patches
  computed : procs.map (localChecksum g ty kind) = locals.map some
  reduced : t.leaves.Perm locals

theorem Run.sum {g : Setup} {ty : DataType} {kind : Kind} {patches : List Patch}
    {t : Tree (Nat → ℝ)} (R : Run g ty kind patches t) (hk : kind ≠ .linf) (c : Nat)
    (hc : c < count g ty) :
    t.reduce (fun a b n => mpiOp kind (a n) (b n)) c =
      (patches.map (fun P => total P.aBegin P.aEnd P.bBegin P.bEnd (levels g ty c)
        (fun i j k => term kind (values g ty P c i j k) (areas g ty P c i j k)))).sum := by
  rw [reduce_sum kind hk, (R.reduced.map _).sum_eq, ← (R.split.map _).sum_eq]
  have h := R.computed
  generalize R.locals = ls at h
  generalize R.procs = ps at h
  induction ps generalizing ls with
  | nil => cases ls <;> simp at h ⊢
  | cons p ps ih =>
    cases ls with
    | nil => simp at h
    | cons l ls =>
      simp only [List.map_cons, List.cons.injEq] at h
      rw [List.map_cons, List.sum_cons, ih ls h.2, List.flatten_cons, List.map_append,
        List.sum_append, local_at g ty kind p l h.1 c hc]
      congr 1
      have e : ∀ (x : ℝ) (P : Patch), sweep kind P (levels g ty c) (values g ty P c) (areas g ty P c) x
          = x + total P.aBegin P.aEnd P.bBegin P.bEnd (levels g ty c)
          (fun i j k => term kind (values g ty P c i j k) (areas g ty P c i j k)) :=
        fun x P => sweep_add kind hk P _ _ _ x
      simp only [e]
      rw [fold_add (fun P => total P.aBegin P.aEnd P.bBegin P.bEnd (levels g ty c)
        (fun i j k => term kind (values g ty P c i j k) (areas g ty P c i j k))), zero_add]

/-- The sum checksum is the sum of value times area over all owned nodes of all
patches. -/
theorem C59_sum (g : Setup) (ty : DataType) (patches : List Patch) (t : Tree (Nat → ℝ))
    (R : Run g ty .sum patches t) (c : Nat) (hc : c < count g ty) :
    rootChecksum .sum t c =
      (patches.map (fun P => total P.aBegin P.aEnd P.bBegin P.bEnd (levels g ty c)
        (fun i j k => values g ty P c i j k * areas g ty P c i j k))).sum := by
  unfold rootChecksum
  simp only [reduceCtorEq, if_false]
  exact R.sum (by simp) c hc

/-- The L1 checksum is the sum of absolute value times area. -/
theorem C59_l1 (g : Setup) (ty : DataType) (patches : List Patch) (t : Tree (Nat → ℝ))
    (R : Run g ty .l1 patches t) (c : Nat) (hc : c < count g ty) :
    rootChecksum .l1 t c =
      (patches.map (fun P => total P.aBegin P.aEnd P.bBegin P.bEnd (levels g ty c)
        (fun i j k => |values g ty P c i j k| * areas g ty P c i j k))).sum := by
  unfold rootChecksum
  simp only [reduceCtorEq, if_false]
  exact R.sum (by simp) c hc

/-- The L2 checksum is the square root of the sum of squared value times area. -/
theorem C59_l2 (g : Setup) (ty : DataType) (patches : List Patch) (t : Tree (Nat → ℝ))
    (R : Run g ty .l2 patches t) (c : Nat) (hc : c < count g ty) :
    rootChecksum .l2 t c = Real.sqrt
      (patches.map (fun P => total P.aBegin P.aEnd P.bBegin P.bEnd (levels g ty c)
        (fun i j k => values g ty P c i j k ^ 2 * areas g ty P c i j k))).sum := by
  unfold rootChecksum
  simp only [if_true]
  rw [R.sum (by simp) c hc]
  congr 4
  funext P
  congr 1
  funext i j k
  show values g ty P c i j k * values g ty P c i j k * _ = _
  ring

/-- The Linf checksum is an upper bound of the absolute values at all owned nodes
of all patches, and is one of them (or zero). -/
theorem C59_linf (g : Setup) (ty : DataType) (patches : List Patch) (t : Tree (Nat → ℝ))
    (R : Run g ty .linf patches t) (c : Nat) (hc : c < count g ty) :
    0 ≤ rootChecksum .linf t c ∧
    (∀ P ∈ patches, ∀ i j k, Owned P.aBegin P.aEnd P.bBegin P.bEnd (levels g ty c) i j k →
      |values g ty P c i j k| ≤ rootChecksum .linf t c) ∧
    (rootChecksum .linf t c = 0 ∨
      ∃ P ∈ patches, ∃ i j k, Owned P.aBegin P.aEnd P.bBegin P.bEnd (levels g ty c) i j k ∧
        rootChecksum .linf t c = |values g ty P c i j k|) := by
  have hr : rootChecksum .linf t c = t.reduce (fun a b n => mpiOp .linf (a n) (b n)) c := by
    unfold rootChecksum; simp
  rw [hr]
  obtain ⟨h1, h2⟩ := reduce_max t c
  generalize t.reduce (fun a b n => mpiOp .linf (a n) (b n)) c = M at h1 h2
  -- every process holds the maximum over its patches
  have loc : ∀ p ∈ R.procs, ∃ l ∈ t.leaves, localChecksum g ty .linf p = some l := by
    intro p hp
    have : localChecksum g ty .linf p ∈ R.locals.map some := by
      rw [← R.computed]; exact List.mem_map_of_mem hp
    obtain ⟨l, hl, e⟩ := List.mem_map.mp this
    exact ⟨l, R.reduced.mem_iff.mpr hl, e.symm⟩
  have loc' : ∀ l ∈ t.leaves, ∃ p ∈ R.procs, localChecksum g ty .linf p = some l := by
    intro l hl
    have : some l ∈ R.procs.map (localChecksum g ty .linf) := by
      rw [R.computed]; exact List.mem_map_of_mem (R.reduced.mem_iff.mp hl)
    obtain ⟨p, hp, e⟩ := List.mem_map.mp this
    exact ⟨p, hp, e⟩
  have sup : ∀ p l, localChecksum g ty .linf p = some l →
      Sup (fun s => ∃ P ∈ p, ∃ i j k, Owned P.aBegin P.aEnd P.bBegin P.bEnd (levels g ty c) i j k ∧
        s = |values g ty P c i j k|) 0 (l c) := by
    intro p l e
    rw [local_at g ty .linf p l e c hc]
    exact fold_sup (fun P x => sweep .linf P (levels g ty c) (values g ty P c) (areas g ty P c) x)
      (fun P s => ∃ i j k, Owned P.aBegin P.aEnd P.bBegin P.bEnd (levels g ty c) i j k ∧
        s = |values g ty P c i j k|) (fun P x => sweep_sup P _ _ _ x) p 0
  obtain ⟨l0, hl0, e0⟩ := h2
  obtain ⟨p0, hp0, f0⟩ := loc' l0 hl0
  obtain ⟨s1, s2, s3⟩ := sup p0 l0 f0
  refine ⟨by rw [e0]; exact s1, ?_, ?_⟩
  · intro P hP i j k ho
    have : P ∈ R.procs.flatten := R.split.mem_iff.mpr hP
    obtain ⟨p, hp, hPp⟩ := List.mem_flatten.mp this
    obtain ⟨l, hl, e⟩ := loc p hp
    exact le_trans ((sup p l e).2.1 _ ⟨P, hPp, i, j, k, ho, rfl⟩) (h1 l hl)
  · rw [e0]
    rcases s3 with s3 | ⟨P, hP, i, j, k, ho, e⟩
    · exact Or.inl s3
    · exact Or.inr ⟨P, R.split.mem_iff.mp (List.mem_flatten.mpr ⟨p0, hp0, hP⟩), i, j, k, ho, e⟩

/-- Two runs over the same patches report the same checksums, however the patches
are assigned to processes, in whatever order each process visits them, and in
whatever order the processes' contributions are combined. -/
theorem C59_independent (g : Setup) (ty : DataType) (kind : Kind) (patches : List Patch)
    (t t' : Tree (Nat → ℝ)) (R : Run g ty kind patches t) (R' : Run g ty kind patches t')
    (c : Nat) (hc : c < count g ty) : rootChecksum kind t c = rootChecksum kind t' c := by
  by_cases hk : kind = .linf
  · subst hk
    obtain ⟨a1, a2, a3⟩ := C59_linf g ty patches t R c hc
    obtain ⟨b1, b2, b3⟩ := C59_linf g ty patches t' R' c hc
    apply le_antisymm
    · rcases a3 with a3 | ⟨P, hP, i, j, k, ho, e⟩
      · rw [a3]; exact b1
      · rw [e]; exact b2 P hP i j k ho
    · rcases b3 with b3 | ⟨P, hP, i, j, k, ho, e⟩
      · rw [b3]; exact a1
      · rw [e]; exact a2 P hP i j k ho
  · unfold rootChecksum
    simp only
    rw [R.sum hk c hc, R'.sum hk c hc]

/-- Every process succeeds when its patches hold data, every component sits on
nodes or interfaces and the checksum type is one of the four. -/
theorem C59_defined (g : Setup) (ty : DataType) (kind : Kind) (active : List Patch)
    (hty : ty ≠ .other) (hk : kind ≠ .invalid)
    (hl : ty = .state → ∀ c, c < g.components → g.loc c ≠ .other)
    (hd : ∀ P ∈ active, P.hasData = true) : (localChecksum g ty kind active).isSome := by
  have one : ∀ P acc, P.hasData = true → (patchChecksum g ty kind (count g ty) P acc).isSome := by
    intro P acc hP
    unfold patchChecksum
    rw [if_neg (by rw [hP]; simp)]
    cases ty with
    | other => exact absurd rfl hty
    | tracers => simp [count, hk]
    | state =>
      have : ((List.range g.components).any fun c => decide (g.loc c = .other)) ≠ true := by
        intro h
        rw [List.any_eq_true] at h
        obtain ⟨c, hc, e⟩ := h
        exact hl rfl c (List.mem_range.mp hc) (by simpa using e)
      simp only
      rw [if_neg this]
      simp [count, hk]
  have all : ∀ (ps : List Patch) (acc : Nat → ℝ), (∀ P ∈ ps, P.hasData = true) →
      (ps.foldl (fun r P => r.bind (patchChecksum g ty kind (count g ty) P)) (some acc)).isSome := by
    intro ps
    induction ps with
    | nil => intro acc _; rfl
    | cons P ps ih =>
      intro acc h
      obtain ⟨m, hm⟩ := Option.isSome_iff_exists.mp (one P acc (h P (by simp)))
      rw [List.foldl_cons, Option.bind_some, hm]
      exact ih m (fun Q hQ => h Q (by simp [hQ]))
  cases ty with
  | other => exact absurd rfl hty
  | state => exact all active _ hd
  | tracers => exact all active _ hd

/-- Nothing is reported for a patch without data, an unknown data type, an unknown
checksum type, or a component stored elsewhere than on nodes and interfaces. -/
theorem C59_refused (g : Setup) (ty : DataType) (kind : Kind) (rows : Nat) (P : Patch) (acc : Nat → ℝ)
    (h : P.hasData = false ∨ ty = .other ∨ kind = .invalid ∨ rows < count g ty ∨
      (ty = .state ∧ ∃ c, c < g.components ∧ g.loc c = .other)) :
    patchChecksum g ty kind rows P acc = none := by
  unfold patchChecksum
  by_cases hd : P.hasData = false
  · rw [if_pos hd]
  rw [if_neg hd]
  cases ty with
  | other => rfl
  | tracers =>
    simp only [count] at h ⊢
    split_ifs
    · rfl
    · rfl
    · rcases h with h | h | h | h | ⟨h, _⟩
      · exact absurd h hd
      · simp at h
      · contradiction
      · contradiction
      · simp at h
  | state =>
    simp only [count] at h ⊢
    by_cases h2 : ((List.range g.components).any fun c => decide (g.loc c = .other)) = true
    · rw [if_pos h2]
    rw [if_neg h2]
    split_ifs
    · rfl
    · rfl
    · rcases h with h | h | h | h | ⟨_, c, hc, e⟩
      · exact absurd h hd
      · simp at h
      · contradiction
      · contradiction
      · exfalso; apply h2
        rw [List.any_eq_true]
        exact ⟨c, List.mem_range.mpr hc, by simp [e]⟩

/-! ## The hypotheses are met -/

/-- One level, one component on nodes. -/
def sampleSetup : Setup := ⟨1, 1, 0, fun _ => .node⟩

/-- A patch of one by two nodes with a given pair of values and areas 2. -/
noncomputable def samplePatch (x y : ℝ) : Patch :=
  ⟨true, 1, 2, 1, 3, fun _ _ j _ => if j = 1 then x else y, fun _ _ _ _ => 0, fun _ _ _ _ => 0,
   fun _ _ _ => 2, fun _ _ _ => 0⟩

theorem sample_some (kind : Kind) (hk : kind ≠ .invalid) (ps : List Patch)
    (h : ∀ P ∈ ps, ∃ x y, P = samplePatch x y) :
    ∃ l, localChecksum sampleSetup .state kind ps = some l :=
  Option.isSome_iff_exists.mp (C59_defined _ _ _ _ (by simp) hk (by simp [sampleSetup])
    (by intro P hP; obtain ⟨x, y, rfl⟩ := h P hP; rfl))

/-- Two patches on two processes, and both on one process: the runs exist. -/
example : ∃ t t', Nonempty (Run sampleSetup .state .l2 [samplePatch 1 (-2), samplePatch 3 4] t) ∧
    Nonempty (Run sampleSetup .state .l2 [samplePatch 1 (-2), samplePatch 3 4] t') ∧
    t.leaves.length = 2 ∧ t'.leaves.length = 1 ∧
    rootChecksum .l2 t 0 = Real.sqrt 60 := by
  obtain ⟨l1, h1⟩ := sample_some .l2 (by simp) [samplePatch 1 (-2)] (by intro P hP; exact ⟨1, -2, by simpa using hP⟩)
  obtain ⟨l2, h2⟩ := sample_some .l2 (by simp) [samplePatch 3 4] (by intro P hP; exact ⟨3, 4, by simpa using hP⟩)
  obtain ⟨l3, h3⟩ := sample_some .l2 (by simp) [samplePatch 3 4, samplePatch 1 (-2)]
    (by
      intro P hP
      simp at hP
      rcases hP with rfl | rfl
      · exact ⟨3, 4, rfl⟩
      · exact ⟨1, -2, rfl⟩)
  have R : Run sampleSetup .state .l2 [samplePatch 1 (-2), samplePatch 3 4]
      (.node (.leaf l2) (.leaf l1)) :=
    ⟨[[samplePatch 1 (-2)], [samplePatch 3 4]], [l1, l2], by simp, by simp [h1, h2],
      List.Perm.swap _ _ _⟩
  refine ⟨.node (.leaf l2) (.leaf l1), .leaf l3, ⟨R⟩,
    ⟨⟨[[samplePatch 3 4, samplePatch 1 (-2)]], [l3], List.Perm.swap _ _ _,
      by simp [h3], by simp [Tree.leaves]⟩⟩, rfl, rfl, ?_⟩
  rw [C59_l2 _ _ _ _ R 0 (by decide)]
  congr 1
  have hl : sampleSetup.loc 0 ≠ .rEdge := by simp [sampleSetup]
  simp only [values, areas, levels, if_neg hl]
  norm_num [total, samplePatch, sampleSetup, Finset.sum_Ico_succ_top]

/-- An unknown checksum type is refused. -/
example : patchChecksum sampleSetup .state .invalid 1 (samplePatch 1 2) (fun _ => 0) = none :=
  C59_refused _ _ _ _ _ _ (Or.inr (Or.inr (Or.inl rfl)))

end Verif.Checksum
