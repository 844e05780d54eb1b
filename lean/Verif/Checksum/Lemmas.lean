import Verif.Checksum.Model
import Verif.Checksum.Spec
import Mathlib.Tactic.Ring
import Mathlib.Tactic.Linarith

namespace Verif.Checksum

open Finset

/-- `r` is the larger of `x` and everything in `S`, and is attained. -/
def Sup (S : ℝ → Prop) (x r : ℝ) : Prop :=
  x ≤ r ∧ (∀ s, S s → s ≤ r) ∧ (r = x ∨ S r)

theorem loop_succ (lo m : Nat) (f : Nat → ℝ → ℝ) (x : ℝ) :
    (List.range (m + 1)).foldl (fun y n => f (lo + n) y) x =
      f (lo + m) ((List.range m).foldl (fun y n => f (lo + n) y) x) := by
  rw [List.range_succ, List.foldl_append]; rfl

theorem loop_add (lo hi : Nat) (f : Nat → ℝ → ℝ) (q : Nat → ℝ) (h : ∀ i x, f i x = x + q i) (x : ℝ) :
    loop lo hi f x = x + ∑ i ∈ Ico lo hi, q i := by
  unfold loop
  rw [sum_Ico_eq_sum_range]
  generalize hi - lo = m
  induction m with
  | zero => simp
  | succ m ih => rw [loop_succ, h, ih, sum_range_succ]; ring

theorem loop_sup (lo hi : Nat) (f : Nat → ℝ → ℝ) (S : Nat → ℝ → Prop)
    (h : ∀ i x, Sup (S i) x (f i x)) (x : ℝ) :
    Sup (fun s => ∃ i, lo ≤ i ∧ i < hi ∧ S i s) x (loop lo hi f x) := by
  have key : ∀ m, Sup (fun s => ∃ i, lo ≤ i ∧ i < lo + m ∧ S i s) x
      ((List.range m).foldl (fun y n => f (lo + n) y) x) := by
    intro m
    induction m with
    | zero =>
      refine ⟨le_refl _, ?_, Or.inl rfl⟩
      rintro s ⟨i, h1, h2, _⟩
      omega
    | succ m ih =>
      rw [loop_succ]
      obtain ⟨a1, a2, a3⟩ := ih
      obtain ⟨b1, b2, b3⟩ := h (lo + m) ((List.range m).foldl (fun y n => f (lo + n) y) x)
      refine ⟨le_trans a1 b1, ?_, ?_⟩
      · rintro s ⟨i, h1, h2, h3⟩
        by_cases e : i = lo + m
        · subst e; exact b2 s h3
        · exact le_trans (a2 s ⟨i, h1, by omega, h3⟩) b1
      · rcases b3 with b3 | b3
        · rw [b3]
          rcases a3 with a3 | ⟨i, h1, h2, h3⟩
          · exact Or.inl a3
          · exact Or.inr ⟨i, h1, by omega, h3⟩
        · exact Or.inr ⟨lo + m, by omega, by omega, b3⟩
  unfold loop
  obtain ⟨a1, a2, a3⟩ := key (hi - lo)
  refine ⟨a1, ?_, ?_⟩
  · rintro s ⟨i, h1, h2, h3⟩
    exact a2 s ⟨i, h1, by omega, h3⟩
  · rcases a3 with a3 | ⟨i, h1, h2, h3⟩
    · exact Or.inl a3
    · exact Or.inr ⟨i, h1, by omega, h3⟩

/-- The quantity added for one node by the additive checksums. -/
noncomputable def term (kind : Kind) (v a : ℝ) : ℝ :=
  match kind with
  | .sum => v * a
  | .l1 => |v| * a
  | .l2 => v * v * a
  | .linf => 0
  | .invalid => 0

theorem sweep_add (kind : Kind) (h : kind ≠ .linf) (P : Patch) (kTop : Nat)
    (vals areas : Nat → Nat → Nat → ℝ) (x : ℝ) :
    sweep kind P kTop vals areas x =
      x + total P.aBegin P.aEnd P.bBegin P.bEnd kTop
        (fun i j k => term kind (vals i j k) (areas i j k)) := by
  unfold sweep total
  apply loop_add
  intro i x
  apply loop_add
  intro j x
  rw [loop_add 0 kTop _ (fun k => term kind (vals i j k) (areas i j k)), Nat.Ico_zero_eq_range]
  intro k x
  cases kind <;> simp [step, term] at h ⊢

theorem sweep_sup (P : Patch) (kTop : Nat) (vals areas : Nat → Nat → Nat → ℝ) (x : ℝ) :
    Sup (fun s => ∃ i j k, Owned P.aBegin P.aEnd P.bBegin P.bEnd kTop i j k ∧ s = |vals i j k|) x
      (sweep .linf P kTop vals areas x) := by
  have h := loop_sup P.aBegin P.aEnd (fun i => loop P.bBegin P.bEnd (fun j => loop 0 kTop (fun k y =>
    step .linf y (vals i j k) (areas i j k))))
    (fun i s => ∃ j, P.bBegin ≤ j ∧ j < P.bEnd ∧ ∃ k, 0 ≤ k ∧ k < kTop ∧ s = |vals i j k|)
    (by
      intro i x
      apply loop_sup
      intro j x
      apply loop_sup
      intro k x
      simp only [step]
      by_cases hv : |vals i j k| > x
      · rw [if_pos hv]
        exact ⟨le_of_lt hv, fun s e => le_of_eq e, Or.inr rfl⟩
      · rw [if_neg hv]
        exact ⟨le_refl _, fun s e => by rw [e]; exact not_lt.mp hv, Or.inl rfl⟩) x
  unfold sweep
  obtain ⟨a1, a2, a3⟩ := h
  refine ⟨a1, ?_, ?_⟩
  · rintro s ⟨i, j, k, ⟨h1, h2, h3, h4, h5⟩, e⟩
    exact a2 s ⟨i, h1, h2, j, h3, h4, k, Nat.zero_le _, h5, e⟩
  · rcases a3 with a3 | ⟨i, h1, h2, j, h3, h4, k, _, h5, e⟩
    · exact Or.inl a3
    · exact Or.inr ⟨i, j, k, ⟨h1, h2, h3, h4, h5⟩, e⟩

/-- Number of components of a data type. -/
def count (g : Setup) : DataType → Nat
  | .state => g.components
  | .tracers => g.tracers
  | .other => 0

/-- The stored values of component `c`. -/
def values (g : Setup) (ty : DataType) (P : Patch) (c : Nat) : Nat → Nat → Nat → ℝ :=
  match ty with
  | .state => if g.loc c = .rEdge then P.stateREdge c else P.stateNode c
  | .tracers => P.tracer c
  | .other => fun _ _ _ => 0

/-- The areas that go with component `c`. -/
def areas (g : Setup) (ty : DataType) (P : Patch) (c : Nat) : Nat → Nat → Nat → ℝ :=
  match ty with
  | .state => if g.loc c = .rEdge then P.areaREdge else P.areaNode
  | .tracers => P.areaNode
  | .other => fun _ _ _ => 0

/-- The number of levels of component `c`. -/
def levels (g : Setup) (ty : DataType) (c : Nat) : Nat :=
  match ty with
  | .state => if g.loc c = .rEdge then g.nR + 1 else g.nR
  | .tracers => g.nR
  | .other => 0

theorem fold_store (vars : List Nat) (hn : vars.Nodup) (F : Nat → ℝ → ℝ) (acc : Nat → ℝ) (c : Nat) :
    vars.foldl (fun a c => store a c (F c (a c))) acc c =
      if c ∈ vars then F c (acc c) else acc c := by
  induction vars generalizing acc with
  | nil => simp
  | cons d vs ih =>
    rw [List.foldl_cons, ih (List.nodup_cons.mp hn).2]
    have hd := (List.nodup_cons.mp hn).1
    by_cases e : c = d
    · subst e
      simp [hd, store]
    · by_cases hv : c ∈ vs <;> simp [hv, e, store]

theorem patch_at (g : Setup) (ty : DataType) (kind : Kind) (rows : Nat) (P : Patch)
    (acc acc' : Nat → ℝ) (h : patchChecksum g ty kind rows P acc = some acc') (c : Nat)
    (hc : c < count g ty) :
    acc' c = sweep kind P (levels g ty c) (values g ty P c) (areas g ty P c) (acc c) := by
  unfold patchChecksum at h
  by_cases h1 : P.hasData = false
  · rw [if_pos h1] at h; exact absurd h (by simp)
  rw [if_neg h1] at h
  cases ty with
  | other => simp at h
  | tracers =>
    simp only at h
    by_cases h2 : rows < g.tracers
    · rw [if_pos h2] at h; simp at h
    rw [if_neg h2] at h
    by_cases h3 : kind = .invalid
    · rw [if_pos h3] at h; simp at h
    rw [if_neg h3] at h
    rw [← Option.some.inj h, fold_store _ (List.nodup_range), if_pos (List.mem_range.mpr (show c < g.tracers from hc))]
    rfl
  | state =>
    simp only at h
    by_cases h2 : ((List.range g.components).any fun c => decide (g.loc c = .other)) = true
    · rw [if_pos h2] at h; simp at h
    rw [if_neg h2] at h
    by_cases h3 : rows < g.components
    · rw [if_pos h3] at h; simp at h
    rw [if_neg h3] at h
    by_cases h4 : kind = .invalid
    · rw [if_pos h4] at h; simp at h
    rw [if_neg h4] at h
    have hc' : c < g.components := hc
    rw [← Option.some.inj h, fold_store _ (List.nodup_range.filter _),
      fold_store _ (List.nodup_range.filter _)]
    have hloc : g.loc c ≠ .other := by
      intro e
      apply h2
      rw [List.any_eq_true]
      exact ⟨c, List.mem_range.mpr hc', by simp [e]⟩
    unfold levels values areas
    cases hl : g.loc c with
    | node => simp [hl, hc']
    | rEdge => simp [hl, hc']
    | other => exact absurd hl hloc

theorem fold_bind (n : Nat) (step' : Patch → (Nat → ℝ) → Option (Nat → ℝ)) (F : Patch → Nat → ℝ → ℝ)
    (hs : ∀ P acc acc', step' P acc = some acc' → ∀ c, c < n → acc' c = F P c (acc c)) :
    ∀ (ps : List Patch) (acc acc' : Nat → ℝ),
      ps.foldl (fun r P => r.bind (step' P)) (some acc) = some acc' →
      ∀ c, c < n → acc' c = ps.foldl (fun x P => F P c x) (acc c) := by
  have none_fold : ∀ ps : List Patch,
      ps.foldl (fun (r : Option (Nat → ℝ)) P => r.bind (step' P)) none = none := by
    intro ps
    induction ps with
    | nil => rfl
    | cons P ps ih => simpa using ih
  intro ps
  induction ps with
  | nil =>
    intro acc acc' h c _
    simp at h; rw [h]; rfl
  | cons P ps ih =>
    intro acc acc' h c hc
    rw [List.foldl_cons, Option.bind_some] at h
    cases hp : step' P acc with
    | none => rw [hp, none_fold] at h; simp at h
    | some mid =>
      rw [hp] at h
      rw [ih mid acc' h c hc, hs P acc mid hp c hc, List.foldl_cons]

theorem local_at (g : Setup) (ty : DataType) (kind : Kind) (active : List Patch) (r : Nat → ℝ)
    (h : localChecksum g ty kind active = some r) (c : Nat) (hc : c < count g ty) :
    r c = active.foldl (fun x P =>
      sweep kind P (levels g ty c) (values g ty P c) (areas g ty P c) x) 0 := by
  cases ty with
  | other => simp [localChecksum] at h
  | state =>
    exact fold_bind g.components _ (fun P c x =>
      sweep kind P (levels g .state c) (values g .state P c) (areas g .state P c) x)
      (fun P acc acc' hp c hc => patch_at g .state kind _ P acc acc' hp c hc) active _ r h c hc
  | tracers =>
    exact fold_bind g.tracers _ (fun P c x =>
      sweep kind P (levels g .tracers c) (values g .tracers P c) (areas g .tracers P c) x)
      (fun P acc acc' hp c hc => patch_at g .tracers kind _ P acc acc' hp c hc) active _ r h c hc

theorem fold_add (q : Patch → ℝ) (ps : List Patch) (x : ℝ) :
    ps.foldl (fun y P => y + q P) x = x + (ps.map q).sum := by
  induction ps generalizing x with
  | nil => simp
  | cons P ps ih => rw [List.foldl_cons, ih, List.map_cons, List.sum_cons]; ring

theorem fold_sup (F : Patch → ℝ → ℝ) (S : Patch → ℝ → Prop) (h : ∀ P x, Sup (S P) x (F P x))
    (ps : List Patch) (x : ℝ) :
    Sup (fun s => ∃ P ∈ ps, S P s) x (ps.foldl (fun y P => F P y) x) := by
  induction ps generalizing x with
  | nil => exact ⟨le_refl _, by simp, Or.inl rfl⟩
  | cons P ps ih =>
    rw [List.foldl_cons]
    obtain ⟨a1, a2, a3⟩ := h P x
    obtain ⟨b1, b2, b3⟩ := ih (F P x)
    refine ⟨le_trans a1 b1, ?_, ?_⟩
    · rintro s ⟨Q, hQ, hs⟩
      rcases List.mem_cons.mp hQ with rfl | hQ
      · exact le_trans (a2 s hs) b1
      · exact b2 s ⟨Q, hQ, hs⟩
    · rcases b3 with b3 | ⟨Q, hQ, hs⟩
      · rw [b3]
        rcases a3 with a3 | a3
        · exact Or.inl a3
        · exact Or.inr ⟨P, by simp, a3⟩
      · exact Or.inr ⟨Q, by simp [hQ], hs⟩

theorem reduce_at (kind : Kind) (t : Tree (Nat → ℝ)) (c : Nat) :
    t.reduce (fun a b n => mpiOp kind (a n) (b n)) c =
      (match t with
       | .leaf x => x c
       | .node l r => mpiOp kind (l.reduce (fun a b n => mpiOp kind (a n) (b n)) c)
          (r.reduce (fun a b n => mpiOp kind (a n) (b n)) c)) := by
  cases t <;> rfl

theorem reduce_sum (kind : Kind) (h : kind ≠ .linf) (t : Tree (Nat → ℝ)) (c : Nat) :
    t.reduce (fun a b n => mpiOp kind (a n) (b n)) c = (t.leaves.map (fun a => a c)).sum := by
  induction t with
  | leaf x => simp [Tree.reduce, Tree.leaves]
  | node l r hl hr =>
    rw [reduce_at]
    simp only [hl, hr]
    simp only [mpiOp, if_neg h, Tree.leaves, List.map_append, List.sum_append]

theorem reduce_max (t : Tree (Nat → ℝ)) (c : Nat) :
    (∀ a ∈ t.leaves, a c ≤ t.reduce (fun a b n => mpiOp .linf (a n) (b n)) c) ∧
    (∃ a ∈ t.leaves, t.reduce (fun a b n => mpiOp .linf (a n) (b n)) c = a c) := by
  induction t with
  | leaf x => simp [Tree.reduce, Tree.leaves]
  | node l r hl hr =>
    rw [reduce_at]
    simp only
    generalize l.reduce (fun a b n => mpiOp .linf (a n) (b n)) c = x at hl ⊢
    generalize r.reduce (fun a b n => mpiOp .linf (a n) (b n)) c = y at hr ⊢
    simp only [mpiOp, if_true, Tree.leaves, List.mem_append]
    constructor
    · rintro a (ha | ha)
      · exact le_trans (hl.1 a ha) (le_max_left _ _)
      · exact le_trans (hr.1 a ha) (le_max_right _ _)
    · rcases le_total x y with hxy | hxy
      · obtain ⟨a, ha, e⟩ := hr.2
        exact ⟨a, Or.inr ha, by rw [max_eq_right hxy, e]⟩
      · obtain ⟨a, ha, e⟩ := hl.2
        exact ⟨a, Or.inl ha, by rw [max_eq_left hxy, e]⟩

end Verif.Checksum
