/-
Lemmas for the output on the reference grid: the loops over points, levels, components and patches.
-/
import Verif.Outref.Lemmas
import Verif.Column.Props

namespace Verif.Outref

open Verif.Exchange (Res)
open Verif.Column (Op applyAll applyRow)

theorem bind_ok {σ τ : Type} {r : Res σ} {f : σ → Res τ} {t : τ} (h : r.bind f = .ok t) : ∃ s, r = .ok s ∧ f s = .ok t := by
  cases r with
  | ok s => exact ⟨s, rfl, h⟩
  | exc => simp [Res.bind] at h
  | ub => simp [Res.bind] at h

theorem loop_invariant {σ ι : Type} {f : σ → ι → Res σ} (I : σ → Prop) : ∀ (l : List ι) (s t : σ),
    (∀ x ∈ l, ∀ s s', I s → f s x = .ok s' → I s') → I s → loop f l s = .ok t → I t := by
  intro l
  induction l with
  | nil => intro s t _ hi h; cases h; exact hi
  | cons x xs ih =>
    intro s t hs hi h
    obtain ⟨s', h1, h2⟩ := bind_ok h
    exact ih s' t (fun y hy => hs y (List.mem_cons_of_mem _ hy)) (hs x List.mem_cons_self s s' hi h1) h2

theorem loop_rel {σ ι : Type} {f : σ → ι → Res σ} (R : σ → σ → Prop) : ∀ (l : List ι) (s t s' t' : σ),
    (∀ x ∈ l, ∀ s t s' t', R s t → f s x = .ok s' → f t x = .ok t' → R s' t') → R s t →
    loop f l s = .ok s' → loop f l t = .ok t' → R s' t' := by
  intro l
  induction l with
  | nil => intro s t s' t' _ hi h h'; cases h; cases h'; exact hi
  | cons x xs ih =>
    intro s t s' t' hs hi h h'
    obtain ⟨s1, h1, h2⟩ := bind_ok h
    obtain ⟨t1, h3, h4⟩ := bind_ok h'
    exact ih s1 t1 s' t' (fun y hy => hs y (List.mem_cons_of_mem _ hy)) (hs x List.mem_cons_self s t s1 t1 hi h1 h3) h2 h4

theorem loop_succeeds {σ ι : Type} {f : σ → ι → Res σ} : ∀ (l : List ι) (s : σ), (∀ x ∈ l, ∀ s, ∃ s', f s x = .ok s') →
    ∃ t, loop f l s = .ok t := by
  intro l
  induction l with
  | nil => intro s _; exact ⟨s, rfl⟩
  | cons x xs ih =>
    intro s h
    obtain ⟨s', h1⟩ := h x List.mem_cons_self s
    obtain ⟨t, h2⟩ := ih s' fun y hy => h y (List.mem_cons_of_mem _ hy)
    exact ⟨t, by rw [loop, h1]; exact h2⟩

theorem loop_append {σ ι : Type} {f : σ → ι → Res σ} (l l' : List ι) (s : σ) :
    loop f (l ++ l') s = (loop f l s).bind (loop f l') := by
  induction l generalizing s with
  | nil => rfl
  | cons x xs ih =>
    rw [List.cons_append, loop, loop]
    cases f s x with
    | ok s1 => exact ih s1
    | exc => rfl
    | ub => rfl

/-- The result of the step for one member of the loop, kept by the later steps. -/
theorem loop_at {σ ι : Type} {f : σ → ι → Res σ} (I : σ → Prop) (l : List ι) (s t : σ) (x : ι) (hx : x ∈ l)
    (hset : ∀ s s', f s x = .ok s' → I s') (hkeep : ∀ y ∈ l, y ≠ x → ∀ s s', I s → f s y = .ok s' → I s')
    (h : loop f l s = .ok t) : I t := by
  obtain ⟨l1, l2, hl⟩ := List.append_of_mem hx
  rw [hl, loop_append] at h
  obtain ⟨s1, -, h1⟩ := bind_ok h
  obtain ⟨s2, h2, h3⟩ := bind_ok h1
  refine loop_invariant I l2 s2 t (fun y hy s s' hi hf => ?_) (hset s1 s2 h2) h3
  by_cases hyx : y = x
  · rw [hyx] at hf; exact hset s s' hf
  · exact hkeep y (by rw [hl]; simp [hy]) hyx s s' hi hf

/-! ### Points -/

theorem mem_numbered {pts : List Point} {i : Nat} {p : Point} : (i, p) ∈ numbered pts ↔ pts[i]? = some p := by
  unfold numbered
  rw [List.mem_map]
  constructor
  · rintro ⟨⟨q, j⟩, h1, h2⟩
    rw [List.mem_zipIdx_iff_getElem?] at h1
    simp only [Prod.mk.injEq] at h2
    rw [← h2.1, ← h2.2]; exact h1
  · intro h
    exact ⟨(p, i), by rw [List.mem_zipIdx_iff_getElem?]; exact h, rfl⟩

theorem applyAll_at (A : Op) (x out : Nat → ℝ) (k : Nat) (hk : k < A.rows) : applyAll A x out 1 1 k = applyRow A x k := by
  unfold applyAll applyRow
  simp only [mul_one]
  have : ∀ n, ∀ k < n, ((List.range n).foldl (fun o k => Function.update o k (Column.rowLoop (A.row k) 0 fun l => x l)) out) k =
      Column.rowLoop (A.row k) 0 x := by
    intro n
    induction n with
    | zero => intro k hk; omega
    | succ n ih =>
      intro k hk
      rw [List.range_succ, List.foldl_append]
      simp only [List.foldl_cons, List.foldl_nil]
      by_cases h : k = n
      · rw [h, Function.update_self]
      · rw [Function.update_of_ne h]; exact ih k (by omega)
  exact this _ k hk

section
variable (G : Grid) (P : Patch) (ty : DataType) (incl conv : Bool)

/-- A step changes nothing of another point or component. -/
theorem pointStep_other {c nR nOut : Nat} {op : Op} {w w' : Work} {ip : Nat × Point}
    (h : pointStep G P ty incl conv c nR nOut op w ip = .ok w') {c' k i : Nat} (hne : c' ≠ c ∨ i ≠ ip.1 ∨ ip.2.patch ≠ P.index) :
    w'.D c' k i = w.D c' k i := by
  unfold pointStep at h
  by_cases h1 : ip.2.patch ≠ P.index
  · rw [if_pos h1] at h; cases h; rfl
  · rw [if_neg h1] at h
    by_cases h2 : outOfRange G P ip.2.A ip.2.B
    · rw [if_pos h2] at h; simp at h
    · rw [if_neg h2] at h
      by_cases h3 : c = 3 ∧ conv ∧ 0 < nR ∧ G.components ≤ 3
      · rw [if_pos h3] at h; simp at h
      · rw [if_neg h3] at h
        by_cases h4 : nOut < op.rows
        · rw [if_pos h4] at h; simp at h
        · rw [if_neg h4] at h
          cases h
          unfold store
          simp only
          rw [if_neg (by tauto)]

/-- A step writes the interpolated column of its point. -/
theorem pointStep_set {c nR nOut : Nat} {op : Op} {w w' : Work} {i : Nat} {p : Point}
    (h : pointStep G P ty incl conv c nR nOut op w (i, p) = .ok w') (hp : p.patch = P.index) (hr : op.rows = nOut) {k : Nat}
    (hk : k < nOut) : w'.D c k i = applyRow op (columnData G P ty incl conv c p.A p.B) k := by
  unfold pointStep at h
  simp only at h
  rw [if_neg (by simpa using hp)] at h
  by_cases h2 : outOfRange G P p.A p.B
  · rw [if_pos h2] at h; simp at h
  · rw [if_neg h2] at h
    by_cases h3 : c = 3 ∧ conv ∧ 0 < nR ∧ G.components ≤ 3
    · rw [if_pos h3] at h; simp at h
    · rw [if_neg h3, if_neg (by omega)] at h
      cases h
      unfold store
      simp only
      rw [if_pos (by simp [hk]), applyAll_at _ _ _ _ (by omega)]

/-- A step succeeds on a point in range. -/
theorem pointStep_succeeds {c nR nOut : Nat} {op : Op} {ip : Nat × Point}
    (hin : ip.2.patch = P.index → ¬ outOfRange G P ip.2.A ip.2.B) (h3 : ¬ (c = 3 ∧ conv ∧ G.components ≤ 3)) (hr : op.rows ≤ nOut)
    (w : Work) : ∃ w', pointStep G P ty incl conv c nR nOut op w ip = .ok w' := by
  unfold pointStep
  by_cases h1 : ip.2.patch ≠ P.index
  · rw [if_pos h1]; exact ⟨_, rfl⟩
  · rw [if_neg h1, if_neg (hin (by simpa using h1)), if_neg (by tauto), if_neg (by omega)]; exact ⟨_, rfl⟩

/-- A step changes the buffer in the same way and the arrays alike. -/
theorem pointStep_rel {c nR nOut : Nat} {op : Op} {w v w' v' : Work} {ip : Nat × Point} (i : Nat)
    (hb : w.buf = v.buf ∧ ∀ c k, w.D c k i = v.D c k i)
    (h : pointStep G P ty incl conv c nR nOut op w ip = .ok w') (h' : pointStep G P ty incl conv c nR nOut op v ip = .ok v') :
    w'.buf = v'.buf ∧ ∀ c k, w'.D c k i = v'.D c k i := by
  unfold pointStep at h h'
  by_cases h1 : ip.2.patch ≠ P.index
  · rw [if_pos h1] at h h'; cases h; cases h'; exact hb
  · rw [if_neg h1] at h h'
    by_cases h2 : outOfRange G P ip.2.A ip.2.B
    · rw [if_pos h2] at h; simp at h
    · rw [if_neg h2] at h h'
      by_cases h3 : c = 3 ∧ conv ∧ 0 < nR ∧ G.components ≤ 3
      · rw [if_pos h3] at h; simp at h
      · rw [if_neg h3] at h h'
        by_cases h4 : nOut < op.rows
        · rw [if_pos h4] at h; simp at h
        · rw [if_neg h4] at h h'
          cases h
          cases h'
          refine ⟨by rw [hb.1], fun c' k => ?_⟩
          unfold store
          simp only [hb.1, hb.2]

/-! ### Components -/

/-- The number of values in a column of a component. -/
def sizeF (G : Grid) (ty : DataType) (flat : Bool) (c : Nat) : Nat :=
  if flat then 1 else if locOf G ty c = .redge then G.levels + 1 else G.levels

theorem componentStep_eq (flat : Bool) (only : Option Location) (nOut : Nat) (out : Nat → ℝ) (pts : List Point) (w : Work)
    (c : Nat) : componentStep G P ty flat incl conv only nOut out pts w c =
    if ty = .state ∧ only ≠ none ∧ only ≠ some (locOf G ty c) then .ok w
    else if locOf G ty c = .other then .exc
    else (verticalOp G (locOf G ty c) (sizeF G ty flat c) nOut out).bind fun op =>
      loop (pointStep G P ty incl conv c (sizeF G ty flat c) nOut op) (numbered pts) w := rfl

theorem skipped_iff (only : Option Location) (c : Nat) :
    (ty = .state ∧ only ≠ none ∧ only ≠ some (locOf G ty c)) ↔ ¬ Requested G ty only c := by
  unfold Requested locOf
  by_cases h : ty = .state
  · simp only [h, if_true]; tauto
  · simp [h]

theorem componentStep_other {flat : Bool} {only : Option Location} {nOut : Nat} {out : Nat → ℝ} {pts : List Point} {w w' : Work}
    {c : Nat} (h : componentStep G P ty flat incl conv only nOut out pts w c = .ok w') {c' k i : Nat}
    (hne : c' ≠ c ∨ ¬ Requested G ty only c ∨ ∀ p, pts[i]? = some p → p.patch ≠ P.index) : w'.D c' k i = w.D c' k i := by
  rw [componentStep_eq] at h
  by_cases h1 : ty = .state ∧ only ≠ none ∧ only ≠ some (locOf G ty c)
  · rw [if_pos h1] at h; cases h; rfl
  · rw [if_neg h1] at h
    rw [skipped_iff, not_not] at h1
    by_cases h2 : locOf G ty c = .other
    · rw [if_pos h2] at h; simp at h
    · rw [if_neg h2] at h
      obtain ⟨op, -, h3⟩ := bind_ok h
      refine loop_invariant (fun v : Work => v.D c' k i = w.D c' k i) _ w w' (fun ip hip s s' hi hf => ?_) rfl h3
      rw [← hi]
      refine pointStep_other G P ty incl conv hf ?_
      rcases hne with hne | hne | hne
      · exact Or.inl hne
      · exact absurd h1 hne
      · by_cases hi' : i = ip.1
        · right; right
          obtain ⟨j, p⟩ := ip
          exact hne p (by rw [hi']; exact mem_numbered.1 hip)
        · exact Or.inr (Or.inl hi')

theorem componentStep_set {flat : Bool} {only : Option Location} {nOut : Nat} {out : Nat → ℝ} {pts : List Point} {w w' : Work}
    {c : Nat} (h : componentStep G P ty flat incl conv only nOut out pts w c = .ok w') (hq : Requested G ty only c) {i : Nat}
    {p : Point} (hi : pts[i]? = some p) (hp : p.patch = P.index) {op : Op}
    (hop : verticalOp G (locOf G ty c) (sizeF G ty flat c) nOut out = .ok op) (hr : op.rows = nOut) {k : Nat} (hk : k < nOut) :
    w'.D c k i = applyRow op (columnData G P ty incl conv c p.A p.B) k := by
  rw [componentStep_eq, if_neg (by rw [skipped_iff]; simpa using hq)] at h
  by_cases h2 : locOf G ty c = .other
  · rw [if_pos h2] at h; simp at h
  · rw [if_neg h2, hop] at h
    refine loop_at (fun v : Work => v.D c k i = _) _ w w' (i, p) (mem_numbered.2 hi)
      (fun s s' hf => pointStep_set G P ty incl conv hf hp hr hk) (fun y hy hne s s' hI hf => ?_) h
    rw [← hI]
    obtain ⟨j, q⟩ := y
    have hq := mem_numbered.1 hy
    refine pointStep_other G P ty incl conv hf (Or.inr (Or.inl ?_))
    intro hij
    simp only at hij
    rw [← hij, hi] at hq
    cases hq
    exact hne (by rw [hij])

theorem componentStep_rel {flat : Bool} {only : Option Location} {nOut : Nat} {out : Nat → ℝ} {pts : List Point}
    {w v w' v' : Work} {c : Nat} (i : Nat) (hb : w.buf = v.buf ∧ ∀ c k, w.D c k i = v.D c k i)
    (h : componentStep G P ty flat incl conv only nOut out pts w c = .ok w')
    (h' : componentStep G P ty flat incl conv only nOut out pts v c = .ok v') :
    w'.buf = v'.buf ∧ ∀ c k, w'.D c k i = v'.D c k i := by
  rw [componentStep_eq] at h h'
  by_cases h1 : ty = .state ∧ only ≠ none ∧ only ≠ some (locOf G ty c)
  · rw [if_pos h1] at h h'; cases h; cases h'; exact hb
  · rw [if_neg h1] at h h'
    by_cases h2 : locOf G ty c = .other
    · rw [if_pos h2] at h; simp at h
    · rw [if_neg h2] at h h'
      obtain ⟨op, hop, h3⟩ := bind_ok h
      obtain ⟨op', hop', h3'⟩ := bind_ok h'
      rw [hop] at hop'
      cases hop'
      refine loop_rel (fun w v : Work => w.buf = v.buf ∧ ∀ c k, w.D c k i = v.D c k i) _ w v w' v' ?_ hb h3 h3'
      intro ip _ s t s' t' hR hf hf'
      exact pointStep_rel G P ty incl conv i hR hf hf'

theorem componentStep_succeeds {flat : Bool} {only : Option Location} {nOut : Nat} {out : Nat → ℝ} {pts : List Point}
    {c : Nat} (hin : ∀ p ∈ pts, p.patch = P.index → ¬ outOfRange G P p.A p.B)
    (h3 : ¬ (c = 3 ∧ conv ∧ G.components ≤ 3)) (hl : locOf G ty c ≠ .other) {op : Op}
    (hop : verticalOp G (locOf G ty c) (sizeF G ty flat c) nOut out = .ok op) (hr : op.rows ≤ nOut) (w : Work) :
    ∃ w', componentStep G P ty flat incl conv only nOut out pts w c = .ok w' := by
  rw [componentStep_eq]
  by_cases h1 : ty = .state ∧ only ≠ none ∧ only ≠ some (locOf G ty c)
  · rw [if_pos h1]; exact ⟨_, rfl⟩
  · rw [if_neg h1, if_neg hl, hop]
    refine loop_succeeds _ w fun ip hip s => pointStep_succeeds G P ty incl conv ?_ h3 hr s
    obtain ⟨j, p⟩ := ip
    exact hin p (List.mem_of_getElem? (mem_numbered.1 hip))

/-! ### Winds -/

theorem windPoint_other {nOut : Nat} {D D' : Nat → Nat → Nat → ℝ} {ip : Nat × Point} (h : windPoint G P nOut D ip = .ok D')
    {c k i : Nat} (hne : (c ≠ 0 ∧ c ≠ 1) ∨ i ≠ ip.1 ∨ ip.2.patch ≠ P.index) : D' c k i = D c k i := by
  unfold windPoint at h
  by_cases h1 : ip.2.patch ≠ P.index
  · rw [if_pos h1] at h; cases h; rfl
  · rw [if_neg h1] at h
    refine loop_invariant (fun E : Nat → Nat → Nat → ℝ => E c k i = D c k i) _ D D' (fun k' _ s s' hi hf => ?_) rfl h
    obtain ⟨r, -, h3⟩ := bind_ok hf
    cases h3
    rw [← hi]
    simp only
    rw [if_neg (by tauto), if_neg (by tauto)]

theorem windPoint_set {nOut : Nat} {D D' : Nat → Nat → Nat → ℝ} {i : Nat} {p : Point} (h : windPoint G P nOut D (i, p) = .ok D')
    (hp : p.patch = P.index) {k : Nat} (hk : k < nOut) :
    windStep G P p (D 0 k i) (D 1 k i) = .ok (D' 0 k i, D' 1 k i) := by
  unfold windPoint at h
  simp only at h
  rw [if_neg (by simpa using hp)] at h
  have key : ∀ n ≤ nOut, ∀ E, loop (fun D k => (windStep G P p (D 0 k i) (D 1 k i)).bind fun r =>
      .ok fun c' k' i' => if k' = k ∧ i' = i ∧ c' = 0 then r.1 else if k' = k ∧ i' = i ∧ c' = 1 then r.2 else D c' k' i')
      (List.range n) D = .ok E →
      (∀ k < n, windStep G P p (D 0 k i) (D 1 k i) = .ok (E 0 k i, E 1 k i)) ∧ (∀ k, n ≤ k → ∀ c, E c k i = D c k i) := by
    intro n
    induction n with
    | zero => intro _ E hE; cases hE; exact ⟨fun k hk => absurd hk (by omega), fun _ _ _ => rfl⟩
    | succ n ih =>
      intro hn E hE
      rw [List.range_succ, loop_append] at hE
      obtain ⟨F, h1, h2⟩ := bind_ok hE
      obtain ⟨i1, i2⟩ := ih (by omega) F h1
      obtain ⟨E', h3, h4⟩ := bind_ok h2
      cases h4
      obtain ⟨r, h5, h6⟩ := bind_ok h3
      cases h6
      rw [i2 n le_rfl 0, i2 n le_rfl 1] at h5
      constructor
      · intro k hk
        by_cases hkn : k = n
        · subst hkn; simp [h5]
        · rw [i1 k (by omega)]
          simp [hkn]
      · intro k hk c
        simp only
        rw [if_neg (by omega), if_neg (by omega)]
        exact i2 k (by omega) c
  exact (key nOut le_rfl D' h).1 k hk

theorem windAll_other {rows nOut : Nat} {pts : List Point} {D D' : Nat → Nat → Nat → ℝ} (h : windAll G P rows nOut pts D = .ok D')
    {c k i : Nat} (hne : (c ≠ 0 ∧ c ≠ 1) ∨ ∀ p, pts[i]? = some p → p.patch ≠ P.index) : D' c k i = D c k i := by
  unfold windAll at h
  by_cases h1 : rows < 5 ∧ rows ≠ 3
  · rw [if_pos h1] at h; simp at h
  · rw [if_neg h1] at h
    refine loop_invariant (fun E : Nat → Nat → Nat → ℝ => E c k i = D c k i) _ D D' (fun ip hip s s' hi hf => ?_) rfl h
    rw [← hi]
    refine windPoint_other G P hf ?_
    rcases hne with hne | hne
    · exact Or.inl hne
    · by_cases hi' : i = ip.1
      · obtain ⟨j, p⟩ := ip
        right; right
        exact hne p (by rw [hi']; exact mem_numbered.1 hip)
      · exact Or.inr (Or.inl hi')

theorem windAll_set {rows nOut : Nat} {pts : List Point} {D D' : Nat → Nat → Nat → ℝ} (h : windAll G P rows nOut pts D = .ok D')
    {i : Nat} {p : Point} (hi : pts[i]? = some p) (hp : p.patch = P.index) {k : Nat} (hk : k < nOut) :
    windStep G P p (D 0 k i) (D 1 k i) = .ok (D' 0 k i, D' 1 k i) := by
  unfold windAll at h
  by_cases h1 : rows < 5 ∧ rows ≠ 3
  · rw [if_pos h1] at h; simp at h
  · rw [if_neg h1] at h
    obtain ⟨l1, l2, hl⟩ := List.append_of_mem (mem_numbered.2 hi)
    have hnd : ((numbered pts).map Prod.fst).Nodup := by
      unfold numbered
      rw [List.map_map]
      have : (Prod.fst ∘ fun p : Point × Nat => (p.2, p.1)) = Prod.snd := rfl
      rw [this, List.zipIdx_map_snd]
      exact List.nodup_range'
    rw [hl] at h hnd
    rw [List.map_append, List.map_cons, List.nodup_append] at hnd
    obtain ⟨-, n2, n3⟩ := hnd
    rw [List.nodup_cons] at n2
    rw [loop_append] at h
    obtain ⟨E, h2, h3⟩ := bind_ok h
    obtain ⟨F, h4, h5⟩ := bind_ok h3
    have k1 : ∀ c, E c k i = D c k i := by
      intro c
      refine loop_invariant (fun E : Nat → Nat → Nat → ℝ => E c k i = D c k i) l1 D E (fun ip hip s s' hI hf => ?_) rfl h2
      rw [← hI]
      refine windPoint_other G P hf (Or.inr (Or.inl ?_))
      intro hc
      exact n3 ip.1 (List.mem_map_of_mem hip) i (by simp) hc.symm
    have k2 : ∀ c, D' c k i = F c k i := by
      intro c
      refine loop_invariant (fun E : Nat → Nat → Nat → ℝ => E c k i = F c k i) l2 F D' (fun ip hip s s' hI hf => ?_) rfl h5
      rw [← hI]
      refine windPoint_other G P hf (Or.inr (Or.inl ?_))
      intro hc
      refine n2.1 (List.mem_map.2 ⟨ip, hip, hc.symm⟩)
    rw [k2 0, k2 1, ← k1 0, ← k1 1]
    exact windPoint_set G P h4 hp hk

theorem windPoint_rel {nOut : Nat} {D E D' E' : Nat → Nat → Nat → ℝ} {ip : Nat × Point} (i : Nat) (hb : ∀ c k, D c k i = E c k i)
    (h : windPoint G P nOut D ip = .ok D') (h' : windPoint G P nOut E ip = .ok E') : ∀ c k, D' c k i = E' c k i := by
  by_cases hi : i = ip.1
  · unfold windPoint at h h'
    by_cases h1 : ip.2.patch ≠ P.index
    · rw [if_pos h1] at h h'; cases h; cases h'; exact hb
    · rw [if_neg h1] at h h'
      refine loop_rel (fun D E : Nat → Nat → Nat → ℝ => ∀ c k, D c k i = E c k i) _ D E D' E' (fun k' _ s t s' t' hR hf hf' => ?_) hb h h'
      obtain ⟨r, h2, h3⟩ := bind_ok hf
      obtain ⟨r', h2', h3'⟩ := bind_ok hf'
      cases h3
      cases h3'
      rw [← hi] at h2 h2'
      rw [hR, hR, h2'] at h2
      cases h2
      intro c k
      simp only [hR c k]
  · intro c k
    rw [windPoint_other G P h (Or.inr (Or.inl hi)), windPoint_other G P h' (Or.inr (Or.inl hi)), hb]

theorem windAll_rel {rows nOut : Nat} {pts : List Point} {D E D' E' : Nat → Nat → Nat → ℝ} (i : Nat) (hb : ∀ c k, D c k i = E c k i)
    (h : windAll G P rows nOut pts D = .ok D') (h' : windAll G P rows nOut pts E = .ok E') : ∀ c k, D' c k i = E' c k i := by
  unfold windAll at h h'
  by_cases h1 : rows < 5 ∧ rows ≠ 3
  · rw [if_pos h1] at h; simp at h
  · rw [if_neg h1] at h h'
    refine loop_rel (fun D E : Nat → Nat → Nat → ℝ => ∀ c k, D c k i = E c k i) _ D E D' E' ?_ hb h h'
    intro ip _ s t s' t' hR hf hf'
    exact windPoint_rel G P i hR hf hf'

theorem coVec_some {X Y a b : ℝ} {p : Int} (hp : Sphere.IsPanel p) : ∃ r, Sphere.coVecRLLFromABP X Y p a b = some r := by
  unfold Sphere.coVecRLLFromABP
  by_cases h : Sphere.atPole X Y p
  · simp only [if_pos h]; exact ⟨_, rfl⟩
  · simp only [if_neg h]
    unfold Sphere.IsPanel at hp
    split_ifs <;> first | exact ⟨_, rfl⟩ | (exfalso; omega)

theorem windAll_succeeds {rows nOut : Nat} {pts : List Point} (hrows : 5 ≤ rows ∨ rows = 3) (hpanel : Sphere.IsPanel P.box.panel)
    (D : Nat → Nat → Nat → ℝ) : ∃ D', windAll G P rows nOut pts D = .ok D' := by
  unfold windAll
  rw [if_neg (by omega)]
  refine loop_succeeds _ D fun ip _ s => ?_
  unfold windPoint
  by_cases h1 : ip.2.patch ≠ P.index
  · rw [if_pos h1]; exact ⟨_, rfl⟩
  · rw [if_neg h1]
    refine loop_succeeds _ s fun k _ s => ?_
    obtain ⟨r, hr⟩ := coVec_some (X := Real.tan ip.2.A) (Y := Real.tan ip.2.B) (a := s 0 k ip.1 / G.radius) (b := s 1 k ip.1 / G.radius) hpanel
    refine ⟨fun c' k' i' => if k' = k ∧ i' = ip.1 ∧ c' = 0 then r.1 else if k' = k ∧ i' = ip.1 ∧ c' = 1 then r.2 else s c' k' i', ?_⟩
    have : windStep G P ip.2 (s 0 k ip.1) (s 1 k ip.1) = .ok r := by unfold windStep; rw [hr]
    rw [this]; rfl

/-! ### A patch -/

theorem interpolate_parts {only : Option Location} {rows nOut : Nat} {out : Nat → ℝ} {pts : List Point}
    {D D' : Nat → Nat → Nat → ℝ} (h : interpolateData G ty incl conv only rows nOut out pts D P = .ok D') {n : Nat} {flat : Bool}
    (hs : shape G ty = some (n, flat)) : ∃ w : Work,
      loop (componentStep G P ty flat incl conv only nOut out pts) (List.range n) ⟨fun _ => 0, D⟩ = .ok w ∧
      (¬ (G.sphere = true ∧ ty = .state ∧ conv = true) → D' = w.D) ∧
      (G.sphere = true ∧ ty = .state ∧ conv = true → windAll G P rows nOut pts w.D = .ok D') := by
  unfold interpolateData at h
  rw [hs] at h
  simp only at h
  by_cases h1 : G.sphere = false ∧ rows ≠ n
  · rw [if_pos h1] at h; simp at h
  · rw [if_neg h1] at h
    obtain ⟨w, h2, h3⟩ := bind_ok h
    refine ⟨w, h2, fun hn => ?_, fun hy => ?_⟩
    · rw [if_neg hn] at h3; cases h3; rfl
    · rw [if_pos hy] at h3; exact h3

/-- Points of other patches are left alone. -/
theorem interpolate_other {only : Option Location} {rows nOut : Nat} {out : Nat → ℝ} {pts : List Point}
    {D D' : Nat → Nat → Nat → ℝ} (h : interpolateData G ty incl conv only rows nOut out pts D P = .ok D') {c k i : Nat}
    (hp : ∀ p, pts[i]? = some p → p.patch ≠ P.index) : D' c k i = D c k i := by
  cases hs : shape G ty with
  | none => unfold interpolateData at h; rw [hs] at h; simp at h
  | some nf =>
    obtain ⟨n, flat⟩ := nf
    obtain ⟨w, h1, h2, h3⟩ := interpolate_parts G P ty incl conv h hs
    have hw : w.D c k i = D c k i := by
      refine loop_invariant (fun v : Work => v.D c k i = D c k i) _ _ w (fun c' _ s s' hi hf => ?_) rfl h1
      rw [← hi]
      exact componentStep_other G P ty incl conv hf (Or.inr (Or.inr hp))
    by_cases hy : G.sphere = true ∧ ty = .state ∧ conv = true
    · rw [windAll_other G P (h3 hy) (Or.inr hp), hw]
    · rw [h2 hy, hw]

/-- What a patch makes of a point depends on that point only. -/
theorem interpolate_rel {only : Option Location} {rows nOut : Nat} {out : Nat → ℝ} {pts : List Point}
    {D E D' E' : Nat → Nat → Nat → ℝ} (i : Nat) (hb : ∀ c k, D c k i = E c k i)
    (h : interpolateData G ty incl conv only rows nOut out pts D P = .ok D')
    (h' : interpolateData G ty incl conv only rows nOut out pts E P = .ok E') : ∀ c k, D' c k i = E' c k i := by
  cases hs : shape G ty with
  | none => unfold interpolateData at h; rw [hs] at h; simp at h
  | some nf =>
    obtain ⟨n, flat⟩ := nf
    obtain ⟨w, h1, h2, h3⟩ := interpolate_parts G P ty incl conv h hs
    obtain ⟨v, h1', h2', h3'⟩ := interpolate_parts G P ty incl conv h' hs
    have hR : w.buf = v.buf ∧ ∀ c k, w.D c k i = v.D c k i := by
      refine loop_rel (fun w v : Work => w.buf = v.buf ∧ ∀ c k, w.D c k i = v.D c k i) _ ⟨fun _ => 0, D⟩ ⟨fun _ => 0, E⟩ w v ?_
        ⟨rfl, hb⟩ h1 h1'
      intro c _ s t s' t' hR hf hf'
      exact componentStep_rel G P ty incl conv i hR hf hf'
    by_cases hy : G.sphere = true ∧ ty = .state ∧ conv = true
    · exact windAll_rel G P i hR.2 (h3 hy) (h3' hy)
    · intro c k
      rw [h2 hy, h2' hy]; exact hR.2 c k

/-- The value of a component before the conversion of the winds. -/
theorem interpolate_set {only : Option Location} {nOut : Nat} {out : Nat → ℝ} {pts : List Point}
    {D : Nat → Nat → Nat → ℝ} {n : Nat} {flat : Bool} {w : Work}
    (h : loop (componentStep G P ty flat incl conv only nOut out pts) (List.range n) ⟨fun _ => 0, D⟩ = .ok w)
    {c : Nat} (hc : c < n) (hq : Requested G ty only c) {i : Nat} {p : Point} (hi : pts[i]? = some p) (hp : p.patch = P.index)
    {op : Op} (hop : verticalOp G (locOf G ty c) (sizeF G ty flat c) nOut out = .ok op) (hr : op.rows = nOut) {k : Nat} (hk : k < nOut) :
    w.D c k i = applyRow op (columnData G P ty incl conv c p.A p.B) k := by
  refine loop_at (fun v : Work => v.D c k i = _) _ _ w c (List.mem_range.2 hc)
    (fun s s' hf => componentStep_set G P ty incl conv hf hq hi hp hop hr hk) (fun y _ hne s s' hI hf => ?_) h
  rw [← hI]
  exact componentStep_other G P ty incl conv hf (Or.inl fun hcy => hne hcy.symm)

end

end Verif.Outref
