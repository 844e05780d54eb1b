import Verif.Norms.Lemmas

/-!
# C103: the error norms compare the state with the exact solution
-/

namespace Verif.Norms

open Verif.Init

variable {K : Kind} {g : Checksum.Setup} {reduce : Nat → List (Nat → ℝ) → Checksum.Tree (Nat → ℝ)} {T : Test}
  {procs procs' : List (List Tile)} {table : Table} {E : Tile → Arrays}

/-- What the sizes of the errors are divided by: the exact state, with the reference state added to components on
levels. -/
def divisor (g : Checksum.Setup) (c : Nat) (E : Tile → Arrays) (t : Tile) (i j k : Nat) : ℝ :=
  if g.loc c = .rEdge then exact g c E t i j k else exact g c E t i j k + (E t).refNode c i j k

theorem entry_eq (s n : Nat → ℝ) (c : Nat) : entry s n c = relative (n c) (s c) := by
  unfold entry relative
  by_cases h : s c = 0
  · rw [if_neg (by simpa using h), if_pos h]
  · rw [if_pos h, if_neg h]

theorem run_parts (h : errorNorms K g reduce (some T) (some procs) = .ok (some (procs', table))) :
    procs.mapM (prepare K T) = .ok procs' ∧ ∃ s1 n1 s2 n2 s3 n3,
      checksum g (reduce 0) 2 .l1 procs' = .ok s1 ∧ checksum g (reduce 1) 1 .l1 procs' = .ok n1 ∧
      checksum g (reduce 2) 2 .l2 procs' = .ok s2 ∧ checksum g (reduce 3) 1 .l2 procs' = .ok n2 ∧
      checksum g (reduce 4) 2 .linf procs' = .ok s3 ∧ checksum g (reduce 5) 1 .linf procs' = .ok n3 ∧
      table = ⟨entry s1 n1, entry s2 n2, entry s3 n3⟩ := by
  unfold errorNorms at h
  dsimp only at h
  obtain ⟨p, hp, h⟩ := bind_ok h
  obtain ⟨s1, h1, h⟩ := bind_ok h
  obtain ⟨n1, h2, h⟩ := bind_ok h
  obtain ⟨s2, h3, h⟩ := bind_ok h
  obtain ⟨n2, h4, h⟩ := bind_ok h
  obtain ⟨s3, h5, h⟩ := bind_ok h
  obtain ⟨n3, h6, h⟩ := bind_ok h
  simp only [pure, Except.pure, Except.ok.injEq, Option.some.injEq, Prod.mk.injEq] at h
  obtain ⟨rfl, rfl⟩ := h
  exact ⟨hp, s1, n1, s2, n2, s3, n3, h1, h2, h3, h4, h5, h6, rfl⟩

/-- The state that is in instance 0 is not changed by the evaluation. -/
theorem exact_zero (hE : Exact K T procs.flatten E) (t : Tile) (ht : t ∈ procs.flatten) (c i j k : Nat) :
    value g c 0 (E t) i j k = value g c 0 t.arrays i j k := by
  obtain ⟨h1, h2, _⟩ := C100_untouched K (hE t ht) 0 c i j k
  unfold value
  rw [h1 (Or.inl (by omega)), h2 (Or.inl (by omega))]

theorem error_at (hE : Exact K T procs.flatten E) (t : Tile) (ht : t ∈ procs.flatten) (c i j k : Nat) :
    value g c 1 (t.withArrays (after (E t))).arrays i j k = error g c E t i j k := by
  have := exact_zero (g := g) hE t ht c i j k
  unfold error
  rw [← this]
  by_cases hl : g.loc c = .rEdge <;> simp [value, Tile.withArrays, after, hl]

theorem divisor_at (t : Tile) (c i j k : Nat) :
    value g c 2 (t.withArrays (after (E t))).arrays i j k = divisor g c E t i j k := by
  by_cases hl : g.loc c = .rEdge <;> simp [divisor, exact, value, Tile.withArrays, after, hl]

theorem flatten_map (procs : List (List Tile)) (f : Tile → Tile) : (procs.map (List.map f)).flatten = procs.flatten.map f := by
  rw [List.map_flatten]

/-- What is printed, with the divisor that the program uses. -/
theorem printed (h : errorNorms K g reduce (some T) (some procs) = .ok (some (procs', table))) (hp : procs ≠ [])
    (hr : Reduces reduce) (hE : Exact K T procs.flatten E) (c : Nat) (hc : c < g.components) :
    table.l1 c = relative (normL1 g c procs.flatten (error g c E)) (normL1 g c procs.flatten (divisor g c E)) ∧
    table.l2 c = relative (normL2 g c procs.flatten (error g c E)) (normL2 g c procs.flatten (divisor g c E)) ∧
    ∃ n d, IsMax g c procs.flatten (error g c E) n ∧ IsMax g c procs.flatten (divisor g c E) d ∧
      table.linf c = relative n d := by
  obtain ⟨hm, s1, n1, s2, n2, s3, n3, h1, h2, h3, h4, h5, h6, rfl⟩ := run_parts h
  have e := (prepared K T procs procs' hm).2 E hE
  subst e
  have hp' : procs.map (List.map (fun t => t.withArrays (after (E t)))) ≠ [] := by simpa using hp
  have q1 := checksum_l1 g _ _ _ hp' (hr 0) s1 h1 c hc
  have q2 := checksum_l1 g _ _ _ hp' (hr 1) n1 h2 c hc
  have q3 := checksum_l2 g _ _ _ hp' (hr 2) s2 h3 c hc
  have q4 := checksum_l2 g _ _ _ hp' (hr 3) n2 h4 c hc
  have q5 := checksum_linf g _ _ _ hp' (hr 4) s3 h5 c hc
  have q6 := checksum_linf g _ _ _ hp' (hr 5) n3 h6 c hc
  rw [flatten_map] at q1 q2 q3 q4 q5 q6
  simp only [normL1, normL2] at q1 q2 q3 q4
  rw [integral_map] at q1 q2 q3 q4
  have q5 := isMax_map _ _ _ _ _ _ q5
  have q6 := isMax_map _ _ _ _ _ _ q6
  refine ⟨?_, ?_, n3 c, s3 c, ?_, ?_, ?_⟩
  · show entry s1 n1 c = _
    rw [entry_eq, q1, q2]
    unfold normL1
    congr 1
    · exact integral_congr fun t ht i j k _ => by rw [error_at hE t ht]
    · exact integral_congr fun t _ i j k _ => by rw [divisor_at t]
  · show entry s2 n2 c = _
    rw [entry_eq, q3, q4]
    unfold normL2
    congr 2
    · exact integral_congr fun t ht i j k _ => by rw [error_at hE t ht]
    · exact integral_congr fun t _ i j k _ => by rw [divisor_at t]
  · exact isMax_congr (fun t ht i j k _ => error_at hE t ht c i j k) q6
  · exact isMax_congr (fun t _ i j k _ => divisor_at t c i j k) q5
  · show entry s3 n3 c = _
    rw [entry_eq]

theorem divisor_plain (hE : Exact K T procs.flatten E) (c : Nat) (hn : NoReference g c T procs.flatten) :
    ∀ t ∈ procs.flatten, ∀ i j k, Own g c t i j k → divisor g c E t i j k = exact g c E t i j k := by
  intro t ht i j k ho
  unfold divisor
  rcases hn with hl | ⟨hR, h0⟩
  · rw [if_pos hl]
  · split_ifs with hl
    · rfl
    · obtain ⟨_, _, _, h4, _⟩ := C100_untouched K (hE t ht) 0 c i j k
      rw [h4 (Or.inl hR), h0 t ht i j k ho, add_zero]

/-- **C103 (an exact state exists).**  Whenever a table is printed, the test case could be evaluated on every patch, so
that there is an exact state to compare with. -/
theorem C103_exact (h : errorNorms K g reduce (some T) (some procs) = .ok (some (procs', table))) :
    ∃ E, Exact K T procs.flatten E :=
  exact_exists K T _ (fun t ht => ((prepared K T procs procs' (run_parts h).1).1 t ht).2)

/-- **C103 (norms).**  If the test case has no reference state, and for components on interfaces in any case, the three
numbers printed for a component are the L1, L2 and maximum norm of the difference between the computed and the exact
state, over all patches of all processes, relative to the norm of the exact state. -/
theorem C103_norms_partial (h : errorNorms K g reduce (some T) (some procs) = .ok (some (procs', table)))
    (hp : procs ≠ []) (hr : Reduces reduce) (hE : Exact K T procs.flatten E) (c : Nat) (hc : c < g.components)
    (hn : NoReference g c T procs.flatten) :
    table.l1 c = relative (normL1 g c procs.flatten (error g c E)) (normL1 g c procs.flatten (exact g c E)) ∧
    table.l2 c = relative (normL2 g c procs.flatten (error g c E)) (normL2 g c procs.flatten (exact g c E)) ∧
    ∃ n d, IsMax g c procs.flatten (error g c E) n ∧ IsMax g c procs.flatten (exact g c E) d ∧
      table.linf c = relative n d := by
  obtain ⟨h1, h2, n, d, h3, h4, h5⟩ := printed h hp hr hE c hc
  have hd := divisor_plain hE c hn
  rw [normL1_congr hd] at h1
  rw [normL2_congr hd] at h2
  exact ⟨h1, h2, n, d, h3, isMax_congr hd h4, h5⟩

theorem relative_zero (n d : ℝ) : relative n d = 0 ↔ n = 0 := by
  unfold relative
  split_ifs with h
  · rfl
  · rw [div_eq_zero_iff]
    tauto

theorem sum_zero {α : Type} (l : List α) (f : α → ℝ) (h : ∀ a ∈ l, 0 ≤ f a) : (l.map f).sum = 0 ↔ ∀ a ∈ l, f a = 0 := by
  induction l with
  | nil => simp
  | cons a l ih =>
    have h1 := h a (by simp)
    have h2 : 0 ≤ (l.map f).sum := List.sum_nonneg (by
      intro x hx
      obtain ⟨b, hb, rfl⟩ := List.mem_map.1 hx
      exact h b (by simp [hb]))
    rw [List.map_cons, List.sum_cons, List.forall_mem_cons, ← ih (fun b hb => h b (by simp [hb]))]
    constructor
    · intro e; constructor <;> linarith
    · rintro ⟨e1, e2⟩; linarith

theorem integral_zero (c : Nat) (tiles : List Tile) (q : Tile → Nat → Nat → Nat → ℝ)
    (hq : ∀ t i j k, 0 ≤ q t i j k) (ha : ∀ t ∈ tiles, ∀ i j k, Own g c t i j k → 0 < area g c t i j k) :
    0 ≤ integral g c tiles q ∧
    (integral g c tiles q = 0 ↔ ∀ t ∈ tiles, ∀ i j k, Own g c t i j k → q t i j k = 0) := by
  have pos : ∀ t ∈ tiles, ∀ i ∈ Finset.Ico t.aBegin t.aEnd, ∀ j ∈ Finset.Ico t.bBegin t.bEnd,
      ∀ k ∈ Finset.range (height g c), 0 ≤ q t i j k * area g c t i j k := by
    intro t ht i hi j hj k hk
    rw [Finset.mem_Ico] at hi hj
    rw [Finset.mem_range] at hk
    exact mul_nonneg (hq t i j k) (ha t ht i j k ⟨hi.1, hi.2, hj.1, hj.2, hk⟩).le
  have pos' : ∀ t ∈ tiles, 0 ≤ Checksum.total t.aBegin t.aEnd t.bBegin t.bEnd (height g c)
      (fun i j k => q t i j k * area g c t i j k) := by
    intro t ht
    exact Finset.sum_nonneg fun i hi => Finset.sum_nonneg fun j hj => Finset.sum_nonneg fun k hk => pos t ht i hi j hj k hk
  refine ⟨List.sum_nonneg ?_, ?_⟩
  · intro x hx
    obtain ⟨t, ht, rfl⟩ := List.mem_map.1 hx
    exact pos' t ht
  unfold integral
  rw [sum_zero _ _ pos']
  refine forall₂_congr fun t ht => ?_
  unfold Checksum.total
  constructor
  · intro e i j k ho
    have e := (Finset.sum_eq_zero_iff_of_nonneg (fun i hi => Finset.sum_nonneg fun j hj =>
      Finset.sum_nonneg fun k hk => pos t ht i hi j hj k hk)).1 e i (Finset.mem_Ico.2 ⟨ho.1, ho.2.1⟩)
    have hi := Finset.mem_Ico.2 ⟨ho.1, ho.2.1⟩
    have e := (Finset.sum_eq_zero_iff_of_nonneg (fun j hj =>
      Finset.sum_nonneg fun k hk => pos t ht i hi j hj k hk)).1 e j (Finset.mem_Ico.2 ⟨ho.2.2.1, ho.2.2.2.1⟩)
    have hj := Finset.mem_Ico.2 ⟨ho.2.2.1, ho.2.2.2.1⟩
    have e := (Finset.sum_eq_zero_iff_of_nonneg (fun k hk => pos t ht i hi j hj k hk)).1 e k
      (Finset.mem_range.2 ho.2.2.2.2)
    rcases mul_eq_zero.1 e with e | e
    · exact e
    · exact absurd e (ha t ht i j k ho).ne'
  · intro e
    refine Finset.sum_eq_zero fun i hi => Finset.sum_eq_zero fun j hj => Finset.sum_eq_zero fun k hk => ?_
    rw [Finset.mem_Ico] at hi hj
    rw [Finset.mem_range] at hk
    show q t i j k * area g c t i j k = 0
    rw [e i j k ⟨hi.1, hi.2, hj.1, hj.2, hk⟩, zero_mul]

/-- **C103 (zero).**  Where areas are positive, each of the three numbers of a component is zero exactly when the computed
state agrees with the exact one at every point of every patch, with or without a reference state. -/
theorem C103_zero (h : errorNorms K g reduce (some T) (some procs) = .ok (some (procs', table))) (hp : procs ≠ [])
    (hr : Reduces reduce) (hE : Exact K T procs.flatten E) (c : Nat) (hc : c < g.components)
    (ha : ∀ t ∈ procs.flatten, ∀ i j k, Own g c t i j k → 0 < area g c t i j k) :
    let agree := ∀ t ∈ procs.flatten, ∀ i j k, Own g c t i j k → value g c 0 t.arrays i j k = value g c 1 (E t) i j k
    (table.l1 c = 0 ↔ agree) ∧ (table.l2 c = 0 ↔ agree) ∧ (table.linf c = 0 ↔ agree) := by
  obtain ⟨h1, h2, n, d, h3, _, h5⟩ := printed h hp hr hE c hc
  have ez : ∀ t i j k, error g c E t i j k = 0 ↔ value g c 0 t.arrays i j k = value g c 1 (E t) i j k := by
    intro t i j k
    unfold error
    rw [sub_eq_zero, eq_comm]
  refine ⟨?_, ?_, ?_⟩
  · rw [h1, relative_zero]
    unfold normL1
    rw [(integral_zero c _ _ (fun t i j k => abs_nonneg _) ha).2]
    simp only [abs_eq_zero, ez]
  · rw [h2, relative_zero]
    unfold normL2
    have := integral_zero c procs.flatten (fun t i j k => error g c E t i j k ^ 2) (fun t i j k => sq_nonneg _) ha
    rw [Real.sqrt_eq_zero this.1, this.2]
    simp only [ne_eq, OfNat.ofNat_ne_zero, not_false_eq_true, pow_eq_zero_iff, ez]
  · rw [h5, relative_zero]
    constructor
    · rintro rfl t ht i j k ho
      have := h3.2.1 t ht i j k ho
      rw [← ez, ← abs_nonpos_iff]
      exact this
    · intro e
      rcases h3.2.2 with h | ⟨t, ht, i, j, k, ho, h⟩
      · exact h
      · rw [h, (ez t i j k).2 (e t ht i j k ho), abs_zero]

/-- **C103 (the model goes on).**  After the computation instance 0, which the model goes on with, holds the state and
the tracers it held before, on every patch, and so do all instances but 1 and 2; the tracers of instance 2 stay too. -/
theorem C103_kept (h : errorNorms K g reduce (some T) (some procs) = .ok (some (procs', table))) :
    List.Forall₂ (List.Forall₂ (fun t t' : Tile =>
      t'.site = t.site ∧ (∀ m, m ≠ 1 → m ≠ 2 → t'.arrays.node m = t.arrays.node m ∧ t'.arrays.edge m = t.arrays.edge m) ∧
        ∀ m, m ≠ 1 → t'.arrays.tracer m = t.arrays.tracer m)) procs procs' := by
  obtain ⟨E, hE⟩ := C103_exact h
  have e := (prepared K T procs procs' (run_parts h).1).2 E hE
  subst e
  rw [List.forall₂_map_right_iff]
  rw [List.forall₂_same]
  intro l hl
  rw [List.forall₂_map_right_iff, List.forall₂_same]
  intro t ht
  have hu := C100_untouched K (hE t (List.mem_flatten.2 ⟨l, hl, ht⟩))
  refine ⟨rfl, fun m h1 h2 => ⟨?_, ?_⟩, fun m h1 => ?_⟩
  · show (if m = 1 then _ else if m = 2 then _ else (E t).node m) = _
    rw [if_neg h1, if_neg h2]
    funext c i j k
    exact (hu m c i j k).1 (Or.inl h1)
  · show (if m = 1 then _ else if m = 2 then _ else (E t).edge m) = _
    rw [if_neg h1, if_neg h2]
    funext c i j k
    exact (hu m c i j k).2.1 (Or.inl h1)
  · funext c i j k
    exact (hu m c i j k).2.2.1 (Or.inl h1)

/-- **C103 (any division into processes).**  The table does not depend on which process holds which patch, nor on the
order in which the processes' values are combined. -/
theorem C103_split {procs₂ procs₂' : List (List Tile)} {table₂ : Table}
    {reduce₂ : Nat → List (Nat → ℝ) → Checksum.Tree (Nat → ℝ)}
    (h : errorNorms K g reduce (some T) (some procs) = .ok (some (procs', table))) (hp : procs ≠ [])
    (hr : Reduces reduce)
    (h₂ : errorNorms K g reduce₂ (some T) (some procs₂) = .ok (some (procs₂', table₂))) (hp₂ : procs₂ ≠ [])
    (hr₂ : Reduces reduce₂) (hs : procs.flatten.Perm procs₂.flatten) (c : Nat) (hc : c < g.components) :
    table.l1 c = table₂.l1 c ∧ table.l2 c = table₂.l2 c ∧ table.linf c = table₂.linf c := by
  obtain ⟨E, hE⟩ := C103_exact h
  have hE₂ : Exact K T procs₂.flatten E := fun t ht => hE t (hs.mem_iff.2 ht)
  obtain ⟨a1, a2, n, d, a3, a4, a5⟩ := printed h hp hr hE c hc
  obtain ⟨b1, b2, n', d', b3, b4, b5⟩ := printed h₂ hp₂ hr₂ hE₂ c hc
  have hi : ∀ q, integral g c procs.flatten q = integral g c procs₂.flatten q := by
    intro q
    exact (hs.map _).sum_eq
  have hm : ∀ q r, IsMax g c procs.flatten q r → IsMax g c procs₂.flatten q r := by
    rintro q r ⟨h1, h2, h3⟩
    refine ⟨h1, fun t ht => h2 t (hs.mem_iff.2 ht), ?_⟩
    rcases h3 with h3 | ⟨t, ht, r⟩
    · exact Or.inl h3
    · exact Or.inr ⟨t, hs.mem_iff.1 ht, r⟩
  refine ⟨?_, ?_, ?_⟩
  · rw [a1, b1]; unfold normL1; rw [hi, hi]
  · rw [a2, b2]; unfold normL2; rw [hi, hi]
  · rw [a5, b5, isMax_unique (hm _ _ a3) b3, isMax_unique (hm _ _ a4) b4]

theorem local_some (n : Nat) (kind : Checksum.Kind) (hk : kind ≠ .invalid) (tiles : List Tile)
    (hl : ∀ c, c < g.components → g.loc c ≠ .other) (hd : ∀ t ∈ tiles, t.hasData = true) :
    ∃ x, Checksum.localChecksum g .state kind (tiles.map (Tile.slot n)) = some x :=
  Option.isSome_iff_exists.1 (Checksum.C59_defined g .state kind _ (by simp) hk (fun _ => hl) (by
    intro P hP
    obtain ⟨t, ht, rfl⟩ := List.mem_map.1 hP
    exact hd t ht))

theorem checksum_some (r : List (Nat → ℝ) → Checksum.Tree (Nat → ℝ)) (n : Nat) (kind : Checksum.Kind)
    (hk : kind ≠ .invalid) (procs : List (List Tile)) (hl : ∀ c, c < g.components → g.loc c ≠ .other)
    (hd : ∀ t ∈ procs.flatten, t.hasData = true) : ∃ x, checksum g r n kind procs = .ok x := by
  have : ∀ l : List Tile, ∃ x, l ∈ procs → Checksum.localChecksum g .state kind (l.map (Tile.slot n)) = some x := by
    intro l
    by_cases h : l ∈ procs
    · obtain ⟨x, hx⟩ := local_some n kind hk l hl (fun t ht => hd t (List.mem_flatten.2 ⟨l, h, ht⟩))
      exact ⟨x, fun _ => hx⟩
    · exact ⟨fun _ => 0, fun h' => absurd h' h⟩
  choose f hf using this
  unfold checksum
  rw [mapM_map _ f procs (fun l hl => by rw [hf l hl])]
  exact ⟨_, rfl⟩

/-- **C103 (when a table is printed).**  With a test case and a grid whose patches hold data, and components that are
kept on levels or interfaces, a table is printed exactly when every patch has three instances of the state and the test
case can be evaluated on it. -/
theorem C103_defined (hl : ∀ c, c < g.components → g.loc c ≠ .other) (hd : ∀ t ∈ procs.flatten, t.hasData = true) :
    (∃ procs' table, errorNorms K g reduce (some T) (some procs) = .ok (some (procs', table))) ↔
      ∀ t ∈ procs.flatten, 3 ≤ t.site.instances ∧
        ∃ A, evaluate K t.site T T.ztop T.hasReference 1 t.arrays = .ok A := by
  constructor
  · rintro ⟨procs', table, h⟩
    exact (prepared K T procs procs' (run_parts h).1).1
  · intro h
    obtain ⟨E, hE⟩ := exact_exists K T procs.flatten (fun t ht => (h t ht).2)
    have hm : procs.mapM (prepare K T) = .ok (procs.map (List.map (fun t => t.withArrays (after (E t))))) := by
      apply mapM_map
      intro l hl
      exact prepare_map K T l E (fun t ht => hE t (List.mem_flatten.2 ⟨l, hl, ht⟩))
        (fun t ht => (h t (List.mem_flatten.2 ⟨l, hl, ht⟩)).1)
    have hd' : ∀ t ∈ (procs.map (List.map (fun t => t.withArrays (after (E t))))).flatten, t.hasData = true := by
      rw [flatten_map]
      intro t ht
      obtain ⟨t', ht', rfl⟩ := List.mem_map.1 ht
      exact hd t' ht'
    obtain ⟨s1, h1⟩ := checksum_some (g := g) (reduce 0) 2 .l1 (by simp) _ hl hd'
    obtain ⟨n1, h2⟩ := checksum_some (g := g) (reduce 1) 1 .l1 (by simp) _ hl hd'
    obtain ⟨s2, h3⟩ := checksum_some (g := g) (reduce 2) 2 .l2 (by simp) _ hl hd'
    obtain ⟨n2, h4⟩ := checksum_some (g := g) (reduce 3) 1 .l2 (by simp) _ hl hd'
    obtain ⟨s3, h5⟩ := checksum_some (g := g) (reduce 4) 2 .linf (by simp) _ hl hd'
    obtain ⟨n3, h6⟩ := checksum_some (g := g) (reduce 5) 1 .linf (by simp) _ hl hd'
    refine ⟨procs.map (List.map (fun t => t.withArrays (after (E t)))), ⟨entry s1 n1, entry s2 n2, entry s3 n3⟩, ?_⟩
    unfold errorNorms
    dsimp only
    rw [hm]
    dsimp only [bind, Except.bind]
    rw [h1]; dsimp only
    rw [h2]; dsimp only
    rw [h3]; dsimp only
    rw [h4]; dsimp only
    rw [h5]; dsimp only
    rw [h6]; rfl

/-- **C103 (nothing to compare).**  Without a test case nothing is changed and nothing is printed, with or without a
grid; with a test case and without a grid there is an exception. -/
theorem C103_without (K : Kind) (g : Checksum.Setup) (reduce : Nat → List (Nat → ℝ) → Checksum.Tree (Nat → ℝ)) :
    (∀ grid, errorNorms K g reduce none grid = .ok none) ∧
    ∀ T, errorNorms K g reduce (some T) none = .error .exception :=
  ⟨fun _ => rfl, fun _ => rfl⟩

theorem integral_scale (c : Nat) (tiles : List Tile) (q : Tile → Nat → Nat → Nat → ℝ) (x : ℝ) :
    integral g c tiles (fun t i j k => x * q t i j k) = x * integral g c tiles q := by
  unfold integral
  rw [← List.sum_map_mul_left]
  congr 1
  apply List.map_congr_left
  intro t _
  unfold Checksum.total
  simp only [Finset.mul_sum, mul_assoc]

/-- The error is divided by too much when the test case has a reference state: if the exact state is the reference state,
the numbers printed for a component on levels are half of the relative errors. -/
theorem C103_reference_false (h : errorNorms K g reduce (some T) (some procs) = .ok (some (procs', table)))
    (hp : procs ≠ []) (hr : Reduces reduce) (hE : Exact K T procs.flatten E) (c : Nat) (hc : c < g.components)
    (hl : g.loc c ≠ .rEdge)
    (hR : ∀ t ∈ procs.flatten, ∀ i j k, Own g c t i j k → (E t).refNode c i j k = exact g c E t i j k) :
    (normL1 g c procs.flatten (exact g c E) ≠ 0 →
      table.l1 c = relative (normL1 g c procs.flatten (error g c E)) (normL1 g c procs.flatten (exact g c E)) / 2) ∧
    (normL2 g c procs.flatten (exact g c E) ≠ 0 →
      table.l2 c = relative (normL2 g c procs.flatten (error g c E)) (normL2 g c procs.flatten (exact g c E)) / 2) := by
  obtain ⟨h1, h2, _⟩ := printed h hp hr hE c hc
  have hd : ∀ t ∈ procs.flatten, ∀ i j k, Own g c t i j k → divisor g c E t i j k = 2 * exact g c E t i j k := by
    intro t ht i j k ho
    unfold divisor
    rw [if_neg hl, hR t ht i j k ho]; ring
  have e1 : normL1 g c procs.flatten (divisor g c E) = 2 * normL1 g c procs.flatten (exact g c E) := by
    rw [normL1_congr hd]
    unfold normL1
    rw [← integral_scale]
    congr 1
    funext t i j k
    rw [abs_mul, abs_two]
  have e2 : normL2 g c procs.flatten (divisor g c E) = 2 * normL2 g c procs.flatten (exact g c E) := by
    rw [normL2_congr hd]
    unfold normL2
    have : integral g c procs.flatten (fun t i j k => (2 * exact g c E t i j k) ^ 2) =
        4 * integral g c procs.flatten (fun t i j k => exact g c E t i j k ^ 2) := by
      rw [← integral_scale]
      congr 1
      funext t i j k
      ring
    rw [this, Real.sqrt_mul (by norm_num), show (4 : ℝ) = 2 ^ 2 by norm_num, Real.sqrt_sq (by norm_num)]
  have half : ∀ n d : ℝ, d ≠ 0 → relative n (2 * d) = relative n d / 2 := by
    intro n d hd
    unfold relative
    rw [if_neg (by simpa using hd), if_neg hd, div_div, mul_comm]
  exact ⟨fun hn => by rw [h1, e1, half _ _ hn], fun hn => by rw [h2, e2, half _ _ hn]⟩

/-- Too few instances of the state are refused. -/
theorem C103_refused (t : Tile) (ht : t ∈ procs.flatten) (hi : t.site.instances < 3) :
    ¬ ∃ r, errorNorms K g reduce (some T) (some procs) = .ok r := by
  rintro ⟨r, h⟩
  cases r with
  | none =>
    unfold errorNorms at h
    dsimp only at h
    obtain ⟨p, hp, h⟩ := bind_ok h
    obtain ⟨s1, h1, h⟩ := bind_ok h
    obtain ⟨n1, h2, h⟩ := bind_ok h
    obtain ⟨s2, h3, h⟩ := bind_ok h
    obtain ⟨n2, h4, h⟩ := bind_ok h
    obtain ⟨s3, h5, h⟩ := bind_ok h
    obtain ⟨n3, h6, h⟩ := bind_ok h
    simp [pure, Except.pure] at h
  | some r =>
    obtain ⟨p, tb⟩ := r
    have := ((prepared K T procs p (run_parts h).1).1 t ht).1
    omega

end Verif.Norms
