/-
C134: the Richardson number of a patch.
-/
import Verif.Rich.Spec
import Verif.Column.ReconProps
import Verif.Vdyn.JacobianLemmas

namespace Verif.Rich

open Verif.Column Verif.Interp Finset Polynomial

variable {P : Patch}

theorem address_eq (t : Nat × Nat × Nat) : address P t = (t.1 * P.bTotal + t.2.1) * P.levels + t.2.2 := by
  unfold address
  ring

theorem mem_passes (n : Nat) (t : Nat × Nat × Nat) : t ∈ passes P n ↔ P.Inside t.1 t.2.1 ∧ t.2.2 < n := by
  obtain ⟨i, j, k⟩ := t
  unfold passes Patch.Inside
  simp only [List.mem_flatMap, List.mem_map, List.mem_range'_1, List.mem_range, Prod.mk.injEq]
  constructor
  · rintro ⟨i', hi, j', hj, k', hk, rfl, rfl, rfl⟩
    omega
  · rintro h
    exact ⟨i, by omega, j, by omega, k, by omega, rfl, rfl, rfl⟩

/-- A number that grows along the loops. -/
def rank (P : Patch) (t : Nat × Nat × Nat) : Nat := (t.1 * P.bTotal + t.2.1) * (P.levels + 1) + t.2.2

theorem before (a b c d : Nat) (h : a < c) (B : Nat) (hb : b < B) : a * B + b < c * B + d :=
  calc a * B + b < a * B + B := by omega
    _ = (a + 1) * B := by ring
    _ ≤ c * B := Nat.mul_le_mul_right _ h
    _ ≤ _ := Nat.le_add_right _ _

theorem passes_rank (hP : P.Fits) (n : Nat) (hn : n ≤ P.levels + 1) :
    (passes P n).Pairwise fun s t => rank P s < rank P t := by
  have hb := hP.b
  unfold passes
  rw [List.pairwise_flatMap]
  constructor
  · intro i _
    rw [List.pairwise_flatMap]
    constructor
    · intro j _
      rw [List.pairwise_map]
      refine List.pairwise_lt_range.imp fun {a b} h => ?_
      unfold rank
      dsimp only
      omega
    · refine (List.pairwise_lt_range' (s := _) (n := _)).imp fun {a b} h => ?_
      intro x hx y hy
      simp only [List.mem_map, List.mem_range] at hx hy
      obtain ⟨k, hk, rfl⟩ := hx
      obtain ⟨l, hl, rfl⟩ := hy
      exact before _ _ _ _ (by dsimp only; omega) _ (by dsimp only; omega)
  · refine (List.pairwise_lt_range' (s := _) (n := _)).imp fun {a b} h => ?_
    intro x hx y hy
    simp only [List.mem_flatMap, List.mem_map, List.mem_range, List.mem_range'_1] at hx hy
    obtain ⟨j, hj, k, hk, rfl⟩ := hx
    obtain ⟨j', hj', l, hl, rfl⟩ := hy
    exact before _ _ _ _ (before _ _ _ _ h _ (by dsimp only; omega)) _ (by dsimp only; omega)

/-- The last statement that writes a place decides. -/
theorem last_write (l : List (Nat × Nat × Nat)) (hl : l.Pairwise fun s t => rank P s < rank P t) (v : Nat → Nat → Nat → ℝ) (m : Nat → ℝ)
    (t : Nat × Nat × Nat) (ht : t ∈ l) (hlast : ∀ s ∈ l, address P s = address P t → rank P s ≤ rank P t) :
    l.foldl (fun m t => Function.update m (address P t) (v t.1 t.2.1 t.2.2)) m (address P t) = v t.1 t.2.1 t.2.2 := by
  induction l generalizing m with
  | nil => cases ht
  | cons h r ih =>
    rw [List.foldl_cons]
    rw [List.pairwise_cons] at hl
    rcases List.mem_cons.1 ht with rfl | ht'
    · have : ∀ (r : List (Nat × Nat × Nat)) (m : Nat → ℝ), (∀ s ∈ r, address P s ≠ address P t) →
          r.foldl (fun m t => Function.update m (address P t) (v t.1 t.2.1 t.2.2)) m (address P t) = m (address P t) := by
        intro r
        induction r with
        | nil => intro m _; rfl
        | cons h' r' ih' =>
          intro m hne
          rw [List.foldl_cons, ih' _ fun s hs => hne s (List.mem_cons_of_mem _ hs), Function.update_of_ne]
          exact (hne h' List.mem_cons_self).symm
      rw [this, Function.update_self]
      intro s hs he
      have h1 := hl.1 s hs
      have h2 := hlast s (List.mem_cons_of_mem _ hs) he
      omega
    · exact ih hl.2 _ ht' fun s hs => hlast s (List.mem_cons_of_mem _ hs)

theorem no_write (l : List (Nat × Nat × Nat)) (v : Nat → Nat → Nat → ℝ) (m : Nat → ℝ) (x : Nat) (h : ∀ s ∈ l, address P s ≠ x) :
    l.foldl (fun m t => Function.update m (address P t) (v t.1 t.2.1 t.2.2)) m x = m x := by
  induction l generalizing m with
  | nil => rfl
  | cons h' r ih =>
    rw [List.foldl_cons, ih _ fun s hs => h s (List.mem_cons_of_mem _ hs), Function.update_of_ne]
    exact (h h' List.mem_cons_self).symm

theorem raise_edge (s : State) (i j : Nat) (h : P.Inside i j) (k : Nat) (hk : k ≤ P.levels) :
    (raise P s).edge 4 i j k = densityAt P s i j k ∧ (raise P s).edge 3 i j k = verticalAt P s i j k ∧
    (raise P s).edge 0 i j k = s.edge 0 i j k ∧ (raise P s).edge 1 i j k = s.edge 1 i j k := by
  unfold Patch.Inside at h
  unfold raise densityAt verticalAt toEdge
  cases P.onEdge 2 <;> cases P.onEdge 3 <;> cases P.onEdge 4 <;> simp [h, hk]

theorem diff_congr (hE : EdgeOnly P) (f g : Nat → ℝ) (h : ∀ k ≤ P.levels, f k = g k) (k : Nat) (hk : k ≤ P.levels) :
    applyRow P.diffEE f k = applyRow P.diffEE g k := by
  rw [Vdyn.applyRow_eq, Vdyn.applyRow_eq]
  apply sum_congr rfl
  intro l hl
  rw [h l (by have := hE k hk; have := (mem_Ico.1 hl).2; omega)]

theorem number_eq (hE : EdgeOnly P) (s : State) (i j : Nat) (h : P.Inside i j) (k : Nat) (hk : k ≤ P.levels) :
    edgeNumber P (raise P s) i j k = computedAt P s i j k := by
  have e := fun k hk => raise_edge s i j h k hk
  unfold edgeNumber computedAt
  dsimp only
  rw [diff_congr hE ((raise P s).edge 4 i j) (densityAt P s i j) (fun k hk => (e k hk).1) k hk, (e k hk).1,
    diff_congr hE (fun k => (raise P s).edge 0 i j k - P.derivEdge i j k 0 * (raise P s).edge 3 i j k * P.derivEdge i j k 2)
      (alongAt P s 0 i j) (fun k hk => by rw [(e k hk).2.1, (e k hk).2.2.1]; rfl) k hk,
    diff_congr hE (fun k => (raise P s).edge 1 i j k - P.derivEdge i j k 1 * (raise P s).edge 3 i j k * P.derivEdge i j k 2)
      (alongAt P s 1 i j) (fun k hk => by rw [(e k hk).2.1, (e k hk).2.2.2]; rfl) k hk, sq, sq]

/-- **C134 (refused).**  The number is refused with fewer than five components.  Otherwise it writes outside its array if and only if there
is a column in the interior and the interior reaches the last column of the patch. -/
theorem C134_refused (hP : P.Fits) (s : State) (m : Nat → ℝ) :
    (richardson P s m = .exc ↔ P.components < 5) ∧
    (richardson P s m = .ub ↔ 5 ≤ P.components ∧ (P.aBegin < P.aEnd ∧ P.bBegin < P.bEnd) ∧ P.aEnd = P.aTotal ∧ P.bEnd = P.bTotal) := by
  have ha := hP.a
  have hb := hP.b
  have hl := hP.levels
  unfold richardson computeRichardson
  by_cases hc : P.components < 5
  · rw [if_pos hc]
    simp [hc]
  rw [if_neg hc]
  simp only [Bool.false_eq_true, if_false]
  have key : assign P (P.levels + 1) (edgeNumber P (raise P s)) m = none ↔
      (P.aBegin < P.aEnd ∧ P.bBegin < P.bEnd) ∧ P.aEnd = P.aTotal ∧ P.bEnd = P.bTotal := by
    unfold assign
    rw [ite_eq_right_iff]
    simp only [reduceCtorEq, imp_false, List.all_eq_true, decide_eq_true_iff]
    push Not
    constructor
    · rintro ⟨⟨i, j, k⟩, ht, h⟩
      rw [mem_passes] at ht
      obtain ⟨⟨h1, h2, h3, h4⟩, h5⟩ := ht
      rw [address_eq] at h
      dsimp only at h h1 h2 h3 h4 h5
      refine ⟨⟨by omega, by omega⟩, ?_⟩
      have e : P.aTotal * P.bTotal ≤ i * P.bTotal + j + 1 := by
        by_contra hlt
        have : (i * P.bTotal + j + 1 + 1) * P.levels ≤ P.aTotal * P.bTotal * P.levels := Nat.mul_le_mul_right _ (by omega)
        have e2 : (i * P.bTotal + j + 1 + 1) * P.levels = (i * P.bTotal + j) * P.levels + P.levels + P.levels := by ring
        omega
      have hi : i + 1 = P.aTotal := by
        by_contra hne
        have h6 : (i + 2) * P.bTotal ≤ P.aTotal * P.bTotal := Nat.mul_le_mul_right _ (by omega)
        have e2 : (i + 2) * P.bTotal = i * P.bTotal + P.bTotal + P.bTotal := by ring
        omega
      have e3 : P.aTotal * P.bTotal = i * P.bTotal + P.bTotal := by rw [← hi]; ring
      omega
    · rintro ⟨⟨h1, h2⟩, h3, h4⟩
      refine ⟨(P.aEnd - 1, P.bEnd - 1, P.levels), ?_, ?_⟩
      · rw [mem_passes]
        unfold Patch.Inside
        dsimp only
        omega
      · rw [address_eq]
        dsimp only
        have e : P.aTotal * P.bTotal * P.levels = ((P.aEnd - 1) * P.bTotal + (P.bEnd - 1)) * P.levels + P.levels := by
          obtain ⟨a, ha'⟩ : ∃ a, P.aEnd = a + 1 := ⟨P.aEnd - 1, by omega⟩
          obtain ⟨b, hb'⟩ : ∃ b, P.bEnd = b + 1 := ⟨P.bEnd - 1, by omega⟩
          rw [← h3, ← h4, ha', hb']
          simp only [Nat.add_sub_cancel]
          ring
        omega
  rcases hm : assign P (P.levels + 1) (edgeNumber P (raise P s)) m with _ | m'
  · rw [hm] at key
    have := key.1 rfl
    simp [hc, this]
    omega
  · rw [hm] at key
    have hk : ¬ ((P.aBegin < P.aEnd ∧ P.bBegin < P.bEnd) ∧ P.aEnd = P.aTotal ∧ P.bEnd = P.bTotal) := fun h => by
      simpa using key.2 h
    simp [hc, hk]

theorem ended (s s' : State) (m m' : Nat → ℝ) (h : richardson P s m = .ok s' m') :
    m' = (passes P (P.levels + 1)).foldl (fun m t => Function.update m (address P t) (edgeNumber P (raise P s) t.1 t.2.1 t.2.2)) m ∧
    s' = raise P s := by
  unfold richardson computeRichardson at h
  split_ifs at h with h1 h2
  · cases h2
  dsimp only at h
  unfold assign at h
  by_cases hc : ((passes P (P.levels + 1)).all fun t => decide (address P t < P.aTotal * P.bTotal * P.levels)) = true
  · rw [if_pos hc] at h
    simp only [Res.ok.injEq] at h
    exact ⟨h.2.symm, h.1.symm⟩
  · rw [if_neg hc] at h
    cases h

/-- **C134 (values).**  The number in the place of level `k` of a column of the interior is that of interface `k`, half a level below; the
number of the top interface of the last column of a row is in the bottom of the column behind it, if that is not in the interior;
all other places are as they were. -/
theorem C134_values (hP : P.Fits) (hE : EdgeOnly P) (s s' : State) (m m' : Nat → ℝ) (h : richardson P s m = .ok s' m') :
    (∀ i j, P.Inside i j → ∀ k < P.levels, m' (P.place i j k) = computedAt P s i j k) ∧
    (∀ i, P.Inside i (P.bEnd - 1) → P.bEnd < P.bTotal ∨ 0 < P.bBegin →
      m' (P.place i P.bEnd 0) = computedAt P s i (P.bEnd - 1) P.levels) ∧
    ∀ x, (∀ i j, P.Inside i j → ∀ k ≤ P.levels, x ≠ P.place i j k) → m' x = m x := by
  have hb := hP.b
  have hl := hP.levels
  obtain ⟨rfl, -⟩ := ended s s' m m' h
  have hr := passes_rank hP (P.levels + 1) (le_refl _)
  refine ⟨fun i j hij k hk => ?_, fun i hij hh => ?_, fun x hx => ?_⟩
  · have := last_write (P := P) (passes P (P.levels + 1)) hr (edgeNumber P (raise P s)) m (i, j, k)
      ((mem_passes _ _).2 ⟨hij, by dsimp only; omega⟩) fun t ht he => by
        obtain ⟨hin, hk'⟩ := (mem_passes _ _).1 ht
        rw [address_eq, address_eq] at he
        unfold rank
        dsimp only at he ⊢
        generalize t.1 * P.bTotal + t.2.1 = p at *
        generalize i * P.bTotal + j = p0 at *
        rcases Nat.lt_trichotomy p p0 with hp | hp | hp
        · exact (before _ _ _ _ hp _ hk').le
        · subst hp
          omega
        · have := before p0 k p t.2.2 hp P.levels hk
          omega
    rw [address_eq] at this
    dsimp only at this
    rw [← number_eq hE s i j hij k hk.le, ← this]
    rfl
  · have h4 := hij
    unfold Patch.Inside at h4
    have e : address P (i, P.bEnd - 1, P.levels) = P.place i P.bEnd 0 := by
      rw [address_eq]
      unfold Patch.place
      obtain ⟨b, hb'⟩ : ∃ b, P.bEnd = b + 1 := ⟨P.bEnd - 1, by omega⟩
      rw [hb']
      simp only [Nat.add_sub_cancel]
      ring
    have := last_write (P := P) (passes P (P.levels + 1)) hr (edgeNumber P (raise P s)) m (i, P.bEnd - 1, P.levels)
      ((mem_passes _ _).2 ⟨hij, by dsimp only; omega⟩) fun t ht he => by
        obtain ⟨hin, hk'⟩ := (mem_passes _ _).1 ht
        unfold Patch.Inside at hin
        rw [e, address_eq] at he
        unfold Patch.place at he
        unfold rank
        dsimp only
        have hp0 : i * P.bTotal + (P.bEnd - 1) + 1 = i * P.bTotal + P.bEnd := by omega
        have hne : t.1 * P.bTotal + t.2.1 ≠ i * P.bTotal + P.bEnd := by
          intro heq
          rcases Nat.lt_trichotomy t.1 i with hi | hi | hi
          · have := before t.1 t.2.1 i P.bEnd hi P.bTotal (by omega)
            omega
          · rw [hi] at heq
            omega
          · by_cases hlt : P.bEnd < P.bTotal
            · have := before i P.bEnd t.1 t.2.1 hi P.bTotal hlt
              omega
            · have := before i (P.bEnd - 1) t.1 0 hi P.bTotal (by omega)
              omega
        rw [← hp0] at he hne
        generalize t.1 * P.bTotal + t.2.1 = p at *
        generalize i * P.bTotal + (P.bEnd - 1) = p0 at *
        rcases Nat.lt_trichotomy p p0 with hp | hp | hp
        · exact (before _ _ _ _ hp _ hk').le
        · subst hp
          omega
        · have h5 : (p0 + 1 + 1) * P.levels ≤ p * P.levels := Nat.mul_le_mul_right _ (by omega)
          have e2 : (p0 + 1 + 1) * P.levels = (p0 + 1) * P.levels + P.levels := by ring
          omega
    rw [e] at this
    rw [this]
    exact number_eq hE s i _ hij _ (le_refl _)
  · apply no_write
    intro t ht he
    obtain ⟨hin, hk'⟩ := (mem_passes _ _).1 ht
    apply hx t.1 t.2.1 hin t.2.2 (by omega)
    rw [← he, address_eq]
    rfl

/-- **C134 (sign).**  Where density falls with height, and the wind on interfaces has shear, the number is negative: stable columns are
reported as unstable. -/
theorem C134_sign (hP : P.Fits) (hE : EdgeOnly P) (hg : 0 < P.g) (s s' : State) (m m' : Nat → ℝ) (h : richardson P s m = .ok s' m')
    (i j : Nat) (hij : P.Inside i j) (k : Nat) (hk : k < P.levels) (hr : 0 < densityAt P s i j k)
    (hd : applyRow P.diffEE (densityAt P s i j) k < 0)
    (hs : applyRow P.diffEE (alongAt P s 0 i j) k ≠ 0 ∨ applyRow P.diffEE (alongAt P s 1 i j) k ≠ 0) : m' (P.place i j k) < 0 := by
  rw [(C134_values hP hE s s' m m' h).1 i j hij k hk]
  unfold computedAt
  apply div_neg_of_neg_of_pos
  · exact mul_neg_of_pos_of_neg hg (div_neg_of_neg_of_pos hd hr)
  · rcases hs with hs | hs
    · have := sq_pos_of_ne_zero hs
      positivity
    · have := sq_pos_of_ne_zero hs
      positivity

/-- **C134 (wind).**  The number does not depend on the horizontal wind on levels, nor on whether it is stored there. -/
theorem C134_wind (s : State) (m : Nat → ℝ) (u v : Nat → Nat → Nat → ℝ) (s1 s2 : State) (m1 m2 : Nat → ℝ)
    (h1 : richardson P s m = .ok s1 m1)
    (h2 : richardson P { s with node := fun c => if c = 0 then u else if c = 1 then v else s.node c } m = .ok s2 m2) : m1 = m2 := by
  rw [(ended _ _ _ _ h1).1, (ended _ _ _ _ h2).1]
  have : (raise P { s with node := fun c => if c = 0 then u else if c = 1 then v else s.node c }).edge = (raise P s).edge := by
    unfold raise toEdge
    cases P.onEdge 2 <;> cases P.onEdge 3 <;> cases P.onEdge 4 <;> simp
  unfold edgeNumber
  rw [this]

/-- **C134 (height).**  Over flat ground the number does not depend on the height of the levels. -/
theorem C134_height (hP : P.Fits) (hE : EdgeOnly P) (d : Nat → Nat → Nat → Nat → ℝ)
    (h0 : ∀ i j k c, c < 2 → P.derivEdge i j k c = 0) (h0' : ∀ i j k c, c < 2 → d i j k c = 0)
    (s : State) (m : Nat → ℝ) (s1 s2 : State) (m1 m2 : Nat → ℝ)
    (h1 : richardson P s m = .ok s1 m1) (h2 : richardson { P with derivEdge := d } s m = .ok s2 m2)
    (i j : Nat) (hij : P.Inside i j) (k : Nat) (hk : k < P.levels) : m1 (P.place i j k) = m2 (P.place i j k) := by
  rw [(C134_values hP hE s s1 m m1 h1).1 i j hij k hk]
  have := (C134_values (P := { P with derivEdge := d }) ⟨hP.a, hP.b, hP.levels⟩ hE s s2 m m2 h2).1 i j hij k hk
  change m2 (P.place i j k) = _ at this
  rw [this]
  unfold computedAt
  have e : ∀ c, c < 2 → alongAt P s c i j = alongAt { P with derivEdge := d } s c i j := fun c hc => by
    funext k
    unfold alongAt
    simp [h0 i j k c hc, h0' i j k c hc]
  rw [e 0 (by omega), e 1 (by omega)]
  rfl

/-- **C134 (linear profiles).**  With finite volumes of any order, over flat ground, on levels with a constant `h` of height over vertical
coordinate, and with density and the wind on interfaces linear in height, the number is minus the Richardson number, over `h`, and
that of the interface below. -/
theorem C134_linear (hP : P.Fits) (q : Nat) (hq : 0 < q) (node edge : Nat → ℝ)
    (hD : reconDiffInit .interfaces .interfaces (2 * q) P.levels (P.levels + 1) node edge = .ok P.diffEE)
    (hapart : ApartNodes (P.levels + 1) edge) (hflat : ∀ i j k c, c < 2 → P.derivEdge i j k c = 0)
    (s s' : State) (m m' : Nat → ℝ) (h : richardson P s m = .ok s' m') (i j : Nat) (hij : P.Inside i j)
    (z r0 r1 u0 u1 v0 v1 : ℝ) (hz : z ≠ 0) (hr : ∀ k ≤ P.levels, densityAt P s i j k = r0 + r1 * (z * edge k))
    (hu : ∀ k ≤ P.levels, s.edge 0 i j k = u0 + u1 * (z * edge k)) (hv : ∀ k ≤ P.levels, s.edge 1 i j k = v0 + v1 * (z * edge k))
    (k : Nat) (hk : k < P.levels) :
    m' (P.place i j k) = -gradientNumber P.g (r0 + r1 * (z * edge k)) r1 u1 v1 / z := by
  obtain ⟨E, hE⟩ := ((C71_refused .levels .interfaces (2 * q) P.levels (P.levels + 1) node edge).2.2 rfl (by omega) (by omega)
    (by have := hP.levels; omega)).2
  have key := fun y p => C71_diff_interfaces q P.levels (P.levels + 1) node edge P.diffEE E hD hE y k hk.le p
  have hedge : EdgeOnly P := fun k hk => by
    obtain ⟨r, -, e1, e2, -⟩ := C71_diff_interfaces q P.levels (P.levels + 1) node edge P.diffEE E hD hE (fun _ => 0) k hk 0
    have := (r k (by omega)).1
    omega
  have lin : ∀ (y : Nat → ℝ) (a b : ℝ), (∀ k ≤ P.levels, y k = a + b * (z * edge k)) → applyRow P.diffEE y k = b * z := by
    intro y a b hy
    rw [(key y (C (b * z) * X + C a)).2.2.2.2.2.2.1 hapart ?_ ?_]
    · simp
    · refine lt_of_le_of_lt degree_linear_le ?_
      have : 2 ≤ min (k + q + 1) (P.levels + 1) - (k - q) := by omega
      exact_mod_cast this
    · intro l hl _ _
      rw [hy l hl]
      simp only [eval_add, eval_mul, eval_C, eval_X]
      ring
  rw [(C134_values hP hedge s s' m m' h).1 i j hij k hk]
  unfold computedAt gradientNumber
  rw [lin _ r0 r1 hr, hr k hk.le, lin (alongAt P s 0 i j) u0 u1 fun k hk => by
      unfold alongAt
      rw [hu k hk, hflat i j k 0 (by omega)]
      ring, lin (alongAt P s 1 i j) v0 v1 fun k hk => by
      unfold alongAt
      rw [hv k hk, hflat i j k 1 (by omega)]
      ring]
  rw [show (u1 * z) ^ 2 + (v1 * z) ^ 2 = z * z * (u1 ^ 2 + v1 ^ 2) by ring]
  generalize u1 ^ 2 + v1 ^ 2 = w
  generalize r0 + r1 * (z * edge k) = r
  simp only [div_eq_mul_inv, mul_inv]
  linear_combination (P.g * r⁻¹ * r1 * w⁻¹) * (z⁻¹ * (mul_inv_cancel₀ hz))

theorem lower_node (s : State) (i j : Nat) (h : P.Inside i j) (k : Nat) (hk : k < P.levels) :
    (lower P s).node 4 i j k = densityOn P s i j k ∧
    (lower P s).node 3 i j k = (if P.onEdge 3 then applyRow P.interpEN (s.edge 3 i j) k else s.node 3 i j k) ∧
    (lower P s).node 0 i j k = s.node 0 i j k ∧ (lower P s).node 1 i j k = s.node 1 i j k := by
  unfold Patch.Inside at h
  unfold lower densityOn toNode
  cases P.onEdge 2 <;> cases P.onEdge 3 <;> cases P.onEdge 4 <;> simp [h, hk]

/-- **C134 (on levels).**  Called for levels, which output does not do, it refuses nothing else than fewer than five components, and the
number in the place of a level is computed from density and wind on levels; all other places are as they were. -/
theorem C134_levels (hP : P.Fits) (h5 : 5 ≤ P.components) (hN : ∀ k < P.levels, (P.diffNN.row k).iend ≤ P.levels)
    (hZ : ∀ k < P.levels, (P.diffNNZero.row k).iend ≤ P.levels) (s : State) (m : Nat → ℝ) :
    ∃ s' m', computeRichardson P true s m = .ok s' m' ∧
      (∀ i j, P.Inside i j → ∀ k < P.levels, m' (P.place i j k) = computedOn P s i j k) ∧
      ∀ x, (∀ i j, P.Inside i j → ∀ k < P.levels, x ≠ P.place i j k) → m' x = m x := by
  have ha := hP.a
  have hb := hP.b
  have hall : ((passes P P.levels).all fun t => decide (address P t < P.aTotal * P.bTotal * P.levels)) = true := by
    rw [List.all_eq_true]
    intro t ht
    obtain ⟨⟨h1, h2, h3, h4⟩, h5⟩ := (mem_passes _ _).1 ht
    rw [decide_eq_true_iff, address_eq]
    have := before (t.1 * P.bTotal + t.2.1) t.2.2 (P.aTotal * P.bTotal) 0 ?_ P.levels h5
    · omega
    · have := before t.1 t.2.1 P.aTotal 0 (by omega) P.bTotal (by omega)
      omega
  refine ⟨lower P s, (passes P P.levels).foldl (fun m t => Function.update m (address P t)
    (nodeNumber P (lower P s) t.1 t.2.1 t.2.2)) m, ?_, ?_, ?_⟩
  · unfold computeRichardson assign
    rw [if_neg (by omega), if_pos rfl]
    dsimp only
    rw [if_pos hall]
  · intro i j hij k hk
    have := last_write (P := P) (passes P P.levels) (passes_rank hP P.levels (by omega)) (nodeNumber P (lower P s)) m (i, j, k)
      ((mem_passes _ _).2 ⟨hij, hk⟩) fun t ht he => by
        obtain ⟨hin, hk'⟩ := (mem_passes _ _).1 ht
        rw [address_eq, address_eq] at he
        unfold rank
        dsimp only at he ⊢
        generalize t.1 * P.bTotal + t.2.1 = p at *
        generalize i * P.bTotal + j = p0 at *
        rcases Nat.lt_trichotomy p p0 with hp | hp | hp
        · exact (before _ _ _ _ hp _ (by omega)).le
        · subst hp
          omega
        · have := before p0 k p t.2.2 hp P.levels hk
          omega
    rw [address_eq] at this
    change _ = nodeNumber P (lower P s) i j k at this
    have e := fun k hk => lower_node s i j hij k hk
    have cong : ∀ f g : Nat → ℝ, (∀ k < P.levels, f k = g k) →
        applyRow (if P.onEdge 3 = true then P.diffNNZero else P.diffNN) f k = levelSlope P g k := by
      intro f g h
      unfold levelSlope
      split_ifs
      all_goals
        rw [Vdyn.applyRow_eq, Vdyn.applyRow_eq]
        apply sum_congr rfl
        intro l hl
        have h1 := (mem_Ico.1 hl).2
        have h2 := hN k hk
        have h3 := hZ k hk
        rw [h l (by omega)]
    refine this.trans ?_
    unfold nodeNumber computedOn
    dsimp only
    rw [cong _ (densityOn P s i j) fun k hk => (e k hk).1, (e k hk).1,
      cong _ (alongOn P s 0 i j) fun k hk => by rw [(e k hk).2.1, (e k hk).2.2.1]; rfl,
      cong _ (alongOn P s 1 i j) fun k hk => by rw [(e k hk).2.1, (e k hk).2.2.2]; rfl, sq, sq]
  · intro x hx
    apply no_write
    intro t ht he
    obtain ⟨hin, hk'⟩ := (mem_passes _ _).1 ht
    apply hx t.1 t.2.1 hin t.2.2 hk'
    rw [← he, address_eq]
    rfl

/-! ### A patch of two by two columns with a halo -/

namespace Sample

/-- Three levels, one apart, all variables but vertical velocity on levels. -/
noncomputable def patch (A D : Op) : Patch where
  aTotal := 4
  bTotal := 4
  aBegin := 1
  aEnd := 3
  bBegin := 1
  bEnd := 3
  levels := 3
  components := 5
  onEdge := fun c => c = 3
  g := 10
  derivNode := fun _ _ _ c => if c = 2 then 1 else 0
  derivEdge := fun _ _ _ c => if c = 2 then 1 else 0
  interpNE := A
  interpEN := A
  diffNN := D
  diffNNZero := D
  diffEE := D

noncomputable def node (k : Nat) : ℝ := k + 1 / 2
noncomputable def edge (k : Nat) : ℝ := k

/-- Density falls from ten by one on each unit of height, the wind grows by one, and is also on interfaces. -/
noncomputable def state : State where
  node := fun c _ _ k => if c = 4 then 10 + -1 * (1 * node k) else if c = 0 then 0 + 1 * (1 * node k) else 0
  edge := fun c _ _ k => if c = 0 then 0 + 1 * (1 * edge k) else 0

theorem fits (A D : Op) : (patch A D).Fits := ⟨by simp [patch], by simp [patch], by simp [patch]⟩

theorem apart : ApartNodes 4 edge := by
  intro i j _ _ hij
  unfold edge
  have h : (1 : ℝ) ≤ |(i : ℝ) - j| := by
    have : (1 : ℤ) ≤ |(i : ℤ) - j| := Int.one_le_abs (by omega)
    exact_mod_cast this
  norm_num at h ⊢
  linarith

theorem distinct : DistinctNodes 3 node := by
  intro i j _ _ hij h
  unfold node at h
  apply hij
  have : (i : ℝ) = j := by linarith
  exact_mod_cast this

/-- Interpolation of fourth order, so that linear profiles are exact, and derivatives of second order. -/
theorem runs (m : Nat → ℝ) : ∃ A D s' m', reconInterpInit .levels .interfaces 4 3 4 node edge = .ok A ∧
    reconDiffInit .interfaces .interfaces (2 * 1) 3 4 node edge = .ok D ∧ richardson (patch A D) state m = .ok s' m' := by
  obtain ⟨A, hA⟩ := ((C71_refused .levels .interfaces 4 3 4 node edge).2.2 rfl (by omega) (by omega) (by omega)).1 (by decide)
  obtain ⟨D, hD⟩ := ((C71_refused .interfaces .interfaces (2 * 1) 3 4 node edge).2.2 rfl (by omega) (by omega) (by omega)).2
  obtain ⟨r1, r2⟩ := C134_refused (fits A D) state m
  rcases h : richardson (patch A D) state m with _ | _ | ⟨s', m'⟩
  · simp [patch] at r1
    exact absurd h r1
  · simp [patch] at r2
    exact absurd h r2
  · exact ⟨A, D, s', m', hA, hD, h⟩

theorem density_linear (A D : Op) (hA : reconInterpInit .levels .interfaces 4 3 4 node edge = .ok A) (i j k : Nat) (hk : k ≤ 3) :
    densityAt (patch A D) state i j k = 10 + -1 * (1 * edge k) := by
  have := C71_to_interfaces 2 3 4 node edge A hA distinct (state.node 4 i j) k hk (C (-1) * X + C 10) (C (-1) * X + C 10)
    (fun h => ⟨lt_of_le_of_lt degree_linear_le (by
      have : 2 ≤ min (k + 2 - 1) 3 - (k - 2) := by omega
      exact_mod_cast this), fun j _ _ _ => by simp [state]; ring⟩)
    (fun h => ⟨lt_of_le_of_lt degree_linear_le (by
      have : 2 ≤ min (k + 2) 3 - (k + 1 - 2) := by omega
      exact_mod_cast this), fun j _ _ _ => by simp [state]; ring⟩)
  unfold densityAt
  simp only [patch]
  norm_num
  rw [this]
  simp only [eval_add, eval_mul, eval_C, eval_X]
  split_ifs <;> ring

end Sample

/-- **C134 (false).**  The number reported for a level is not the Richardson number there: not even with finite volumes of any order, over
flat ground, where height is the vertical coordinate, density and wind are linear in height, and the wind is known on interfaces. -/
theorem C134_false : ¬ ∀ (P : Patch) (p q : Nat) (node edge : Nat → ℝ), P.Fits → 0 < P.g →
    reconInterpInit .levels .interfaces (2 * p) P.levels (P.levels + 1) node edge = .ok P.interpNE →
    reconDiffInit .interfaces .interfaces (2 * q) P.levels (P.levels + 1) node edge = .ok P.diffEE →
    (∀ c, P.onEdge c = decide (c = 3)) → (∀ i j k c, P.derivEdge i j k c = if c = 2 then 1 else 0) →
    ∀ (s s' : State) (m m' : Nat → ℝ) (r0 r1 u0 u1 v0 v1 : ℝ), 0 < u1 →
    (∀ i j k, s.node 4 i j k = r0 + r1 * node k ∧ s.node 0 i j k = u0 + u1 * node k ∧ s.node 1 i j k = v0 + v1 * node k ∧
      s.edge 0 i j k = u0 + u1 * edge k ∧ s.edge 1 i j k = v0 + v1 * edge k ∧ s.edge 3 i j k = 0) →
    (∀ k ≤ P.levels, 0 < r0 + r1 * edge k ∧ 0 < r0 + r1 * node k) →
    richardson P s m = .ok s' m' → ∀ i j, P.Inside i j → ∀ k < P.levels,
    m' (P.place i j k) = gradientNumber P.g (r0 + r1 * node k) r1 u1 v1 := by
  intro H
  obtain ⟨A, D, s', m', hA, hD, h⟩ := Sample.runs fun _ => 0
  have hin : (Sample.patch A D).Inside 1 1 := by simp [Patch.Inside, Sample.patch]
  have key := H (Sample.patch A D) 2 1 Sample.node Sample.edge (Sample.fits A D) (by simp [Sample.patch]) hA hD (fun c => rfl)
    (fun i j k c => rfl) Sample.state s' _ m' 10 (-1) 0 1 0 0 one_pos
    (fun i j k => by simp [Sample.state])
    (fun k hk => by
      change k ≤ 3 at hk
      have : (k : ℝ) ≤ 3 := by exact_mod_cast hk
      simp only [Sample.edge, Sample.node]
      constructor <;> linarith) h 1 1 hin 0 (by simp [Sample.patch])
  rw [C134_linear (Sample.fits A D) 1 one_pos Sample.node Sample.edge hD Sample.apart (fun i j k c hc => by
      simp only [Sample.patch]
      rw [if_neg (by omega)]) Sample.state s' _ m' h 1 1 hin 1 10 (-1) 0 1 0 0 one_ne_zero (Sample.density_linear A D hA 1 1)
    (fun k _ => by simp [Sample.state]) (fun k _ => by simp [Sample.state]) 0 (by simp [Sample.patch])] at key
  simp only [gradientNumber, Sample.patch, Sample.edge, Sample.node] at key
  norm_num at key

/-- The hypotheses of `C134_values`, `C134_sign`, `C134_linear` are met, and the number is negative although density falls. -/
example : ∃ A D s' m', richardson (Sample.patch A D) Sample.state (fun _ => 0) = .ok s' m' ∧ EdgeOnly (Sample.patch A D) ∧
    m' ((Sample.patch A D).place 1 1 0) = -1 := by
  obtain ⟨A, D, s', m', hA, hD, h⟩ := Sample.runs fun _ => 0
  have hin : (Sample.patch A D).Inside 1 1 := by simp [Patch.Inside, Sample.patch]
  refine ⟨A, D, s', m', h, fun k hk => ?_, ?_⟩
  · obtain ⟨E, hE⟩ := ((C71_refused .levels .interfaces (2 * 1) 3 4 Sample.node Sample.edge).2.2 rfl (by omega) (by omega) (by omega)).2
    obtain ⟨r, -, e1, e2, -⟩ := C71_diff_interfaces 1 3 4 Sample.node Sample.edge D E hD hE (fun _ => 0) k hk 0
    have := (r k (by change k ≤ 3 at hk; omega)).1
    change (D.row k).iend ≤ 3 + 1
    omega
  · rw [C134_linear (Sample.fits A D) 1 one_pos Sample.node Sample.edge hD Sample.apart (fun i j k c hc => by
      simp only [Sample.patch]
      rw [if_neg (by omega)]) Sample.state s' _ m' h 1 1 hin 1 10 (-1) 0 1 0 0 one_ne_zero (Sample.density_linear A D hA 1 1)
      (fun k _ => by simp [Sample.state]) (fun k _ => by simp [Sample.state]) 0 (by simp [Sample.patch])]
    simp only [gradientNumber, Sample.patch, Sample.edge]
    norm_num

/-- A patch without halo is refused only by the array: it writes outside. -/
example (A D : Op) (s : State) (m : Nat → ℝ) : richardson { Sample.patch A D with aTotal := 3, bTotal := 3 } s m = .ub :=
  (C134_refused ⟨by simp [Sample.patch], by simp [Sample.patch], by simp [Sample.patch]⟩ s m).2.2 (by simp [Sample.patch])

/-- Another wind on levels. -/
noncomputable def windy (s : State) : State :=
  { s with node := fun c => if c = 0 then (fun _ _ k => (k : ℝ) ^ 2) else if c = 1 then (fun _ _ _ => 7) else s.node c }

/-- The hypotheses of `C134_wind` are met with a wind that is not that of the sample, those of `C134_height` by twice the height. -/
example (A D : Op) : ∃ s1 m1 s2 m2 s3 m3, richardson (Sample.patch A D) Sample.state (fun _ => 0) = .ok s1 m1 ∧
    richardson (Sample.patch A D) (windy Sample.state) (fun _ => 0) = .ok s2 m2 ∧
    richardson { Sample.patch A D with derivEdge := fun _ _ _ c => if c = 2 then 2 else 0 } Sample.state (fun _ => 0) = .ok s3 m3 := by
  have ok : ∀ (P : Patch) (s : State), P.Fits → P.components = 5 → P.aEnd < P.aTotal → ∃ s' m', richardson P s (fun _ => 0) = .ok s' m' := by
    intro P s hP h5 hlt
    obtain ⟨r1, r2⟩ := C134_refused hP s (fun _ => 0)
    rcases h : richardson P s (fun _ => 0) with _ | _ | ⟨s', m'⟩
    · have := r1.1 h
      omega
    · have := r2.1 h
      omega
    · exact ⟨s', m', rfl⟩
  obtain ⟨s1, m1, h1⟩ := ok (Sample.patch A D) Sample.state (Sample.fits A D) rfl (by simp [Sample.patch])
  obtain ⟨s2, m2, h2⟩ := ok (Sample.patch A D) (windy Sample.state) (Sample.fits A D) rfl (by simp [Sample.patch])
  obtain ⟨s3, m3, h3⟩ := ok { Sample.patch A D with derivEdge := fun _ _ _ c => if c = 2 then 2 else 0 } Sample.state
    ⟨by simp [Sample.patch], by simp [Sample.patch], by simp [Sample.patch]⟩ rfl (by simp [Sample.patch])
  exact ⟨s1, m1, s2, m2, s3, m3, h1, h2, h3⟩

/-- The difference of a level to the one below. -/
def below : Op := ⟨3, 3, fun k => ⟨fun l => if l = k then 1 else if l + 1 = k then -1 else 0, k - 1, k + 1⟩⟩

/-- The hypotheses of `C134_levels` are met. -/
example (A : Op) : ∃ s' m', computeRichardson (Sample.patch A below) true Sample.state (fun _ => 0) = .ok s' m' ∧
    computedOn (Sample.patch A below) Sample.state 1 1 1 = m' ((Sample.patch A below).place 1 1 1) := by
  obtain ⟨s', m', h, v, -⟩ := C134_levels (Sample.fits A below) (le_refl _) (fun k hk => by exact hk) (fun k hk => by exact hk)
    Sample.state (fun _ => 0)
  exact ⟨s', m', h, (v 1 1 (by simp [Patch.Inside, Sample.patch]) 1 (by simp [Sample.patch])).symm⟩

end Verif.Rich
