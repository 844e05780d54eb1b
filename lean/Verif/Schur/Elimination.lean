/-
Lemmas: the elimination of vertical velocity, as the code does it on its arrays, is the elimination of vertical velocity from the
equations of the column.
-/
import Verif.Schur.Lemmas

namespace Verif.Schur

open Verif.Column Verif.Vdyn Verif.Interp Finset

/-! ### Statements about the array of the Schur complement -/

/-- What the statements about one entry make of it. -/
noncomputable def evalS (s : ℝ) (L : List Stmt) : ℝ := L.foldl (fun s st => if st.copy then st.value else s - st.value) s

theorem exec_at (L : List Stmt) (m : Int → ℝ) (a : Int) :
    L.foldl exec m a = evalS (m a) (L.filter fun s => s.addr = a) := by
  induction L generalizing m with
  | nil => rfl
  | cons s L ih =>
    rw [List.foldl_cons, ih]
    by_cases h : s.addr = a
    · rw [List.filter_cons_of_pos (by simpa using h)]
      unfold exec evalS
      rw [List.foldl_cons, h, Function.update_self]
    · rw [List.filter_cons_of_neg (by simpa using h)]
      unfold exec
      rw [Function.update_of_ne (Ne.symm h)]

/-- The four statements about levels `k` and `l`. -/
def four (d k l : Nat) (t : Bool) (v : Nat → Nat → ℝ) : List Stmt :=
  [⟨addressS d (vecS 0 k) (vecS 0 l), t, v 0 0⟩, ⟨addressS d (vecS 1 k) (vecS 0 l), t, v 1 0⟩,
    ⟨addressS d (vecS 0 k) (vecS 1 l), t, v 0 1⟩, ⟨addressS d (vecS 1 k) (vecS 1 l), t, v 1 1⟩]

theorem addressS_eq (h c1 k1 c1' l1 c k c' l : Nat) (h1 : l1 ≤ k1 + h + 1) (h2 : k1 ≤ l1 + h) (hh : 0 < h) (hc1 : c1 < 2)
    (hc1' : c1' < 2) (hc : c < 2) (hc' : c' < 2) (b1 : vecS c k ≤ vecS c' l + (2 * h + 1)) (b2 : vecS c' l ≤ vecS c k + (2 * h + 1)) :
    addressS (2 * h + 1) (vecS c1 k1) (vecS c1' l1) = addressS (2 * h + 1) (vecS c k) (vecS c' l) ↔
      c1 = c ∧ k1 = k ∧ c1' = c' ∧ l1 = l := by
  have := address_inj (2 * h + 1) (vecS c1 k1) (vecS c1' l1) (vecS c k) (vecS c' l) (by unfold vecS; omega) (by unfold vecS; omega) b1 b2
  unfold addressS
  unfold Vdyn.address at this
  rw [this]
  unfold vecS
  omega

theorem four_filter (h k1 l1 c k c' l : Nat) (t : Bool) (v : Nat → Nat → ℝ) (h1 : l1 ≤ k1 + h + 1) (h2 : k1 ≤ l1 + h) (hh : 0 < h)
    (hc : c < 2) (hc' : c' < 2) (b1 : vecS c k ≤ vecS c' l + (2 * h + 1)) (b2 : vecS c' l ≤ vecS c k + (2 * h + 1)) :
    (four (2 * h + 1) k1 l1 t v).filter (fun s => s.addr = addressS (2 * h + 1) (vecS c k) (vecS c' l)) =
      if k1 = k ∧ l1 = l then [⟨addressS (2 * h + 1) (vecS c k) (vecS c' l), t, v c c'⟩] else [] := by
  have e := fun c1 c1' (hc1 : c1 < 2) (hc1' : c1' < 2) => addressS_eq h c1 k1 c1' l1 c k c' l h1 h2 hh hc1 hc1' hc hc' b1 b2
  unfold four
  simp only [List.filter_cons, List.filter_nil, decide_eq_true_eq, e 0 0 (by omega) (by omega), e 1 0 (by omega) (by omega),
    e 0 1 (by omega) (by omega), e 1 1 (by omega) (by omega)]
  by_cases hkl : k1 = k ∧ l1 = l
  · obtain ⟨rfl, rfl⟩ := hkl
    obtain rfl | rfl : c = 0 ∨ c = 1 := by omega
    · obtain rfl | rfl : c' = 0 ∨ c' = 1 := by omega
      · simp
      · simp
    · obtain rfl | rfl : c' = 0 ∨ c' = 1 := by omega
      · simp
      · simp
  · rw [if_neg hkl, if_neg (fun h => hkl ⟨h.2.1, h.2.2.2⟩), if_neg (fun h => hkl ⟨h.2.1, h.2.2.2⟩),
      if_neg (fun h => hkl ⟨h.2.1, h.2.2.2⟩), if_neg (fun h => hkl ⟨h.2.1, h.2.2.2⟩)]

theorem flatMap_one {α : Type} (L : List Nat) (hL : L.Nodup) (a : Nat) (f : Nat → List α) (h : ∀ x ∈ L, x ≠ a → f x = []) :
    L.flatMap f = if a ∈ L then f a else [] := by
  induction L with
  | nil => rfl
  | cons x L ih =>
    rw [List.nodup_cons] at hL
    rw [List.flatMap_cons, ih hL.2 fun y hy => h y (List.mem_cons_of_mem _ hy)]
    by_cases hx : x = a
    · subst hx
      rw [if_neg hL.1, if_pos (by simp), List.append_nil]
    · rw [h x (by simp) hx, List.nil_append]
      have : (a ∈ x :: L) ↔ a ∈ L := by
        rw [List.mem_cons]
        exact ⟨fun h => h.resolve_left (Ne.symm hx), Or.inr⟩
      simp only [this]

theorem flatMap_congr {α : Type} (L : List Nat) (f g : Nat → List α) (h : ∀ x ∈ L, f x = g x) : L.flatMap f = L.flatMap g := by
  induction L with
  | nil => rfl
  | cons x L ih =>
    rw [List.flatMap_cons, List.flatMap_cons, h x (by simp), ih fun y hy => h y (List.mem_cons_of_mem _ hy)]

theorem mem_window {N h i l : Nat} : l ∈ window N h i ↔ i - h ≤ l ∧ l < min (i + h + 1) N := by
  unfold window
  rw [List.mem_range'_1]
  omega

theorem mem_edges {N k i : Nat} : i ∈ edges N k ↔ max k 1 ≤ i ∧ i < min (k + 2) N := by
  unfold edges
  rw [List.mem_range'_1]
  omega

theorem window_filter (N h i k1 c k c' l : Nat) (t : Bool) (v : Nat → Nat → Nat → ℝ) (hi : i ∈ edges N k1) (hh : 0 < h)
    (hc : c < 2) (hc' : c' < 2) (b1 : vecS c k ≤ vecS c' l + (2 * h + 1)) (b2 : vecS c' l ≤ vecS c k + (2 * h + 1)) (hw : k1 = 0 ∨ k1 ≤ i) :
    ((window N h i).flatMap fun l1 => four (2 * h + 1) k1 l1 t (v l1)).filter
      (fun s => s.addr = addressS (2 * h + 1) (vecS c k) (vecS c' l)) =
      if k1 = k ∧ l ∈ window N h i then [⟨addressS (2 * h + 1) (vecS c k) (vecS c' l), t, v l c c'⟩] else [] := by
  rw [mem_edges] at hi
  rw [List.filter_flatMap]
  have e : ∀ l1 ∈ window N h i, (four (2 * h + 1) k1 l1 t (v l1)).filter
      (fun s => s.addr = addressS (2 * h + 1) (vecS c k) (vecS c' l)) =
      if k1 = k ∧ l1 = l then [⟨addressS (2 * h + 1) (vecS c k) (vecS c' l), t, v l1 c c'⟩] else [] := by
    intro l1 hl1
    rw [mem_window] at hl1
    exact four_filter h k1 l1 c k c' l t (v l1) (by omega) (by omega) hh hc hc' b1 b2
  rw [flatMap_congr _ _ _ e, flatMap_one (window N h i) (by unfold window; exact List.nodup_range') l]
  · by_cases h1 : k1 = k
    · by_cases h2 : l ∈ window N h i
      · rw [if_pos h2, if_pos ⟨h1, rfl⟩, if_pos ⟨h1, h2⟩]
      · rw [if_neg h2, if_neg fun h => h2 h.2]
    · rw [if_neg (fun h : k1 = k ∧ l = l => h1 h.1), if_neg (fun h : k1 = k ∧ _ => h1 h.1)]
      split_ifs <;> rfl
  · intro x _ hx
    exact if_neg fun h => hx h.2

/-- The statements about one entry. -/
theorem complement_filter (N h o c k c' l : Nat) (dt : ℝ) (m : Int → ℝ) (hh : 0 < h) (hk : k < N)
    (hc : c < 2) (hc' : c' < 2) (b1 : vecS c k ≤ vecS c' l + (2 * h + 1)) (b2 : vecS c' l ≤ vecS c k + (2 * h + 1)) :
    (complement N h o (2 * h + 1) dt m).filter (fun s => s.addr = addressS (2 * h + 1) (vecS c k) (vecS c' l)) =
      (edges N k).flatMap fun i =>
        (if i = max k 1 ∧ l ∈ window N h i then
          [⟨addressS (2 * h + 1) (vecS c k) (vecS c' l), true, get o m (full c') l (full c) k⟩] else []) ++
        (if l ∈ window N h i then
          [⟨addressS (2 * h + 1) (vecS c k) (vecS c' l), false, dt * get o m 1 i (full c) k * get o m (full c') l 1 i⟩] else []) := by
  have block : ∀ k1 < N, ((edges N k1).flatMap fun i =>
      (if i = max k1 1 then (window N h i).flatMap fun l =>
        four (2 * h + 1) k1 l true fun c c' => get o m (full c') l (full c) k1 else []) ++
      (window N h i).flatMap fun l => four (2 * h + 1) k1 l false fun c c' =>
        dt * get o m 1 i (full c) k1 * get o m (full c') l 1 i).filter
        (fun s => s.addr = addressS (2 * h + 1) (vecS c k) (vecS c' l)) =
      (edges N k1).flatMap fun i =>
        (if i = max k1 1 ∧ k1 = k ∧ l ∈ window N h i then
          [⟨addressS (2 * h + 1) (vecS c k) (vecS c' l), true, get o m (full c') l (full c) k1⟩] else []) ++
        (if k1 = k ∧ l ∈ window N h i then
          [⟨addressS (2 * h + 1) (vecS c k) (vecS c' l), false, dt * get o m 1 i (full c) k1 * get o m (full c') l 1 i⟩] else []) := by
    intro k1 hk1
    rw [List.filter_flatMap]
    apply flatMap_congr
    intro i hi
    have hi' := mem_edges.1 hi
    rw [List.filter_append, window_filter N h i k1 c k c' l false
      (fun l c c' => dt * get o m 1 i (full c) k1 * get o m (full c') l 1 i) hi hh hc hc' b1 b2 (by omega)]
    congr 1
    by_cases h0 : i = max k1 1
    · rw [if_pos h0, window_filter N h i k1 c k c' l true
        (fun l c c' => get o m (full c') l (full c) k1) hi hh hc hc' b1 b2 (by omega)]
      simp only [h0, true_and]
    · rw [if_neg h0, if_neg fun h => h0 h.1, List.filter_nil]
  have e : complement N h o (2 * h + 1) dt m = (List.range N).flatMap fun k1 => (edges N k1).flatMap fun i =>
      (if i = max k1 1 then (window N h i).flatMap fun l =>
        four (2 * h + 1) k1 l true fun c c' => get o m (full c') l (full c) k1 else []) ++
      (window N h i).flatMap fun l => four (2 * h + 1) k1 l false fun c c' =>
        dt * get o m 1 i (full c) k1 * get o m (full c') l 1 i := rfl
  rw [e, List.filter_flatMap, flatMap_congr _ _ _ (fun k1 hk1 => block k1 (List.mem_range.1 hk1)),
    flatMap_one _ List.nodup_range k]
  · rw [if_pos (List.mem_range.2 hk)]
    simp only [true_and]
  · intro k1 _ hne
    rw [List.flatMap_eq_nil_iff]
    intro i _
    rw [if_neg fun h => hne h.2.1, if_neg fun h => hne h.1]
    rfl

theorem evalS_cons (s : ℝ) (st : Stmt) (L : List Stmt) : evalS s (st :: L) = evalS (if st.copy then st.value else s - st.value) L := rfl

theorem evalS_append (s : ℝ) (L L' : List Stmt) : evalS s (L ++ L') = evalS (evalS s L) L' := List.foldl_append

theorem evalS_subs (L : List Nat) (p : Nat → Prop) [DecidablePred p] (a : Int) (v : Nat → ℝ) (s : ℝ) :
    evalS s (L.flatMap fun i => if p i then [⟨a, false, v i⟩] else []) = s - (L.map fun i => if p i then v i else 0).sum := by
  induction L generalizing s with
  | nil => simp [evalS]
  | cons i L ih =>
    rw [List.flatMap_cons, evalS_append, ih, List.map_cons, List.sum_cons]
    by_cases h : p i
    · rw [if_pos h, if_pos h, evalS_cons]
      simp only [evalS, List.foldl_nil, Bool.false_eq_true, if_false]
      ring
    · rw [if_neg h, if_neg h]
      simp only [evalS, List.foldl_nil]
      ring

/-- An entry of the array of the Schur complement. -/
theorem schur_entry (N h o c k c' l : Nat) (dt : ℝ) (m : Int → ℝ) (hh : 0 < h) (hN : 2 ≤ N) (hk : k < N)
    (hc : c < 2) (hc' : c' < 2) (b1 : vecS c k ≤ vecS c' l + (2 * h + 1)) (b2 : vecS c' l ≤ vecS c k + (2 * h + 1)) :
    schurMatrix N h o (2 * h + 1) dt m (addressS (2 * h + 1) (vecS c k) (vecS c' l)) =
      (if l ∈ window N h (max k 1) then get o m (full c') l (full c) k else 0) -
        ((edges N k).map fun i => if l ∈ window N h i then dt * get o m 1 i (full c) k * get o m (full c') l 1 i else 0).sum := by
  rw [schurMatrix, exec_at, complement_filter N h o c k c' l dt m hh hk hc hc' b1 b2]
  have he : edges N k = max k 1 :: List.range' (max k 1 + 1) (min (k + 2) N - max k 1 - 1) := by
    unfold edges
    rw [show min (k + 2) N - max k 1 = (min (k + 2) N - max k 1 - 1) + 1 by omega, List.range'_succ]
    simp
  rw [he, List.flatMap_cons, evalS_append, List.map_cons, List.sum_cons]
  have e2 : ∀ i ∈ List.range' (max k 1 + 1) (min (k + 2) N - max k 1 - 1),
      ((if i = max k 1 ∧ l ∈ window N h i then
          [(⟨addressS (2 * h + 1) (vecS c k) (vecS c' l), true, get o m (full c') l (full c) k⟩ : Stmt)] else []) ++
        (if l ∈ window N h i then
          [⟨addressS (2 * h + 1) (vecS c k) (vecS c' l), false, dt * get o m 1 i (full c) k * get o m (full c') l 1 i⟩] else [])) =
      if l ∈ window N h i then
          [⟨addressS (2 * h + 1) (vecS c k) (vecS c' l), false, dt * get o m 1 i (full c) k * get o m (full c') l 1 i⟩] else [] := by
    intro i hi
    rw [List.mem_range'_1] at hi
    rw [if_neg fun h => by omega, List.nil_append]
  rw [flatMap_congr _ _ _ e2, evalS_subs]
  by_cases hl : l ∈ window N h (max k 1)
  · rw [if_pos ⟨rfl, hl⟩, if_pos hl, if_pos hl, if_pos hl]
    simp only [evalS, List.foldl_cons, List.foldl_nil, List.cons_append, List.nil_append, if_true, Bool.false_eq_true, if_false]
    ring
  · rw [if_neg fun h => hl h.2, if_neg hl, if_neg hl, if_neg hl]
    simp only [evalS, List.foldl_nil, List.append_nil]
    ring


/-! ### The matrix of the equations that are solved -/

theorem total_time_off (S : Setup) (i j : Nat) (h : i ≠ j) : total (timeUpdates S) i j = 0 := by
  apply total_none
  intro u hu hc
  unfold timeUpdates at hu
  simp only [List.mem_flatMap, List.mem_cons, List.not_mem_nil, or_false] at hu
  obtain ⟨k, -, rfl | rfl | rfl⟩ := hu <;> exact h (hc.1.symm.trans hc.2)

theorem total_stray (S : Setup) (us : List Update) (k j : Nat) (hj : j < 3) :
    total (stray S us) (3 * k + j) = fun l =>
      if S.order = 2 ∧ j = 2 ∧ 2 ≤ k ∧ k < S.levels ∧ l = 3 * (k - 1) then total us (3 * (k - 2)) (3 * (k - 1) + 1) else 0 := by
  funext l
  unfold stray
  by_cases h2 : S.order = 2
  · rw [if_pos h2]
    unfold total
    rw [List.map_map, sum_range']
    simp only [Function.comp_def]
    by_cases hc : j = 2 ∧ 2 ≤ k ∧ k < S.levels ∧ l = 3 * (k - 1)
    · rw [if_pos ⟨h2, hc⟩, sum_eq_single (k - 2)]
      · rw [show 2 + (k - 2) = k by omega, if_pos (by omega)]
      · intro b _ hb
        exact if_neg (by omega)
      · intro h
        rw [mem_range] at h
        omega
    · rw [if_neg fun h => hc h.2]
      apply sum_eq_zero
      intro b hb
      rw [mem_range] at hb
      exact if_neg fun h => hc (by omega)
  · rw [if_neg h2, if_neg fun h => h2 h.1]
    rfl

section Solve
variable {S : Setup} {node edge : Nat → ℝ} (G : Metric) (M : Memory) (x : Nat → ℝ)

/-- The matrix of the equations that are solved. -/
noncomputable def matrix (S : Setup) (G : Metric) (M : Memory) (x : Nat → ℝ) : Nat → Nat → ℝ :=
  total (jacobianUpdates S G M x ++ stray S (jacobianUpdates S G M x))

theorem matrix_at (k j l : Nat) (hj : j < 3) : matrix S G M x (3 * k + j) l = total (jacobianUpdates S G M x) (3 * k + j) l +
    if S.order = 2 ∧ j = 2 ∧ 2 ≤ k ∧ k < S.levels ∧ l = 3 * (k - 1) then
      total (jacobianUpdates S G M x) (3 * (k - 2)) (3 * (k - 1) + 1) else 0 := by
  rw [matrix, total_append, total_stray S _ k j hj]

theorem matrix_shape (V : Volumes S node edge) : Shape S.levels (half S) S.dt (matrix S G M x) := by
  obtain ⟨hh, ho, hN⟩ := order_half V
  obtain ⟨⟨s1, s2, s3, s4⟩, -⟩ := jacobian_shape G M x V
  refine ⟨?_, ?_, ?_, ?_⟩
  · intro c k m hc hk h
    rw [matrix_at G M x k c _ (by omega), if_neg (by omega), add_zero] at h
    exact s1 c k m hc hk h
  · intro c k c' n hc hc' hk h
    rw [matrix_at G M x k c _ (by omega)] at h
    by_cases hs : S.order = 2 ∧ c = 2 ∧ 2 ≤ k ∧ k < S.levels ∧ 3 * n + c' = 3 * (k - 1)
    · omega
    · rw [if_neg hs, add_zero] at h
      exact s2 c k c' n hc hc' hk h
  · intro c k n hc hk h
    rw [matrix_at G M x k 1 _ (by omega), if_neg (by omega), add_zero] at h
    exact s3 c k n hc hk h
  · intro k m hk
    rw [matrix_at G M x k 1 _ (by omega), if_neg (by omega), add_zero]
    exact s4 k m hk

/-- All statements are inside the band. -/
theorem jacobian_band (V : Volumes S node edge) :
    ∀ u ∈ jacobianUpdates S G M x, u.row ≤ u.col + (3 * half S + 1) ∧ u.col ≤ u.row + (3 * half S + 1) := by
  intro u hu
  obtain ⟨hh, ho, hN⟩ := order_half V
  have hu' : u ∈ space S G M x ++ timeUpdates S := hu
  rw [List.mem_append] at hu'
  rcases hu' with hu' | hu'
  · rcases space_placed G M x V u hu' with ⟨c', k', m', h1, h2, h3, h4, h5, h6, h7⟩ | ⟨c', k', m', h1, h2, h3, h4, h5, h6, h7⟩ |
      ⟨c', k', m', h1, h2, h3, h4, h5, h6, h7, h8⟩ <;> omega
  · unfold timeUpdates at hu'
    simp only [List.mem_flatMap, List.mem_cons, List.not_mem_nil, or_false] at hu'
    obtain ⟨k, -, rfl | rfl | rfl⟩ := hu' <;> simp only [upd] <;> omega

theorem toW_any (V : Volumes S node edge) (c k m : Nat) (hc : c = 0 ∨ c = 2)
    (h : total (jacobianUpdates S G M x) (3 * k + c) (3 * m + 1) ≠ 0) : m = k ∨ m = k + 1 := by
  have e : total (jacobianUpdates S G M x) (3 * k + c) (3 * m + 1) = total (space S G M x) (3 * k + c) (3 * m + 1) := by
    have : total (jacobianUpdates S G M x) (3 * k + c) (3 * m + 1) =
        total (space S G M x) (3 * k + c) (3 * m + 1) + total (timeUpdates S) (3 * k + c) (3 * m + 1) := total_append _ _ _ _
    rw [this, total_time_off S _ _ (by omega), add_zero]
  by_contra hne
  rw [e] at h
  refine h (total_none _ _ _ fun u hu => ?_)
  rcases space_placed G M x V u hu with ⟨c', k', m', h1, h2, h3, h4, h5, h6, h7⟩ | ⟨c', k', m', h1, h2, h3, h4, h5, h6, h7⟩ |
      ⟨c', k', m', h1, h2, h3, h4, h5, h6, h7, h8⟩ <;> omega

/-- What is read for two levels. -/
theorem get_level (V : Volumes S node edge) (c k c' l : Nat) (hc : c < 2) (hc' : c' < 2) (hk : k < S.levels) (h1 : l ≤ k + half S)
    (h2 : k ≤ l + half S) :
    get (3 * half S + 1) (store (3 * half S + 1) (jacobianUpdates S G M x)) (full c') l (full c) k =
      matrix S G M x (3 * k + 2 * c) (3 * l + 2 * c') := by
  obtain ⟨hh, ho, hN⟩ := order_half V
  have hb := jacobian_band G M x V
  obtain ⟨⟨s1, s2, s3, s4⟩, s5⟩ := jacobian_shape G M x V
  rw [matrix_at G M x k (2 * c) _ (by omega)]
  unfold get full vec
  by_cases hA : c = 1 ∧ c' = 0 ∧ k = l + half S
  · obtain ⟨rfl, rfl, rfl⟩ := hA
    rw [show 3 * (l + half S) + 2 * 1 = (3 * l + 2 * 0) + (3 * half S + 1) + 1 by omega, store_below _ _ hb]
    rw [show (3 * l + 2 * 0) + (3 * half S + 1) + 1 = 3 * (l + half S) + 2 by omega]
    have z : total (jacobianUpdates S G M x) (3 * (l + half S) + 2) (3 * l + 2 * 0) = 0 := by
      by_contra h
      have := s5 2 (l + half S) 0 l (by omega) (by omega) hk h
      omega
    rw [z, zero_add]
    by_cases hl : half S ≤ l
    · rw [if_pos (by omega), show 3 * l + 2 * 0 + 1 - (3 * half S + 1) = 3 * (l - half S) + 0 by omega,
        show 3 * l + 2 * 0 + 1 = 3 * l + 1 by omega]
      by_cases h1 : half S = 1
      · rw [if_pos (by omega), h1]
        congr 1

      · rw [if_neg (by omega)]
        by_contra h
        have := toW_any G M x V 0 (l - half S) l (by omega) h
        omega
    · rw [if_neg (by omega), if_neg (by omega)]
  · rw [if_neg (by omega), add_zero]
    by_cases hB : c = 0 ∧ c' = 1 ∧ l = k + half S
    · obtain ⟨rfl, rfl, rfl⟩ := hB
      rw [show 3 * (k + half S) + 2 * 1 = (3 * k + 2 * 0) + (3 * half S + 1) + 1 by omega, store_above _ _ hb]
      have z1 : total (jacobianUpdates S G M x) (3 * k + 2 * 0) ((3 * k + 2 * 0) + (3 * half S + 1) + 1) = 0 := by
        by_contra h
        rw [show 3 * k + 2 * 0 = 3 * k + 0 by omega, show 3 * k + 0 + (3 * half S + 1) + 1 = 3 * (k + half S) + 2 by omega] at h
        have := s5 0 k 2 (k + half S) (by omega) (by omega) hk h
        omega
      rw [z1]
      by_contra h
      rw [show 3 * k + 2 * 0 + (3 * half S + 1) + (3 * half S + 1) = 3 * (k + 2 * half S) + 2 by omega,
        show 3 * k + 2 * 0 + (3 * half S + 1) = 3 * (k + half S) + 1 by omega] at h
      have := toW_any G M x V 2 _ _ (by omega) h
      omega
    · exact store_band _ _ hb _ _ (by omega) (by omega)

theorem get_toW (V : Volumes S node edge) (c k i : Nat) (hc : c < 2) (h1 : k ≤ i + 1) (h2 : i ≤ k + 1) :
    get (3 * half S + 1) (store (3 * half S + 1) (jacobianUpdates S G M x)) 1 i (full c) k =
      matrix S G M x (3 * k + 2 * c) (3 * i + 1) := by
  obtain ⟨hh, ho, hN⟩ := order_half V
  rw [matrix_at G M x k (2 * c) _ (by omega), if_neg (by omega), add_zero]
  unfold get full vec
  exact store_band _ _ (jacobian_band G M x V) _ _ (by omega) (by omega)

theorem get_fromW (V : Volumes S node edge) (i c l : Nat) (hc : c < 2) (h1 : l ≤ i + half S) (h2 : i ≤ l + half S) :
    get (3 * half S + 1) (store (3 * half S + 1) (jacobianUpdates S G M x)) (full c) l 1 i =
      matrix S G M x (3 * i + 1) (3 * l + 2 * c) := by
  obtain ⟨hh, ho, hN⟩ := order_half V
  rw [matrix_at G M x i 1 _ (by omega), if_neg (by omega), add_zero]
  unfold get full vec
  exact store_band _ _ (jacobian_band G M x V) _ _ (by omega) (by omega)

theorem edges_sum (N k : Nat) (f : Nat → ℝ) (h : ∀ i, f i ≠ 0 → 1 ≤ i ∧ i < N ∧ (i = k ∨ i = k + 1)) :
    ((edges N k).map f).sum = ∑ i ∈ Ico 1 N, f i := by
  unfold edges
  rw [sum_range']
  have : ∑ i ∈ range (min (k + 2) N - max k 1), f (max k 1 + i) = ∑ i ∈ Ico (max k 1) (min (k + 2) N), f i := by
    rw [sum_Ico_eq_sum_range]
  rw [this]
  apply sum_subset
  · intro i hi
    rw [mem_Ico] at hi ⊢
    omega
  · intro i hi hni
    rw [mem_Ico] at hi hni
    by_contra hne
    have := h i hne
    omega

theorem window_sum (N h i : Nat) (f : Nat → ℝ) (hf : ∀ l, f l ≠ 0 → l < N ∧ i ≤ l + h ∧ l ≤ i + h) :
    ((window N h i).map f).sum = ∑ l ∈ range N, f l := by
  unfold window
  rw [sum_range']
  have : ∑ l ∈ range (min (i + h + 1) N - (i - h)), f (i - h + l) = ∑ l ∈ Ico (i - h) (min (i + h + 1) N), f l := by
    rw [sum_Ico_eq_sum_range]
  rw [this]
  apply sum_subset
  · intro l hl
    rw [mem_Ico] at hl
    rw [mem_range]
    omega
  · intro l hl hnl
    rw [mem_Ico] at hnl
    by_contra hne
    have := hf l hne
    omega

/-- The Schur complement. -/
theorem schur_band (V : Volumes S node edge) (h2 : 2 ≤ S.levels) (c k c' l : Nat) (hc : c < 2) (hc' : c' < 2) (hk : k < S.levels)
    (hl : l < S.levels) :
    bandEntry (3 * (2 * half S + 1) + 1) (2 * half S + 1)
      (schurMatrix S.levels (half S) (3 * half S + 1) (2 * half S + 1) S.dt (store (3 * half S + 1) (jacobianUpdates S G M x)))
      (2 * k + c) (2 * l + c') =
    matrix S G M x (3 * k + 2 * c) (3 * l + 2 * c') -
      ∑ i ∈ Ico 1 S.levels, S.dt * matrix S G M x (3 * k + 2 * c) (3 * i + 1) * matrix S G M x (3 * i + 1) (3 * l + 2 * c') := by
  obtain ⟨hh, ho, hN⟩ := order_half V
  obtain ⟨s1, s2, s3, s4⟩ := matrix_shape G M x V
  have hcc : 2 * c = 0 ∨ 2 * c = 2 := by omega
  have hcc' : 2 * c' = 0 ∨ 2 * c' = 2 := by omega
  have hsum : ((edges S.levels k).map fun i => if l ∈ window S.levels (half S) i then
        S.dt * get (3 * half S + 1) (store (3 * half S + 1) (jacobianUpdates S G M x)) 1 i (full c) k *
          get (3 * half S + 1) (store (3 * half S + 1) (jacobianUpdates S G M x)) (full c') l 1 i else 0).sum =
      ∑ i ∈ Ico 1 S.levels, S.dt * matrix S G M x (3 * k + 2 * c) (3 * i + 1) * matrix S G M x (3 * i + 1) (3 * l + 2 * c') := by
    rw [← edges_sum S.levels k]
    · congr 1
      apply List.map_congr_left
      intro i hi
      rw [mem_edges] at hi
      by_cases hw : l ∈ window S.levels (half S) i
      · rw [if_pos hw]
        rw [mem_window] at hw
        rw [get_toW G M x V c k i hc (by omega) (by omega), get_fromW G M x V i c' l hc' (by omega) (by omega)]
      · rw [if_neg hw]
        rw [mem_window] at hw
        symm
        by_contra hne
        have := s3 (2 * c') i l hcc' (by omega) (right_ne_zero_of_mul hne)
        omega
    · intro i hi
      have := s1 (2 * c) k i hcc hk (right_ne_zero_of_mul (left_ne_zero_of_mul hi))
      omega
  unfold bandEntry
  by_cases hb : 2 * k + c ≤ 2 * l + c' + (2 * half S + 1) ∧ 2 * l + c' ≤ 2 * k + c + (2 * half S + 1)
  · rw [if_pos hb, ← hsum]
    have key := schur_entry S.levels (half S) (3 * half S + 1) c k c' l S.dt (store (3 * half S + 1) (jacobianUpdates S G M x)) hh h2 hk
      hc hc' hb.1 hb.2
    unfold addressS vecS at key
    push_cast at key ⊢
    rw [key]
    congr 1
    by_cases hw : l ∈ window S.levels (half S) (max k 1)
    · rw [if_pos hw]
      rw [mem_window] at hw
      by_cases hin : l ≤ k + half S
      · exact get_level G M x V c k c' l hc hc' hk hin (by omega)
      · have h1 : k = 0 ∧ c = 1 ∧ c' = 0 ∧ l = half S + 1 := by omega
        obtain ⟨rfl, rfl, rfl, rfl⟩ := h1
        have z : matrix S G M x (3 * 0 + 2 * 1) (3 * (half S + 1) + 2 * 0) = 0 := by
          by_contra hne
          have := s2 2 0 0 (half S + 1) (by omega) (by omega) hk hne
          omega
        have e : get (3 * half S + 1) (store (3 * half S + 1) (jacobianUpdates S G M x)) (full 0) (half S + 1) (full 1) 0 =
            total (jacobianUpdates S G M x) (3 * 0 + 2 * 1) (3 * (half S + 1) + 2 * 0) := by
          unfold get full vec
          exact store_band _ _ (jacobian_band G M x V) _ _ (by omega) (by omega)
        rw [z, e]
        by_contra hne
        have := (jacobian_shape G M x V).1.toLevels 2 0 0 (half S + 1) (by omega) (by omega) hk hne
        omega
    · rw [if_neg hw]
      rw [mem_window] at hw
      symm
      by_contra hne
      have := s2 (2 * c) k (2 * c') l hcc hcc' hk hne
      omega
  · rw [if_neg hb]
    have z : matrix S G M x (3 * k + 2 * c) (3 * l + 2 * c') = 0 := by
      by_contra hne
      have := s2 (2 * c) k (2 * c') l hcc hcc' hk hne
      omega
    rw [z, sum_eq_zero, sub_zero]
    intro i hi
    by_contra hne
    have h1 := s1 (2 * c) k i hcc hk (right_ne_zero_of_mul (left_ne_zero_of_mul hne))
    have h2 := s3 (2 * c') i l hcc' (by omega) (right_ne_zero_of_mul hne)
    omega

theorem foldl_sub (L : List Nat) (f : Nat → ℝ) (s : ℝ) : L.foldl (fun s i => s - f i) s = s - (L.map f).sum := by
  induction L generalizing s with
  | nil => simp
  | cons i L ih =>
    rw [List.foldl_cons, ih, List.map_cons, List.sum_cons]
    ring

/-- The right hand side of the Schur complement. -/
theorem rhs_eq (V : Volumes S node edge) (f : Nat → ℝ) (c k : Nat) (hc : c < 2) (hk : k < S.levels) :
    schurRhs S.levels (3 * half S + 1) S.dt (store (3 * half S + 1) (jacobianUpdates S G M x)) f (2 * k + c) =
      f (3 * k + 2 * c) - ∑ i ∈ Ico 1 S.levels, S.dt * matrix S G M x (3 * k + 2 * c) (3 * i + 1) * f (3 * i + 1) := by
  obtain ⟨s1, s2, s3, s4⟩ := matrix_shape G M x V
  unfold schurRhs
  dsimp only
  rw [foldl_sub, show (2 * k + c) / 2 = k by omega, show (2 * k + c) % 2 = c by omega]
  congr 1
  rw [← edges_sum S.levels k]
  · congr 1
    apply List.map_congr_left
    intro i hi
    rw [mem_edges] at hi
    rw [get_toW G M x V c k i hc (by omega) (by omega)]
    rfl
  · intro i hi
    have := s1 (2 * c) k i (by omega) hk (right_ne_zero_of_mul (left_ne_zero_of_mul hi))
    omega

/-- Vertical velocity from the solution of the Schur complement. -/
theorem back_w (V : Volumes S node edge) (f z : Nat → ℝ) (i : Nat) (h1 : 1 ≤ i) (hi : i < S.levels) :
    backOut S.levels (half S) (3 * half S + 1) S.dt (store (3 * half S + 1) (jacobianUpdates S G M x)) f z (3 * i + 1) =
      S.dt * (f (3 * i + 1) - ∑ l ∈ range S.levels, (matrix S G M x (3 * i + 1) (3 * l) * z (2 * l) +
        matrix S G M x (3 * i + 1) (3 * l + 2) * z (2 * l + 1))) := by
  obtain ⟨s1, s2, s3, s4⟩ := matrix_shape G M x V
  unfold backOut
  dsimp only
  rw [if_pos (by omega), show (3 * i + 1) / 3 = i by omega, if_neg (by omega), if_neg (by omega)]
  have e : (fun (s : ℝ) (l : Nat) => s - S.dt * get (3 * half S + 1) (store (3 * half S + 1) (jacobianUpdates S G M x)) (full 0) l 1 i *
      z (vecS 0 l) - S.dt * get (3 * half S + 1) (store (3 * half S + 1) (jacobianUpdates S G M x)) (full 1) l 1 i * z (vecS 1 l)) =
      fun s l => s - (S.dt * get (3 * half S + 1) (store (3 * half S + 1) (jacobianUpdates S G M x)) (full 0) l 1 i *
      z (vecS 0 l) + S.dt * get (3 * half S + 1) (store (3 * half S + 1) (jacobianUpdates S G M x)) (full 1) l 1 i * z (vecS 1 l)) := by
    funext s l
    ring
  rw [e, foldl_sub, mul_sub, mul_sum, mul_comm (f _)]
  congr 1
  rw [← window_sum S.levels (half S) i]
  · congr 1
    apply List.map_congr_left
    intro l hl
    rw [mem_window] at hl
    rw [get_fromW G M x V i 0 l (by omega) (by omega) (by omega), get_fromW G M x V i 1 l (by omega) (by omega) (by omega)]
    unfold vecS
    rw [show 3 * l + 2 * 0 = 3 * l by omega, show 2 * l + 0 = 2 * l by omega, show 3 * l + 2 * 1 = 3 * l + 2 by omega]
    ring
  · intro l hl
    have hl := right_ne_zero_of_mul hl
    by_cases h0 : matrix S G M x (3 * i + 1) (3 * l) = 0
    · rw [h0, zero_mul, zero_add] at hl
      have := s3 2 i l (by omega) (by omega) (left_ne_zero_of_mul hl)
      omega
    · have := s3 0 i l (by omega) (by omega) h0
      omega

end Solve

end Verif.Schur
