/-
C25: the default patch layouts partition the grid.
-/
import Verif.Patch.PropsBox
import Verif.Num.ISqrtProps

namespace Verif.Patch

open Verif.Exchange (Res)

/-- A pairwise disjoint list of boxes is disjoint by index. -/
theorem disjoint_of_pairwise {boxes : List Box}
    (h : boxes.Pairwise fun x y => ∀ p a b, ¬ (x.contains p a b = true ∧ y.contains p a b = true)) :
    Disjoint boxes := by
  rintro n m p a b ⟨x, hx, cx⟩ ⟨y, hy, cy⟩
  obtain ⟨hn, ex⟩ := List.getElem?_eq_some_iff.1 hx
  obtain ⟨hm, ey⟩ := List.getElem?_eq_some_iff.1 hy
  rw [List.pairwise_iff_getElem] at h
  rcases Nat.lt_trichotomy n m with hlt | he | hgt
  · exact absurd ⟨by rw [ex]; exact cx, by rw [ey]; exact cy⟩ (h n m hn hm hlt p a b)
  · exact he
  · exact absurd ⟨by rw [ey]; exact cy, by rw [ex]; exact cx⟩ (h m n hm hn hgt p a b)

theorem boxBegin_zero (res d : Nat) (hd : 1 ≤ d) : boxBegin res d 0 = 0 := by
  unfold boxBegin; rw [if_neg (by omega), if_pos rfl]

theorem boxBegin_last (res d : Nat) : boxBegin res d d = res := by unfold boxBegin; rw [if_pos rfl]

theorem boxBegin_step (res d i : Nat) (hi : i < d) : boxBegin res d i ≤ boxBegin res d (i + 1) := by
  have hq : (i + 1) * (res / d) ≤ res :=
    Nat.le_trans (Nat.mul_le_mul_right _ (by omega)) (Nat.mul_div_le res d)
  have hs : (i + 1) * (res / d) = i * (res / d) + res / d := by ring
  unfold boxBegin
  generalize res / d = q at *
  rw [if_neg (show ¬ i = d by omega)]
  by_cases h0 : i = 0
  · rw [if_pos h0]; exact Nat.zero_le _
  · rw [if_neg h0, if_neg (show ¬ i + 1 = 0 by omega)]
    by_cases h1 : i + 1 = d
    · rw [if_pos h1]; omega
    · rw [if_neg h1]; omega

theorem boxBegin_mono (res d i j : Nat) (hj : j ≤ d) (h : i ≤ j) : boxBegin res d i ≤ boxBegin res d j := by
  induction j with
  | zero => rw [Nat.le_zero.1 h]
  | succ j ih =>
    rcases Nat.lt_or_ge i (j + 1) with h1 | h1
    · exact Nat.le_trans (ih (by omega) (by omega)) (boxBegin_step res d j (by omega))
    · rw [show i = j + 1 by omega]

/-- Every node lies in the range of some box. -/
theorem find_range (order res d : Nat) (hd : 1 ≤ d) (a : Int) (h0 : 0 ≤ a) (h1 : a < (order * res : Nat)) :
    ∃ i, i < d ∧ (order * boxBegin res d i : Nat) ≤ a ∧ a < (order * boxBegin res d (i + 1) : Nat) := by
  have key : ∀ k, k ≤ d → a < (order * boxBegin res d k : Nat) →
      ∃ i, i < k ∧ (order * boxBegin res d i : Nat) ≤ a ∧ a < (order * boxBegin res d (i + 1) : Nat) := by
    intro k
    induction k with
    | zero => intro _ h; rw [boxBegin_zero res d hd] at h; simp at h; omega
    | succ k ih =>
      intro hk h
      by_cases hc : a < (order * boxBegin res d k : Nat)
      · obtain ⟨i, hi, r⟩ := ih (by omega) hc
        exact ⟨i, by omega, r⟩
      · exact ⟨k, by omega, by omega, h⟩
  have h2 : a < (order * boxBegin res d d : Nat) := by rw [boxBegin_last]; exact h1
  obtain ⟨i, hi, r⟩ := key d (Nat.le_refl _) h2
  exact ⟨i, hi, r⟩

/-- The ranges of two boxes do not overlap. -/
theorem range_unique (order res d i j : Nat) (hi : i < d) (hj : j < d) (a : Int)
    (h1 : (order * boxBegin res d i : Nat) ≤ a) (h2 : a < (order * boxBegin res d (i + 1) : Nat))
    (h3 : (order * boxBegin res d j : Nat) ≤ a) (h4 : a < (order * boxBegin res d (j + 1) : Nat)) : i = j := by
  rcases Nat.lt_trichotomy i j with h | h | h
  · have := Nat.mul_le_mul_left order (boxBegin_mono res d (i + 1) j (by omega) (by omega)); omega
  · exact h
  · have := Nat.mul_le_mul_left order (boxBegin_mono res d (j + 1) i (by omega) (by omega)); omega

/-- Ranges stay inside the grid. -/
theorem range_inside (order res d i : Nat) (hi : i < d) (a : Int)
    (h1 : (order * boxBegin res d i : Nat) ≤ a) (h2 : a < (order * boxBegin res d (i + 1) : Nat)) :
    0 ≤ a ∧ a < (order * res : Nat) := by
  have := Nat.mul_le_mul_left order (boxBegin_mono res d (i + 1) d (by omega) (by omega))
  rw [boxBegin_last] at this
  omega

theorem make_contains {n l h a0 a1 b0 b1 p a b : Int} : (Box.make n l h a0 a1 b0 b1).contains p a b = true ↔
    p = n ∧ (a0 ≤ a ∧ a < a1) ∧ (b0 ≤ b ∧ b < b1) := by
  rw [contains_iff]
  obtain ⟨⟨h1, -, -⟩, ⟨h2, h3, h4, h5⟩, -⟩ := C60_ranges n l h a0 a1 b0 b1
  rw [h1, h2, h3, h4, h5]

theorem csBoxes_length (halo order res d : Nat) : (csBoxes halo order res d).length = 6 * (d * d) := by
  simp only [csBoxes, List.length_flatMap, List.length_map, List.length_range]
  simp [List.sum_replicate_nat]
  ring

theorem cartBoxes_length (halo order resA resB dA dB : Nat) :
    (cartBoxes halo order resA resB dA dB).length = dA * dB := by
  simp only [cartBoxes, List.length_flatMap, List.length_map, List.length_range]
  simp [List.sum_replicate_nat]

theorem cs_partition (halo order res d : Nat) (hd : 1 ≤ d) :
    Partition (csBoxes halo order res d) (CSNode (order * res)) := by
  constructor
  · apply disjoint_of_pairwise
    unfold csBoxes
    rw [List.pairwise_flatMap]
    constructor
    · intro n _
      rw [List.pairwise_flatMap]
      constructor
      · intro i _
        rw [List.pairwise_map]
        refine List.Pairwise.imp_of_mem ?_ (List.pairwise_lt_range (n := d))
        intro j j' hj hj' hlt p a b
        simp only [csBox, make_contains]
        rintro ⟨⟨_, _, h1⟩, ⟨_, _, h2⟩⟩
        have := range_unique order res d j j' (List.mem_range.1 hj) (List.mem_range.1 hj') b h1.1 h1.2 h2.1 h2.2
        omega
      · refine List.Pairwise.imp_of_mem ?_ (List.pairwise_lt_range (n := d))
        intro i i' hi hi' hlt x hx y hy p a b
        obtain ⟨j, _, rfl⟩ := List.mem_map.1 hx
        obtain ⟨j', _, rfl⟩ := List.mem_map.1 hy
        simp only [csBox, make_contains]
        rintro ⟨⟨_, h1, _⟩, ⟨_, h2, _⟩⟩
        have := range_unique order res d i i' (List.mem_range.1 hi) (List.mem_range.1 hi') a h1.1 h1.2 h2.1 h2.2
        omega
    · refine List.Pairwise.imp_of_mem ?_ (List.pairwise_lt_range (n := 6))
      intro n n' _ _ hlt x hx y hy p a b
      obtain ⟨i, _, hx⟩ := List.mem_flatMap.1 hx
      obtain ⟨j, _, rfl⟩ := List.mem_map.1 hx
      obtain ⟨i', _, hy⟩ := List.mem_flatMap.1 hy
      obtain ⟨j', _, rfl⟩ := List.mem_map.1 hy
      simp only [csBox, make_contains]
      rintro ⟨⟨h1, _, _⟩, ⟨h2, _, _⟩⟩
      omega
  · intro p a b
    constructor
    · rintro ⟨⟨p0, p1⟩, ⟨a0, a1⟩, ⟨b0, b1⟩⟩
      obtain ⟨i, hi, ri⟩ := find_range order res d hd a a0 a1
      obtain ⟨j, hj, rj⟩ := find_range order res d hd b b0 b1
      have hm : csBox halo order res d p.toNat i j ∈ csBoxes halo order res d := by
        unfold csBoxes
        refine List.mem_flatMap.2 ⟨p.toNat, List.mem_range.2 (by omega), List.mem_flatMap.2 ⟨i, List.mem_range.2 hi,
          List.mem_map.2 ⟨j, List.mem_range.2 hj, rfl⟩⟩⟩
      obtain ⟨n, hn⟩ := List.getElem?_of_mem hm
      refine ⟨n, _, hn, ?_⟩
      rw [csBox, make_contains]
      exact ⟨by omega, ri, rj⟩
    · rintro ⟨n, x, hx, c⟩
      have hm := List.mem_of_getElem? hx
      unfold csBoxes at hm
      obtain ⟨q, hq, hm⟩ := List.mem_flatMap.1 hm
      obtain ⟨i, hi, hm⟩ := List.mem_flatMap.1 hm
      obtain ⟨j, hj, rfl⟩ := List.mem_map.1 hm
      rw [csBox, make_contains] at c
      obtain ⟨c1, c2, c3⟩ := c
      have := List.mem_range.1 hq
      exact ⟨by omega, range_inside order res d i (List.mem_range.1 hi) a c2.1 c2.2,
        range_inside order res d j (List.mem_range.1 hj) b c3.1 c3.2⟩

theorem cart_partition (halo order resA resB dA dB : Nat) (hA : 1 ≤ dA) (hB : 1 ≤ dB) :
    Partition (cartBoxes halo order resA resB dA dB) (CartNode (order * resA) (order * resB)) := by
  constructor
  · apply disjoint_of_pairwise
    unfold cartBoxes
    rw [List.pairwise_flatMap]
    constructor
    · intro i _
      rw [List.pairwise_map]
      refine List.Pairwise.imp_of_mem ?_ (List.pairwise_lt_range (n := dB))
      intro j j' hj hj' hlt p a b
      simp only [cartBox, make_contains]
      rintro ⟨⟨_, _, h1⟩, ⟨_, _, h2⟩⟩
      have := range_unique order resB dB j j' (List.mem_range.1 hj) (List.mem_range.1 hj') b h1.1 h1.2 h2.1 h2.2
      omega
    · refine List.Pairwise.imp_of_mem ?_ (List.pairwise_lt_range (n := dA))
      intro i i' hi hi' hlt x hx y hy p a b
      obtain ⟨j, _, rfl⟩ := List.mem_map.1 hx
      obtain ⟨j', _, rfl⟩ := List.mem_map.1 hy
      simp only [cartBox, make_contains]
      rintro ⟨⟨_, h1, _⟩, ⟨_, h2, _⟩⟩
      have := range_unique order resA dA i i' (List.mem_range.1 hi) (List.mem_range.1 hi') a h1.1 h1.2 h2.1 h2.2
      omega
  · intro p a b
    constructor
    · rintro ⟨p0, ⟨a0, a1⟩, ⟨b0, b1⟩⟩
      obtain ⟨i, hi, ri⟩ := find_range order resA dA hA a a0 a1
      obtain ⟨j, hj, rj⟩ := find_range order resB dB hB b b0 b1
      have hm : cartBox halo order resA resB dA dB i j ∈ cartBoxes halo order resA resB dA dB := by
        unfold cartBoxes
        exact List.mem_flatMap.2 ⟨i, List.mem_range.2 hi, List.mem_map.2 ⟨j, List.mem_range.2 hj, rfl⟩⟩
      obtain ⟨n, hn⟩ := List.getElem?_of_mem hm
      refine ⟨n, _, hn, ?_⟩
      rw [cartBox, make_contains]
      exact ⟨by omega, ri, rj⟩
    · rintro ⟨n, x, hx, c⟩
      have hm := List.mem_of_getElem? hx
      unfold cartBoxes at hm
      obtain ⟨i, hi, hm⟩ := List.mem_flatMap.1 hm
      obtain ⟨j, hj, rfl⟩ := List.mem_map.1 hm
      rw [cartBox, make_contains] at c
      obtain ⟨c1, c2, c3⟩ := c
      exact ⟨c1, range_inside order resA dA i (List.mem_range.1 hi) a c2.1 c2.2,
        range_inside order resB dB j (List.mem_range.1 hj) b c3.1 c3.2⟩

/-- **C25 (cubed sphere).**  Whenever the default layout is accepted, every node of every panel is an interior node
of exactly one patch, and patches own nothing else. -/
theorem C25_cubed_sphere (rows done halo order res nPatch : Nat) (boxes : List Box)
    (h : csLayout rows done halo order res nPatch = .ok boxes) : Partition boxes (CSNode (order * res)) := by
  unfold csLayout at h
  split_ifs at h
  cases h
  exact cs_partition halo order res _ (by unfold csSplit; omega)

/-- **C25 (Cartesian).** -/
theorem C25_cartesian (rows done halo order resA resB : Nat) (nPatch : Int) (boxes : List Box)
    (h : cartLayout rows done halo order resA resB nPatch = .ok boxes) :
    Partition boxes (CartNode (order * resA) (order * resB)) := by
  unfold cartLayout at h
  split_ifs at h
  cases h
  exact cart_partition halo order resA resB _ 1 (by omega) (by omega)

example : csLayout 24 0 1 4 6 24 = .ok (csBoxes 1 4 6 2) := by
  unfold csLayout
  have : csSplit 24 = 2 := by decide
  rw [this]; simp [csBoxes_length]

example : cartLayout 3 0 1 4 6 5 3 = .ok (cartBoxes 1 4 6 5 3 1) := by
  unfold cartLayout; simp [cartBoxes_length]

/-- **C25 (acceptance, cubed sphere).**  With at least six rows and no more patches asked for than rows, the layout
is accepted on an empty grid exactly when the panel resolution divides evenly; it never writes past the rows; it
makes six times a square of patches, no more than asked for (unless fewer than six were), and that square is the
largest possible. -/
theorem C25_cubed_sphere_accepts (rows done halo order res nPatch : Nat) (h6 : 6 ≤ rows) (hr : nPatch ≤ rows)
    (hp : nPatch < 2 ^ 31) :
    csLayout rows done halo order res nPatch ≠ .ub ∧
    ((∃ boxes, csLayout rows done halo order res nPatch = .ok boxes) ↔ done = 0 ∧ res % csSplit nPatch = 0) ∧
    (∀ boxes, csLayout rows done halo order res nPatch = .ok boxes → boxes.length = 6 * csSplit nPatch ^ 2) ∧
    (6 ≤ nPatch → 6 * csSplit nPatch ^ 2 ≤ nPatch ∧ nPatch < 6 * (csSplit nPatch + 1) ^ 2) ∧
    (nPatch < 6 → csSplit nPatch = 1) := by
  obtain ⟨s1, s2⟩ := Num.C37_isqrt (nPatch / 6) (by omega)
  have hsmall : nPatch < 6 → csSplit nPatch = 1 := by
    intro h
    have : nPatch / 6 = 0 := by omega
    unfold csSplit; rw [this]; decide
  have hbig : 6 ≤ nPatch → csSplit nPatch = Num.isqrt (nPatch / 6) := by
    intro h
    unfold csSplit
    rw [Nat.max_eq_left]
    by_contra hc
    have h0 : Num.isqrt (nPatch / 6) = 0 := by omega
    rw [h0] at s2
    omega
  have hmul : csSplit nPatch * csSplit nPatch * 6 ≤ rows := by
    by_cases h : 6 ≤ nPatch
    · rw [hbig h]
      generalize Num.isqrt (nPatch / 6) * Num.isqrt (nPatch / 6) = q at *
      omega
    · rw [hsmall (by omega)]; omega
  have hrows : ¬ rows < (csBoxes halo order res (csSplit nPatch)).length := by
    rw [csBoxes_length]; omega
  refine ⟨?_, ?_, ?_, ?_, hsmall⟩
  · unfold csLayout
    split_ifs <;> simp
  · unfold csLayout
    split_ifs with h1 h2
    · simp; omega
    · simp; intro; omega
    · simp; omega
  · intro boxes h
    unfold csLayout at h
    split_ifs at h
    cases h
    rw [csBoxes_length]; ring
  · intro h
    rw [hbig h]
    have e1 : Num.isqrt (nPatch / 6) ^ 2 = Num.isqrt (nPatch / 6) * Num.isqrt (nPatch / 6) := by ring
    have e2 : (Num.isqrt (nPatch / 6) + 1) ^ 2 = (Num.isqrt (nPatch / 6) + 1) * (Num.isqrt (nPatch / 6) + 1) := by ring
    rw [e1, e2]
    generalize Num.isqrt (nPatch / 6) * Num.isqrt (nPatch / 6) = q at *
    generalize (Num.isqrt (nPatch / 6) + 1) * (Num.isqrt (nPatch / 6) + 1) = q' at *
    omega

example : csSplit 100 = 4 ∧ csSplit 5 = 1 := by decide

theorem boxBegin_even (res d i : Nat) (hd : res % d = 0) :
    boxBegin res d i = i * (res / d) := by
  unfold boxBegin
  split
  · next h => rw [h, Nat.mul_div_cancel' (Nat.dvd_of_mod_eq_zero hd)]
  · split
    · next h => rw [h]; simp
    · rfl

/-- **C25 (balance, cubed sphere).**  All patches have the same number of nodes in both directions. -/
theorem C25_cubed_sphere_balanced (rows done halo order res nPatch : Nat) (boxes : List Box)
    (h : csLayout rows done halo order res nPatch = .ok boxes) (x : Box) (hx : x ∈ boxes) :
    x.aInteriorWidth = (order * (res / csSplit nPatch) : Nat) ∧
    x.bInteriorWidth = (order * (res / csSplit nPatch) : Nat) := by
  unfold csLayout at h
  split_ifs at h with h1 h2 h3
  cases h
  unfold csBoxes at hx
  obtain ⟨q, hq, hm⟩ := List.mem_flatMap.1 hx
  obtain ⟨i, hi, hm⟩ := List.mem_flatMap.1 hm
  obtain ⟨j, hj, rfl⟩ := List.mem_map.1 hm
  have hi := List.mem_range.1 hi
  have hj := List.mem_range.1 hj
  have hd : res % csSplit nPatch = 0 := by omega
  obtain ⟨-, -, -, ⟨w1, w2⟩, -⟩ := C60_ranges (q : Int) 0 halo (order * boxBegin res (csSplit nPatch) i : Nat)
    (order * boxBegin res (csSplit nPatch) (i + 1) : Nat) (order * boxBegin res (csSplit nPatch) j : Nat)
    (order * boxBegin res (csSplit nPatch) (j + 1) : Nat)
  rw [csBox, w1, w2, boxBegin_even _ _ i hd, boxBegin_even _ _ (i + 1) hd,
    boxBegin_even _ _ j hd, boxBegin_even _ _ (j + 1) hd]
  push_cast
  constructor <;> ring

/-- **C25 (Cartesian, empty patches).**  The Cartesian layout only asks that the number of elements of the whole grid
be divisible by the number of patches, so it also accepts counts that do not divide the alpha resolution: on a 2 by 4
element grid eight patches are accepted, and the first has no node at all. -/
theorem C25_cartesian_unbalanced : ∃ boxes, cartLayout 8 0 1 4 2 4 8 = .ok boxes ∧ boxes.length = 8 ∧
    (∃ x, boxes[0]? = some x ∧ x.aInteriorWidth = 0) ∧ (∃ x, boxes[7]? = some x ∧ x.aInteriorWidth = 8) := by
  refine ⟨cartBoxes 1 4 2 4 8 1, ?_, by decide, ⟨Box.make 0 0 1 0 0 0 16, by decide, by decide⟩,
    ⟨Box.make 0 0 1 0 8 0 16, by decide, by decide⟩⟩
  unfold cartLayout
  simp [cartBoxes_length]

end Verif.Patch
