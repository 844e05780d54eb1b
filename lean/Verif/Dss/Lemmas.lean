import Verif.Dss.Model
import Verif.Dss.Spec
import Mathlib.Tactic.Ring
import Mathlib.Tactic.Linarith
import Mathlib.Tactic.Tauto

namespace Verif.Dss

/-- Array with its two directions exchanged. -/
def tr (u : Field) : Field := fun i j => u j i

@[simp] theorem tr_tr (u : Field) : tr (tr u) = u := rfl

theorem put_at (u : Field) (i j : Int) (v : ℝ) (a b : Int) :
    put u i j v a b = if a = i ∧ b = j then v else u a b := rfl

theorem pairA_at (iA j : Int) (u : Field) (a b : Int) :
    pairA iA j u a b =
      if b = j ∧ (a = iA ∨ a = iA - 1) then (u iA j + u (iA - 1) j) / 2 else u a b := by
  unfold pairA
  simp only [put_at]
  by_cases hb : b = j
  · by_cases h1 : a = iA
    · have : ¬ (a = iA - 1) := by omega
      simp only [h1, hb, true_and, and_true, true_or, if_true]
      rw [if_neg (by omega)]; ring
    · by_cases h2 : a = iA - 1
      · simp only [h2, hb, true_and, and_true, or_true, if_true]; ring
      · simp [h1, h2, hb]
  · simp [hb]

theorem pairB_tr (iB i : Int) (u : Field) : tr (pairB iB i u) = pairA iB i (tr u) := by
  funext a b
  simp only [tr, pairB, pairA, put_at, and_comm]

theorem loop_tr (lo hi : Int) (f g : Int → Field → Field)
    (h : ∀ n u, tr (f n u) = g n (tr u)) (u : Field) :
    tr (loop lo hi f u) = loop lo hi g (tr u) := by
  unfold loop
  generalize (hi - lo).toNat = m
  induction m with
  | zero => rfl
  | succ m ih =>
    rw [List.range_succ, List.foldl_append, List.foldl_append]
    simp only [List.foldl_cons, List.foldl_nil, h, ih]

/-- One column pair averaged over a range of rows. -/
theorem edge_at (iA lo hi : Int) (u : Field) (i j : Int) :
    loop lo hi (pairA iA) u i j =
      if lo ≤ j ∧ j < hi ∧ (i = iA ∨ i = iA - 1)
      then (u iA j + u (iA - 1) j) / 2 else u i j := by
  have key : ∀ m : Nat, ∀ i j,
      (List.range m).foldl (fun v (n : Nat) => pairA iA (lo + n) v) u i j =
      if lo ≤ j ∧ j < lo + m ∧ (i = iA ∨ i = iA - 1)
      then (u iA j + u (iA - 1) j) / 2 else u i j := by
    intro m
    induction m with
    | zero =>
      intro i j
      rw [if_neg (by intro h; have := h.1; have := h.2.1; simp at *; omega)]; rfl
    | succ m ih =>
      intro i j
      rw [List.range_succ, List.foldl_append]
      simp only [List.foldl_cons, List.foldl_nil]
      rw [pairA_at]
      by_cases hj : j = lo + m
      · subst hj
        have e : ∀ a, (List.range m).foldl (fun v (n : Nat) => pairA iA (lo + n) v) u a
            (lo + m) = u a (lo + m) := by
          intro a; rw [ih, if_neg (by intro h; have := h.2.1; omega)]
        rw [e, e, e]
        by_cases hi : i = iA ∨ i = iA - 1
        · rw [if_pos ⟨rfl, hi⟩, if_pos ⟨by omega, by push_cast; omega, hi⟩]
        · rw [if_neg (fun h => hi h.2), if_neg (fun h => hi h.2.2)]
      · rw [if_neg (fun h => hj h.1), ih]
        by_cases hc : lo ≤ j ∧ j < lo + m ∧ (i = iA ∨ i = iA - 1)
        · rw [if_pos hc, if_pos ⟨hc.1, by push_cast; omega, hc.2.2⟩]
        · rw [if_neg hc, if_neg (by
            intro h; apply hc; refine ⟨h.1, ?_, h.2.2⟩
            have := h.2.1; push_cast at this; omega)]
  unfold loop
  rw [key]
  by_cases hc : lo ≤ j ∧ j < hi ∧ (i = iA ∨ i = iA - 1)
  · rw [if_pos hc, if_pos ⟨hc.1, by omega, hc.2.2⟩]
  · rw [if_neg hc, if_neg (by
      intro h; apply hc; exact ⟨h.1, by omega, h.2.2⟩)]

theorem apart {p a b c : Int} (hp : 0 < p) (h : a * p = b * p + c)
    (h1 : -p < c) (h2 : c < p) : a = b ∧ c = 0 := by
  have hab : a = b := by
    by_contra hne
    rcases lt_or_gt_of_ne hne with hlt | hgt
    · have : (b - a) * p ≥ 1 * p := by
        apply mul_le_mul_of_nonneg_right <;> omega
      nlinarith
    · have : (a - b) * p ≥ 1 * p := by
        apply mul_le_mul_of_nonneg_right <;> omega
      nlinarith
  subst hab
  exact ⟨rfl, by linarith⟩

theorem emod_eq (p a c : Int) (h0 : 0 ≤ c) (hc : c < p) : (a * p + c) % p = c := by
  rw [Int.add_comm, Int.mul_comm, Int.add_mul_emod_self_left]
  exact Int.emod_eq_of_lt h0 hc

theorem twin_first (p a : Int) (hp : 2 ≤ p) : twin p (a * p) = a * p - 1 := by
  unfold twin
  rw [if_pos (by simp)]

theorem twin_last (p a : Int) (hp : 2 ≤ p) : twin p (a * p - 1) = a * p := by
  have e : a * p - 1 = (a - 1) * p + (p - 1) := by ring
  unfold twin
  rw [e, emod_eq p _ _ (by omega) (by omega), if_neg (by omega), if_pos rfl]
  ring

theorem twin_cases (p g : Int) (hp : 2 ≤ p) :
    (∃ a, g = a * p ∧ twin p g = g - 1) ∨ (∃ a, g = a * p - 1 ∧ twin p g = g + 1) ∨
      (twin p g = g ∧ ∀ a, g ≠ a * p ∧ g ≠ a * p - 1) := by
  have hd := Int.emod_add_mul_ediv g p
  by_cases h0 : g % p = 0
  · left; exact ⟨g / p, by rw [h0] at hd; linarith [mul_comm p (g / p)], by simp [twin, h0]⟩
  · by_cases h1 : g % p = p - 1
    · right; left
      refine ⟨g / p + 1, ?_, ?_⟩
      · rw [h1] at hd; linarith [mul_comm p (g / p), add_mul (g / p) 1 p]
      · simp only [twin, if_neg h0, if_pos h1]
    · right; right
      refine ⟨by simp only [twin, if_neg h0, if_neg h1], fun a => ⟨?_, ?_⟩⟩
      · intro e; apply h0; rw [e]; simp
      · intro e; apply h1
        have : g = (a - 1) * p + (p - 1) := by rw [e]; ring
        rw [this]; exact emod_eq p _ _ (by omega) (by omega)

theorem twin_twin (p g : Int) (hp : 2 ≤ p) : twin p (twin p g) = g := by
  rcases twin_cases p g hp with ⟨a, h, e⟩ | ⟨a, h, e⟩ | ⟨e, _⟩
  · rw [e, h, twin_last p a hp]
  · rw [e, h, show a * p - 1 + 1 = a * p by ring, twin_first p a hp]
  · rw [e, e]

theorem twin_shift (p g e : Int) : twin p (g + e * p) = twin p g + e * p := by
  unfold twin
  rw [show (g + e * p) % p = g % p by simp]
  split_ifs <;> ring

open Classical in
/-- A family of column pairs averaged over the same rows. -/
theorem edges_at (p h lo hi aLo aHi : Int) (hp : 2 ≤ p) (u : Field) (i j : Int) :
    loop aLo aHi (fun a => loop lo hi (pairA (a * p + h))) u i j =
      if lo ≤ j ∧ j < hi ∧ (∃ a, aLo ≤ a ∧ a < aHi ∧ (i - h = a * p ∨ i - h = a * p - 1))
      then (u i j + u (twin p (i - h) + h) j) / 2 else u i j := by
  have key : ∀ m : Nat, ∀ i j,
      (List.range m).foldl (fun v (n : Nat) =>
        loop lo hi (pairA ((aLo + n) * p + h)) v) u i j =
      if lo ≤ j ∧ j < hi ∧ (∃ a, aLo ≤ a ∧ a < aLo + m ∧ (i - h = a * p ∨ i - h = a * p - 1))
      then (u i j + u (twin p (i - h) + h) j) / 2 else u i j := by
    intro m
    induction m with
    | zero =>
      intro i j
      rw [if_neg]
      · rfl
      · rintro ⟨_, _, a, h1, h2, _⟩
        simp at h2; omega
    | succ m ih =>
      intro i j
      rw [List.range_succ, List.foldl_append]
      simp only [List.foldl_cons, List.foldl_nil]
      rw [edge_at]
      have fresh : ∀ i', (i' - h = (aLo + m) * p ∨ i' - h = (aLo + m) * p - 1) →
          (List.range m).foldl (fun v (n : Nat) =>
            loop lo hi (pairA ((aLo + n) * p + h)) v) u i' j = u i' j := by
        intro i' hi'
        rw [ih, if_neg]
        rintro ⟨_, _, a, h1, h2, h3⟩
        have : a = aLo + m := by
          rcases h3 with h3 | h3 <;> rcases hi' with h4 | h4
          · exact (apart (p := p) (c := 0) (by omega) (by linarith) (by omega) (by omega)).1
          · exact (apart (p := p) (c := -1) (by omega) (by linarith) (by omega) (by omega)).1
          · exact (apart (p := p) (c := 1) (by omega) (by linarith) (by omega) (by omega)).1
          · exact (apart (p := p) (c := 0) (by omega) (by linarith) (by omega) (by omega)).1
        omega
      by_cases hnow : i - h = (aLo + m) * p ∨ i - h = (aLo + m) * p - 1
      · by_cases hj : lo ≤ j ∧ j < hi
        · rw [if_pos ⟨hj.1, hj.2, by omega⟩,
            if_pos ⟨hj.1, hj.2, aLo + m, by omega, by push_cast; omega, hnow⟩,
            fresh _ (Or.inl (by omega)), fresh _ (Or.inr (by omega))]
          rcases hnow with e | e
          · rw [e, twin_first p _ hp, show i = (aLo + m) * p + h by omega,
              show (aLo + m) * p - 1 + h = (aLo + m) * p + h - 1 by ring]
          · rw [e, twin_last p _ hp, show i = (aLo + m) * p + h - 1 by omega]
            ring
        · rw [if_neg (fun hh => hj ⟨hh.1, hh.2.1⟩), if_neg (fun hh => hj ⟨hh.1, hh.2.1⟩)]
          exact fresh i hnow
      · rw [if_neg (by intro hh; apply hnow; have := hh.2.2; omega), ih]
        by_cases hc : lo ≤ j ∧ j < hi ∧
            (∃ a, aLo ≤ a ∧ a < aLo + m ∧ (i - h = a * p ∨ i - h = a * p - 1))
        · rw [if_pos hc]
          obtain ⟨h1, h2, a, h3, h4, h5⟩ := hc
          rw [if_pos ⟨h1, h2, a, h3, by push_cast; omega, h5⟩]
        · rw [if_neg hc, if_neg]
          rintro ⟨h1, h2, a, h3, h4, h5⟩
          apply hc
          refine ⟨h1, h2, a, h3, ?_, h5⟩
          by_contra hge
          have : a = aLo + m := by push_cast at h4; omega
          subst this
          exact hnow h5
  unfold loop
  have := key (aHi - aLo).toNat i j
  unfold loop at this
  rw [this]
  by_cases hc : lo ≤ j ∧ j < hi ∧
      (∃ a, aLo ≤ a ∧ a < aHi ∧ (i - h = a * p ∨ i - h = a * p - 1))
  · rw [if_pos hc]
    obtain ⟨h1, h2, a, h3, h4, h5⟩ := hc
    rw [if_pos ⟨h1, h2, a, h3, by omega, h5⟩]
  · rw [if_neg hc, if_neg]
    rintro ⟨h1, h2, a, h3, h4, h5⟩
    exact hc ⟨h1, h2, a, h3, by omega, h5⟩

/-- The local number of the other copy. -/
def Patch.twin (P : Patch) (i : Int) : Int := Dss.twin P.order (i - P.halo) + P.halo

/-- The nodes of the patch and one ring of the halo around them. -/
def Patch.Reach (P : Patch) (i j : Int) : Prop :=
  P.halo - 1 ≤ i ∧ i < P.endA + 1 ∧ P.halo - 1 ≤ j ∧ j < P.endB + 1

/-- The two by two blocks of nodes around the corners with no neighbour. -/
def Patch.Block (P : Patch) (i j : Int) : Prop :=
  (P.noBottomLeft = true ∧ i ≤ P.halo ∧ j ≤ P.halo) ∨
  (P.noTopLeft = true ∧ i ≤ P.halo ∧ P.endB - 1 ≤ j) ∨
  (P.noBottomRight = true ∧ P.endA - 1 ≤ i ∧ j ≤ P.halo) ∨
  (P.noTopRight = true ∧ P.endA - 1 ≤ i ∧ P.endB - 1 ≤ j)

/-- The patch with its two directions exchanged. -/
def Patch.swap (P : Patch) : Patch :=
  { P with elemA := P.elemB, elemB := P.elemA, noTopLeft := P.noBottomRight,
           noBottomRight := P.noTopLeft }

theorem Patch.reach_swap (P : Patch) (i j : Int) : P.swap.Reach i j ↔ P.Reach j i := by
  simp only [Patch.Reach, Patch.swap, Patch.endA, Patch.endB]; omega

theorem Patch.block_swap (P : Patch) (i j : Int) : P.swap.Block i j ↔ P.Block j i := by
  simp only [Patch.Block, Patch.swap, Patch.endA, Patch.endB]; tauto

theorem width (e p : Int) (he : 1 ≤ e) (hp : 2 ≤ p) : p ≤ e * p := by nlinarith

/-- `Patch.twin` by cases inside the reach. -/
theorem Patch.twin_cases (P : Patch) (hp : 2 ≤ P.order) (i : Int) (h1 : P.halo - 1 ≤ i)
    (h2 : i < P.endA + 1) :
    (∃ a, 0 ≤ a ∧ a ≤ P.elemA ∧ i - P.halo = a * P.order ∧ P.twin i = i - 1) ∨
    (∃ a, 0 ≤ a ∧ a ≤ P.elemA ∧ i - P.halo = a * P.order - 1 ∧ P.twin i = i + 1) ∨
    (P.twin i = i ∧ ∀ a, i - P.halo ≠ a * P.order ∧ i - P.halo ≠ a * P.order - 1) := by
  unfold Patch.endA at h2
  have range : ∀ a c : Int, i - P.halo = a * P.order - c → 0 ≤ c → c ≤ 1 →
      0 ≤ a ∧ a ≤ P.elemA := by
    intro a c e c0 c1
    constructor
    · by_contra hneg
      have : a * P.order ≤ (-1) * P.order :=
        mul_le_mul_of_nonneg_right (by omega) (by omega)
      omega
    · by_contra hneg
      have : (P.elemA + 1) * P.order ≤ a * P.order :=
        mul_le_mul_of_nonneg_right (by omega) (by omega)
      have e2 : (P.elemA + 1) * P.order = P.elemA * P.order + P.order := by ring
      omega
  unfold Patch.twin
  rcases Dss.twin_cases P.order (i - P.halo) hp with ⟨a, e, t⟩ | ⟨a, e, t⟩ | ⟨t, e⟩
  · left
    obtain ⟨r1, r2⟩ := range a 0 (by omega) (by omega) (by omega)
    exact ⟨a, r1, r2, e, by omega⟩
  · right; left
    obtain ⟨r1, r2⟩ := range a 1 (by omega) (by omega) (by omega)
    exact ⟨a, r1, r2, e, by omega⟩
  · right; right
    exact ⟨by omega, e⟩

theorem Patch.twin_twin (P : Patch) (hp : 2 ≤ P.order) (i : Int) : P.twin (P.twin i) = i := by
  unfold Patch.twin
  rw [show Dss.twin P.order (i - P.halo) + P.halo - P.halo = Dss.twin P.order (i - P.halo) by ring,
    Dss.twin_twin _ _ hp]
  ring

theorem Patch.twin_reach (P : Patch) (hp : 2 ≤ P.order) (hA : 1 ≤ P.elemA) (i j : Int) (h : P.Reach i j) :
    P.Reach (P.twin i) j := by
  have hw := width P.elemA P.order hA hp
  obtain ⟨h1, h2, h3, h4⟩ := h
  rcases P.twin_cases hp i h1 h2 with ⟨a, a0, a1, e, t⟩ | ⟨a, a0, a1, e, t⟩ | ⟨t, _⟩
  · rw [t]
    have : 0 ≤ a * P.order := mul_nonneg a0 (by omega)
    exact ⟨by omega, by omega, h3, h4⟩
  · rw [t]
    have : a * P.order ≤ P.elemA * P.order := mul_le_mul_of_nonneg_right a1 (by omega)
    unfold Patch.endA at h2
    exact ⟨by omega, by unfold Patch.endA; omega, h3, h4⟩
  · rw [t]; exact ⟨h1, h2, h3, h4⟩

theorem Patch.twin_block (P : Patch) (hp : 2 ≤ P.order) (hA : 1 ≤ P.elemA) (i j : Int)
    (h : P.Reach i j) : P.Block (P.twin i) j ↔ P.Block i j := by
  have hw := width P.elemA P.order hA hp
  obtain ⟨h1, h2, h3, h4⟩ := h
  have key : ∀ i, P.halo - 1 ≤ i → i < P.endA + 1 →
      (i ≤ P.halo → P.twin i ≤ P.halo) ∧ (P.endA - 1 ≤ i → P.endA - 1 ≤ P.twin i) := by
    intro i h1 h2
    unfold Patch.endA at *
    rcases P.twin_cases hp i h1 h2 with ⟨a, a0, a1, e, t⟩ | ⟨a, a0, a1, e, t⟩ | ⟨t, _⟩
    · refine ⟨by omega, fun hi => ?_⟩
      rw [t]
      have : P.elemA = a := by
        refine (apart (c := P.elemA * P.order - a * P.order) (p := P.order) (by omega) (by ring)
          ?_ ?_).1 <;>
        have : a * P.order ≤ P.elemA * P.order := mul_le_mul_of_nonneg_right a1 (by omega) <;>
        omega
      subst this; omega
    · refine ⟨fun hi => ?_, by omega⟩
      rw [t]
      have : a = 0 := by
        have h0 : 0 ≤ a * P.order := mul_nonneg a0 (by omega)
        exact (apart (c := a * P.order) (b := 0) (p := P.order) (by omega) (by ring)
          (by omega) (by omega)).1
      subst this; omega
    · rw [t]; exact ⟨id, id⟩
  have back := key (P.twin i) (by have := P.twin_reach hp hA i j ⟨h1, h2, h3, h4⟩; exact this.1)
    (by have := P.twin_reach hp hA i j ⟨h1, h2, h3, h4⟩; exact this.2.1)
  rw [P.twin_twin hp] at back
  have l : P.twin i ≤ P.halo ↔ i ≤ P.halo := ⟨back.1, (key i h1 h2).1⟩
  have r : P.endA - 1 ≤ P.twin i ↔ P.endA - 1 ≤ i := ⟨back.2, (key i h1 h2).2⟩
  unfold Patch.Block
  rw [l, r]

open Classical in
/-- The alpha pass, node by node. -/
theorem alpha_at (P : Patch) (hp : 2 ≤ P.order) (hA : 1 ≤ P.elemA) (hB : 1 ≤ P.elemB)
    (u : Field) (i j : Int) :
    alphaPass P u i j =
      if P.Reach i j ∧ ¬ P.Block i j then (u i j + u (P.twin i) j) / 2 else u i j := by
  have hw := width P.elemA P.order hA hp
  have hv := width P.elemB P.order hB hp
  have skips : ∀ b, skip b = 0 ∧ b = false ∨ skip b = 2 ∧ b = true := by
    intro b; cases b <;> simp [skip]
  have inner : ∀ i', (i' = P.halo ∨ i' = P.halo - 1 ∨ i' = P.elemA * P.order + P.halo ∨
      i' = P.elemA * P.order + P.halo - 1) →
      ¬ ∃ a, 1 ≤ a ∧ a < P.elemA ∧ (i' - P.halo = a * P.order ∨ i' - P.halo = a * P.order - 1) := by
    rintro i' hi' ⟨a, a0, a1, e⟩
    have l1 : 1 * P.order ≤ a * P.order := mul_le_mul_of_nonneg_right a0 (by omega)
    have l2 : (a + 1) * P.order ≤ P.elemA * P.order :=
      mul_le_mul_of_nonneg_right (by omega) (by omega)
    rw [add_mul] at l2
    omega
  have e1 := edges_at P.order P.halo (P.beginning - 1) (P.endB + 1) 1 P.elemA hp u
  unfold alphaPass
  generalize loop 1 P.elemA (fun a => loop (P.beginning - 1) (P.endB + 1)
    (pairA (a * P.order + P.halo))) u = u1 at e1 ⊢
  have e2 := edge_at P.halo (P.beginning - 1 + skip P.noBottomLeft) (P.endB + 1 - skip P.noTopLeft)
    u1
  generalize loop (P.beginning - 1 + skip P.noBottomLeft) (P.endB + 1 - skip P.noTopLeft)
    (pairA P.halo) u1 = u2 at e2 ⊢
  have raw1 : ∀ i' j', (i' = P.halo ∨ i' = P.halo - 1 ∨ i' = P.elemA * P.order + P.halo ∨
      i' = P.elemA * P.order + P.halo - 1) → u1 i' j' = u i' j' := by
    intro i' j' hi'
    rw [e1, if_neg (fun hh => inner i' hi' hh.2.2)]
  rw [edge_at]
  unfold Patch.beginning at *
  by_cases hR : i = P.elemA * P.order + P.halo ∨ i = P.elemA * P.order + P.halo - 1
  · have fresh : ∀ i', (i' = P.elemA * P.order + P.halo ∨ i' = P.elemA * P.order + P.halo - 1) →
        u2 i' j = u i' j := by
      intro i' hi'
      rw [e2, if_neg (fun hh => by have := hh.2.2; omega), raw1 _ _ (by omega)]
    rw [fresh _ (Or.inl rfl), fresh _ (Or.inr rfl), fresh _ hR]
    have c : (P.halo - 1 + skip P.noBottomRight ≤ j ∧ j < P.endB + 1 - skip P.noTopRight ∧
        (i = P.elemA * P.order + P.halo ∨ i = P.elemA * P.order + P.halo - 1)) ↔
        (P.Reach i j ∧ ¬ P.Block i j) := by
      unfold Patch.Reach Patch.Block Patch.endA Patch.endB
      rcases skips P.noBottomRight with ⟨s1, s2⟩ | ⟨s1, s2⟩ <;>
      rcases skips P.noTopRight with ⟨s3, s4⟩ | ⟨s3, s4⟩ <;>
      rw [s1, s2, s3, s4] <;> simp <;> omega
    by_cases hc : P.Reach i j ∧ ¬ P.Block i j
    · rw [if_pos (c.mpr hc), if_pos hc]
      unfold Patch.twin
      rcases hR with e | e
      · rw [show i - P.halo = P.elemA * P.order by omega, twin_first _ _ hp, e,
          show P.elemA * P.order - 1 + P.halo = P.elemA * P.order + P.halo - 1 by ring]
      · rw [show i - P.halo = P.elemA * P.order - 1 by omega, twin_last _ _ hp, e]; ring
    · rw [if_neg (fun x => hc (c.mp x)), if_neg hc]
  · rw [if_neg (fun x => hR x.2.2), e2]
    by_cases hL : i = P.halo ∨ i = P.halo - 1
    · rw [raw1 _ _ (Or.inl rfl), raw1 (P.halo - 1) _ (by omega), raw1 i _ (by omega)]
      have c : (P.halo - 1 + skip P.noBottomLeft ≤ j ∧ j < P.endB + 1 - skip P.noTopLeft ∧
          (i = P.halo ∨ i = P.halo - 1)) ↔ (P.Reach i j ∧ ¬ P.Block i j) := by
        unfold Patch.Reach Patch.Block Patch.endA Patch.endB
        rcases skips P.noBottomLeft with ⟨s1, s2⟩ | ⟨s1, s2⟩ <;>
        rcases skips P.noTopLeft with ⟨s3, s4⟩ | ⟨s3, s4⟩ <;>
        rw [s1, s2, s3, s4] <;> simp <;> omega
      by_cases hc : P.Reach i j ∧ ¬ P.Block i j
      · rw [if_pos (c.mpr hc), if_pos hc]
        unfold Patch.twin
        rcases hL with e | e
        · rw [show i - P.halo = 0 * P.order by omega, twin_first _ _ hp, e,
            show 0 * P.order - 1 + P.halo = P.halo - 1 by ring]
        · rw [show i - P.halo = 0 * P.order - 1 by omega, twin_last _ _ hp, e,
            show 0 * P.order + P.halo = P.halo by ring]; ring
      · rw [if_neg (fun x => hc (c.mp x)), if_neg hc]
    · rw [if_neg (fun x => hL x.2.2), e1]
      have nb : P.Reach i j → ¬ P.Block i j := by
        unfold Patch.Reach Patch.Block Patch.endA; intro r; omega
      by_cases hr : P.Reach i j
      · rw [if_pos (show P.Reach i j ∧ ¬ P.Block i j from ⟨hr, nb hr⟩)]
        by_cases hc : ∃ a, 1 ≤ a ∧ a < P.elemA ∧
            (i - P.halo = a * P.order ∨ i - P.halo = a * P.order - 1)
        · rw [if_pos ⟨hr.2.2.1, hr.2.2.2, hc⟩]; rfl
        · rw [if_neg (fun x => hc x.2.2)]
          have : P.twin i = i := by
            have split : ∀ a, 0 ≤ a → a ≤ P.elemA →
                (i - P.halo = a * P.order ∨ i - P.halo = a * P.order - 1) → False := by
              intro a a0 a1 e
              by_cases z : a = 0
              · subst z; omega
              · by_cases z' : a = P.elemA
                · subst z'; omega
                · exact hc ⟨a, by omega, by omega, e⟩
            rcases P.twin_cases hp i hr.1 hr.2.1 with ⟨a, a0, a1, e, _⟩ | ⟨a, a0, a1, e, _⟩ | ⟨t, _⟩
            · exact (split a a0 a1 (Or.inl e)).elim
            · exact (split a a0 a1 (Or.inr e)).elim
            · exact t
          rw [this]; ring
      · rw [if_neg (fun x : P.Reach i j ∧ _ => hr x.1), if_neg]
        rintro ⟨x1, x2, a, a0, a1, e⟩
        apply hr
        have l1 : 1 * P.order ≤ a * P.order := mul_le_mul_of_nonneg_right a0 (by omega)
        have l2 : (a + 1) * P.order ≤ P.elemA * P.order :=
          mul_le_mul_of_nonneg_right (by omega) (by omega)
        rw [add_mul] at l2
        unfold Patch.Reach Patch.endA
        omega

theorem beta_swap (P : Patch) (u : Field) :
    betaPass P u = tr (alphaPass P.swap (tr u)) := by
  have : tr (betaPass P u) = alphaPass P.swap (tr u) := by
    unfold betaPass alphaPass
    simp only [Patch.swap, Patch.beginning, Patch.endA, Patch.endB]
    rw [loop_tr _ _ _ _ (fun n u => pairB_tr _ n u), loop_tr _ _ _ _ (fun n u => pairB_tr _ n u),
      loop_tr 1 P.elemB _ (fun a => loop (P.halo - 1) (P.halo + P.elemA * P.order + 1)
        (pairA (a * P.order + P.halo)))
        (fun b u => loop_tr _ _ _ _ (fun n u => pairB_tr _ n u) u)]
  rw [← this, tr_tr]

open Classical in
/-- The beta pass, node by node. -/
theorem beta_at (P : Patch) (hp : 2 ≤ P.order) (hA : 1 ≤ P.elemA) (hB : 1 ≤ P.elemB)
    (u : Field) (i j : Int) :
    betaPass P u i j =
      if P.Reach i j ∧ ¬ P.Block i j then (u i j + u i (P.twin j)) / 2 else u i j := by
  rw [beta_swap]
  show alphaPass P.swap (tr u) j i = _
  rw [alpha_at P.swap hp hB hA, P.reach_swap, P.block_swap]
  rfl

theorem Patch.twin_reach' (P : Patch) (hp : 2 ≤ P.order) (hB : 1 ≤ P.elemB) (i j : Int)
    (h : P.Reach i j) : P.Reach i (P.twin j) := by
  have := P.swap.twin_reach hp hB j i ((P.reach_swap j i).mpr h)
  exact (P.reach_swap _ _).mp this

theorem Patch.twin_block' (P : Patch) (hp : 2 ≤ P.order) (hB : 1 ≤ P.elemB) (i j : Int)
    (h : P.Reach i j) : P.Block i (P.twin j) ↔ P.Block i j := by
  have := P.swap.twin_block hp hB j i ((P.reach_swap j i).mpr h)
  rw [P.block_swap, P.block_swap] at this
  exact this

open Classical in
/-- Both passes, node by node. -/
theorem passes_at (P : Patch) (hp : 2 ≤ P.order) (hA : 1 ≤ P.elemA) (hB : 1 ≤ P.elemB)
    (u : Field) (i j : Int) :
    betaPass P (alphaPass P u) i j =
      if P.Reach i j ∧ ¬ P.Block i j then
        (u i j + u (P.twin i) j + u i (P.twin j) + u (P.twin i) (P.twin j)) / 4
      else u i j := by
  rw [beta_at P hp hA hB]
  by_cases hc : P.Reach i j ∧ ¬ P.Block i j
  · rw [if_pos hc, if_pos hc, alpha_at P hp hA hB, alpha_at P hp hA hB, if_pos hc,
      if_pos ⟨P.twin_reach' hp hB i j hc.1, fun b => hc.2 ((P.twin_block' hp hB i j hc.1).mp b)⟩]
    ring
  · rw [if_neg hc, if_neg hc, alpha_at P hp hA hB, if_neg hc]

/-- All four corner neighbours present. -/
def Patch.full (P : Patch) : Patch :=
  { P with noTopRight := false, noTopLeft := false, noBottomLeft := false,
           noBottomRight := false }

theorem Patch.full_block (P : Patch) (i j : Int) : ¬ P.full.Block i j := by
  simp [Patch.Block, Patch.full]

theorem cart_alpha (P : Patch) (hp : 2 ≤ P.order) (hA : 1 ≤ P.elemA) (hB : 1 ≤ P.elemB)
    (u : Field) :
    loop 0 (P.elemA + 1) (fun a => loop (P.beginning - 1) (P.endB + 1)
      (pairA (a * P.order + P.halo))) u = alphaPass P.full u := by
  classical
  have hw := width P.elemA P.order hA hp
  funext i j
  rw [edges_at _ _ _ _ _ _ hp, alpha_at P.full hp hA hB]
  by_cases hr : P.Reach i j
  · rw [if_pos (show P.full.Reach i j ∧ ¬ P.full.Block i j from ⟨hr, P.full_block i j⟩)]
    show _ = (u i j + u (P.twin i) j) / 2
    rcases P.twin_cases hp i hr.1 hr.2.1 with ⟨a, a0, a1, e, _⟩ | ⟨a, a0, a1, e, _⟩ | ⟨t, f⟩
    · rw [if_pos ⟨hr.2.2.1, hr.2.2.2, a, a0, by omega, Or.inl e⟩]; rfl
    · rw [if_pos ⟨hr.2.2.1, hr.2.2.2, a, a0, by omega, Or.inr e⟩]; rfl
    · rw [if_neg, t]
      · ring
      · rintro ⟨_, _, a, _, _, e⟩
        have := f a
        omega
  · rw [if_neg (fun x : P.full.Reach i j ∧ _ => hr x.1), if_neg]
    rintro ⟨x1, x2, a, a0, a1, e⟩
    apply hr
    have l1 : 0 * P.order ≤ a * P.order := mul_le_mul_of_nonneg_right a0 (by omega)
    have l2 : a * P.order ≤ P.elemA * P.order :=
      mul_le_mul_of_nonneg_right (by omega) (by omega)
    unfold Patch.beginning at x1
    unfold Patch.Reach Patch.endA
    omega

theorem cart_eq (P : Patch) (hp : 2 ≤ P.order) (hA : 1 ≤ P.elemA) (hB : 1 ≤ P.elemB)
    (u : Field) : dssCartesian P u = betaPass P.full (alphaPass P.full u) := by
  unfold dssCartesian
  simp only
  rw [cart_alpha P hp hA hB, beta_swap]
  have h := cart_alpha P.swap hp hB hA (tr (alphaPass P.full u))
  have h2 : P.full.swap = P.swap.full := rfl
  rw [h2, ← h]
  generalize alphaPass P.full u = v
  have : tr (loop 0 (P.elemB + 1) (fun b => loop (P.beginning - 1) (P.endA + 1)
      (pairB (b * P.order + P.halo))) v) =
      loop 0 (P.elemB + 1) (fun b => loop (P.beginning - 1) (P.endA + 1)
      (pairA (b * P.order + P.halo))) (tr v) :=
    loop_tr _ _ _ (fun b => loop (P.beginning - 1) (P.endA + 1)
      (pairA (b * P.order + P.halo)))
      (fun b u => loop_tr _ _ _ _ (fun n u => pairB_tr _ n u) u) v
  rw [← tr_tr (loop 0 (P.elemB + 1) _ v), this]
  rfl

end Verif.Dss
