/-
C132: what the other two vertical dynamics make of columns that elements share.
-/
import Verif.Schur.Copies
import Verif.Schur.CopiesSpec

namespace Verif.Schur

open Verif.Vdyn

/-! ### Lemmas -/

theorem at_eq (s : Sizes) (c i j k : Nat) : s.at c i j k = ((c * s.a + i) * s.b + j) * s.r + k := by
  unfold Sizes.at
  ring

theorem at_lt (s : Sizes) (n c i j k : Nat) (hc : c < n) (hi : i < s.a) (hj : j < s.b) (hk : k < s.r) :
    s.at c i j k < n * s.a * s.b * s.r := by
  rw [at_eq]
  have h1 : c * s.a + i < n * s.a := by nlinarith
  have h2 : (c * s.a + i) * s.b + j < n * s.a * s.b := by nlinarith
  nlinarith

theorem pair_inj {q a b a' b' : Nat} (hb : b < q) (hb' : b' < q) (h : a * q + b = a' * q + b') : a = a' ∧ b = b' := by
  have h1 : (a * q + b) / q = a := by
    rw [mul_comm, Nat.mul_add_div (by omega), Nat.div_eq_of_lt hb, add_zero]
  have h2 : (a' * q + b') / q = a' := by
    rw [mul_comm, Nat.mul_add_div (by omega), Nat.div_eq_of_lt hb', add_zero]
  have : a = a' := by rw [← h1, h, h2]
  subst this
  omega

theorem at_inj (s : Sizes) {c i j k c' i' j' k' : Nat} (hi : i < s.a) (hj : j < s.b) (hk : k < s.r) (hi' : i' < s.a) (hj' : j' < s.b)
    (hk' : k' < s.r) (h : s.at c i j k = s.at c' i' j' k') : c = c' ∧ i = i' ∧ j = j' ∧ k = k' := by
  rw [at_eq, at_eq] at h
  obtain ⟨h1, h2⟩ := pair_inj hk hk' h
  obtain ⟨h3, h4⟩ := pair_inj hj hj' h1
  obtain ⟨h5, h6⟩ := pair_inj hi hi' h3
  exact ⟨h5, h6, h4, h2⟩

theorem copies_none (size : Nat) (l : List (Nat × Nat)) (m : Nat → ℝ) :
    copies size m l = none ↔ ∃ ds ∈ l, size ≤ ds.1 ∨ size ≤ ds.2 := by
  induction l generalizing m with
  | nil => simp [copies]
  | cons a l ih =>
    obtain ⟨d, t⟩ := a
    unfold copies
    by_cases h : d < size ∧ t < size
    · rw [if_pos h, ih]
      simp only [List.mem_cons, exists_eq_or_imp]
      constructor
      · exact Or.inr
      · rintro (h' | h')
        · omega
        · exact h'
    · rw [if_neg h]
      simp only [List.mem_cons, exists_eq_or_imp, true_iff]
      left
      omega

/-- Copies from places that are not written to. -/
theorem copies_some (size : Nat) (l : List (Nat × Nat)) (m m' : Nat → ℝ) (h : copies size m l = some m')
    (hapart : ∀ a ∈ l, ∀ b ∈ l, a.2 ≠ b.1) (hsame : ∀ a ∈ l, ∀ b ∈ l, a.1 = b.1 → a.2 = b.2) :
    (∀ a ∈ l, m' a.1 = m a.2) ∧ ∀ x, (∀ a ∈ l, a.1 ≠ x) → m' x = m x := by
  induction l generalizing m with
  | nil =>
    simp only [copies, Option.some.injEq] at h
    subst h
    simp
  | cons a l ih =>
    obtain ⟨d, t⟩ := a
    unfold copies at h
    split_ifs at h
    obtain ⟨h1, h2⟩ := ih _ h (fun a ha b hb => hapart a (List.mem_cons_of_mem _ ha) b (List.mem_cons_of_mem _ hb))
      (fun a ha b hb => hsame a (List.mem_cons_of_mem _ ha) b (List.mem_cons_of_mem _ hb))
    constructor
    · intro a ha
      rcases List.mem_cons.1 ha with rfl | ha
      · by_cases he : ∃ b ∈ l, b.1 = d
        · obtain ⟨b, hb, rfl⟩ := he
          rw [h1 b hb, Function.update_of_ne (hapart b (List.mem_cons_of_mem _ hb) (b.1, t) (by simp))]
          rw [hsame b (List.mem_cons_of_mem _ hb) (b.1, t) (by simp) rfl]
        · push Not at he
          rw [h2 d he]
          simp
      · rw [h1 a ha, Function.update_of_ne (hapart a (List.mem_cons_of_mem _ ha) (d, t) (by simp))]
    · intro x hx
      rw [h2 x (fun a ha => hx a (List.mem_cons_of_mem _ ha)), Function.update_of_ne (hx (d, t) (by simp)).symm]

theorem mem_alphaEdges (B : Box) (p : Nat) (hB : B.Whole p) (x : Place) (h : x ∈ alphaEdges B p) :
    B.aBegin ≤ x.1 ∧ x.1 + 1 < B.aBegin + B.aWidth ∧ (x.1 - B.aBegin + 1) % p = 0 ∧ B.bBegin ≤ x.2 ∧ x.2 < B.bBegin + B.bWidth := by
  obtain ⟨hp, hA, hBw⟩ := hB
  unfold alphaEdges at h
  simp only [List.mem_flatMap, List.mem_map, List.mem_range, List.mem_range'_1] at h
  obtain ⟨a, ⟨ha1, ha2⟩, b, hb, j, hj, rfl⟩ := h
  have e1 : B.aWidth = p * (B.aWidth / p) := (Nat.mul_div_cancel' (Nat.dvd_of_mod_eq_zero hA)).symm
  have e2 : B.bWidth = p * (B.bWidth / p) := (Nat.mul_div_cancel' (Nat.dvd_of_mod_eq_zero hBw)).symm
  have hj' : j < p := by
    split_ifs at hj <;> omega
  have h1 : p ≤ a * p := Nat.le_mul_of_pos_left p (by omega)
  have h2 : (a + 1) * p ≤ p * (B.aWidth / p) := by
    rw [mul_comm]
    exact Nat.mul_le_mul_left p (by omega)
  have h3 : (b + 1) * p ≤ p * (B.bWidth / p) := by
    rw [mul_comm]
    exact Nat.mul_le_mul_left p (by omega)
  rw [add_mul, one_mul] at h2 h3
  refine ⟨by simp only; omega, by simp only; omega, ?_, by simp only; omega, by simp only; omega⟩
  simp only
  rw [show B.aBegin + a * p - 1 - B.aBegin + 1 = a * p by omega]
  exact Nat.mul_mod_left a p

theorem alphaEdges_all (B : Box) (p : Nat) (hB : B.Whole p) (hb1 : B.bWidth = p) (x : Place) (hx : B.Inside x)
    (h1 : (x.1 - B.aBegin + 1) % p = 0) (h2 : x.1 - B.aBegin + 1 < B.aWidth) : x ∈ alphaEdges B p := by
  obtain ⟨hp, hA, hBw⟩ := hB
  obtain ⟨x1, x2, x3, x4⟩ := hx
  unfold alphaEdges
  simp only [List.mem_flatMap, List.mem_map, List.mem_range, List.mem_range'_1]
  have e : x.1 - B.aBegin + 1 = p * ((x.1 - B.aBegin + 1) / p) := (Nat.mul_div_cancel' (Nat.dvd_of_mod_eq_zero h1)).symm
  have e1 : B.aWidth = p * (B.aWidth / p) := (Nat.mul_div_cancel' (Nat.dvd_of_mod_eq_zero hA)).symm
  have hlt : (x.1 - B.aBegin + 1) / p < B.aWidth / p := by
    by_contra hc
    have := Nat.mul_le_mul_left p (not_lt.1 hc)
    omega
  have hpos : 1 ≤ (x.1 - B.aBegin + 1) / p := by
    by_contra hc
    rw [Nat.eq_zero_of_not_pos hc] at e
    omega
  refine ⟨(x.1 - B.aBegin + 1) / p, ⟨hpos, lt_of_lt_of_le hlt (by
    generalize B.aWidth / p = q
    omega)⟩, 0, ?_, x.2 - B.bBegin, ?_, ?_⟩
  · rw [hb1, Nat.div_self (by omega)]
    omega
  · rw [hb1, Nat.div_self (by omega), if_pos rfl]
    omega
  · rw [mul_comm, ← e, zero_mul]
    ext <;> simp <;> omega

theorem betaEdges_one (B : Box) (p : Nat) (hp : 2 ≤ p) (hb1 : B.bWidth = p) : betaEdges B p = [] := by
  unfold betaEdges
  rw [hb1, Nat.div_self (by omega)]
  rfl

theorem alphaEdges_one (B : Box) (p : Nat) (hp : 2 ≤ p) (ha1 : B.aWidth = p) : alphaEdges B p = [] := by
  unfold alphaEdges
  rw [ha1, Nat.div_self (by omega)]
  rfl

/-- Where the number at an address comes from. -/
def trace (l : List (Nat × Nat)) : Nat → Nat :=
  l.foldl (fun f ds x => if x = ds.1 then f ds.2 else f x) id

theorem copies_trace (size : Nat) (l : List (Nat × Nat)) (h : ∀ ds ∈ l, ds.1 < size ∧ ds.2 < size) (m : Nat → ℝ) :
    copies size m l = some fun x => m (trace l x) := by
  have key : ∀ (l : List (Nat × Nat)) (f : Nat → Nat), (∀ ds ∈ l, ds.1 < size ∧ ds.2 < size) →
      copies size (fun x => m (f x)) l = some fun x => m (l.foldl (fun f ds x => if x = ds.1 then f ds.2 else f x) f x) := by
    intro l
    induction l with
    | nil =>
      intro f _
      rfl
    | cons a l ih =>
      intro f h
      unfold copies
      rw [if_pos (h a (by simp)), List.foldl_cons, ← ih _ fun ds hds => h ds (List.mem_cons_of_mem _ hds)]
      congr 1
      funext x
      by_cases hx : x = a.1
      · subst hx
        simp
      · rw [Function.update_of_ne hx, if_neg hx]
  exact key l id h

/-! ### Theorems -/

/-- **C132 (one element).**  In a patch of one element no column is shared and neither of the two copies anything. -/
theorem C132_single (s : Sizes) (B : Box) (p n : Nat) (cs : List Nat) (m : Nat → ℝ) (hp : 2 ≤ p) (hA : B.aWidth = p) (hB : B.bWidth = p) :
    schurShare s B p n cs m = some m ∧ secondShare s B p n cs m = some m ∧ Agree s B p cs m m := by
  refine ⟨?_, ?_, fun x hx c _ k _ => ?_⟩
  · unfold schurShare schurCopies
    rw [alphaEdges_one B p hp hA, betaEdges_one B p hp hB]
    rfl
  · unfold secondShare secondCopies
    rw [alphaEdges_one B p hp hA, betaEdges_one B p hp hB]
    rfl
  · obtain ⟨x1, x2, x3, x4⟩ := hx
    have e : ∀ b i, b ≤ i → i < b + p → standsFor b p p i = i := by
      intro b i h1 h2
      unfold standsFor
      rw [if_neg]
      rintro ⟨h3, h4⟩
      rw [Nat.mod_eq_of_lt h4] at h3
      omega
    unfold Box.owner
    rw [hA, hB, e _ _ x1 (by omega), e _ _ x3 (by omega)]

/-- **C132 (second version; partial).**  In a patch with one element in beta direction the second version stays in its arrays,
makes all copies of a shared column agree with the column that was stepped, and changes no other component and nothing outside
the interior.  Missing: more elements in beta direction, see `C132_second_false` and `C132_second_outside`; `VerticalDynamicsSchur`, see
`C132_schur_false` and `C132_schur_outside`. -/
theorem C132_second_partial (s : Sizes) (B : Box) (p n : Nat) (cs : List Nat) (hcs : ∀ c ∈ cs, c < n) (m : Nat → ℝ) (hB : B.Whole p)
    (hb : B.bWidth = p) (hs : Fits s B) :
    ∃ m', secondShare s B p n cs m = some m' ∧ Agree s B p cs m m' ∧
      ∀ x : Place, ∀ c k, x.1 < s.a → x.2 < s.b → k < s.r → ¬ (B.Inside x ∧ c ∈ cs) → number s m' c x k = number s m c x k := by
  obtain ⟨f1, f2, f3, f4⟩ := hs
  obtain ⟨hp, -, -⟩ := id hB
  have hl : secondCopies s B p cs = (alphaEdges B p).flatMap fun x => (List.range s.r).flatMap fun k => cs.map fun c =>
      (s.at c x.1 x.2 k, s.at c (x.1 + 1) x.2 k) := by
    unfold secondCopies
    rw [betaEdges_one B p hp hb]
    simp
  have hmem : ∀ ds ∈ secondCopies s B p cs, ∃ x ∈ alphaEdges B p, ∃ k < s.r, ∃ c ∈ cs,
      ds = (s.at c x.1 x.2 k, s.at c (x.1 + 1) x.2 k) := by
    intro ds hds
    rw [hl] at hds
    simp only [List.mem_flatMap, List.mem_map, List.mem_range] at hds
    obtain ⟨x, hx, k, hk, c, hc, rfl⟩ := hds
    exact ⟨x, hx, k, hk, c, hc, rfl⟩
  rcases hrun : secondShare s B p n cs m with _ | m'
  · exfalso
    unfold secondShare at hrun
    rw [copies_none] at hrun
    obtain ⟨ds, hds, h⟩ := hrun
    obtain ⟨x, hx, k, hk, c, hc, rfl⟩ := hmem ds hds
    obtain ⟨a1, a2, -, a4, a5⟩ := mem_alphaEdges B p hB x hx
    have b1 := at_lt s n c x.1 x.2 k (hcs c hc) (by omega) (by omega) hk
    have b2 := at_lt s n c (x.1 + 1) x.2 k (hcs c hc) (by omega) (by omega) hk
    simp only at h
    omega
  · obtain ⟨h1, h2⟩ := copies_some _ _ _ _ hrun (by
      intro a ha b hb' he
      obtain ⟨x, hx, k, hk, c, hc, rfl⟩ := hmem a ha
      obtain ⟨y, hy, l, hl, d, hd, rfl⟩ := hmem b hb'
      obtain ⟨a1, a2, a3, a4, a5⟩ := mem_alphaEdges B p hB x hx
      obtain ⟨b1, b2, b3, b4, b5⟩ := mem_alphaEdges B p hB y hy
      obtain ⟨-, e, -, -⟩ := at_inj s (by omega) (by omega) hk (by omega) (by omega) hl he
      rw [← e, show x.1 + 1 - B.aBegin + 1 = (x.1 - B.aBegin + 1) + 1 by omega, Nat.add_mod, a3, zero_add, Nat.mod_mod,
        Nat.mod_eq_of_lt (by omega)] at b3
      omega) (by
      intro a ha b hb' he
      obtain ⟨x, hx, k, hk, c, hc, rfl⟩ := hmem a ha
      obtain ⟨y, hy, l, hl, d, hd, rfl⟩ := hmem b hb'
      obtain ⟨a1, a2, a3, a4, a5⟩ := mem_alphaEdges B p hB x hx
      obtain ⟨b1, b2, b3, b4, b5⟩ := mem_alphaEdges B p hB y hy
      obtain ⟨rfl, e1, e2, rfl⟩ := at_inj s (by omega) (by omega) hk (by omega) (by omega) hl he
      simp only
      rw [e1, e2])
    refine ⟨m', rfl, fun x hx c hc k hk => ?_, fun x c k hx1 hx2 hk hno => ?_⟩
    · obtain ⟨x1, x2, x3, x4⟩ := id hx
      have ob : standsFor B.bBegin B.bWidth p x.2 = x.2 := by
        unfold standsFor
        rw [if_neg]
        rintro ⟨h3, h4⟩
        rw [Nat.mod_eq_of_lt (by omega)] at h3
        omega
      unfold number Box.owner
      simp only
      rw [ob]
      unfold standsFor
      by_cases h : (x.1 - B.aBegin + 1) % p = 0 ∧ x.1 - B.aBegin + 1 < B.aWidth
      · rw [if_pos h, ← at_eq, ← at_eq]
        refine h1 (s.at c x.1 x.2 k, s.at c (x.1 + 1) x.2 k) ?_
        rw [hl]
        simp only [List.mem_flatMap, List.mem_map, List.mem_range]
        exact ⟨x, alphaEdges_all B p hB hb x hx h.1 h.2, k, hk, c, hc, rfl⟩
      · rw [if_neg h, ← at_eq]
        apply h2
        intro a ha he
        obtain ⟨y, hy, l, hl', d, hd, rfl⟩ := hmem a ha
        obtain ⟨b1, b2, b3, b4, b5⟩ := mem_alphaEdges B p hB y hy
        obtain ⟨-, e1, -, -⟩ := at_inj s (by omega) (by omega) hl' (by omega) (by omega) hk he
        rw [e1] at b1 b2 b3
        exact h ⟨b3, by omega⟩
    · unfold number
      rw [← at_eq]
      apply h2
      intro a ha he
      obtain ⟨y, hy, l, hl', d, hd, rfl⟩ := hmem a ha
      obtain ⟨b1, b2, b3, b4, b5⟩ := mem_alphaEdges B p hB y hy
      obtain ⟨rfl, e1, e2, -⟩ := at_inj s (by omega) (by omega) hl' hx1 hx2 hk he
      exact hno ⟨⟨by omega, by omega, by omega, by omega⟩, hd⟩

theorem alphaEdges_two (B : Box) (p : Nat) (hB : B.Whole p) (h2 : p < B.aWidth) (hb : 0 < B.bWidth) : ∃ x, x ∈ alphaEdges B p := by
  obtain ⟨hp, hA, hBw⟩ := hB
  have e1 : B.aWidth = p * (B.aWidth / p) := (Nat.mul_div_cancel' (Nat.dvd_of_mod_eq_zero hA)).symm
  have e2 : B.bWidth = p * (B.bWidth / p) := (Nat.mul_div_cancel' (Nat.dvd_of_mod_eq_zero hBw)).symm
  have n1 : 2 ≤ B.aWidth / p := by
    by_contra hc
    have : p * (B.aWidth / p) ≤ p * 1 := Nat.mul_le_mul_left p (by omega)
    omega
  have n2 : 0 < B.bWidth / p := by
    by_contra hc
    rw [Nat.eq_zero_of_not_pos hc] at e2
    omega
  refine ⟨(B.aBegin + 1 * p - 1, B.bBegin + 0 * p + 0), ?_⟩
  unfold alphaEdges
  simp only [List.mem_flatMap, List.mem_map, List.mem_range, List.mem_range'_1]
  exact ⟨1, ⟨le_refl _, by omega⟩, 0, n2, 0, by split_ifs <;> omega, rfl⟩

theorem betaEdges_two (B : Box) (p : Nat) (hB : B.Whole p) (h2 : p < B.bWidth) (ha : 0 < B.aWidth) : ∃ x, x ∈ betaEdges B p := by
  obtain ⟨hp, hA, hBw⟩ := hB
  have e2 : B.bWidth = p * (B.bWidth / p) := (Nat.mul_div_cancel' (Nat.dvd_of_mod_eq_zero hBw)).symm
  have n2 : 2 ≤ B.bWidth / p := by
    by_contra hc
    have : p * (B.bWidth / p) ≤ p * 1 := Nat.mul_le_mul_left p (by omega)
    omega
  refine ⟨(B.aBegin, B.bBegin + 1 * p - 1), ?_⟩
  unfold betaEdges
  simp only [List.mem_flatMap, List.mem_map, List.mem_range'_1]
  exact ⟨1, ⟨le_refl _, by omega⟩, B.aBegin, ⟨le_refl _, by omega⟩, rfl⟩

theorem at_ge (s : Sizes) (n i j k : Nat) (hn : 1 ≤ n) (hi : s.a ≤ i) : n * s.a * s.b * s.r ≤ s.at (n - 1) i j k := by
  rw [at_eq]
  have h1 : n * s.a ≤ (n - 1) * s.a + i := by
    obtain ⟨q, rfl⟩ : ∃ q, n = q + 1 := ⟨n - 1, by omega⟩
    rw [Nat.add_sub_cancel, add_mul, one_mul]
    omega
  have h2 : n * s.a * s.b ≤ ((n - 1) * s.a + i) * s.b + j := (Nat.mul_le_mul_right _ h1).trans (Nat.le_add_right _ _)
  exact (Nat.mul_le_mul_right _ h2).trans (Nat.le_add_right _ _)

/-- **C132 (outside).**  With more levels than nodes in alpha direction, halo and all, `VerticalDynamicsSchur` leaves the array as soon as a
patch has two elements in either direction: in the last component that is copied, it reads beyond its end. -/
theorem C132_schur_outside (s : Sizes) (B : Box) (p n : Nat) (cs : List Nat) (m : Nat → ℝ) (hB : B.Whole p) (hn : 1 ≤ n)
    (hc : n - 1 ∈ cs) (hr : s.a < s.r) (hA : 0 < B.aWidth) (hBw : 0 < B.bWidth) (h2 : p < B.aWidth ∨ p < B.bWidth) :
    schurShare s B p n cs m = none := by
  unfold schurShare
  rw [copies_none]
  rcases h2 with h2 | h2
  · obtain ⟨x, hx⟩ := alphaEdges_two B p hB h2 hBw
    refine ⟨(s.at (n - 1) x.1 x.2 s.a, s.at (n - 1) s.a (x.1 + 1) x.2), ?_, Or.inr (at_ge s n _ _ _ hn (le_refl _))⟩
    unfold schurCopies
    simp only [List.mem_append, List.mem_flatMap, List.mem_map, List.mem_range]
    exact Or.inl ⟨x, hx, s.a, hr, n - 1, hc, rfl⟩
  · obtain ⟨x, hx⟩ := betaEdges_two B p hB h2 hA
    refine ⟨(s.at (n - 1) s.a x.1 x.2, s.at (n - 1) s.a x.1 (x.2 + 1)), ?_, Or.inr (at_ge s n _ _ _ hn (le_refl _))⟩
    unfold schurCopies
    simp only [List.mem_append, List.mem_flatMap, List.mem_map, List.mem_range]
    exact Or.inr ⟨x, hx, s.a, hr, n - 1, hc, rfl⟩

/-- **C132 (outside, second version).**  With more levels than nodes in alpha direction the second version writes beyond the end of
the array as soon as a patch has two elements in beta direction. -/
theorem C132_second_outside (s : Sizes) (B : Box) (p n : Nat) (cs : List Nat) (m : Nat → ℝ) (hB : B.Whole p) (hn : 1 ≤ n)
    (hc : n - 1 ∈ cs) (hr : s.a < s.r) (hA : 0 < B.aWidth) (h2 : p < B.bWidth) :
    secondShare s B p n cs m = none := by
  unfold secondShare
  rw [copies_none]
  obtain ⟨x, hx⟩ := betaEdges_two B p hB h2 hA
  refine ⟨(s.at (n - 1) s.a x.1 x.2, s.at (n - 1) x.1 (x.2 + 1) s.a), ?_, Or.inl (at_ge s n _ _ _ hn (le_refl _))⟩
  unfold secondCopies
  simp only [List.mem_append, List.mem_flatMap, List.mem_map, List.mem_range]
  exact Or.inr ⟨x, hx, s.a, hr, n - 1, hc, rfl⟩

/-- Two elements of four nodes side by side in alpha direction, a halo of one node, four levels. -/
def wide : Box := ⟨1, 8, 1, 4⟩
/-- Two elements in beta direction. -/
def deep : Box := ⟨1, 4, 1, 8⟩

/-- **C132 (not shared).**  `VerticalDynamicsSchur` does not make copies of a shared column agree, although all accesses are inside
the array: neither in alpha nor in beta direction. -/
theorem C132_schur_false : ∃ m m' : Nat → ℝ, schurShare ⟨10, 6, 4⟩ wide 4 5 [2, 3, 4] m = some m' ∧
    ¬ Agree ⟨10, 6, 4⟩ wide 4 [2, 3, 4] m m' ∧ ∃ w' : Nat → ℝ, schurShare ⟨6, 10, 4⟩ deep 4 5 [2, 3, 4] m = some w' ∧
    ¬ Agree ⟨6, 10, 4⟩ deep 4 [2, 3, 4] m w' := by
  refine ⟨fun a => a, _, copies_trace _ _ (by decide +kernel) _, ?_, _, copies_trace _ _ (by decide +kernel) _, ?_⟩
  · intro h
    have := h (4, 1) (by unfold Box.Inside wide; decide) 2 (by simp) 0 (by simp)
    unfold number at this
    have h' : trace (schurCopies ⟨10, 6, 4⟩ wide 4 [2, 3, 4]) (((2 * 10 + 4) * 6 + 1) * 4 + 0) =
        ((2 * 10 + (Box.owner wide 4 (4, 1)).1) * 6 + (Box.owner wide 4 (4, 1)).2) * 4 + 0 := Nat.cast_injective (R := ℝ) this
    revert h'
    decide +kernel
  · intro h
    have := h (1, 4) (by unfold Box.Inside deep; decide) 2 (by simp) 0 (by simp)
    unfold number at this
    have h' : trace (schurCopies ⟨6, 10, 4⟩ deep 4 [2, 3, 4]) (((2 * 6 + 1) * 10 + 4) * 4 + 0) =
        ((2 * 6 + (Box.owner deep 4 (1, 4)).1) * 10 + (Box.owner deep 4 (1, 4)).2) * 4 + 0 := Nat.cast_injective (R := ℝ) this
    revert h'
    decide +kernel

/-- **C132 (not shared, second version).**  With two elements in beta direction the second version does not make copies of a shared
column agree, and overwrites a column that is in no edge. -/
theorem C132_second_false : ∃ m m' : Nat → ℝ, secondShare ⟨6, 10, 4⟩ deep 4 5 [2, 3, 4] m = some m' ∧
    ¬ Agree ⟨6, 10, 4⟩ deep 4 [2, 3, 4] m m' ∧
    ∃ x, deep.Inside x ∧ deep.owner 4 x = x ∧ (∀ y, deep.owner 4 y = x → y = x) ∧ number ⟨6, 10, 4⟩ m' 2 x 0 ≠ number ⟨6, 10, 4⟩ m 2 x 0 := by
  refine ⟨fun a => a, _, copies_trace _ _ (by decide +kernel) _, ?_, (1, 2), by unfold Box.Inside deep; decide, by decide, ?_, ?_⟩
  · intro h
    have := h (1, 4) (by unfold Box.Inside deep; decide) 2 (by simp) 0 (by simp)
    unfold number at this
    have h' : trace (secondCopies ⟨6, 10, 4⟩ deep 4 [2, 3, 4]) (((2 * 6 + 1) * 10 + 4) * 4 + 0) =
        ((2 * 6 + (Box.owner deep 4 (1, 4)).1) * 10 + (Box.owner deep 4 (1, 4)).2) * 4 + 0 := Nat.cast_injective (R := ℝ) this
    revert h'
    decide +kernel
  · rintro ⟨y1, y2⟩ h
    unfold Box.owner standsFor deep at h
    simp only [Prod.mk.injEq] at h
    obtain ⟨h1, h2⟩ := h
    split_ifs at h1 h2 <;> ext <;> simp <;> omega
  · intro h
    have h' : trace (secondCopies ⟨6, 10, 4⟩ deep 4 [2, 3, 4]) (((2 * 6 + 1) * 10 + 2) * 4 + 0) = ((2 * 6 + 1) * 10 + 2) * 4 + 0 :=
      Nat.cast_injective (R := ℝ) h
    revert h'
    decide +kernel

/-! ### Examples -/

/-- Three elements in alpha direction, one in beta direction. -/
example : (⟨1, 12, 1, 4⟩ : Box).Whole 4 ∧ (⟨1, 12, 1, 4⟩ : Box).bWidth = 4 ∧ Fits ⟨14, 6, 30⟩ ⟨1, 12, 1, 4⟩ ∧
    ∀ c ∈ [2, 3, 4], c < 5 := by
  unfold Box.Whole Fits
  decide

/-- Two elements of four nodes in each direction, thirty levels. -/
example : (⟨1, 8, 1, 8⟩ : Box).Whole 4 ∧ 5 - 1 ∈ [2, 3, 4] ∧ (⟨10, 10, 30⟩ : Sizes).a < (⟨10, 10, 30⟩ : Sizes).r := by
  unfold Box.Whole
  decide

end Verif.Schur
