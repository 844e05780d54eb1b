/-
Lemmas on the root finders of Legendre polynomials: mirror images of the estimates are refined to mirror images, and
one estimate among exact roots is corrected exactly.
-/
import Mathlib.Algebra.Polynomial.Splits
import Mathlib.Data.List.Sort
import Verif.Legendre.Finder
import Verif.Legendre.Props
import Verif.Quad.Weights

namespace Verif.Legendre

open Polynomial

theorem getD_get (l : List ℝ) (d : ℝ) {k : Nat} (h : k < l.length) : l.getD k d = l[k] := by
  simp [List.getD, h]

theorem evaluate_val (n : Nat) (x : ℝ) : evaluate n x = some (val n x, der n x) := C40_evaluate n x

theorem fill_iff {α : Type} (n : Nat) (f : Nat → Option α) (l : List α) :
    fill n f = some l ↔ l.length = n ∧ ∀ k < n, f k = l[k]? := by
  unfold fill
  induction n generalizing l with
  | zero =>
    constructor
    · intro h
      have : l = [] := by simpa using h.symm
      subst this; exact ⟨rfl, fun k hk => absurd hk (by omega)⟩
    · rintro ⟨h, -⟩
      rw [List.length_eq_zero_iff.1 h]; rfl
  | succ n ih =>
    rw [List.range_succ, List.mapM_append]
    constructor
    · intro h
      cases h1 : (List.range n).mapM f with
      | none => rw [h1] at h; exact absurd h (by simp)
      | some a =>
        rw [h1] at h
        cases h2 : f n with
        | none => simp [h2] at h
        | some b =>
          simp [h2] at h
          obtain ⟨ha, hb⟩ := (ih a).1 h1
          subst h
          refine ⟨by simp [ha], fun k hk => ?_⟩
          rcases Nat.lt_or_eq_of_le (Nat.le_of_lt_succ hk) with hk | hk
          · rw [List.getElem?_append_left (by omega)]; exact hb k hk
          · subst hk
            rw [List.getElem?_append_right (by omega), ha, Nat.sub_self, h2]; rfl
    · rintro ⟨h, hk⟩
      have hn : l ≠ [] := by intro e; rw [e] at h; simp at h
      have e := List.dropLast_append_getLast hn
      have hd : l.dropLast.length = n := by rw [List.length_dropLast, h]; rfl
      have h1 : (List.range n).mapM f = some l.dropLast := by
        rw [ih]
        refine ⟨hd, fun k hk' => ?_⟩
        rw [hk k (by omega), ← e, List.getElem?_append_left (by omega), e]
      have h2 : f n = some (l.getLast hn) := by
        rw [hk n (by omega)]
        conv_lhs => rw [← e]
        rw [List.getElem?_append_right (by omega), hd, Nat.sub_self]; rfl
      rw [h1]
      simp [h2, e]

theorem fill_congr {α : Type} (n : Nat) (f g : Nat → Option α) (h : ∀ k < n, f k = g k) : fill n f = fill n g := by
  apply Option.ext
  intro l
  rw [fill_iff, fill_iff]
  exact and_congr_right fun _ => forall₂_congr fun k hk => by rw [h k hk]

/-- Filling from the other end. -/
theorem fill_reverse {α β : Type} (n : Nat) (f : Nat → Option α) (g : Nat → Option β) (φ : α → β)
    (h : ∀ k < n, g (n - 1 - k) = (f k).map φ) (l : List α) (hl : fill n f = some l) :
    fill n g = some (l.map φ).reverse := by
  rw [fill_iff] at hl ⊢
  obtain ⟨hn, hk⟩ := hl
  refine ⟨by simp [hn], fun k hkn => ?_⟩
  rw [List.getElem?_reverse (by simp [hn, hkn]), List.length_map, hn, List.getElem?_map, ← hk _ (by omega)]
  have := h (n - 1 - k) (by omega)
  rwa [show n - 1 - (n - 1 - k) = k by omega] at this

theorem fill_reverse_none {α β : Type} (n : Nat) (f : Nat → Option α) (g : Nat → Option β) (φ : α → β)
    (h : ∀ k < n, g (n - 1 - k) = (f k).map φ) (hl : fill n f = none) : fill n g = none := by
  cases hg : fill n g with
  | none => rfl
  | some b =>
    exfalso
    rw [fill_iff] at hg
    have hsome : ∀ k < n, (f k).isSome := by
      intro k hk
      have h1 := h k hk
      rw [hg.2 _ (by omega), List.getElem?_eq_getElem (by omega)] at h1
      cases hf : f k with
      | none => rw [hf] at h1; exact absurd h1 (by simp)
      | some _ => rfl
    have : fill n f = some (List.ofFn fun k : Fin n => (f k).get (hsome k k.2)) := by
      rw [fill_iff]
      refine ⟨by simp, fun k hk => ?_⟩
      simp [hk]
    rw [hl] at this
    exact absurd this (by simp)

/-- The estimates mirror each other about zero. -/
def Mirrored (r : List ℝ) : Prop := ∀ k < r.length, r.getD (r.length - 1 - k) 0 = -r.getD k 0

theorem mirrored_iff (r : List ℝ) : Mirrored r ↔ r.reverse = r.map (fun x => -x) := by
  constructor
  · intro h
    refine List.ext_getElem (by simp) fun k h1 h2 => ?_
    have hk : k < r.length := by simpa using h1
    have := h k hk
    rw [getD_get _ _ (by omega), getD_get _ _ hk] at this
    simpa using this
  · intro h k hk
    have h1 := congrArg (fun l => l[k]?) h
    simp only [List.getElem?_reverse hk, List.getElem?_map] at h1
    rw [List.getElem?_eq_getElem (by omega), List.getElem?_eq_getElem hk] at h1
    rw [getD_get _ _ (by omega), getD_get _ _ hk]
    simpa using h1

theorem quotient_neg (a b : ℝ) : quotient a (-b) = (quotient a b).map fun x => -x := by
  unfold quotient
  by_cases h : b = 0
  · simp [h]
  · rw [if_neg h, if_neg (neg_ne_zero.2 h)]; simp [div_neg]

theorem crowd_mirror (r : List ℝ) (h : Mirrored r) (k : Nat) (hk : k < r.length) :
    crowd r (r.length - 1 - k) = (crowd r k).map fun x => -x := by
  unfold crowd
  have key : ∀ l < r.length, (fun l => if l = r.length - 1 - k then some 0 else
      quotient 1 (r.getD (r.length - 1 - k) 0 - r.getD l 0)) (r.length - 1 - l) =
      ((fun l => if l = k then some 0 else quotient 1 (r.getD k 0 - r.getD l 0)) l).map fun x => -x := by
    intro l hl
    by_cases e : l = k
    · subst e; simp
    · have e' : r.length - 1 - l ≠ r.length - 1 - k := by omega
      simp only [if_neg e, if_neg e']
      rw [h k hk, h l hl, ← quotient_neg]
      congr 1; ring
  cases hf : fill r.length (fun l => if l = k then some 0 else quotient 1 (r.getD k 0 - r.getD l 0)) with
  | none => rw [fill_reverse_none _ _ _ _ key hf]; rfl
  | some t =>
    rw [fill_reverse _ _ _ _ key t hf]
    simp only [Option.map_some, List.sum_reverse]
    congr 1
    clear hf
    induction t with
    | nil => simp
    | cons a t ih => simp only [List.map_cons, List.sum_cons, ih]; ring

theorem update_mirror (x ratio mod : ℝ) : update (-x) (-ratio) (-mod) = (update x ratio mod).map fun y => -y := by
  unfold update
  rw [show -ratio - -mod = -(ratio - mod) by ring, quotient_neg]
  cases quotient 1 (ratio - mod) with
  | none => rfl
  | some q => simp; ring

theorem der_neg (n : Nat) (x : ℝ) : der n (-x) = (-1) ^ (n + 1) * der n x := by
  induction n using Nat.twoStepInduction with
  | zero => simp [der_zero]
  | one => simp [der_one]
  | more n h1 h2 =>
    have h := der_succ n (-x)
    have h' := der_succ n x
    rw [h1, h2, val_neg] at h
    have hn : ((n : ℝ) + 2) ≠ 0 := by positivity
    apply mul_left_cancel₀ hn
    rw [h]
    linear_combination ((-1) ^ n) * h'

/-- Refinement commutes with mirroring. -/
def Commutes (refine : List ℝ → Nat → Option (Bool × ℝ)) : Prop :=
  ∀ r, Mirrored r → ∀ k < r.length, refine r (r.length - 1 - k) = (refine r k).map fun p => (p.1, -p.2)

theorem abs_sign (n : Nat) (a : ℝ) : |(-1) ^ n * a| = |a| := by
  rw [abs_mul, abs_pow, abs_neg, abs_one, one_pow, one_mul]

theorem quotient_sign (n : Nat) (a b : ℝ) :
    quotient ((-1) ^ (n + 1) * a) ((-1) ^ n * b) = (quotient a b).map fun x => -x := by
  unfold quotient
  have h1 : ((-1 : ℝ)) ^ n ≠ 0 := pow_ne_zero _ (by norm_num)
  by_cases h : b = 0
  · simp [h]
  · rw [if_neg h, if_neg (mul_ne_zero h1 h)]
    simp only [Option.map_some, Option.some.injEq]
    rw [pow_succ]; field_simp

theorem root_commutes (n : Nat) : Commutes (refineRoot n) := by
  intro r h k hk
  unfold refineRoot
  simp only [h k hk, evaluate_val, val_neg, der_neg, abs_sign, quotient_sign, crowd_mirror r h k hk]
  split_ifs with ht
  · rfl
  · cases crowd r k with
    | none => rfl
    | some m =>
      simp only [Option.map_some, Option.bind_some]
      cases quotient (der n (r.getD k 0)) (val n (r.getD k 0)) with
      | none => rfl
      | some q =>
        simp only [Option.map_some, Option.bind_some, update_mirror, Option.map_map]
        rfl

theorem second_neg (n : Nat) (x v d : ℝ) : secondDerivative n (-x) ((-1) ^ n * v) ((-1) ^ (n + 1) * d) =
    (-1) ^ n * secondDerivative n x v d := by
  unfold secondDerivative
  rw [show 1 - -x * -x = 1 - x * x by ring, pow_succ]; ring

theorem derivative_commutes (n : Nat) : Commutes (refineDerivative n) := by
  intro r h k hk
  have e := quotient_sign (n + 1) (secondDerivative n (r.getD k 0) (val n (r.getD k 0)) (der n (r.getD k 0)))
    (der n (r.getD k 0))
  rw [show ((-1 : ℝ)) ^ (n + 1 + 1) = (-1) ^ n by ring] at e
  unfold refineDerivative
  simp only [h k hk, evaluate_val, val_neg, der_neg, abs_sign, second_neg, e, crowd_mirror r h k hk, neg_mul_neg]
  split_ifs with ht
  · rfl
  · cases crowd r k with
    | none => rfl
    | some m =>
      simp only [Option.map_some, Option.bind_some]
      cases quotient 1 (1 - r.getD k 0 * r.getD k 0) with
      | none => rfl
      | some _ =>
        simp only [Option.bind_some]
        cases quotient (secondDerivative n (r.getD k 0) (val n (r.getD k 0)) (der n (r.getD k 0)))
          (der n (r.getD k 0)) with
        | none => rfl
        | some q =>
          simp only [Option.map_some, Option.bind_some, update_mirror, Option.map_map]
          rfl

theorem iterate_keeps (refine : List ℝ → Nat → Option (Bool × ℝ)) (h : Commutes refine) (passes : Nat) (r : List ℝ)
    (hr : Mirrored r) (b : Bool) (l : List ℝ) (e : iterate refine passes r = some (b, l)) :
    Mirrored l ∧ l.length = r.length := by
  induction passes generalizing r with
  | zero =>
    simp only [iterate, Option.some.injEq, Prod.mk.injEq] at e
    rw [← e.2]; exact ⟨hr, rfl⟩
  | succ passes ih =>
    rw [iterate] at e
    cases hf : fill r.length (refine r) with
    | none => rw [hf] at e; exact absurd e (by simp)
    | some buffer =>
      rw [hf] at e
      simp only at e
      have hrev := fill_reverse _ _ _ (fun p : Bool × ℝ => (p.1, -p.2)) (h r hr) buffer hf
      have hlen := ((fill_iff _ _ _).1 hf).1
      rw [hf] at hrev
      have hm : Mirrored (buffer.map Prod.snd) := by
        rw [mirrored_iff]
        have := congrArg (List.map Prod.snd) (Option.some.inj hrev)
        conv_lhs => rw [this]
        rw [List.map_reverse, List.reverse_reverse, List.map_map, List.map_map]; rfl
      split_ifs at e with hc
      · simp only [Option.some.injEq, Prod.mk.injEq] at e
        rw [← e.2]; exact ⟨hm, by simp [hlen]⟩
      · have := ih _ hm e
        exact ⟨this.1, by rw [this.2]; simp [hlen]⟩

/-- When the loop is left early every estimate counted as found. -/
theorem iterate_found (refine : List ℝ → Nat → Option (Bool × ℝ)) (P : ℝ → Prop)
    (h : ∀ r k x, refine r k = some (true, x) → P x) (passes : Nat) (r : List ℝ) (l : List ℝ)
    (e : iterate refine passes r = some (true, l)) : ∀ x ∈ l, P x := by
  induction passes generalizing r with
  | zero => exact absurd e (by simp [iterate])
  | succ passes ih =>
    rw [iterate] at e
    cases hf : fill r.length (refine r) with
    | none => rw [hf] at e; exact absurd e (by simp)
    | some buffer =>
      rw [hf] at e
      simp only at e
      split_ifs at e with hc
      · simp only [Option.some.injEq, Prod.mk.injEq, true_and] at e
        rw [← e]
        obtain ⟨hlen, hk⟩ := (fill_iff _ _ _).1 hf
        have hall : ∀ p ∈ buffer, p.1 = true := by
          rw [← hlen] at hc
          exact List.length_filter_eq_length_iff.1 hc
        intro x hx
        obtain ⟨p, hp, hpx⟩ := List.mem_map.1 hx
        obtain ⟨k, hkl, hkp⟩ := List.getElem_of_mem hp
        have h1 := hk k (by omega)
        rw [List.getElem?_eq_getElem hkl, hkp] at h1
        refine h r k x ?_
        rw [h1, ← hpx, ← hall p hp]
      · exact ih _ e

theorem guess_length (m : Nat) : (guess m).length = m := by simp [guess]

theorem guess_mirrored (m : Nat) : Mirrored (guess m) := by
  intro k hk
  rw [guess_length] at *
  have hm : (m : ℝ) ≠ 0 := by exact_mod_cast (by omega : m ≠ 0)
  rw [getD_get _ _ (by rw [guess_length]; omega), getD_get _ _ (by rw [guess_length]; omega)]
  simp only [guess, List.getElem_map, List.getElem_range]
  rw [show m - 1 - k = m - (k + 1) by omega, Nat.cast_sub (by omega)]
  push_cast
  rw [show (0.5 : ℝ) = 1 / 2 by norm_num, show (2.0 : ℝ) = 2 by norm_num, show (1.0 : ℝ) = 1 by norm_num]
  field_simp
  ring

theorem sorted_perm (r : List ℝ) : (sorted r).Perm r := List.mergeSort_perm _ _

theorem sorted_le (r : List ℝ) : (sorted r).Pairwise (· ≤ ·) := by
  classical
  have := List.pairwise_mergeSort (le := fun a b : ℝ => decide (a ≤ b))
    (by intro a b c h1 h2; simp only [decide_eq_true_eq] at *; exact h1.trans h2)
    (by intro a b; simp only [Bool.or_eq_true, decide_eq_true_eq]; exact le_total a b) r
  simp only [decide_eq_true_eq] at this
  unfold sorted
  convert this

theorem sorted_mirrored (r : List ℝ) (h : Mirrored r) : Mirrored (sorted r) := by
  rw [mirrored_iff] at *
  have hp : ((sorted r).reverse).Perm ((sorted r).map fun x => -x) := by
    refine (List.reverse_perm _).trans ?_
    refine (sorted_perm r).trans ?_
    refine List.Perm.trans ?_ ((sorted_perm r).map _).symm
    rw [← h]; exact (List.reverse_perm r).symm
  refine List.Perm.eq_of_pairwise (le := (· ≥ ·)) (fun a b _ _ h1 h2 => le_antisymm h2 h1) ?_ ?_ hp
  · rw [List.pairwise_reverse]; exact sorted_le r
  · rw [List.pairwise_map]
    exact (sorted_le r).imp fun h => neg_le_neg h

/-! ### One estimate among exact roots -/

theorem log_derivative (p : ℝ[X]) (z : List ℝ) (hp : p ≠ 0) (hd : p.natDegree = z.length) (hz : z.Nodup)
    (h0 : ∀ y ∈ z, p.eval y = 0) (x : ℝ) (hx : p.eval x ≠ 0) :
    (derivative p).eval x / p.eval x = (z.map fun y => 1 / (x - y)).sum := by
  have hle : (z : Multiset ℝ) ≤ p.roots := by
    rw [Multiset.le_iff_subset (by simpa using hz)]
    intro y hy
    rw [mem_roots hp]; exact h0 y (by simpa using hy)
  have heq : (z : Multiset ℝ) = p.roots :=
    Multiset.eq_of_le_of_card_le hle (by rw [Multiset.coe_card, ← hd]; exact card_roots' p)
  have hs : p.Splits := splits_iff_card_roots.2 (by rw [← heq, Multiset.coe_card, hd])
  rw [hs.eval_derivative_div_eval_of_ne_zero hx, ← heq]
  simp

theorem crowd_among (z : List ℝ) (k : Nat) (hk : k < z.length) (x : ℝ) (hx : ∀ y ∈ z, x ≠ y) :
    crowd (z.set k x) k = some ((z.map fun y => 1 / (x - y)).sum - 1 / (x - z[k])) := by
  unfold crowd
  have hf : fill (z.set k x).length (fun l => if l = k then some 0 else
      quotient 1 ((z.set k x).getD k 0 - (z.set k x).getD l 0)) =
      some ((z.map fun y => 1 / (x - y)).set k 0) := by
    rw [fill_iff]
    refine ⟨by simp, fun l hl => ?_⟩
    have hl' : l < z.length := by simpa using hl
    by_cases e : l = k
    · subst e; simp [hl']
    · rw [if_neg e]
      have e' : k ≠ l := fun h => e h.symm
      have h1 : (z.set k x).getD k 0 = x := by
        rw [getD_get _ _ (by simpa using hk)]; simp
      have h2 : (z.set k x).getD l 0 = z[l] := by
        rw [getD_get _ _ hl]; simp [e']
      rw [h1, h2, quotient, if_neg (sub_ne_zero.2 (hx _ (List.getElem_mem hl')))]
      simp [e', hl']
  rw [hf]
  simp only [Option.map_some, Option.some.injEq]
  have hsum : ∀ (t : List ℝ) (k : Nat) (hk : k < t.length), (t.set k 0).sum = t.sum - t[k] := by
    intro t
    induction t with
    | nil => intro k hk; exact absurd hk (by simp)
    | cons a t ih =>
      intro k hk
      cases k with
      | zero => simp
      | succ k => simp only [List.set_cons_succ, List.sum_cons, List.getElem_cons_succ]; rw [ih k (by simpa using hk)]; ring
  rw [hsum _ _ (by simpa using hk)]
  simp

theorem update_exact (x y mod : ℝ) (h : x ≠ y) : update x mod (mod - 1 / (x - y)) = some y := by
  unfold update quotient
  have : x - y ≠ 0 := sub_ne_zero.2 h
  rw [show mod - (mod - 1 / (x - y)) = 1 / (x - y) by ring, if_neg (one_div_ne_zero this)]
  simp

end Verif.Legendre
