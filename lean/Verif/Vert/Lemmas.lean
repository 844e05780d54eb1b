/-
The arrays of levels and interfaces in closed form.
-/
import Mathlib.Algebra.BigOperators.Intervals
import Mathlib.Algebra.BigOperators.Ring.Finset
import Mathlib.Tactic.Linarith
import Mathlib.Tactic.FieldSimp
import Mathlib.Tactic.Ring
import Verif.Vert.Model
import Verif.Vert.Spec

namespace Verif.Vert

open Finset

/-- Element `a` covers [E a, E (a + 1)]; points not shared. -/
structure IsOpen (E : Nat → ℝ) (m p : Nat) (g w : Nat → ℝ) (c : Column) : Prop where
  eta : ∀ a < m, ∀ k < p, c.eta (a * p + k) = E a + g k * (E (a + 1) - E a)
  area : ∀ a < m, ∀ k < p, c.area (a * p + k) = w k * (E (a + 1) - E a)

/-- Weight of point `i` when points are shared between elements. -/
noncomputable def sharedArea (E : Nat → ℝ) (m p : Nat) (w : Nat → ℝ) (i : Nat) : ℝ :=
  (if i / p < m then w (i % p) * (E (i / p + 1) - E (i / p)) else 0) +
    (if i % p = 0 ∧ 0 < i / p ∧ i / p ≤ m then w p * (E (i / p) - E (i / p - 1)) else 0)

/-- Element `a` covers [E a, E (a + 1)]; the last point of an element is the first of the next. -/
structure IsClosed (E : Nat → ℝ) (m p : Nat) (g w : Nat → ℝ) (c : Column) : Prop where
  eta : ∀ a < m, ∀ k ≤ p, c.eta (a * p + k) = E a + g k * (E (a + 1) - E a)
  area : ∀ i ≤ m * p, c.area i = sharedArea E m p w i

theorem div_mod_split (p a k : Nat) (h : k < p) : (a * p + k) / p = a ∧ (a * p + k) % p = k := by
  constructor
  · rw [Nat.mul_comm, Nat.mul_add_div (by omega), Nat.div_eq_of_lt h, Nat.add_zero]
  · rw [Nat.mul_comm, Nat.mul_add_mod, Nat.mod_eq_of_lt h]

theorem index_eq (p i : Nat) : i = i / p * p + i % p := by rw [Nat.mul_comm]; exact (Nat.div_add_mod i p).symm

/-! ### Uniform -/

theorem doubleShared_eq (p : Nat) (hp : 0 < p) (area : Nat → ℝ) (m k : Nat) :
    doubleShared p area m k = if k % p = 0 ∧ 0 < k / p ∧ k / p < m then 2 * area k else area k := by
  induction m with
  | zero => simp [doubleShared]
  | succ m ih =>
    cases m with
    | zero =>
      rw [doubleShared, if_neg (by omega)]
    | succ m =>
      rw [doubleShared]
      simp only
      by_cases hk : k = (m + 1) * p
      · have h1 := div_mod_split p (m + 1) 0 hp
        rw [Nat.add_zero] at h1
        rw [if_pos hk, ih, if_neg, if_pos, mul_comm]
        · rw [hk, h1.1, h1.2]; omega
        · rw [hk, h1.1]; omega
      · rw [if_neg hk, ih]
        have h2 : ¬ (k % p = 0 ∧ k / p = m + 1) := by
          rintro ⟨h1, h2⟩
          have := index_eq p k
          rw [h1, h2] at this; omega
        by_cases h3 : k % p = 0 ∧ 0 < k / p ∧ k / p < m + 1
        · rw [if_pos h3, if_pos (by omega)]
        · rw [if_neg h3, if_neg (by omega)]

theorem uniform_open (m p : Nat) (g w : Nat → ℝ) :
    IsOpen (fun a => (a : ℝ) * (1 / (m : ℝ))) m p g w (uniformColumn p m g w) := by
  constructor
  · intro a ha k hk
    obtain ⟨h1, h2⟩ := div_mod_split p a k hk
    simp only [uniformColumn, h1, h2]
    push_cast; ring
  · intro a ha k hk
    obtain ⟨h1, h2⟩ := div_mod_split p a k hk
    simp only [uniformColumn, h2]
    push_cast; ring

theorem uniform_closed (m p : Nat) (hm : 0 < m) (hp : 0 < p) (g w : Nat → ℝ) (h : ClosedRule p g w) :
    IsClosed (fun a => (a : ℝ) * (1 / (m : ℝ))) m p g w
      ⟨(uniformColumn p m g w).eta, doubleShared p (uniformColumn p m g w).area m⟩ := by
  constructor
  · intro a ha k hk
    rcases Nat.lt_or_ge k p with hk | hk'
    · exact (uniform_open m p g w).eta a ha k hk
    · have hkp : k = p := by omega
      have e : a * p + k = (a + 1) * p + 0 := by rw [hkp]; ring
      obtain ⟨h1, h2⟩ := div_mod_split p (a + 1) 0 hp
      simp only [uniformColumn]
      rw [e, h1, h2, h.first, hkp, h.last]
      push_cast; ring
  · intro i hi
    have h1 : i / p ≤ m := Nat.div_le_of_le_mul (by rw [Nat.mul_comm]; exact hi)
    simp only [doubleShared_eq p hp, uniformColumn, sharedArea]
    by_cases hm' : i % p = 0
    · by_cases h0 : 0 < i / p
      · have hc : (((i / p - 1 : ℕ) : ℕ) : ℝ) = (i / p : ℕ) - 1 := by
          rw [Nat.cast_sub (by omega)]; simp
        by_cases h2 : i / p < m
        · rw [if_pos ⟨hm', h0, h2⟩, if_pos h2, if_pos ⟨hm', h0, h1⟩, hm', ← h.symmetric, hc]
          push_cast; ring
        · rw [if_neg (by tauto), if_neg h2, if_pos ⟨hm', h0, h1⟩, hm', ← h.symmetric, hc]
          push_cast; ring
      · rw [if_neg (by tauto), if_pos (by omega), if_neg (by tauto)]
        push_cast; ring
    · have h2 : i / p < m := by
        by_contra h3
        have h4 : i / p = m := by omega
        have h5 := index_eq p i
        rw [h4] at h5
        omega
      rw [if_neg (by tauto), if_pos h2, if_neg (by tauto)]
      push_cast; ring

/-! ### Stretched -/

theorem writeElement_eq (p count : Nat) (g w : Nat → ℝ) (add : Bool) (eta0 delta : ℝ) (a : Nat) (c : Column) (i : Nat) :
    (writeElement p count g w add eta0 delta a c).eta i =
        (if a * p ≤ i ∧ i < a * p + count then eta0 + g (i - a * p) * delta else c.eta i) ∧
    (writeElement p count g w add eta0 delta a c).area i =
        (if a * p ≤ i ∧ i < a * p + count then (if add then c.area i else 0) + w (i - a * p) * delta else c.area i) := by
  induction count with
  | zero => rw [if_neg (by omega), if_neg (by omega)]; exact ⟨rfl, rfl⟩
  | succ n ih =>
    unfold writeElement at ih ⊢
    rw [List.range_succ, List.foldl_append]
    simp only [List.foldl_cons, List.foldl_nil]
    by_cases hi : i = a * p + n
    · have hc : a * p ≤ i ∧ i < a * p + (n + 1) := by omega
      have hn : ¬ (a * p ≤ i ∧ i < a * p + n) := by omega
      rw [if_neg hn, if_neg hn] at ih
      rw [if_pos hc, if_pos hc, show i - a * p = n by omega, ← hi]
      simp only [Function.update_self, true_and]
      rw [ih.2]
    · simp only [Function.update_of_ne hi]
      have : (a * p ≤ i ∧ i < a * p + (n + 1)) ↔ (a * p ≤ i ∧ i < a * p + n) := by omega
      simp only [this]
      exact ih

theorem sharedArea_succ (E : Nat → ℝ) (t p : Nat) (hp : 0 < p) (w : Nat → ℝ) (i : Nat) :
    sharedArea E (t + 1) p w i = (if t * p ≤ i ∧ i < t * p + (p + 1) then
      sharedArea E t p w i + w (i - t * p) * (E (t + 1) - E t) else sharedArea E t p w i) := by
  have hi := index_eq p i
  have hlt := Nat.mod_lt i hp
  unfold sharedArea
  rcases Nat.lt_trichotomy (i / p) t with h | h | h
  · have h2 : i < t * p := by
      calc i = i / p * p + i % p := hi
        _ < i / p * p + p := by omega
        _ = (i / p + 1) * p := by ring
        _ ≤ t * p := Nat.mul_le_mul_right _ h
    rw [if_neg (by omega : ¬ (t * p ≤ i ∧ _)), if_pos (by omega), if_pos h]
    congr 1
    by_cases h0 : i % p = 0 ∧ 0 < i / p
    · rw [if_pos (by omega), if_pos (by omega)]
    · rw [if_neg (by omega), if_neg (by omega)]
  · rw [h] at hi
    have h2 : i - t * p = i % p := by omega
    have h2' : t * p ≤ i ∧ i < t * p + (p + 1) := by omega
    rw [if_pos h2', h2, h, if_pos (Nat.lt_succ_self t), if_neg (Nat.lt_irrefl t)]
    by_cases h0 : i % p = 0 ∧ 0 < t
    · rw [if_pos ⟨h0.1, h0.2, Nat.le_succ t⟩, if_pos ⟨h0.1, h0.2, le_rfl⟩]; ring
    · rw [if_neg (fun h => h0 ⟨h.1, h.2.1⟩), if_neg (fun h => h0 ⟨h.1, h.2.1⟩)]; ring
  · have h3 : (t + 1) * p ≤ i / p * p := Nat.mul_le_mul_right _ h
    have h3' : (t + 1) * p = t * p + p := by ring
    rw [if_neg (by omega : ¬ i / p < t + 1), if_neg (by omega : ¬ i / p < t),
      if_neg (by omega : ¬ (i % p = 0 ∧ 0 < i / p ∧ i / p ≤ t))]
    by_cases h4 : i / p = t + 1 ∧ i % p = 0
    · have h5 : i = t * p + p := by rw [h4.1, h4.2] at hi; omega
      have h6 : t * p + p - t * p = p := by omega
      rw [if_pos (by omega), if_pos (by omega), h4.1, Nat.add_sub_cancel, show i - t * p = p by omega]
      ring
    · rw [if_neg (by omega)]
      have h7 : ¬ i < t * p + (p + 1) := by
        intro h8
        apply h4
        rcases Nat.lt_or_ge (t + 1) (i / p) with h9 | h9
        · have : (t + 2) * p ≤ i / p * p := Nat.mul_le_mul_right _ h9
          have h10 : (t + 2) * p = t * p + p + p := by ring
          omega
        · have h10 : i / p = t + 1 := by omega
          rw [h10] at hi
          exact ⟨h10, by omega⟩
      rw [if_neg (by omega)]

/-- The bounds of the elements. -/
noncomputable def bound (F : ℝ → ℝ) (m : Nat) (a : Nat) : ℝ := F ((a : ℝ) * (1 / (m : ℝ)))

theorem stretched_state (F : ℝ → ℝ) (h0 : F 0 = 0) (m p count : Nat) (g w : Nat → ℝ) (add : Bool) (init : Nat → ℝ) (t : Nat) :
    let s := (List.range t).foldl (stretchStep F m p count g w add) ⟨0, F (1 / (m : ℝ)), ⟨init, fun _ => 0⟩⟩
    s.eta0 = bound F m t ∧ s.eta1 = bound F m (t + 1) := by
  induction t with
  | zero => simp [bound, h0]
  | succ t ih =>
    rw [List.range_succ, List.foldl_append]
    exact ⟨ih.2, rfl⟩

theorem stretched_closed (F : ℝ → ℝ) (h0 : F 0 = 0) (m p : Nat) (hp : 0 < p) (g w : Nat → ℝ) (h : ClosedRule p g w)
    (init : Nat → ℝ) : IsClosed (bound F m) m p g w (stretched F m p (p + 1) g w true init) := by
  have key : ∀ t, (∀ a < t, ∀ k ≤ p,
      ((List.range t).foldl (stretchStep F m p (p + 1) g w true) ⟨0, F (1 / (m : ℝ)), ⟨init, fun _ => 0⟩⟩).col.eta
        (a * p + k) = bound F m a + g k * (bound F m (a + 1) - bound F m a)) ∧
      ∀ i, ((List.range t).foldl (stretchStep F m p (p + 1) g w true)
        ⟨0, F (1 / (m : ℝ)), ⟨init, fun _ => 0⟩⟩).col.area i = sharedArea (bound F m) t p w i := by
    intro t
    induction t with
    | zero =>
      refine ⟨fun a ha => absurd ha (Nat.not_lt_zero _), fun i => ?_⟩
      unfold sharedArea
      have := Nat.zero_le (i / p)
      rw [if_neg (Nat.not_lt_zero _), if_neg (by omega)]
      simp
    | succ t ih =>
      obtain ⟨e0, e1⟩ := stretched_state F h0 m p (p + 1) g w true init t
      rw [List.range_succ, List.foldl_append]
      simp only [List.foldl_cons, List.foldl_nil]
      generalize (List.range t).foldl (stretchStep F m p (p + 1) g w true) ⟨0, F (1 / (m : ℝ)), ⟨init, fun _ => 0⟩⟩ = s
        at ih e0 e1
      constructor
      · intro a ha k hk
        simp only [stretchStep]
        rw [(writeElement_eq ..).1, e0, e1]
        by_cases hat : a = t
        · rw [hat, if_pos (by omega), Nat.add_sub_cancel_left]
        · have h1 : (a + 1) * p ≤ t * p := Nat.mul_le_mul_right _ (by omega)
          have h2 : (a + 1) * p = a * p + p := by ring
          by_cases h3 : t * p ≤ a * p + k
          · rw [if_pos ⟨h3, by omega⟩]
            have h4 : a * p + k = t * p := by omega
            have h5 : k = p := by omega
            have h6 : a + 1 = t := Nat.eq_of_mul_eq_mul_right hp (by omega)
            rw [h4, Nat.sub_self, h5, h.first, h.last, h6]; ring
          · rw [if_neg (by omega)]
            exact ih.1 a (by omega) k hk
      · intro i
        simp only [stretchStep]
        rw [(writeElement_eq ..).2, e0, e1, sharedArea_succ _ _ _ hp, ih.2]
        simp
  exact ⟨fun a ha k hk => (key m).1 a ha k hk, fun i _ => (key m).2 i⟩

theorem stretched_open (F : ℝ → ℝ) (h0 : F 0 = 0) (m p : Nat) (g w : Nat → ℝ) (init : Nat → ℝ) :
    IsOpen (bound F m) m p g w (stretched F m p p g w false init) := by
  have key : ∀ t, (∀ a < t, ∀ k < p,
      ((List.range t).foldl (stretchStep F m p p g w false) ⟨0, F (1 / (m : ℝ)), ⟨init, fun _ => 0⟩⟩).col.eta
        (a * p + k) = bound F m a + g k * (bound F m (a + 1) - bound F m a) ∧
      ((List.range t).foldl (stretchStep F m p p g w false) ⟨0, F (1 / (m : ℝ)), ⟨init, fun _ => 0⟩⟩).col.area
        (a * p + k) = w k * (bound F m (a + 1) - bound F m a)) := by
    intro t
    induction t with
    | zero => exact fun a ha => absurd ha (Nat.not_lt_zero _)
    | succ t ih =>
      obtain ⟨e0, e1⟩ := stretched_state F h0 m p p g w false init t
      rw [List.range_succ, List.foldl_append]
      simp only [List.foldl_cons, List.foldl_nil]
      generalize (List.range t).foldl (stretchStep F m p p g w false) ⟨0, F (1 / (m : ℝ)), ⟨init, fun _ => 0⟩⟩ = s
        at ih e0 e1
      intro a ha k hk
      simp only [stretchStep]
      rw [(writeElement_eq ..).1, (writeElement_eq ..).2, e0, e1]
      by_cases hat : a = t
      · rw [hat, if_pos (by omega), if_pos (by omega), Nat.add_sub_cancel_left]
        simp
      · have h1 : (a + 1) * p ≤ t * p := Nat.mul_le_mul_right _ (by omega)
        have h2 : (a + 1) * p = a * p + p := by ring
        rw [if_neg (by omega), if_neg (by omega)]
        exact ih a (by omega) k hk
  exact ⟨fun a ha k hk => (key m a ha k hk).1, fun a ha k hk => (key m a ha k hk).2⟩

/-! ### Consequences -/

theorem mono_of_step (f : Nat → ℝ) (N : Nat) (h : ∀ i, i + 1 ≤ N → f i < f (i + 1)) (i j : Nat) (hij : i < j) (hj : j ≤ N) :
    f i < f j := by
  induction j with
  | zero => omega
  | succ j ih =>
    rcases Nat.lt_or_ge i j with h1 | h1
    · exact (ih h1 (by omega)).trans (h j hj)
    · have : i = j := by omega
      rw [this]; exact h j hj

theorem sum_blocks (m p : Nat) (f : Nat → ℝ) :
    ∑ i ∈ range (m * p), f i = ∑ a ∈ range m, ∑ k ∈ range p, f (a * p + k) := by
  induction m with
  | zero => simp
  | succ m ih => rw [Nat.add_mul, Nat.one_mul, sum_range_add, ih, sum_range_succ]

theorem telescoping (E : Nat → ℝ) (m : Nat) : ∑ a ∈ range m, (E (a + 1) - E a) = E m - E 0 := sum_range_sub E m

theorem open_facts (E : Nat → ℝ) (m p : Nat) (hp : 0 < p) (hE0 : E 0 = 0) (hE1 : E m = 1)
    (hE : ∀ a < m, E a < E (a + 1)) (g w : Nat → ℝ) (h : OpenRule p g w) (c : Column) (hc : IsOpen E m p g w c) :
    (∀ i j, i < j → j < m * p → c.eta i < c.eta j) ∧ (∀ i < m * p, 0 < c.eta i ∧ c.eta i < 1) ∧
    (∀ i < m * p, 0 < c.area i) ∧ ∑ i ∈ range (m * p), c.area i = ∑ k ∈ range p, w k ∧
    ∀ a < m, ∀ k < p, E a < c.eta (a * p + k) ∧ c.eta (a * p + k) < E (a + 1) := by
  have hin : ∀ a < m, ∀ k < p, E a < c.eta (a * p + k) ∧ c.eta (a * p + k) < E (a + 1) := by
    intro a ha k hk
    rw [hc.eta a ha k hk]
    have h1 := hE a ha
    have h2 := h.inside k hk
    constructor <;> nlinarith
  have hdec : ∀ i < m * p, i / p < m ∧ i % p < p := fun i hi =>
    ⟨Nat.div_lt_of_lt_mul (by rw [Nat.mul_comm]; exact hi), Nat.mod_lt _ hp⟩
  have hmono : ∀ a b, a < b → b ≤ m → E a < E b := fun a b hab hb =>
    mono_of_step E m (fun i hi => hE i (by omega)) a b hab hb
  have hle : ∀ a b, a ≤ b → b ≤ m → E a ≤ E b := fun a b hab hb => by
    rcases Nat.lt_or_ge a b with h1 | h1
    · exact (hmono a b h1 hb).le
    · rw [show a = b by omega]
  refine ⟨?_, ?_, ?_, ?_, hin⟩
  · intro i j hij hj
    refine mono_of_step c.eta (m * p - 1) ?_ i j hij (by omega)
    intro i hi
    obtain ⟨h1, h2⟩ := hdec i (by omega)
    have e := index_eq p i
    by_cases hk : i % p + 1 < p
    · have e2 : i + 1 = i / p * p + (i % p + 1) := by omega
      rw [e2, hc.eta _ h1 _ hk]
      conv_lhs => rw [e, hc.eta _ h1 _ h2]
      have := h.increasing _ _ (Nat.lt_succ_self (i % p)) hk
      have := hE _ h1
      nlinarith
    · have e2 : i + 1 = (i / p + 1) * p + 0 := by
        have : (i / p + 1) * p = i / p * p + p := by ring
        omega
      have h3 : i / p + 1 < m := by
        by_contra h4
        have h5 : m * p ≤ (i / p + 1) * p := Nat.mul_le_mul_right _ (by omega)
        omega
      have a1 := (hin _ h1 _ h2).2
      rw [← e] at a1
      have a2 := (hin _ h3 0 hp).1
      rw [← e2] at a2
      exact a1.trans a2
  · intro i hi
    obtain ⟨h1, h2⟩ := hdec i hi
    have := hin _ h1 _ h2
    rw [← index_eq] at this
    have l := hle 0 (i / p) (Nat.zero_le _) (by omega)
    have u := hle (i / p + 1) m (by omega) le_rfl
    exact ⟨by linarith, by linarith⟩
  · intro i hi
    obtain ⟨h1, h2⟩ := hdec i hi
    rw [index_eq p i, hc.area _ h1 _ h2]
    exact mul_pos (h.positive _ h2) (sub_pos.2 (hE _ h1))
  · rw [sum_blocks]
    have : ∀ a ∈ range m, ∑ k ∈ range p, c.area (a * p + k) = (∑ k ∈ range p, w k) * (E (a + 1) - E a) := by
      intro a ha
      rw [sum_mul]
      exact sum_congr rfl fun k hk => hc.area a (mem_range.1 ha) k (mem_range.1 hk)
    rw [sum_congr rfl this, ← mul_sum, telescoping, hE1, hE0]; ring

theorem shared_sum (E : Nat → ℝ) (m p : Nat) (hp : 0 < p) (w : Nat → ℝ) :
    ∑ i ∈ range (m * p + 1), sharedArea E m p w i = (∑ k ∈ range (p + 1), w k) * (E m - E 0) := by
  have hlast : sharedArea E m p w (m * p) = if 0 < m then w p * (E m - E (m - 1)) else 0 := by
    obtain ⟨h1, h2⟩ := div_mod_split p m 0 hp
    rw [Nat.add_zero] at h1 h2
    unfold sharedArea
    rw [h1, h2, if_neg (by omega)]
    by_cases h : 0 < m
    · rw [if_pos (by omega), if_pos h, zero_add]
    · rw [if_neg (by omega), if_neg h, zero_add]
  have hblock : ∀ a ∈ range m, ∑ k ∈ range p, sharedArea E m p w (a * p + k) =
      (∑ k ∈ range p, w k) * (E (a + 1) - E a) + if 0 < a then w p * (E a - E (a - 1)) else 0 := by
    intro a ha
    rw [mem_range] at ha
    have : ∀ k ∈ range p, sharedArea E m p w (a * p + k) = w k * (E (a + 1) - E a) +
        if k = 0 then (if 0 < a then w p * (E a - E (a - 1)) else 0) else 0 := by
      intro k hk
      rw [mem_range] at hk
      obtain ⟨h1, h2⟩ := div_mod_split p a k hk
      unfold sharedArea
      rw [h1, h2, if_pos ha]
      congr 1
      by_cases h3 : k = 0
      · by_cases h4 : 0 < a
        · rw [if_pos (by omega), if_pos h3, if_pos h4]
        · rw [if_neg (by omega), if_pos h3, if_neg h4]
      · rw [if_neg (by omega), if_neg h3]
    rw [sum_congr rfl this, sum_add_distrib, ← sum_mul, sum_ite_eq', if_pos (mem_range.2 hp)]
  rw [sum_range_succ, sum_blocks, sum_congr rfl hblock, sum_add_distrib, ← mul_sum, telescoping, hlast, add_assoc,
    ← sum_range_succ (fun a => if 0 < a then w p * (E a - E (a - 1)) else 0), sum_range_succ']
  simp only [Nat.succ_pos, if_true, Nat.add_sub_cancel, lt_irrefl, if_false, add_zero]
  rw [← mul_sum, telescoping, sum_range_succ]; ring

theorem closed_facts (E : Nat → ℝ) (m p : Nat) (hp : 0 < p) (hm : 0 < m) (hE0 : E 0 = 0) (hE1 : E m = 1)
    (hE : ∀ a < m, E a < E (a + 1)) (g w : Nat → ℝ) (h : ClosedRule p g w) (c : Column) (hc : IsClosed E m p g w c) :
    (∀ i j, i < j → j ≤ m * p → c.eta i < c.eta j) ∧ c.eta 0 = 0 ∧ c.eta (m * p) = 1 ∧
    (∀ i ≤ m * p, 0 < c.area i) ∧ ∑ i ∈ range (m * p + 1), c.area i = ∑ k ∈ range (p + 1), w k ∧
    ∀ a ≤ m, c.eta (a * p) = E a := by
  have hedge : ∀ a ≤ m, c.eta (a * p) = E a := by
    intro a ha
    rcases Nat.lt_or_ge a m with h1 | h1
    · have := hc.eta a h1 0 (by omega)
      rw [Nat.add_zero, h.first] at this
      rw [this]; ring
    · have h2 : a = (m - 1) + 1 := by omega
      have := hc.eta (m - 1) (by omega) p le_rfl
      rw [show (m - 1) * p + p = a * p by rw [h2]; ring, h.last, ← h2] at this
      rw [this]; ring
  refine ⟨?_, ?_, ?_, ?_, ?_, hedge⟩
  · refine fun i j hij hj => mono_of_step c.eta (m * p) ?_ i j hij hj
    intro i hi
    have h1 : i / p < m := Nat.div_lt_of_lt_mul (by rw [Nat.mul_comm]; omega)
    have h2 := Nat.mod_lt i hp
    have e := index_eq p i
    have e2 : i + 1 = i / p * p + (i % p + 1) := by omega
    rw [e2, hc.eta _ h1 _ (by omega)]
    conv_lhs => rw [e, hc.eta _ h1 _ h2.le]
    have := h.increasing _ _ (Nat.lt_succ_self (i % p)) (by omega)
    have := hE _ h1
    nlinarith
  · have := hedge 0 (by omega)
    rw [Nat.zero_mul] at this
    rw [this, hE0]
  · rw [hedge m le_rfl, hE1]
  · intro i hi
    rw [hc.area i hi]
    unfold sharedArea
    have n1 : 0 ≤ if i / p < m then w (i % p) * (E (i / p + 1) - E (i / p)) else 0 := by
      split_ifs with h1
      · exact (mul_pos (h.positive _ (Nat.mod_lt _ hp).le) (sub_pos.2 (hE _ h1))).le
      · exact le_rfl
    have n2 : 0 ≤ if i % p = 0 ∧ 0 < i / p ∧ i / p ≤ m then w p * (E (i / p) - E (i / p - 1)) else 0 := by
      split_ifs with h1
      · have := hE (i / p - 1) (by omega)
        rw [show i / p - 1 + 1 = i / p by omega] at this
        exact (mul_pos (h.positive _ le_rfl) (sub_pos.2 this)).le
      · exact le_rfl
    by_cases h1 : i / p < m
    · have : 0 < w (i % p) * (E (i / p + 1) - E (i / p)) :=
        mul_pos (h.positive _ (Nat.mod_lt _ hp).le) (sub_pos.2 (hE _ h1))
      rw [if_pos h1] at n1 ⊢
      linarith
    · have h2 : i / p ≤ m := Nat.div_le_of_le_mul (by rw [Nat.mul_comm]; exact hi)
      have h3 : i / p = m := by omega
      have e := index_eq p i
      rw [h3] at e
      have h4 : i % p = 0 := by omega
      have := hE (i / p - 1) (by omega)
      rw [show i / p - 1 + 1 = i / p by omega] at this
      have := mul_pos (h.positive _ le_rfl) (sub_pos.2 this)
      rw [if_pos (by omega : i % p = 0 ∧ 0 < i / p ∧ i / p ≤ m)] at n2 ⊢
      linarith
  · rw [sum_congr rfl (fun i hi => hc.area i (by rw [mem_range] at hi; omega)), shared_sum _ _ _ hp, hE1, hE0]; ring

theorem bound_ok (F : ℝ → ℝ) (hF : Stretching F) (m : Nat) (hm : 0 < m) :
    bound F m 0 = 0 ∧ bound F m m = 1 ∧ ∀ a < m, bound F m a < bound F m (a + 1) := by
  have hm' : (0 : ℝ) < m := by exact_mod_cast hm
  refine ⟨by simp [bound, hF.zero], ?_, fun a ha => ?_⟩
  · unfold bound
    rw [mul_one_div_cancel hm'.ne', hF.one]
  · unfold bound
    have ha' : (a : ℝ) + 1 ≤ m := by exact_mod_cast ha
    refine hF.increasing _ _ (by positivity) ?_ ?_
    · push_cast
      have : 0 < 1 / (m : ℝ) := by positivity
      nlinarith
    · push_cast
      rw [mul_one_div, div_le_one hm']; exact ha'

theorem stretching_id : Stretching (fun x => x) := ⟨rfl, rfl, fun _ _ _ h _ => h⟩

end Verif.Vert
