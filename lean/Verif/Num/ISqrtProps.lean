/-
C37: the integer square root is exact.
-/
import Verif.Num.ISqrt
import Mathlib.Tactic.Ring
import Mathlib.Tactic.Linarith

namespace Verif.Num

/-- State after the top `2k` bits of `n` have been consumed: `r` is the integer square root of those bits. -/
structure SqrtInv (n k : Nat) (s : SqrtState) : Prop where
  le : k ≤ 16
  a : s.a = (n * 4 ^ k) % word
  root : s.iroot % 2 = 0
  low : (s.iroot / 2) * (s.iroot / 2) + s.irem = n / 4 ^ (16 - k)
  high : s.irem ≤ s.iroot

theorem word_pow : word = 4 ^ 16 := by decide

theorem sqrt_small {n k : Nat} {s : SqrtState} (hn : n < word) (h : SqrtInv n k s) : s.iroot / 2 < 2 ^ k := by
  have h1 : n / 4 ^ (16 - k) < 4 ^ k := by
    rw [Nat.div_lt_iff_lt_mul (by positivity), ← pow_add, show k + (16 - k) = 16 by have := h.le; omega, ← word_pow]
    exact hn
  by_contra hc
  have : 2 ^ k * 2 ^ k ≤ (s.iroot / 2) * (s.iroot / 2) := Nat.mul_le_mul (by omega) (by omega)
  have h4 : (4 : Nat) ^ k = 2 ^ k * 2 ^ k := by rw [← mul_pow]; rfl
  have := h.low
  omega

theorem sqrtStep_inv {n k : Nat} {s : SqrtState} (hn : n < word) (h : SqrtInv n k s) (hk : k < 16) :
    sqrtStep s = sqrtStepExact s ∧ SqrtInv n (k + 1) (sqrtStepExact s) := by
  have hs := sqrt_small hn h
  have hp : 2 ^ k ≤ 2 ^ 15 := Nat.pow_le_pow_right (by decide) (by omega)
  have hroot : s.iroot < 2 ^ 16 := by have := h.root; omega
  have hrem : s.irem < 2 ^ 16 := by have := h.high; omega
  have ha : s.a < word := by rw [h.a]; exact Nat.mod_lt _ (by decide)
  have hq : s.a / 1073741824 < 4 := by unfold word at ha; omega
  have step : sqrtStep s = sqrtStepExact s := by
    unfold sqrtStep sqrtStepExact
    simp only [Nat.shiftLeft_eq, Nat.shiftRight_eq_div_pow]
    have e1 : (s.iroot * 2 ^ 1 % word + 1) % word = s.iroot * 2 + 1 := by unfold word; omega
    have e2 : (s.irem * 2 ^ 2 % word + s.a / 2 ^ 30) % word = s.irem * 4 + s.a / 1073741824 := by
      unfold word; omega
    rw [e1, e2]
    by_cases hc : s.iroot * 2 + 1 ≤ s.irem * 4 + s.a / 1073741824
    · rw [if_pos hc, if_pos hc]
      have e3 : (s.irem * 4 + s.a / 1073741824 + (word - (s.iroot * 2 + 1))) % word =
          s.irem * 4 + s.a / 1073741824 - (s.iroot * 2 + 1) := by unfold word; omega
      have e4 : (s.iroot * 2 + 1 + 1) % word = s.iroot * 2 + 1 + 1 := by unfold word; omega
      rw [e3, e4]
    · rw [if_neg hc, if_neg hc]
      have e3 : (s.iroot * 2 + 1 + (word - 1)) % word = s.iroot * 2 + 1 - 1 := by unfold word; omega
      rw [e3]
  refine ⟨step, ?_⟩
  -- the two bits shifted in
  have hdiv : n / 4 ^ (16 - (k + 1)) = 4 * (n / 4 ^ (16 - k)) + s.a / 1073741824 := by
    have e : (4 : Nat) ^ (16 - k) = 4 ^ (16 - (k + 1)) * 4 := by
      rw [← pow_succ]; congr 1; omega
    have e3 : s.a / 1073741824 = n / 4 ^ (16 - (k + 1)) % 4 := by
      rw [h.a, word_pow]
      have : (4 : Nat) ^ 16 = 4 ^ k * 4 ^ (16 - k) := by rw [← pow_add]; congr 1; omega
      rw [this, mul_comm n, Nat.mul_mod_mul_left, e]
      have g : (1073741824 : Nat) = 4 ^ k * 4 ^ (16 - (k + 1)) := by
        rw [← pow_add, show k + (16 - (k + 1)) = 15 by omega]; rfl
      rw [g, Nat.mul_div_mul_left _ _ (by positivity)]
      exact Nat.mod_mul_right_div_self _ _ _
    rw [e3, e, ← Nat.div_div_eq_div_mul]
    omega
  have hlow := h.low
  obtain ⟨t, ht⟩ : ∃ t, s.iroot = 2 * t := ⟨s.iroot / 2, by have := h.root; omega⟩
  have ht2 : s.iroot / 2 = t := by omega
  rw [ht2] at hlow
  have anext : (s.a * 4) % word = (n * 4 ^ (k + 1)) % word := by
    rw [h.a, pow_succ, ← mul_assoc]
    rw [Nat.mod_mul_mod]
  have hhigh := h.high
  unfold sqrtStepExact
  simp only
  by_cases hc : s.iroot * 2 + 1 ≤ s.irem * 4 + s.a / 1073741824
  · rw [if_pos hc]
    refine ⟨by omega, anext, by simp only; omega, ?_, ?_⟩
    · simp only
      have : (s.iroot * 2 + 1 + 1) / 2 = 2 * t + 1 := by omega
      rw [this, hdiv, ← hlow]
      have hring : (2 * t + 1) * (2 * t + 1) = 4 * (t * t) + 4 * t + 1 := by ring
      rw [hring]
      generalize t * t = tt at *
      omega
    · simp only; omega
  · rw [if_neg hc]
    refine ⟨by omega, anext, by simp only; omega, ?_, by simp only; omega⟩
    simp only
    have : (s.iroot * 2 + 1 - 1) / 2 = 2 * t := by omega
    rw [this, hdiv, ← hlow]
    have hring : (2 * t) * (2 * t) = 4 * (t * t) := by ring
    rw [hring]
    generalize t * t = tt at *
    omega

/-- States of the loop. -/
def sqrtAfter (n : Nat) : Nat → SqrtState
  | 0 => ⟨n, 0, 0⟩
  | k + 1 => sqrtStep (sqrtAfter n k)

theorem sqrtLoop_after (n : Nat) (j : Nat) : ∀ k, sqrtLoop j (sqrtAfter n k) = sqrtAfter n (k + j) := by
  induction j with
  | zero => intro k; rfl
  | succ j ih => intro k; rw [sqrtLoop, show sqrtStep (sqrtAfter n k) = sqrtAfter n (k + 1) from rfl, ih]; congr 1; omega

theorem sqrtAfter_inv (n : Nat) (hn : n < word) (k : Nat) (hk : k ≤ 16) : SqrtInv n k (sqrtAfter n k) := by
  induction k with
  | zero =>
    refine ⟨by omega, ?_, rfl, ?_, by simp [sqrtAfter]⟩
    · simp [sqrtAfter, Nat.mod_eq_of_lt hn]
    · have : n / 4 ^ (16 - 0) = 0 := Nat.div_eq_of_lt (by rw [Nat.sub_zero, ← word_pow]; exact hn)
      rw [this]; simp [sqrtAfter]
  | succ k ih =>
    obtain ⟨h1, h2⟩ := sqrtStep_inv hn (ih (by omega)) (by omega)
    show SqrtInv n (k + 1) (sqrtStep (sqrtAfter n k))
    rw [h1]; exact h2

/-- **C37.**  For every 32-bit input the result is the largest number whose square does not exceed it. -/
theorem C37_isqrt (n : Nat) (hn : n < 2 ^ 32) : isqrt n * isqrt n ≤ n ∧ n < (isqrt n + 1) * (isqrt n + 1) := by
  have hw : n < word := by unfold word; omega
  have h := sqrtAfter_inv n hw 16 (le_refl _)
  have e : isqrt n = (sqrtAfter n 16).iroot / 2 := by
    unfold isqrt
    rw [show (⟨n, 0, 0⟩ : SqrtState) = sqrtAfter n 0 from rfl, sqrtLoop_after, Nat.shiftRight_eq_div_pow]
  rw [e]
  have hl := h.low
  rw [Nat.sub_self, pow_zero, Nat.div_one] at hl
  have hh := h.high
  have hr := h.root
  obtain ⟨t, ht⟩ : ∃ t, (sqrtAfter n 16).iroot = 2 * t := ⟨(sqrtAfter n 16).iroot / 2, by omega⟩
  have ht2 : (sqrtAfter n 16).iroot / 2 = t := by omega
  rw [ht2] at hl ⊢
  have : (t + 1) * (t + 1) = t * t + 2 * t + 1 := by ring
  rw [this]
  generalize t * t = tt at *
  omega

/-- **C37 (no overflow).**  In every one of the sixteen iterations the machine arithmetic gives the exact result:
no sum, shift of the root or remainder, or difference is reduced. -/
theorem C37_no_overflow (n : Nat) (hn : n < 2 ^ 32) (k : Nat) (hk : k < 16) :
    sqrtAfter n (k + 1) = sqrtStepExact (sqrtAfter n k) :=
  (sqrtStep_inv (by unfold word; omega) (sqrtAfter_inv n (by unfold word; omega) k (by omega)) hk).1

/-- **C37 (squares).**  A perfect square is recognised. -/
theorem C37_square (m : Nat) (hm : m < 2 ^ 16) : isqrt (m * m) = m := by
  have hlt : m * m < 2 ^ 32 := by
    calc m * m < 2 ^ 16 * 2 ^ 16 := Nat.mul_lt_mul_of_le_of_lt (by omega) hm (by omega)
      _ = 2 ^ 32 := by norm_num
  obtain ⟨h1, h2⟩ := C37_isqrt (m * m) hlt
  have a : isqrt (m * m) ≤ m := by
    by_contra hc
    have := Nat.mul_self_lt_mul_self (show m < isqrt (m * m) by omega)
    omega
  have b : m < isqrt (m * m) + 1 := by
    by_contra hc
    have := Nat.mul_self_le_mul_self (show isqrt (m * m) + 1 ≤ m by omega)
    omega
  omega

example : isqrt 4294967295 = 65535 ∧ isqrt 99 = 9 ∧ isqrt 100 = 10 := by decide

end Verif.Num
