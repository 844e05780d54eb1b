/-
Helper lemmas for waiting on messages.
-/
import Verif.Registry.Spec
import Mathlib.Data.List.Basic
import Mathlib.Data.List.Nodup

namespace Verif.Registry

/-- Processors not yet received, from `p` on. -/
def missing (r : List Bool) : Nat := r.count false

theorem pass_some (ready : Nat → Nat → Bool) (n : Nat) : ∀ (left count : Nat) (w : Wait) (p c : Nat) (w' : Wait),
    left ≤ n → w.received.length = n → pass ready n left count w = (some p, c, w') →
    n - left ≤ p ∧ p < n ∧ w.received[p]? = some false ∧ w'.received = w.received.set p true ∧
      w.polls < w'.polls ∧ ∃ k, w.polls ≤ k ∧ k < w'.polls ∧ ready k p = true := by
  intro left
  induction left with
  | zero => intro count w p c w' _ _ h; simp [pass] at h
  | succ left ih =>
    intro count w p c w' hl hlen h
    rw [pass] at h
    have hlt : n - (left + 1) < w.received.length := by omega
    by_cases h1 : w.received[n - (left + 1)]? = some true
    · rw [if_pos h1] at h
      obtain ⟨a, b⟩ := ih _ w p c w' (by omega) hlen h
      exact ⟨by omega, b⟩
    · rw [if_neg h1] at h
      by_cases h2 : ready w.polls (n - (left + 1)) = true
      · rw [if_pos h2] at h
        simp only [Prod.mk.injEq, Option.some.injEq] at h
        obtain ⟨rfl, _, rfl⟩ := h
        refine ⟨by omega, by omega, ?_, rfl, by simp, w.polls, by simp, by simp, h2⟩
        rw [List.getElem?_eq_getElem hlt] at h1 ⊢
        simpa using h1
      · rw [if_neg h2] at h
        obtain ⟨a, b, c1, d, e, k, f⟩ := ih _ ⟨w.received, w.polls + 1⟩ p c w' (by omega) hlen h
        simp only at d e f
        exact ⟨by omega, b, c1, d, by omega, k, by omega, by omega, f.2.2⟩

theorem pass_none (ready : Nat → Nat → Bool) (n : Nat) : ∀ (left count : Nat) (w : Wait) (c : Nat) (w' : Wait),
    left ≤ n → w.received.length = n → pass ready n left count w = (none, c, w') →
    w'.received = w.received ∧ c = count + (w.received.drop (n - left)).count true ∧
      w'.polls = w.polls + (w.received.drop (n - left)).count false ∧
      ∀ p, n - left ≤ p → p < n → w.received[p]? = some false →
        ∃ k, w.polls ≤ k ∧ k < w'.polls ∧ ready k p = false := by
  intro left
  induction left with
  | zero =>
    intro count w c w' _ hlen h
    simp only [pass, Prod.mk.injEq, true_and] at h
    obtain ⟨rfl, rfl⟩ := h
    refine ⟨rfl, ?_, ?_, ?_⟩
    · simp [← hlen]
    · simp [← hlen]
    · intro p a b; omega
  | succ left ih =>
    intro count w c w' hl hlen h
    rw [pass] at h
    have hlt : n - (left + 1) < w.received.length := by omega
    have hdrop : w.received.drop (n - (left + 1)) = w.received[n - (left + 1)] :: w.received.drop (n - left) := by
      rw [List.drop_eq_getElem_cons hlt]; congr 2; omega
    rw [hdrop]
    by_cases h1 : w.received[n - (left + 1)]? = some true
    · rw [if_pos h1] at h
      rw [List.getElem?_eq_getElem hlt, Option.some.injEq] at h1
      obtain ⟨a, b, c1, d⟩ := ih _ w c w' (by omega) hlen h
      rw [h1]
      refine ⟨a, by simp; omega, by simpa using c1, ?_⟩
      intro p hp hp' hf
      by_cases hpe : p = n - (left + 1)
      · subst hpe; rw [List.getElem?_eq_getElem hlt, h1] at hf; cases hf
      · exact d p (by omega) hp' hf
    · rw [if_neg h1] at h
      rw [List.getElem?_eq_getElem hlt, Option.some.injEq, Bool.not_eq_true] at h1
      by_cases h2 : ready w.polls (n - (left + 1)) = true
      · rw [if_pos h2] at h; simp at h
      · rw [if_neg h2] at h
        obtain ⟨a, b, c1, d⟩ := ih _ ⟨w.received, w.polls + 1⟩ c w' (by omega) hlen h
        simp only at a b c1 d
        rw [h1]
        refine ⟨a, by simpa using b, by simp; omega, ?_⟩
        intro p hp hp' hf
        by_cases hpe : p = n - (left + 1)
        · exact ⟨w.polls, by omega, by omega, by rw [hpe]; simpa using h2⟩
        · obtain ⟨k, k1, k2, k3⟩ := d p (by omega) hp' hf
          exact ⟨k, by omega, k2, k3⟩

theorem count_true_add_false (l : List Bool) : l.count true + l.count false = l.length := by
  induction l with
  | nil => rfl
  | cons a l ih => cases a <;> simp <;> omega

theorem pass_none' {ready : Nat → Nat → Bool} {n : Nat} {w : Wait} {c : Nat} {w' : Wait}
    (hlen : w.received.length = n) (h : pass ready n n 0 w = (none, c, w')) :
    w'.received = w.received ∧ c = w.received.count true ∧ w'.polls = w.polls + w.received.count false ∧
      ∀ p, p < n → w.received[p]? = some false → ∃ k, w.polls ≤ k ∧ k < w'.polls ∧ ready k p = false := by
  obtain ⟨a, b, c1, d⟩ := pass_none ready n n 0 w c w' (Nat.le_refl _) hlen h
  rw [Nat.sub_self, List.drop_zero] at b c1
  exact ⟨a, by omega, c1, fun p hp => d p (by omega) hp⟩

theorem waitReceive_some (ready : Nat → Nat → Bool) (n : Nat) : ∀ (fuel count : Nat) (w : Wait) (p : Nat) (w' : Wait),
    w.received.length = n → waitReceive ready n fuel count w = some (some p, w') →
    p < n ∧ w.received[p]? = some false ∧ w'.received = w.received.set p true ∧
      ∃ k, w.polls ≤ k ∧ k < w'.polls ∧ ready k p = true := by
  intro fuel
  induction fuel with
  | zero => intro _ _ _ _ _ h; simp [waitReceive] at h
  | succ fuel ih =>
    intro count w p w' hlen h
    rw [waitReceive] at h
    by_cases hc : count = n
    · rw [if_pos hc] at h; simp at h
    · rw [if_neg hc] at h
      rcases hp : pass ready n n 0 w with ⟨_ | q, c, v⟩
      · rw [hp] at h
        simp only at h
        obtain ⟨a, b, c1, _⟩ := pass_none' hlen hp
        obtain ⟨h1, h2, h3, k, h4, h5, h6⟩ := ih c v p w' (by rw [a]; exact hlen) h
        rw [a] at h2 h3
        exact ⟨h1, h2, h3, k, by omega, h5, h6⟩
      · rw [hp] at h
        simp only [Option.some.injEq, Prod.mk.injEq] at h
        obtain ⟨rfl, rfl⟩ := h
        obtain ⟨_, h1, h2, h3, _, h4⟩ := pass_some ready n n 0 w q c v (Nat.le_refl _) hlen hp
        exact ⟨h1, h2, h3, h4⟩

theorem waitReceive_none (ready : Nat → Nat → Bool) (n : Nat) : ∀ (fuel count : Nat) (w w' : Wait),
    w.received.length = n → (count = n → ∀ b ∈ w.received, b = true) →
    waitReceive ready n fuel count w = some (none, w') →
    w'.received = w.received ∧ ∀ b ∈ w.received, b = true := by
  intro fuel
  induction fuel with
  | zero => intro _ _ _ _ _ h; simp [waitReceive] at h
  | succ fuel ih =>
    intro count w w' hlen hcn h
    rw [waitReceive] at h
    by_cases hc : count = n
    · rw [if_pos hc] at h
      simp only [Option.some.injEq, Prod.mk.injEq, true_and] at h
      subst h
      exact ⟨rfl, hcn hc⟩
    · rw [if_neg hc] at h
      rcases hp : pass ready n n 0 w with ⟨_ | q, c, v⟩
      · rw [hp] at h
        simp only at h
        obtain ⟨a, b, c1, _⟩ := pass_none' hlen hp
        rw [← a]
        refine ih c v w' (by rw [a]; exact hlen) ?_ h
        intro hcn' x hx
        rw [a] at hx
        have := count_true_add_false w.received
        have h0 : w.received.count false = 0 := by omega
        rw [List.count_eq_zero] at h0
        cases x
        · exact absurd hx h0
        · rfl
      · rw [hp] at h; simp at h

/-- With every message visible from poll `K` on, a wait ends. -/
theorem waitReceive_ends (ready : Nat → Nat → Bool) (n K : Nat) (hK : ∀ p, p < n → ∀ k, K ≤ k → ready k p = true) :
    ∀ (fuel count : Nat) (w : Wait), w.received.length = n →
      (2 ≤ fuel ∧ K + 2 ≤ fuel + w.polls) ∨ (1 ≤ fuel ∧ count = n) →
      ∃ x, waitReceive ready n fuel count w = some x := by
  intro fuel
  induction fuel with
  | zero => intro _ _ _ h; omega
  | succ fuel ih =>
    intro count w hlen hf
    rw [waitReceive]
    by_cases hc : count = n
    · rw [if_pos hc]; exact ⟨_, rfl⟩
    · rw [if_neg hc]
      rcases hp : pass ready n n 0 w with ⟨_ | q, c, v⟩
      · simp only
        obtain ⟨a, b, c1, d⟩ := pass_none' hlen hp
        have hct := count_true_add_false w.received
        by_cases h0 : w.received.count false = 0
        · have hcn : c = n := by omega
          exact ih c v (by rw [a]; exact hlen) (by right; omega)
        · -- some processor was polled and not ready
          obtain ⟨p, hp1, hp2⟩ : ∃ p, p < n ∧ w.received[p]? = some false := by
            have : false ∈ w.received := by rw [← List.count_pos_iff]; omega
            obtain ⟨p, hp1, hp2⟩ := List.mem_iff_getElem.mp this
            exact ⟨p, by omega, by rw [List.getElem?_eq_getElem hp1, hp2]⟩
          obtain ⟨k, k1, k2, k3⟩ := d p hp1 hp2
          have hkK : k < K := by
            by_contra hh; rw [hK p hp1 k (by omega)] at k3; cases k3
          exact ih c v (by rw [a]; exact hlen) (by left; omega)
      · exact ⟨_, rfl⟩

end Verif.Registry
