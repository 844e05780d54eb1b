/-
C27: distribution of patches over processors.
-/
import Verif.Patch.Spec
import Mathlib.Data.List.Nodup
import Mathlib.Tactic.Linarith

namespace Verif.Patch

theorem distribute_eq (rows size rank : Nat) :
    distribute rows size rank =
      ⟨(List.range rows).map (· % size), (List.range rows).filter (fun n => n % size = rank)⟩ := by
  unfold distribute
  induction rows with
  | zero => rfl
  | succ n ih =>
    rw [List.range_succ, List.foldl_append, ih]
    simp only [List.foldl_cons, List.foldl_nil, List.map_append, List.map_cons, List.map_nil, List.filter_append]
    by_cases h : n % size = rank
    · simp [h]
    · simp [h]

/-- **C27.**  Every patch is active on exactly one processor, exactly once there; and that is the processor every rank
has on record as its owner. -/
theorem C27_exactly_one (rows size : Nat) (hs : 0 < size) (n : Nat) (hn : n < rows) :
    (∃ r, r < size ∧ (distribute rows size r).active.count n = 1 ∧
      (∀ r', (distribute rows size r').owner[n]? = some r) ∧
      ∀ r', r' ≠ r → n ∉ (distribute rows size r').active) := by
  refine ⟨n % size, Nat.mod_lt _ hs, ?_, ?_, ?_⟩
  · rw [distribute_eq]
    apply List.count_eq_one_of_mem
    · exact List.nodup_range.filter _
    · simp [hn]
  · intro r'; rw [distribute_eq]; simp [hn]
  · intro r' hr
    rw [distribute_eq]
    simp only [List.mem_filter, List.mem_range, decide_eq_true_eq, not_and]
    intro _ h; exact hr h.symm

example : (distribute 7 3 1).active = [1, 4] ∧ (distribute 7 3 0).active = [0, 3, 6] ∧
    (distribute 7 3 2).owner = [0, 1, 2, 0, 1, 2, 0] := by decide

/-- Nothing but patches is distributed, and every rank has the same table with one owner per patch. -/
theorem C27_agree (rows size : Nat) (r r' : Nat) :
    (distribute rows size r).owner = (distribute rows size r').owner ∧
    (distribute rows size r).owner.length = rows ∧ ∀ n ∈ (distribute rows size r).active, n < rows := by
  rw [distribute_eq, distribute_eq]
  refine ⟨rfl, by simp, ?_⟩
  intro n hn
  exact List.mem_range.1 (List.mem_filter.1 hn).1

theorem count_mod (rows size rank : Nat) (hs : 0 < size) (hr : rank < size) :
    ((List.range rows).filter (fun n => n % size = rank)).length = (rows + (size - 1 - rank)) / size := by
  induction rows with
  | zero => show 0 = _; rw [Nat.zero_add, Nat.div_eq_of_lt (by omega)]
  | succ n ih =>
    rw [List.range_succ, List.filter_append, List.length_append, ih]
    have h1 : n + 1 + (size - 1 - rank) = n + (size - 1 - rank) + 1 := by omega
    rw [h1, Nat.succ_div]
    have h2 : size ∣ n + (size - 1 - rank) + 1 ↔ n % size = rank := by
      rw [show n + (size - 1 - rank) + 1 = n + (size - rank) by omega, Nat.dvd_iff_mod_eq_zero]
      have hm := Nat.mod_lt n hs
      rw [Nat.add_mod]
      by_cases h0 : rank = 0
      · subst h0; simp
      · rw [Nat.mod_eq_of_lt (show size - rank < size by omega)]
        constructor
        · intro h
          by_contra hc
          rcases Nat.lt_or_ge (n % size + (size - rank)) size with hl | hl
          · rw [Nat.mod_eq_of_lt hl] at h; omega
          · rw [Nat.mod_eq_sub_mod hl, Nat.mod_eq_of_lt (by omega)] at h; omega
        · intro h; rw [h, show rank + (size - rank) = size by omega, Nat.mod_self]
    by_cases h : n % size = rank
    · rw [if_pos (h2.2 h)]; simp [h]
    · rw [if_neg (fun hc => h (h2.1 hc))]; simp [h]

/-- **C27 (balance).**  Loads of two processors differ by at most one patch. -/
theorem C27_balanced (rows size r r' : Nat) (hr : r < size) (hr' : r' < size) :
    (distribute rows size r).active.length ≤ (distribute rows size r').active.length + 1 := by
  have hs : 0 < size := by omega
  rw [distribute_eq, distribute_eq]
  simp only
  rw [count_mod rows size r hs hr, count_mod rows size r' hs hr']
  calc (rows + (size - 1 - r)) / size ≤ (rows + (size - 1 - r') + size) / size := Nat.div_le_div_right (by omega)
    _ = (rows + (size - 1 - r')) / size + 1 := Nat.add_div_right _ hs

example : (distribute 7 3 0).active.length = 3 ∧ (distribute 7 3 2).active.length = 2 := by decide

theorem deactivateFrom_notMem (ix : Nat) (active : List Nat) : ∀ i, ix ∉ active.drop i → deactivateFrom ix i active = active := by
  intro i
  induction h : active.length - i generalizing i with
  | zero =>
    intro _
    rw [deactivateFrom, dif_neg (by omega)]
  | succ n ih =>
    intro hm
    rw [deactivateFrom, dif_pos (by omega)]
    have hlt : i < active.length := by omega
    rw [List.drop_eq_getElem_cons hlt] at hm
    rw [if_neg (fun hc => hm (by rw [hc]; exact List.mem_cons_self))]
    exact ih (i + 1) (by omega) (fun hc => hm (List.mem_cons_of_mem _ hc))

theorem deactivateFrom_eq (ix : Nat) (active : List Nat) (hnd : active.Nodup) : ∀ i, ix ∉ active.take i →
    deactivateFrom ix i active = active.erase ix := by
  intro i
  induction h : active.length - i generalizing i with
  | zero =>
    intro hm
    rw [deactivateFrom, dif_neg (by omega)]
    rw [List.take_of_length_le (by omega)] at hm
    rw [List.erase_of_not_mem hm]
  | succ n ih =>
    intro hm
    have hlt : i < active.length := by omega
    rw [deactivateFrom, dif_pos hlt]
    by_cases hc : active[i] = ix
    · rw [if_pos hc]
      have he : active.eraseIdx i = active.erase ix := by
        rw [List.erase_eq_eraseIdx_of_idxOf]
        rw [← hc]
        exact (List.Nodup.idxOf_getElem hnd i hlt)
      rw [he]
      apply deactivateFrom_notMem
      intro hm'
      exact (List.Nodup.not_mem_erase hnd) (List.mem_of_mem_drop hm')
    · rw [if_neg hc]
      apply ih (i + 1) (by omega)
      rw [List.take_succ_eq_append_getElem hlt]
      intro hm'
      rcases List.mem_append.1 hm' with h' | h'
      · exact hm h'
      · simp at h'; exact hc h'.symm

/-- **C27 (deactivation).**  From a list without repetitions — which activation and distribution produce —
deactivating a patch removes that patch and no other, keeping the order; deactivating a patch that is not active
changes nothing. -/
theorem C27_deactivate (active : List Nat) (hnd : active.Nodup) (ix : Nat) :
    deactivate active ix = active.filter (fun n => n ≠ ix) ∧ (ix ∉ active → deactivate active ix = active) ∧
    (ix ∉ active → (activate active ix).Nodup ∧ deactivate (activate active ix) ix = active) := by
  have h1 : ∀ l : List Nat, l.Nodup → deactivate l ix = l.filter (fun n => n ≠ ix) := by
    intro l hl
    unfold deactivate
    rw [deactivateFrom_eq ix l hl 0 (by simp), List.Nodup.erase_eq_filter hl]
    apply List.filter_congr; intro n _
    by_cases h : n = ix <;> simp [h]
  have h2 : ix ∉ active → active.filter (fun n => n ≠ ix) = active := by
    intro h
    apply List.filter_eq_self.2
    intro n hn
    simp only [decide_eq_true_eq]
    rintro rfl; exact h hn
  refine ⟨h1 active hnd, fun h => by rw [h1 active hnd, h2 h], ?_⟩
  intro h
  have hnd' : (activate active ix).Nodup := by
    unfold activate
    rw [List.nodup_append]
    refine ⟨hnd, by simp, ?_⟩
    intro a ha b hb; simp at hb; subst hb; rintro rfl; exact h ha
  refine ⟨hnd', ?_⟩
  rw [h1 _ hnd']
  unfold activate
  rw [List.filter_append, h2 h]
  simp

/-- Distribution gives a list without repetitions. -/
theorem C27_active_nodup (rows size r : Nat) : (distribute rows size r).active.Nodup := by
  rw [distribute_eq]; exact List.nodup_range.filter _

/-- A patch activated twice survives one deactivation. -/
theorem C27_repeated_activation : 5 ∈ deactivate (activate (activate [] 5) 5) 5 := by
  unfold deactivate activate
  rw [deactivateFrom]; simp
  rw [deactivateFrom]; simp

end Verif.Patch
