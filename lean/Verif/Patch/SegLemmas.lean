/-
Walking along one side of a patch: the segments and the changes between them.
-/
import Verif.Patch.PropsBox

namespace Verif.Patch

/-- What a walk registers, in positions counted from its start. -/
inductive Ev
  | edge (t : Option Nat) (a b : Nat)
  | old (t : Option Nat) (k : Nat)
  | new (t : Option Nat) (k : Nat)
  deriving DecidableEq

/-- The walk over positions `k, …, k + n - 1` facing the patches `v`. -/
def evs (v : Nat → Option Nat) : Nat → Nat → Nat → Option Nat → List Ev
  | 0, k, first, cur => [.edge cur first k]
  | n + 1, k, first, cur =>
    if v k ≠ cur then .edge cur first k :: .old cur k :: .new (v k) k :: evs v n (k + 1) k (v k)
    else evs v n (k + 1) first cur

theorem mem_evs (v : Nat → Option Nat) : ∀ n k first cur, first < k → (∀ p, first ≤ p → p < k → v p = cur) →
    (∀ t a b, .edge t a b ∈ evs v n k first cur ↔ first ≤ a ∧ a < b ∧ b ≤ k + n ∧ (∀ p, a ≤ p → p < b → v p = t) ∧
      (a = first ∨ v (a - 1) ≠ t) ∧ (b = k + n ∨ v b ≠ t)) ∧
    (∀ t j, .old t j ∈ evs v n k first cur ↔ k ≤ j ∧ j < k + n ∧ v j ≠ t ∧ v (j - 1) = t) ∧
    (∀ t j, .new t j ∈ evs v n k first cur ↔ k ≤ j ∧ j < k + n ∧ v j = t ∧ v (j - 1) ≠ t) := by
  intro n
  induction n with
  | zero =>
    intro k first cur hf hrun
    refine ⟨?_, ?_, ?_⟩
    · intro t a b
      simp only [evs, List.mem_singleton, Ev.edge.injEq]
      constructor
      · rintro ⟨rfl, rfl, rfl⟩
        exact ⟨by omega, hf, by omega, fun p h1 h2 => hrun p h1 h2, Or.inl rfl, Or.inl (by omega)⟩
      · rintro ⟨h1, h2, h3, h4, h5, h6⟩
        have e : t = cur := by rw [← h4 a (by omega) h2]; exact hrun a h1 (by omega)
        subst e
        refine ⟨rfl, ?_, ?_⟩
        · rcases h5 with h5 | h5
          · exact h5
          · by_contra hc; exact h5 (hrun (a - 1) (by omega) (by omega))
        · rcases h6 with h6 | h6
          · omega
          · by_contra hc; exact h6 (hrun b (by omega) (by omega))
    · intro t j
      simp only [evs, List.mem_singleton, reduceCtorEq, false_iff]; omega
    · intro t j
      simp only [evs, List.mem_singleton, reduceCtorEq, false_iff]; omega
  | succ n ih =>
    intro k first cur hf hrun
    unfold evs
    by_cases hc : v k ≠ cur
    · rw [if_pos hc]
      obtain ⟨i1, i2, i3⟩ := ih (k + 1) k (v k) (by omega) (by
        intro p h1 h2; rw [show p = k by omega])
      refine ⟨?_, ?_, ?_⟩
      · intro t a b
        simp only [List.mem_cons, Ev.edge.injEq, reduceCtorEq, false_or, i1]
        constructor
        · rintro (⟨rfl, rfl, rfl⟩ | ⟨h1, h2, h3, h4, h5, h6⟩)
          · exact ⟨by omega, hf, by omega, fun p h1 h2 => hrun p h1 h2, Or.inl rfl, Or.inr hc⟩
          · refine ⟨by omega, h2, by omega, h4, ?_, ?_⟩
            · rcases h5 with h5 | h5
              · right
                rw [h5, hrun (k - 1) (by omega) (by omega), ← h4 k (by omega) (by omega)]
                exact fun h => hc h.symm
              · right; exact h5
            · rcases h6 with h6 | h6
              · left; omega
              · right; exact h6
        · rintro ⟨h1, h2, h3, h4, h5, h6⟩
          by_cases hak : a < k
          · left
            have e : t = cur := by rw [← h4 a (by omega) h2]; exact hrun a h1 hak
            subst e
            have hbk : b ≤ k := by
              by_contra hb
              exact hc (h4 k (by omega) (by omega))
            refine ⟨rfl, ?_, ?_⟩
            · rcases h5 with h5 | h5
              · exact h5
              · by_contra hcc; exact h5 (hrun (a - 1) (by omega) (by omega))
            · by_contra hcc
              rcases h6 with h6 | h6
              · omega
              · exact h6 (hrun b (by omega) (by omega))
          · right
            refine ⟨by omega, h2, by omega, h4, ?_, ?_⟩
            · rcases h5 with h5 | h5
              · omega
              · right; exact h5
            · rcases h6 with h6 | h6
              · left; omega
              · right; exact h6
      · intro t j
        simp only [List.mem_cons, Ev.old.injEq, reduceCtorEq, false_or, i2]
        constructor
        · rintro (⟨rfl, rfl⟩ | ⟨h1, h2, h3, h4⟩)
          · exact ⟨by omega, by omega, hc, hrun (j - 1) (by omega) (by omega)⟩
          · exact ⟨by omega, by omega, h3, h4⟩
        · rintro ⟨h1, h2, h3, h4⟩
          by_cases hj : j = k
          · left; subst hj; exact ⟨by rw [← h4]; exact hrun (j - 1) (by omega) (by omega), rfl⟩
          · right; exact ⟨by omega, by omega, h3, h4⟩
      · intro t j
        simp only [List.mem_cons, Ev.new.injEq, reduceCtorEq, false_or, i3]
        constructor
        · rintro (⟨rfl, rfl⟩ | ⟨h1, h2, h3, h4⟩)
          · refine ⟨by omega, by omega, rfl, ?_⟩
            rw [hrun (j - 1) (by omega) (by omega)]; exact fun h => hc h.symm
          · exact ⟨by omega, by omega, h3, h4⟩
        · rintro ⟨h1, h2, h3, h4⟩
          by_cases hj : j = k
          · left; subst hj; exact ⟨h3.symm, rfl⟩
          · right; exact ⟨by omega, by omega, h3, h4⟩
    · rw [if_neg hc]
      have hc : v k = cur := by simpa using hc
      obtain ⟨i1, i2, i3⟩ := ih (k + 1) first cur (by omega) (by
        intro p h1 h2
        by_cases hp : p = k
        · rw [hp]; exact hc
        · exact hrun p h1 (by omega))
      refine ⟨?_, ?_, ?_⟩
      · intro t a b
        rw [i1, show k + 1 + n = k + (n + 1) by omega]
      · intro t j
        rw [i2]
        constructor
        · rintro ⟨h1, h2, h3, h4⟩; exact ⟨by omega, by omega, h3, h4⟩
        · rintro ⟨h1, h2, h3, h4⟩
          refine ⟨?_, by omega, h3, h4⟩
          by_contra hcc
          have : j = k := by omega
          subst this
          apply h3; rw [hc, ← h4]; exact (hrun (j - 1) (by omega) (by omega)).symm
      · intro t j
        rw [i3]
        constructor
        · rintro ⟨h1, h2, h3, h4⟩; exact ⟨by omega, by omega, h3, h4⟩
        · rintro ⟨h1, h2, h3, h4⟩
          refine ⟨?_, by omega, h3, h4⟩
          by_contra hcc
          have : j = k := by omega
          subst this
          apply h4; rw [← h3, hc]; exact hrun (j - 1) (by omega) (by omega)

theorem nodup_evs (v : Nat → Option Nat) : ∀ n k first cur, first < k → (∀ p, first ≤ p → p < k → v p = cur) →
    (evs v n k first cur).Nodup := by
  intro n
  induction n with
  | zero => intro k first cur _ _; simp [evs]
  | succ n ih =>
    intro k first cur hf hrun
    unfold evs
    by_cases hc : v k ≠ cur
    · rw [if_pos hc]
      have hk : ∀ p, k ≤ p → p < k + 1 → v p = v k := by intro p h1 h2; rw [show p = k by omega]
      obtain ⟨i1, i2, i3⟩ := mem_evs v n (k + 1) k (v k) (by omega) hk
      refine List.nodup_cons.2 ⟨?_, List.nodup_cons.2 ⟨?_, List.nodup_cons.2 ⟨?_, ih _ _ _ (by omega) hk⟩⟩⟩
      · simp only [List.mem_cons, reduceCtorEq, false_or, i1]; omega
      · simp only [List.mem_cons, reduceCtorEq, false_or, i2]; omega
      · simp only [i3]; omega
    · rw [if_neg hc]
      apply ih _ _ _ (by omega)
      intro p h1 h2
      by_cases hp : p = k
      · rw [hp]; simpa using hc
      · exact hrun p h1 (by omega)

/-- The walk along a side of `n + 1` positions. -/
def sideEvs (v : Nat → Option Nat) (n : Nat) : List Ev := evs v (n + 1) 0 0 (v 0)

theorem sideEvs_eq (v : Nat → Option Nat) (n : Nat) : sideEvs v n = evs v n 1 0 (v 0) := by
  unfold sideEvs
  rw [evs, if_neg (by simp)]

theorem mem_sideEvs (v : Nat → Option Nat) (n : Nat) :
    (∀ t a b, .edge t a b ∈ sideEvs v n ↔ a < b ∧ b ≤ n + 1 ∧ (∀ p, a ≤ p → p < b → v p = t) ∧
      (a = 0 ∨ v (a - 1) ≠ t) ∧ (b = n + 1 ∨ v b ≠ t)) ∧
    (∀ t j, .old t j ∈ sideEvs v n ↔ 1 ≤ j ∧ j < n + 1 ∧ v j ≠ t ∧ v (j - 1) = t) ∧
    (∀ t j, .new t j ∈ sideEvs v n ↔ 1 ≤ j ∧ j < n + 1 ∧ v j = t ∧ v (j - 1) ≠ t) := by
  rw [sideEvs_eq]
  obtain ⟨h1, h2, h3⟩ := mem_evs v n 1 0 (v 0) (by omega) (by intro p h1 h2; rw [show p = 0 by omega])
  refine ⟨?_, ?_, ?_⟩
  · intro t a b; rw [h1, show 1 + n = n + 1 by omega]; simp
  · intro t j; rw [h2, show 1 + n = n + 1 by omega]
  · intro t j; rw [h3, show 1 + n = n + 1 by omega]

theorem nodup_sideEvs (v : Nat → Option Nat) (n : Nat) : (sideEvs v n).Nodup := by
  rw [sideEvs_eq]
  exact nodup_evs v n 1 0 (v 0) (by omega) (by intro p h1 h2; rw [show p = 0 by omega])

/-- Registration of an event: nothing if there is no patch. -/
def evReg (edge : Nat → Nat → Nat → Reg) (old new : Nat → Nat → Reg) : Ev → Option Reg
  | .edge t a b => t.map fun t => edge t a b
  | .old t k => t.map fun t => old t k
  | .new t k => t.map fun t => new t k

theorem filterMap_cons_reg (f : Ev → Option Reg) (e : Ev) (l : List Ev) :
    (e :: l).filterMap f = (f e).toList ++ l.filterMap f := by
  rw [List.filterMap_cons]; cases f e <;> rfl

theorem walkUp_evs (vec : List (Option Nat)) (base : Int) (ix0 : Nat) (dir dOld dNew : Exchange.Dir)
    (oldAt newAt : Int → Int × Int) (v : Nat → Option Nat) :
    ∀ (n k first : Nat) (cur : Option Nat), (∀ p, p < k + n → vec.getD (ix0 + p) none = v p) →
    walkUp vec (fun t a b => reg t dir a b) (fun t i => reg t dOld (oldAt i).1 (oldAt i).2)
      (fun t i => reg t dNew (newAt i).1 (newAt i).2) n (base + k) (ix0 + k) (base + (first : Nat)) cur =
    (evs v n k first cur).filterMap (evReg (fun t a b => ⟨t, dir, base + a, base + b⟩)
      (fun t k => ⟨t, dOld, (oldAt (base + k)).1, (oldAt (base + k)).2⟩)
      (fun t k => ⟨t, dNew, (newAt (base + k)).1, (newAt (base + k)).2⟩)) := by
  intro n
  induction n with
  | zero =>
    intro k first cur _
    simp only [walkUp, evs, filterMap_cons_reg, evReg]
    cases cur <;> simp [reg]
  | succ n ih =>
    intro k first cur hv
    unfold walkUp evs
    rw [hv k (by omega)]
    have e1 : base + (k : Int) + 1 = base + ((k + 1 : Nat) : Int) := by push_cast; ring
    by_cases hc : v k ≠ cur
    · rw [if_pos hc, if_pos hc, e1, show ix0 + k + 1 = ix0 + (k + 1) by omega,
        ih (k + 1) k (v k) (fun p hp => hv p (by omega))]
      simp only [filterMap_cons_reg, evReg, List.append_assoc]
      cases cur <;> cases v k <;> simp [reg]
    · rw [if_neg hc, if_neg hc, e1, show ix0 + k + 1 = ix0 + (k + 1) by omega,
        ih (k + 1) first cur (fun p hp => hv p (by omega))]

theorem walkDown_evs (vec : List (Option Nat)) (base : Int) (ix0 : Nat) (dir dOld dNew : Exchange.Dir)
    (oldAt newAt : Int → Int × Int) (v : Nat → Option Nat) :
    ∀ (n k first : Nat) (cur : Option Nat), (∀ p, p < k + n → vec.getD (ix0 + p) none = v p) →
    walkDown vec (fun t a b => reg t dir a b) (fun t i => reg t dOld (oldAt i).1 (oldAt i).2)
      (fun t i => reg t dNew (newAt i).1 (newAt i).2) n (base - 1 - k) (ix0 + k) (base - (first : Nat)) cur =
    (evs v n k first cur).filterMap (evReg (fun t a b => ⟨t, dir, base - b, base - a⟩)
      (fun t k => ⟨t, dOld, (oldAt (base - 1 - k)).1, (oldAt (base - 1 - k)).2⟩)
      (fun t k => ⟨t, dNew, (newAt (base - 1 - k)).1, (newAt (base - 1 - k)).2⟩)) := by
  intro n
  induction n with
  | zero =>
    intro k first cur _
    simp only [walkDown, evs, filterMap_cons_reg, evReg]
    rw [show base - 1 - (k : Int) + 1 = base - k by ring]
    cases cur <;> simp [reg]
  | succ n ih =>
    intro k first cur hv
    unfold walkDown evs
    rw [hv k (by omega)]
    have e1 : base - 1 - (k : Int) - 1 = base - 1 - ((k + 1 : Nat) : Int) := by push_cast; ring
    have e2 : base - 1 - (k : Int) + 1 = base - k := by ring
    by_cases hc : v k ≠ cur
    · rw [if_pos hc, if_pos hc, e1, e2, show ix0 + k + 1 = ix0 + (k + 1) by omega,
        ih (k + 1) k (v k) (fun p hp => hv p (by omega))]
      simp only [filterMap_cons_reg, evReg, List.append_assoc]
      cases cur <;> cases v k <;> simp [reg]
    · rw [if_neg hc, if_neg hc, e1, show ix0 + k + 1 = ix0 + (k + 1) by omega,
        ih (k + 1) first cur (fun p hp => hv p (by omega))]

theorem mem_reg_edge {edge : Nat → Nat → Nat → Reg} {old new : Nat → Nat → Reg} {r : Reg} {l : List Ev} :
    r ∈ l.filterMap (evReg edge old new) ↔
      (∃ t a b, .edge (some t) a b ∈ l ∧ r = edge t a b) ∨ (∃ t k, .old (some t) k ∈ l ∧ r = old t k) ∨
      (∃ t k, .new (some t) k ∈ l ∧ r = new t k) := by
  rw [List.mem_filterMap]
  constructor
  · rintro ⟨e, he, h⟩
    cases e with
    | edge t a b =>
      cases t with
      | none => simp [evReg] at h
      | some t => left; simp [evReg] at h; exact ⟨t, a, b, he, h.symm⟩
    | old t k =>
      cases t with
      | none => simp [evReg] at h
      | some t => right; left; simp [evReg] at h; exact ⟨t, k, he, h.symm⟩
    | new t k =>
      cases t with
      | none => simp [evReg] at h
      | some t => right; right; simp [evReg] at h; exact ⟨t, k, he, h.symm⟩
  · rintro (⟨t, a, b, he, rfl⟩ | ⟨t, k, he, rfl⟩ | ⟨t, k, he, rfl⟩)
    · exact ⟨_, he, rfl⟩
    · exact ⟨_, he, rfl⟩
    · exact ⟨_, he, rfl⟩

/-- A side walked upwards, in positions of the side. -/
theorem mem_up_side (g : Int → Option Nat) (base : Int) (n : Nat) (dir dOld dNew : Exchange.Dir)
    (oldAt newAt : Int → Int × Int) (r : Reg) :
    r ∈ (sideEvs (fun p => g (base + p)) n).filterMap (evReg (fun t a b => ⟨t, dir, base + a, base + b⟩)
      (fun t k => ⟨t, dOld, (oldAt (base + k)).1, (oldAt (base + k)).2⟩)
      (fun t k => ⟨t, dNew, (newAt (base + k)).1, (newAt (base + k)).2⟩)) ↔
    (∃ t a b, r = ⟨t, dir, a, b⟩ ∧ base ≤ a ∧ a < b ∧ b ≤ base + (n + 1) ∧ (∀ p, a ≤ p → p < b → g p = some t) ∧
      (a = base ∨ g (a - 1) ≠ some t) ∧ (b = base + (n + 1) ∨ g b ≠ some t)) ∨
    (∃ t i, r = ⟨t, dOld, (oldAt i).1, (oldAt i).2⟩ ∧ base < i ∧ i < base + (n + 1) ∧ g i ≠ some t ∧ g (i - 1) = some t) ∨
    (∃ t i, r = ⟨t, dNew, (newAt i).1, (newAt i).2⟩ ∧ base < i ∧ i < base + (n + 1) ∧ g i = some t ∧ g (i - 1) ≠ some t) := by
  obtain ⟨m1, m2, m3⟩ := mem_sideEvs (fun p => g (base + p)) n
  rw [mem_reg_edge]
  refine or_congr ?_ (or_congr ?_ ?_)
  · constructor
    · rintro ⟨t, a, b, h, rfl⟩
      rw [m1] at h
      obtain ⟨h1, h2, h3, h4, h5⟩ := h
      refine ⟨t, base + a, base + b, rfl, by omega, by omega, by omega, ?_, ?_, ?_⟩
      · intro p p1 p2
        have := h3 (p - base).toNat (by omega) (by omega)
        rw [show base + ((p - base).toNat : Int) = p by omega] at this
        exact this
      · rcases h4 with h4 | h4
        · left; omega
        · by_cases ha : a = 0
          · left; omega
          · right
            rw [show base + (a : Int) - 1 = base + ((a - 1 : Nat) : Int) by omega]; exact h4
      · rcases h5 with h5 | h5
        · left; omega
        · right; exact h5
    · rintro ⟨t, a, b, rfl, h1, h2, h3, h4, h5, h6⟩
      refine ⟨t, (a - base).toNat, (b - base).toNat, ?_, ?_⟩
      · rw [m1]
        refine ⟨by omega, by omega, ?_, ?_, ?_⟩
        · intro p p1 p2; exact h4 (base + p) (by omega) (by omega)
        · rcases h5 with h5 | h5
          · left; omega
          · by_cases ha : a = base
            · left; omega
            · right
              rw [show base + (((a - base).toNat - 1 : Nat) : Int) = a - 1 by omega]; exact h5
        · rcases h6 with h6 | h6
          · left; omega
          · right
            rw [show base + ((b - base).toNat : Int) = b by omega]; exact h6
      · simp only [Reg.mk.injEq, true_and]; omega
  · constructor
    · rintro ⟨t, k, h, rfl⟩
      rw [m2] at h
      refine ⟨t, base + k, rfl, by omega, by omega, h.2.2.1, ?_⟩
      rw [show base + (k : Int) - 1 = base + ((k - 1 : Nat) : Int) by omega]; exact h.2.2.2
    · rintro ⟨t, i, rfl, h1, h2, h3, h4⟩
      refine ⟨t, (i - base).toNat, ?_, ?_⟩
      · rw [m2]
        refine ⟨by omega, by omega, ?_, ?_⟩
        · rw [show base + ((i - base).toNat : Int) = i by omega]; exact h3
        · rw [show base + (((i - base).toNat - 1 : Nat) : Int) = i - 1 by omega]; exact h4
      · rw [show base + ((i - base).toNat : Int) = i by omega]
  · constructor
    · rintro ⟨t, k, h, rfl⟩
      rw [m3] at h
      refine ⟨t, base + k, rfl, by omega, by omega, h.2.2.1, ?_⟩
      rw [show base + (k : Int) - 1 = base + ((k - 1 : Nat) : Int) by omega]; exact h.2.2.2
    · rintro ⟨t, i, rfl, h1, h2, h3, h4⟩
      refine ⟨t, (i - base).toNat, ?_, ?_⟩
      · rw [m3]
        refine ⟨by omega, by omega, ?_, ?_⟩
        · rw [show base + ((i - base).toNat : Int) = i by omega]; exact h3
        · rw [show base + (((i - base).toNat - 1 : Nat) : Int) = i - 1 by omega]; exact h4
      · rw [show base + ((i - base).toNat : Int) = i by omega]

/-- A side walked downwards from its end `base`. -/
theorem mem_down_side (g : Int → Option Nat) (base : Int) (n : Nat) (dir dOld dNew : Exchange.Dir)
    (oldAt newAt : Int → Int × Int) (r : Reg) :
    r ∈ (sideEvs (fun p => g (base - 1 - p)) n).filterMap (evReg (fun t a b => ⟨t, dir, base - b, base - a⟩)
      (fun t k => ⟨t, dOld, (oldAt (base - 1 - k)).1, (oldAt (base - 1 - k)).2⟩)
      (fun t k => ⟨t, dNew, (newAt (base - 1 - k)).1, (newAt (base - 1 - k)).2⟩)) ↔
    (∃ t a b, r = ⟨t, dir, a, b⟩ ∧ base - (n + 1) ≤ a ∧ a < b ∧ b ≤ base ∧ (∀ p, a ≤ p → p < b → g p = some t) ∧
      (a = base - (n + 1) ∨ g (a - 1) ≠ some t) ∧ (b = base ∨ g b ≠ some t)) ∨
    (∃ t i, r = ⟨t, dOld, (oldAt i).1, (oldAt i).2⟩ ∧ base - (n + 1) ≤ i ∧ i < base - 1 ∧ g i ≠ some t ∧ g (i + 1) = some t) ∨
    (∃ t i, r = ⟨t, dNew, (newAt i).1, (newAt i).2⟩ ∧ base - (n + 1) ≤ i ∧ i < base - 1 ∧ g i = some t ∧ g (i + 1) ≠ some t) := by
  obtain ⟨m1, m2, m3⟩ := mem_sideEvs (fun p => g (base - 1 - p)) n
  rw [mem_reg_edge]
  refine or_congr ?_ (or_congr ?_ ?_)
  · constructor
    · rintro ⟨t, a, b, h, rfl⟩
      rw [m1] at h
      obtain ⟨h1, h2, h3, h4, h5⟩ := h
      refine ⟨t, base - b, base - a, rfl, by omega, by omega, by omega, ?_, ?_, ?_⟩
      · intro p p1 p2
        have := h3 (base - 1 - p).toNat (by omega) (by omega)
        rw [show base - 1 - ((base - 1 - p).toNat : Int) = p by omega] at this
        exact this
      · rcases h5 with h5 | h5
        · left; omega
        · right
          rw [show base - (b : Int) - 1 = base - 1 - (b : Int) by omega]; exact h5
      · rcases h4 with h4 | h4
        · left; omega
        · by_cases ha : a = 0
          · left; omega
          · right
            rw [show base - (a : Int) = base - 1 - ((a - 1 : Nat) : Int) by omega]; exact h4
    · rintro ⟨t, a, b, rfl, h1, h2, h3, h4, h5, h6⟩
      refine ⟨t, (base - b).toNat, (base - a).toNat, ?_, ?_⟩
      · rw [m1]
        refine ⟨by omega, by omega, ?_, ?_, ?_⟩
        · intro p p1 p2; exact h4 (base - 1 - p) (by omega) (by omega)
        · rcases h6 with h6 | h6
          · left; omega
          · by_cases hb : b = base
            · left; omega
            · right
              rw [show base - 1 - (((base - b).toNat - 1 : Nat) : Int) = b by omega]; exact h6
        · rcases h5 with h5 | h5
          · left; omega
          · right
            rw [show base - 1 - ((base - a).toNat : Int) = a - 1 by omega]; exact h5
      · simp only [Reg.mk.injEq, true_and]; omega
  · constructor
    · rintro ⟨t, k, h, rfl⟩
      rw [m2] at h
      refine ⟨t, base - 1 - k, rfl, by omega, by omega, h.2.2.1, ?_⟩
      rw [show base - 1 - (k : Int) + 1 = base - 1 - ((k - 1 : Nat) : Int) by omega]; exact h.2.2.2
    · rintro ⟨t, i, rfl, h1, h2, h3, h4⟩
      refine ⟨t, (base - 1 - i).toNat, ?_, ?_⟩
      · rw [m2]
        refine ⟨by omega, by omega, ?_, ?_⟩
        · rw [show base - 1 - ((base - 1 - i).toNat : Int) = i by omega]; exact h3
        · rw [show base - 1 - (((base - 1 - i).toNat - 1 : Nat) : Int) = i + 1 by omega]; exact h4
      · rw [show base - 1 - ((base - 1 - i).toNat : Int) = i by omega]
  · constructor
    · rintro ⟨t, k, h, rfl⟩
      rw [m3] at h
      refine ⟨t, base - 1 - k, rfl, by omega, by omega, h.2.2.1, ?_⟩
      rw [show base - 1 - (k : Int) + 1 = base - 1 - ((k - 1 : Nat) : Int) by omega]; exact h.2.2.2
    · rintro ⟨t, i, rfl, h1, h2, h3, h4⟩
      refine ⟨t, (base - 1 - i).toNat, ?_, ?_⟩
      · rw [m3]
        refine ⟨by omega, by omega, ?_, ?_⟩
        · rw [show base - 1 - ((base - 1 - i).toNat : Int) = i by omega]; exact h3
        · rw [show base - 1 - (((base - 1 - i).toNat - 1 : Nat) : Int) = i + 1 by omega]; exact h4
      · rw [show base - 1 - ((base - 1 - i).toNat : Int) = i by omega]

/-- Registrations of a side are all different. -/
theorem nodup_side {v : Nat → Option Nat} {n : Nat} {edge : Nat → Nat → Nat → Reg} {old new : Nat → Nat → Reg}
    (h1 : ∀ t a b t' a' b', edge t a b = edge t' a' b' → t = t' ∧ a = a' ∧ b = b')
    (h2 : ∀ t k t' k', old t k = old t' k' → t = t' ∧ k = k')
    (h3 : ∀ t k t' k', new t k = new t' k' → t = t' ∧ k = k')
    (h12 : ∀ t a b t' k, edge t a b ≠ old t' k) (h13 : ∀ t a b t' k, edge t a b ≠ new t' k)
    (h23 : ∀ t k t' k', old t k ≠ new t' k') :
    ((sideEvs v n).filterMap (evReg edge old new)).Nodup := by
  apply List.Nodup.filterMap _ (nodup_sideEvs v n)
  intro e e' r hr hr'
  cases e <;> cases e' <;> simp only [evReg, Option.mem_def, Option.map_eq_some_iff] at hr hr' <;>
    obtain ⟨t, rfl, rfl⟩ := hr <;> obtain ⟨t', rfl, hr'⟩ := hr'
  · obtain ⟨rfl, rfl, rfl⟩ := h1 _ _ _ _ _ _ hr'; rfl
  · exact absurd hr'.symm (h12 _ _ _ _ _)
  · exact absurd hr'.symm (h13 _ _ _ _ _)
  · exact absurd hr' (h12 _ _ _ _ _)
  · obtain ⟨rfl, rfl⟩ := h2 _ _ _ _ hr'; rfl
  · exact absurd hr'.symm (h23 _ _ _ _)
  · exact absurd hr' (h13 _ _ _ _ _)
  · exact absurd hr' (h23 _ _ _ _)
  · obtain ⟨rfl, rfl⟩ := h3 _ _ _ _ hr'; rfl

end Verif.Patch
