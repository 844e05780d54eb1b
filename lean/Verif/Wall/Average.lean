import Verif.Wall.Props
import Verif.Dss.Props

/-!
# C102: walls after shared nodes are averaged

`GridCartesianGLL::ApplyDSS` treats the walls and then averages shared nodes (src/atm/GridCartesianGLL.cpp:551-651).
-/

namespace Verif.Wall

open Verif.Init (Fault put4 each bind_ok)

/-- A component is opposite on the two sides of a wall, at all of its nodes, those in the corners of the halo included. -/
def Anti (P : Patch) (s : Side) (r : Nat → Nat → Nat → Nat → ℝ) (c k : Nat) : Prop :=
  ∀ u < s.length P, r c (s.cell P u).1 (s.cell P u).2 k + r c (s.near P u).1 (s.near P u).2 k = 0

/-- The component a sealed side changes. -/
def Side.normal (s : Side) : Nat := if s.isA then 0 else 1

theorem value_cases (s : Side) (a : Act) (g o n : Nat → ℝ) (c : Nat)
    (h : (∃ _ : a = .still, c = 0 ∨ c = 1 ∨ c = 3) ∨ ∃ _ : a = .sealed, c ≠ s.normal) :
    a.value s g o n c = -n c ∨ a.value s g o n c = o c := by
  rcases h with ⟨rfl, h⟩ | ⟨rfl, h⟩
  · left; simp [Act.value, h]
  · right
    unfold Side.normal at h
    simp only [Act.value]
    split_ifs at h ⊢ <;> simp_all

theorem still_value (s : Side) (g o n : Nat → ℝ) (c : Nat) (h : c = 0 ∨ c = 1 ∨ c = 3) :
    Act.still.value s g o n c = -n c := by simp [Act.value, h]

theorem sealed_value (s : Side) (g o n : Nat → ℝ) (c : Nat) (h : c ≠ s.normal) :
    Act.sealed.value s g o n c = o c := by
  unfold Side.normal at h
  simp only [Act.value]
  split_ifs at h ⊢ <;> simp_all

/-- A side does not undo what another one has done. -/
theorem anti_keep (P : Patch) (s s' : Side) (hne : s' ≠ s) (a : Act) (G : Nat → Nat → Nat → Nat → ℝ) (m : Nat)
    (r r' : Nat → Nat → Nat → Nat → ℝ) (hT : Treated P s' a G m r r') (k : Nat) (hk : k < m) (c : Nat)
    (ha : 3 ≤ P.na) (hb : 3 ≤ P.nb)
    (h : s'.isA = s.isA ∨ (a = .still ∧ (c = 0 ∨ c = 1 ∨ c = 3)) ∨ (a = .sealed ∧ c ≠ s'.normal))
    (hA : Anti P s r c k) : Anti P s r' c k := by
  obtain ⟨T1, T2⟩ := hT
  have val : s'.isA ≠ s.isA → ∀ u < s'.length P, ∀ v < s'.length P,
      r c (s'.cell P u).1 (s'.cell P u).2 k + r c (s'.cell P v).1 (s'.cell P v).2 k = 0 →
      r c (s'.near P u).1 (s'.near P u).2 k + r c (s'.near P v).1 (s'.near P v).2 k = 0 →
      r' c (s'.cell P u).1 (s'.cell P u).2 k + r' c (s'.cell P v).1 (s'.cell P v).2 k = 0 := by
    intro hi u hu v hv h1 h2
    rw [T1 u hu k hk, T1 v hv k hk]
    rcases h with h | ⟨rfl, h⟩ | ⟨rfl, h⟩
    · exact absurd h hi
    · rw [still_value _ _ _ _ _ h, still_value _ _ _ _ _ h]; linarith
    · rw [sealed_value _ _ _ _ _ h, sealed_value _ _ _ _ _ h]; exact h1
  have off : ∀ x y, (∀ t, (x, y) ≠ s'.cell P t) → r' c x y k = r c x y k := fun x y q => T2 c x y k (fun t _ => q t)
  intro u hu
  have hA0 := hA u hu
  cases s <;> cases s' <;> first | exact absurd rfl hne | skip
  -- right
  · simp only [Side.cell, Side.near, Side.length, Side.isA] at *
    by_cases e : u = P.nb - 1
    · subst e
      exact val (by simp) (P.na - 1) (by omega) (P.na - 1 - 1) (by omega) hA0 (hA (P.nb - 1 - 1) (by simp only [Side.length]; omega))
    · rw [off _ _ (by intro t; simp; omega), off _ _ (by intro t; simp; omega)]; exact hA0
  · simp only [Side.cell, Side.near, Side.length, Side.isA] at *
    rw [off _ _ (by intro t; simp; omega), off _ _ (by intro t; simp; omega)]; exact hA0
  · simp only [Side.cell, Side.near, Side.length, Side.isA] at *
    by_cases e : u = 0
    · subst e
      exact val (by simp) (P.na - 1) (by omega) (P.na - 1 - 1) (by omega) hA0 (hA (0 + 1) (by simp only [Side.length]; omega))
    · rw [off _ _ (by intro t; simp; omega), off _ _ (by intro t; simp; omega)]; exact hA0
  -- top
  · simp only [Side.cell, Side.near, Side.length, Side.isA] at *
    by_cases e : u = P.na - 1
    · subst e
      exact val (by simp) (P.nb - 1) (by omega) (P.nb - 1 - 1) (by omega) hA0 (hA (P.na - 1 - 1) (by simp only [Side.length]; omega))
    · rw [off _ _ (by intro t; simp; omega), off _ _ (by intro t; simp; omega)]; exact hA0
  · simp only [Side.cell, Side.near, Side.length, Side.isA] at *
    by_cases e : u = 0
    · subst e
      exact val (by simp) (P.nb - 1) (by omega) (P.nb - 1 - 1) (by omega) hA0 (hA (0 + 1) (by simp only [Side.length]; omega))
    · rw [off _ _ (by intro t; simp; omega), off _ _ (by intro t; simp; omega)]; exact hA0
  · simp only [Side.cell, Side.near, Side.length, Side.isA] at *
    rw [off _ _ (by intro t; simp; omega), off _ _ (by intro t; simp; omega)]; exact hA0
  -- left
  · simp only [Side.cell, Side.near, Side.length, Side.isA] at *
    rw [off _ _ (by intro t; simp; omega), off _ _ (by intro t; simp; omega)]; exact hA0
  · simp only [Side.cell, Side.near, Side.length, Side.isA] at *
    by_cases e : u = P.nb - 1
    · subst e
      exact val (by simp) 0 (by omega) (0 + 1) (by omega) hA0 (hA (P.nb - 1 - 1) (by simp only [Side.length]; omega))
    · rw [off _ _ (by intro t; simp; omega), off _ _ (by intro t; simp; omega)]; exact hA0
  · simp only [Side.cell, Side.near, Side.length, Side.isA] at *
    by_cases e : u = 0
    · subst e
      exact val (by simp) 0 (by omega) (0 + 1) (by omega) hA0 (hA (0 + 1) (by simp only [Side.length]; omega))
    · rw [off _ _ (by intro t; simp; omega), off _ _ (by intro t; simp; omega)]; exact hA0
  -- bottom
  · simp only [Side.cell, Side.near, Side.length, Side.isA] at *
    by_cases e : u = P.na - 1
    · subst e
      exact val (by simp) 0 (by omega) (0 + 1) (by omega) hA0 (hA (P.na - 1 - 1) (by simp only [Side.length]; omega))
    · rw [off _ _ (by intro t; simp; omega), off _ _ (by intro t; simp; omega)]; exact hA0
  · simp only [Side.cell, Side.near, Side.length, Side.isA] at *
    rw [off _ _ (by intro t; simp; omega), off _ _ (by intro t; simp; omega)]; exact hA0
  · simp only [Side.cell, Side.near, Side.length, Side.isA] at *
    by_cases e : u = 0
    · subst e
      exact val (by simp) 0 (by omega) (0 + 1) (by omega) hA0 (hA (0 + 1) (by simp only [Side.length]; omega))
    · rw [off _ _ (by intro t; simp; omega), off _ _ (by intro t; simp; omega)]; exact hA0

/-- One side among the passes that follow. -/
theorem anti_side (P : Patch) (s s' : Side) (hne : s' ≠ s) (A A' : State) (hr : side P s' A = .ok A') (c : Nat)
    (ha : 3 ≤ P.na) (hb : 3 ≤ P.nb) (hc : 4 ≤ P.components)
    (h : s'.active P → ∃ a, s'.act P.staggering (P.conditions s'.index) = some a ∧
      (s'.isA = s.isA ∨ (a = .still ∧ (c = 0 ∨ c = 1 ∨ c = 3)) ∨ (a = .sealed ∧ c ≠ s'.normal))) :
    (∀ k < P.levels, Anti P s A.node c k → Anti P s A'.node c k) ∧
    (P.staggering ≠ .interfaces → ∀ k ≤ P.levels, Anti P s A.edge c k → Anti P s A'.edge c k) := by
  by_cases hw : s'.active P
  · obtain ⟨a, hact, hk⟩ := h hw
    obtain ⟨T1, -, T2⟩ := side_spec P s' A A' a hw hact (across_le P s' ha hb) hc hr
    exact ⟨fun k hk' q => anti_keep P s s' hne a _ _ _ _ T1 k hk' c ha hb hk q,
      fun hg k hk' q => anti_keep P s s' hne a _ _ _ _ (T2 hg) k (by omega) c ha hb hk q⟩
  · rw [side_inactive P s' A hw] at hr
    cases hr
    exact ⟨fun _ _ q => q, fun _ _ _ q => q⟩

/-- After all passes. -/
theorem anti_apply (P : Patch) (A A' : State) (hr : apply P A = .ok A') (s : Side) (c : Nat) (ha : 3 ≤ P.na)
    (hb : 3 ≤ P.nb) (hc : 4 ≤ P.components) (hw : s.active P) (a : Act)
    (hact : s.act P.staggering (P.conditions s.index) = some a)
    (h : ∀ s' : Side, s'.active P → ∃ a, s'.act P.staggering (P.conditions s'.index) = some a ∧
      (s'.isA = s.isA ∨ (a = .still ∧ (c = 0 ∨ c = 1 ∨ c = 3)) ∨ (a = .sealed ∧ c ≠ s'.normal))) :
    (∀ k < P.levels, (∀ r r', Treated P s a (s.metricNode P) P.levels r r' → Anti P s r' c k) → Anti P s A'.node c k) ∧
    (P.staggering ≠ .interfaces → ∀ k ≤ P.levels,
      (∀ r r', Treated P s a (s.metricEdge P) (P.levels + 1) r r' → Anti P s r' c k) → Anti P s A'.edge c k) := by
  obtain ⟨-, A1, A2, A3, h1, h2, h3, h4⟩ := apply_passes P A A' hr
  have own : ∀ B B', side P s B = .ok B' → (∀ k < P.levels,
      (∀ r r', Treated P s a (s.metricNode P) P.levels r r' → Anti P s r' c k) → Anti P s B'.node c k) ∧
      (P.staggering ≠ .interfaces → ∀ k ≤ P.levels,
        (∀ r r', Treated P s a (s.metricEdge P) (P.levels + 1) r r' → Anti P s r' c k) → Anti P s B'.edge c k) := by
    intro B B' e
    obtain ⟨T1, -, T2⟩ := side_spec P s B B' a hw hact (across_le P s ha hb) hc e
    exact ⟨fun k _ q => q _ _ T1, fun hg k _ q => q _ _ (T2 hg)⟩
  have keep := fun s' hne B B' e => anti_side P s s' hne B B' e c ha hb hc (h s')
  cases s with
  | right =>
    have o := own _ _ h1
    have q2 := keep .top (by simp) _ _ h2
    have q3 := keep .left (by simp) _ _ h3
    have q4 := keep .bottom (by simp) _ _ h4
    exact ⟨fun k hk q => q4.1 k hk (q3.1 k hk (q2.1 k hk (o.1 k hk q))),
      fun hg k hk q => q4.2 hg k hk (q3.2 hg k hk (q2.2 hg k hk (o.2 hg k hk q)))⟩
  | top =>
    have o := own _ _ h2
    have q3 := keep .left (by simp) _ _ h3
    have q4 := keep .bottom (by simp) _ _ h4
    exact ⟨fun k hk q => q4.1 k hk (q3.1 k hk (o.1 k hk q)),
      fun hg k hk q => q4.2 hg k hk (q3.2 hg k hk (o.2 hg k hk q))⟩
  | left =>
    have o := own _ _ h3
    have q4 := keep .bottom (by simp) _ _ h4
    exact ⟨fun k hk q => q4.1 k hk (o.1 k hk q), fun hg k hk q => q4.2 hg k hk (o.2 hg k hk q)⟩
  | bottom => exact own _ _ h4

theorem still_anti (P : Patch) (s : Side) (h2 : 2 ≤ s.across P) (G : Nat → Nat → Nat → Nat → ℝ) (m c k : Nat)
    (hk : k < m) (hc : c = 0 ∨ c = 1 ∨ c = 3) (r r' : Nat → Nat → Nat → Nat → ℝ) (hT : Treated P s .still G m r r') :
    Anti P s r' c k := by
  intro u hu
  rw [hT.1 u hu k hk, hT.2 c (s.near P u).1 (s.near P u).2 k (fun v _ e => cell_near P s h2 v u e.symm), still_value _ _ _ _ _ hc]
  ring

theorem sealed_anti (P : Patch) (s : Side) (h2 : 2 ≤ s.across P) (G : Nat → Nat → Nat → Nat → ℝ) (m k : Nat)
    (hk : k < m) (hG : ∀ u < s.length P, ∀ d < 3, d ≠ s.normal → G (s.near P u).1 (s.near P u).2 k d = 0)
    (r r' : Nat → Nat → Nat → Nat → ℝ) (hT : Treated P s .sealed G m r r') : Anti P s r' s.normal k := by
  intro u hu
  rw [hT.1 u hu k hk, hT.2 s.normal (s.near P u).1 (s.near P u).2 k (fun v _ e => cell_near P s h2 v u e.symm)]
  cases hi : s.isA
  · have e : s.normal = 1 := by unfold Side.normal; rw [hi]; rfl
    have g0 := hG u hu 0 (by omega) (by omega)
    have g2 := hG u hu 2 (by omega) (by omega)
    simp [Act.value, hi, e, g0, g2]
  · have e : s.normal = 0 := by unfold Side.normal; rw [hi]; rfl
    have g0 := hG u hu 1 (by omega) (by omega)
    have g2 := hG u hu 2 (by omega) (by omega)
    simp [Act.value, hi, e, g0, g2]

/-! ### The averaging -/

theorem cart_mean (D : Dss.Patch) (h : D.Ok) (u : Dss.Field) (i j : Int) (hij : D.Interior i j) :
    Dss.dssCartesian D u i j = Dss.sharedMean D.order (fun g k => u (g + D.halo) (k + D.halo)) (i - D.halo)
      (j - D.halo) := by
  have ok : D.full.Ok := ⟨h.halo, h.order, h.elemA, h.elemB⟩
  have m : ∀ c, D.full.missing c = false := by intro c; cases c <;> rfl
  have e : Dss.dssCartesian D u = Dss.dss D.full u := by
    have e1 : Dss.dssCartesian D u = Dss.dssCartesian D.full u := by
      rw [Dss.cart_eq D h.order h.elemA h.elemB, Dss.cart_eq D.full h.order h.elemA h.elemB]
      rfl
    rw [e1, Dss.C58_cartesian _ ok m]
  rw [e]
  refine Dss.C58_mean D.full ok u i j hij ?_
  rintro ⟨c, hc, -⟩
  rw [m c] at hc
  cases hc

theorem fits_ok (P : Patch) (D : Dss.Patch) (h : Fits P D) : D.Ok :=
  ⟨by have := h.halo; omega, h.order, h.elemA, h.elemB⟩

/-- The other copy of a node along a side, in the numbering of the patch. -/
def copy (p : Int) (t : Nat) : Nat := (Dss.twin p ((t : Int) - 1) + 1).toNat

/-- It is along the side too. -/
theorem copy_le (p e : Int) (n t : Nat) (hp : 2 ≤ p) (he : 1 ≤ e) (hn : (n : Int) = e * p + 2) (h0 : 0 < t)
    (h1 : t + 1 < n) : (copy p t : Int) = Dss.twin p ((t : Int) - 1) + 1 ∧ copy p t < n := by
  unfold copy Dss.twin
  have hw := Dss.width e p he hp
  split_ifs with q1 q2 <;> omega

/-- The mean of the four copies of a node on a side. -/
theorem rim_mean (P : Patch) (D : Dss.Patch) (hF : Fits P D) (s : Side) (t : Nat) (ht : Owned P s t)
    (r : Nat → Nat → Nat → Nat → ℝ) (c k : Nat) :
    Dss.dssCartesian D (layer r c k) (s.near P t).1 (s.near P t).2 =
      (r c (s.cell P t).1 (s.cell P t).2 k + r c (s.near P t).1 (s.near P t).2 k +
        (r c (s.cell P (copy D.order t)).1 (s.cell P (copy D.order t)).2 k +
          r c (s.near P (copy D.order t)).1 (s.near P (copy D.order t)).2 k)) / 4 ∧
      copy D.order t < s.length P := by
  obtain ⟨hh, ho, hA, hB, na, nb⟩ := hF
  have ok : D.Ok := ⟨by omega, ho, hA, hB⟩
  have wA := Dss.width D.elemA D.order hA ho
  have wB := Dss.width D.elemB D.order hB ho
  have lA := Dss.twin_last D.order D.elemA ho
  have lB := Dss.twin_last D.order D.elemB ho
  have f0 := Dss.twin_first D.order 0 ho
  rw [zero_mul] at f0
  obtain ⟨t0, t1⟩ := ht
  cases s with
  | right =>
    simp only [Along] at t1
    obtain ⟨c1, c2⟩ := copy_le D.order D.elemB P.nb t ho hB nb t0 t1
    refine ⟨?_, c2⟩
    simp only [Side.near, Side.cell]
    rw [cart_mean D ok _ _ _ (by unfold Dss.Patch.Interior; rw [hh]; omega)]
    unfold Dss.sharedMean layer
    rw [hh, show ((P.na - 1 - 1 : Nat) : Int) - 1 = D.elemA * D.order - 1 by omega, lA]
    dsimp only
    rw [← c1, show (D.elemA * D.order + 1).toNat = P.na - 1 by omega,
      show (D.elemA * D.order - 1 + 1).toNat = P.na - 1 - 1 by omega, show ((t : Int) - 1 + 1).toNat = t by omega,
      Int.toNat_natCast]
    ring
  | top =>
    simp only [Along] at t1
    obtain ⟨c1, c2⟩ := copy_le D.order D.elemA P.na t ho hA na t0 t1
    refine ⟨?_, c2⟩
    simp only [Side.near, Side.cell]
    rw [cart_mean D ok _ _ _ (by unfold Dss.Patch.Interior; rw [hh]; omega)]
    unfold Dss.sharedMean layer
    rw [hh, show ((P.nb - 1 - 1 : Nat) : Int) - 1 = D.elemB * D.order - 1 by omega, lB]
    dsimp only
    rw [← c1, show (D.elemB * D.order + 1).toNat = P.nb - 1 by omega,
      show (D.elemB * D.order - 1 + 1).toNat = P.nb - 1 - 1 by omega, show ((t : Int) - 1 + 1).toNat = t by omega,
      Int.toNat_natCast]
    ring
  | left =>
    simp only [Along] at t1
    obtain ⟨c1, c2⟩ := copy_le D.order D.elemB P.nb t ho hB nb t0 t1
    refine ⟨?_, c2⟩
    simp only [Side.near, Side.cell]
    rw [cart_mean D ok _ _ _ (by unfold Dss.Patch.Interior; rw [hh]; omega)]
    unfold Dss.sharedMean layer
    rw [hh, show ((0 + 1 : Nat) : Int) - 1 = 0 by omega, f0]
    dsimp only
    rw [← c1, show ((0 : Int) - 1 + 1).toNat = 0 by omega,
      show ((0 : Int) + 1).toNat = 0 + 1 by omega, show ((t : Int) - 1 + 1).toNat = t by omega,
      Int.toNat_natCast]
    ring
  | bottom =>
    simp only [Along] at t1
    obtain ⟨c1, c2⟩ := copy_le D.order D.elemA P.na t ho hA na t0 t1
    refine ⟨?_, c2⟩
    simp only [Side.near, Side.cell]
    rw [cart_mean D ok _ _ _ (by unfold Dss.Patch.Interior; rw [hh]; omega)]
    unfold Dss.sharedMean layer
    rw [hh, show ((0 + 1 : Nat) : Int) - 1 = 0 by omega, f0]
    dsimp only
    rw [← c1, show ((0 : Int) - 1 + 1).toNat = 0 by omega,
      show ((0 : Int) + 1).toNat = 0 + 1 by omega, show ((t : Int) - 1 + 1).toNat = t by omega,
      Int.toNat_natCast]
    ring

theorem anti_mean (P : Patch) (D : Dss.Patch) (hF : Fits P D) (s : Side) (t : Nat) (ht : Owned P s t)
    (r : Nat → Nat → Nat → Nat → ℝ) (c k : Nat) (h : Anti P s r c k) :
    Dss.dssCartesian D (layer r c k) (s.near P t).1 (s.near P t).2 = 0 := by
  obtain ⟨e, hl⟩ := rim_mean P D hF s t ht r c k
  have ht' : t < s.length P := by rw [← along_eq]; have := ht.2; omega
  rw [e, h t ht', h _ hl]
  ring

theorem fits_wide (P : Patch) (D : Dss.Patch) (h : Fits P D) : 3 ≤ P.na ∧ 3 ≤ P.nb := by
  obtain ⟨-, ho, hA, hB, na, nb⟩ := h
  have wA := Dss.width D.elemA D.order hA ho
  have wB := Dss.width D.elemB D.order hB ho
  omega

/-- After the averaging of shared nodes the air stands still at every node of a no-slip wall, at the corners of patches
and of the domain too, if the walls it runs into are not walls of the other kind.

Missing: as in `C102_noslip_partial`; and a no-slip wall that meets a no-flux wall. -/
theorem C102_noslip_averaged_partial (P : Patch) (D : Dss.Patch) (hF : Fits P D) (A A' : State)
    (hr : apply P A = .ok A') (hc : 4 ≤ P.components) (s : Side) (hm : Meets P s) (hs : Asked P s = 2)
    (hp : Proper P s)
    (ho : ∀ s', Across s' ≠ Across s → ¬ Meets P s' ∨ Asked P s' = 0 ∨ (Asked P s' = 2 ∧ Proper P s'))
    (hk' : ∀ s', Meets P s' → Asked P s' = 0 ∨ Asked P s' = 1 ∨ Asked P s' = 2)
    (t : Nat) (ht : Owned P s t) (c : Nat) (hv : IsVelocity c) :
    (∀ k < P.levels,
      Dss.dssCartesian D (layer A'.node c k) (Rim P.na P.nb s t).1 (Rim P.na P.nb s t).2 = 0) ∧
    (P.staggering ≠ .interfaces → ∀ k ≤ P.levels,
      Dss.dssCartesian D (layer A'.edge c k) (Rim P.na P.nb s t).1 (Rim P.na P.nb s t).2 = 0) := by
  obtain ⟨ha, hb⟩ := fits_wide P D hF
  have hw := wall_active P s hm (by rw [hs]; decide)
  have hact := act_still P s hp hs
  have h2 := across_le P s ha hb
  have key := anti_apply P A A' hr s c ha hb hc hw _ hact (by
    intro s' hw'
    have hm' := (meets_iff P s').2 hw'.2
    by_cases hi : s'.isA = s.isA
    · have hq : ∃ q, Side.act P.staggering s' (P.conditions s'.index) = some q := by
        rw [← asked_eq]
        have h0 := hw'.1
        rw [← asked_eq] at h0
        unfold Side.act
        rcases hk' s' hm' with e | e | e
        · exact absurd e h0
        · rw [e]
          by_cases hi : P.staggering = .interfaces ∧ (s' = .right ∨ s' = .top)
          · rw [if_pos hi]; exact ⟨_, rfl⟩
          · rw [if_neg hi]; exact ⟨_, rfl⟩
        · rw [e]
          by_cases hi : P.staggering = .interfaces ∧ (s' = .right ∨ s' = .top)
          · rw [if_pos hi]; exact ⟨_, rfl⟩
          · rw [if_neg hi]; exact ⟨_, rfl⟩
      obtain ⟨q, hq⟩ := hq
      exact ⟨q, hq, Or.inl hi⟩
    · have hx : Across s' ≠ Across s := by
        cases s <;> cases s' <;> simp_all [Across, Side.isA]
      rcases ho s' hx with h | h | ⟨h, hp'⟩
      · exact absurd hm' h
      · rw [asked_eq] at h; exact absurd h hw'.1
      · exact ⟨_, act_still P s' hp' h, Or.inr (Or.inl ⟨rfl, hv⟩)⟩)
  rw [rim_eq]
  refine ⟨fun k hk => ?_, fun hg k hk => ?_⟩
  · exact anti_mean P D hF s t ht _ c k (key.1 k hk (fun r r' T => still_anti P s h2 _ _ c k hk hv r r' T))
  · exact anti_mean P D hF s t ht _ c k
      (key.2 hg k hk (fun r r' T => still_anti P s h2 _ _ c k (by omega) hv r r' T))

/-- After the averaging of shared nodes no air passes a no-flux wall at any of its nodes, if the coordinates are
orthogonal at the wall.

Missing: as in `C102_noslip_partial`; for other coordinates see `C102_noflux_averaged_skew_partial`. -/
theorem C102_noflux_averaged_partial (P : Patch) (D : Dss.Patch) (hF : Fits P D) (A A' : State)
    (hr : apply P A = .ok A') (hc : 4 ≤ P.components) (s : Side) (hm : Meets P s) (hs : Asked P s = 1)
    (hp : Proper P s)
    (hk' : ∀ s', Meets P s' → Asked P s' = 0 ∨ Asked P s' = 1 ∨ Asked P s' = 2)
    (t : Nat) (ht : Owned P s t) :
    (∀ k < P.levels,
      (∀ u < Along P.na P.nb s, ∀ d < 3, d ≠ Across s →
        MetricNode P s (Rim P.na P.nb s u).1 (Rim P.na P.nb s u).2 k d = 0) →
      Dss.dssCartesian D (layer A'.node (Across s) k) (Rim P.na P.nb s t).1 (Rim P.na P.nb s t).2 = 0) ∧
    (P.staggering ≠ .interfaces → ∀ k ≤ P.levels,
      (∀ u < Along P.na P.nb s, ∀ d < 3, d ≠ Across s →
        MetricEdge P s (Rim P.na P.nb s u).1 (Rim P.na P.nb s u).2 k d = 0) →
      Dss.dssCartesian D (layer A'.edge (Across s) k) (Rim P.na P.nb s t).1 (Rim P.na P.nb s t).2 = 0) := by
  obtain ⟨ha, hb⟩ := fits_wide P D hF
  have hw := wall_active P s hm (by rw [hs]; decide)
  have hact := act_sealed P s hp hs
  have h2 := across_le P s ha hb
  have en : Across s = s.normal := by cases s <;> rfl
  have key := anti_apply P A A' hr s (Across s) ha hb hc hw _ hact (by
    intro s' hw'
    have hm' := (meets_iff P s').2 hw'.2
    have hq : ∃ q, Side.act P.staggering s' (P.conditions s'.index) = some q := by
      rw [← asked_eq]
      have h0 := hw'.1
      rw [← asked_eq] at h0
      unfold Side.act
      by_cases hi : P.staggering = .interfaces ∧ (s' = .right ∨ s' = .top)
      · rw [if_pos hi]
        rcases hk' s' hm' with e | e | e
        · exact absurd e h0
        · rw [e]; exact ⟨_, rfl⟩
        · rw [e]; exact ⟨_, rfl⟩
      · rw [if_neg hi]
        rcases hk' s' hm' with e | e | e
        · exact absurd e h0
        · rw [e]; exact ⟨_, rfl⟩
        · rw [e]; exact ⟨_, rfl⟩
    obtain ⟨q, hq⟩ := hq
    refine ⟨q, hq, ?_⟩
    by_cases hi : s'.isA = s.isA
    · exact Or.inl hi
    · right
      cases q with
      | still => left; exact ⟨rfl, by cases s <;> simp [Across]⟩
      | sealed => right; exact ⟨rfl, by cases s <;> cases s' <;> simp_all [Across, Side.isA, Side.normal]⟩)
  rw [rim_eq]
  refine ⟨fun k hk hG => ?_, fun hg k hk hG => ?_⟩
  · refine anti_mean P D hF s t ht _ _ k (key.1 k hk (fun r r' T => ?_))
    rw [en]
    refine sealed_anti P s h2 _ _ k hk (fun u hu d hd hne => ?_) r r' T
    have := hG u (by rw [along_eq]; exact hu) d hd (by rw [en]; exact hne)
    rwa [rim_eq, metricNode_eq] at this
  · refine anti_mean P D hF s t ht _ _ k (key.2 hg k hk (fun r r' T => ?_))
    rw [en]
    refine sealed_anti P s h2 _ _ k (by omega) (fun u hu d hd hne => ?_) r r' T
    have := hG u (by rw [along_eq]; exact hu) d hd (by rw [en]; exact hne)
    rwa [rim_eq, metricEdge_eq] at this

/-- In other coordinates: where all three velocities are averaged on levels, no air passes at a node of the wall whose
other copy along the wall belongs to the patch too and has the same metric.

Missing: as in `C102_noslip_partial`; nodes at the corners of the patch; a vertical velocity that is kept on interfaces
and not averaged on levels. -/
theorem C102_noflux_averaged_skew_partial (P : Patch) (D : Dss.Patch) (hF : Fits P D) (A A' : State)
    (hr : apply P A = .ok A') (hc : 4 ≤ P.components) (s : Side) (hm : Meets P s) (hs : Asked P s = 1)
    (hp : Proper P s) (t u : Nat) (ht : Owned P s t) (hu : Owned P s u)
    (htu : (u : Int) = Dss.twin D.order ((t : Int) - 1) + 1) (k : Nat) (hk : k < P.levels) (g : Nat → ℝ)
    (hg : MetricNode P s (Rim P.na P.nb s t).1 (Rim P.na P.nb s t).2 k = g)
    (hg' : MetricNode P s (Rim P.na P.nb s u).1 (Rim P.na P.nb s u).2 k = g) (h0 : g (Across s) ≠ 0) :
    g 0 * Dss.dssCartesian D (layer A'.node 0 k) (Rim P.na P.nb s t).1 (Rim P.na P.nb s t).2 +
      g 1 * Dss.dssCartesian D (layer A'.node 1 k) (Rim P.na P.nb s t).1 (Rim P.na P.nb s t).2 +
      g 2 * Dss.dssCartesian D (layer A'.node 3 k) (Rim P.na P.nb s t).1 (Rim P.na P.nb s t).2 = 0 := by
  obtain ⟨ha, hb⟩ := fits_wide P D hF
  have c1 := ((C102_noflux_partial P A A' hr ha hb hc s hm hs hp t ht).1 k hk).1 (by rw [hg]; exact h0)
  have c2 := ((C102_noflux_partial P A A' hr ha hb hc s hm hs hp u hu).1 k hk).1 (by rw [hg']; exact h0)
  have cu : copy D.order t = u := by unfold copy; omega
  unfold Closed at c1 c2
  rw [hg] at c1
  rw [hg'] at c2
  unfold mean at c1 c2
  rw [rim_eq, beyond_eq] at c1 c2
  rw [rim_eq, (rim_mean P D hF s t ht A'.node 0 k).1, (rim_mean P D hF s t ht A'.node 1 k).1,
    (rim_mean P D hF s t ht A'.node 3 k).1, cu]
  linarith

end Verif.Wall
