import Verif.Wall.Spec
import Verif.Wall.Lemmas
import Mathlib.Tactic.FieldSimp

/-!
# C102: walls of a Cartesian grid
-/

namespace Verif.Wall

open Verif.Init (Fault put4 each each_view each_frame each_ok bind_ok put4_at each_zero each_succ)

theorem beyond_eq (P : Patch) (s : Side) (t : Nat) : Beyond P.na P.nb s t = s.cell P t := by cases s <;> rfl

theorem rim_eq (P : Patch) (s : Side) (t : Nat) : Rim P.na P.nb s t = s.near P t := by cases s <;> rfl

theorem along_eq (P : Patch) (s : Side) : Along P.na P.nb s = s.length P := by cases s <;> rfl

theorem asked_eq (P : Patch) (s : Side) : Asked P s = P.conditions s.index := by cases s <;> rfl

theorem meets_iff (P : Patch) (s : Side) : Meets P s ↔ s.atBoundary P = true := by
  cases s <;> simp [Meets, Side.atBoundary]

theorem metricNode_eq (P : Patch) (s : Side) : MetricNode P s = s.metricNode P := by cases s <;> rfl

theorem metricEdge_eq (P : Patch) (s : Side) : MetricEdge P s = s.metricEdge P := by cases s <;> rfl

theorem across_le (P : Patch) (s : Side) (ha : 3 ≤ P.na) (hb : 3 ≤ P.nb) : 2 ≤ s.across P := by
  cases s <;> simp only [Side.across] <;> omega

theorem act_still (P : Patch) (s : Side) (hp : Proper P s) (hc : Asked P s = 2) :
    s.act P.staggering (P.conditions s.index) = some .still := by
  rw [← asked_eq, hc]
  unfold Side.act
  rw [if_neg]
  · rfl
  · rintro ⟨h1, h2⟩
    rcases hp with h | h | h
    · exact h h1
    · subst h; simp at h2
    · subst h; simp at h2

theorem act_sealed (P : Patch) (s : Side) (hp : Proper P s) (hc : Asked P s = 1) :
    s.act P.staggering (P.conditions s.index) = some .sealed := by
  rw [← asked_eq, hc]
  unfold Side.act
  rw [if_neg]
  · rfl
  · rintro ⟨h1, h2⟩
    rcases hp with h | h | h
    · exact h h1
    · subst h; simp at h2
    · subst h; simp at h2

theorem wall_active (P : Patch) (s : Side) (hm : Meets P s) (hc : Asked P s ≠ 0) : s.active P :=
  ⟨by rw [← asked_eq]; exact hc, (meets_iff P s).1 hm⟩

theorem not_active (P : Patch) (s : Side) (h : ¬ Meets P s ∨ Asked P s = 0) : ¬ s.active P := by
  rintro ⟨h1, h2⟩
  rcases h with h | h
  · exact h ((meets_iff P s).2 h2)
  · rw [asked_eq] at h; exact h1 h

/-- The pair of nodes at a wall after the call. -/
theorem apply_node (P : Patch) (A A' : State) (hr : apply P A = .ok A') (s : Side) (ha : 3 ≤ P.na) (hb : 3 ≤ P.nb)
    (hc : 4 ≤ P.components) (hw : s.active P) (a : Act) (hact : s.act P.staggering (P.conditions s.index) = some a)
    (t : Nat) (ht : Owned P s t) (k : Nat) (hk : k < P.levels) :
    pair P s t k A'.node = (a.value s (s.metricNode P (s.near P t).1 (s.near P t).2 k) (pair P s t k A.node).1
      (pair P s t k A.node).2, (pair P s t k A.node).2) := by
  obtain ⟨B, B', h1, h2⟩ := apply_side P A A' hr s ha hb
  have h1t : t + 1 < s.length P := by rw [← along_eq]; exact ht.2
  obtain ⟨⟨e1, -⟩, e2, -⟩ := h2 t ht.1 h1t k
  obtain ⟨T, -, -⟩ := side_spec P s B B' a hw hact (across_le P s ha hb) hc h1
  rw [e2, ← e1]
  refine Prod.ext (funext fun c => T.1 t (by omega) k hk c) (funext fun c => ?_)
  refine T.2 c _ _ k (fun u _ e => ?_)
  exact cell_near P s (across_le P s ha hb) u t e.symm

theorem apply_edge (P : Patch) (A A' : State) (hr : apply P A = .ok A') (s : Side) (ha : 3 ≤ P.na) (hb : 3 ≤ P.nb)
    (hc : 4 ≤ P.components) (hw : s.active P) (a : Act) (hact : s.act P.staggering (P.conditions s.index) = some a)
    (hg : P.staggering ≠ .interfaces) (t : Nat) (ht : Owned P s t) (k : Nat) (hk : k ≤ P.levels) :
    pair P s t k A'.edge = (a.value s (s.metricEdge P (s.near P t).1 (s.near P t).2 k) (pair P s t k A.edge).1
      (pair P s t k A.edge).2, (pair P s t k A.edge).2) := by
  obtain ⟨B, B', h1, h2⟩ := apply_side P A A' hr s ha hb
  have h1t : t + 1 < s.length P := by rw [← along_eq]; exact ht.2
  obtain ⟨⟨-, e1⟩, -, e2⟩ := h2 t ht.1 h1t k
  obtain ⟨-, -, T⟩ := side_spec P s B B' a hw hact (across_le P s ha hb) hc h1
  have T := T hg
  rw [e2, ← e1]
  refine Prod.ext (funext fun c => T.1 t (by omega) k (by omega) c) (funext fun c => ?_)
  refine T.2 c _ _ k (fun u _ e => ?_)
  exact cell_near P s (across_le P s ha hb) u t e.symm

theorem mean_pair (P : Patch) (s : Side) (r : Nat → Nat → Nat → Nat → ℝ) (c t k : Nat) :
    mean P s r c t k = ((pair P s t k r).1 c + (pair P s t k r).2 c) / 2 := by
  unfold mean pair
  rw [beyond_eq, rim_eq]

theorem still_mean (s : Side) (g o n : Nat → ℝ) (c : Nat) (hc : IsVelocity c) :
    (Act.still.value s g o n c + n c) / 2 = 0 := by
  unfold IsVelocity at hc
  simp [Act.value, hc]

theorem sealed_mean (s : Side) (g o n : Nat → ℝ) (h : g (Across s) ≠ 0) :
    g 0 * ((Act.sealed.value s g o n 0 + n 0) / 2) + g 1 * ((Act.sealed.value s g o n 1 + n 1) / 2) +
      g 2 * ((Act.sealed.value s g o n 3 + n 3) / 2) = 0 := by
  cases s <;> simp only [Across] at h <;> simp [Act.value, Side.isA] <;> field_simp <;> ring

/-- No slip: at every node of the wall, on every level, nothing moves; and on every interface too when the vertical
velocity is kept there.

Missing: the right and the top when everything is on interfaces (`C102_interfaces_noslip_false`), and grids with
everything on levels (`C102_levels_false`). -/
theorem C102_noslip_partial (P : Patch) (A A' : State) (hr : apply P A = .ok A') (ha : 3 ≤ P.na) (hb : 3 ≤ P.nb)
    (hc : 4 ≤ P.components) (s : Side) (hm : Meets P s) (hs : Asked P s = 2) (hp : Proper P s) (t : Nat)
    (ht : Owned P s t) :
    (∀ k < P.levels, Still P s A'.node t k) ∧
    (P.staggering ≠ .interfaces → ∀ k ≤ P.levels, Still P s A'.edge t k) := by
  have hw := wall_active P s hm (by rw [hs]; decide)
  have hact := act_still P s hp hs
  refine ⟨fun k hk c hv => ?_, fun hg k hk c hv => ?_⟩
  · rw [mean_pair, apply_node P A A' hr s ha hb hc hw _ hact t ht k hk]
    exact still_mean s (s.metricNode P (s.near P t).1 (s.near P t).2 k) _ _ c hv
  · rw [mean_pair, apply_edge P A A' hr s ha hb hc hw _ hact hg t ht k hk]
    exact still_mean s (s.metricEdge P (s.near P t).1 (s.near P t).2 k) _ _ c hv

/-- No flux: at every node of the wall no air passes, wherever the metric across the wall is not degenerate; the other
components of the velocity beyond the wall stay as the exchange left them.

Missing: as in `C102_noslip_partial`. -/
theorem C102_noflux_partial (P : Patch) (A A' : State) (hr : apply P A = .ok A') (ha : 3 ≤ P.na) (hb : 3 ≤ P.nb)
    (hc : 4 ≤ P.components) (s : Side) (hm : Meets P s) (hs : Asked P s = 1) (hp : Proper P s) (t : Nat)
    (ht : Owned P s t) :
    (∀ k < P.levels,
      (MetricNode P s (Rim P.na P.nb s t).1 (Rim P.na P.nb s t).2 k (Across s) ≠ 0 →
        Closed P s (MetricNode P s) A'.node t k) ∧
      ∀ c, c ≠ Across s → A'.node c (Beyond P.na P.nb s t).1 (Beyond P.na P.nb s t).2 k =
        A.node c (Beyond P.na P.nb s t).1 (Beyond P.na P.nb s t).2 k) ∧
    (P.staggering ≠ .interfaces → ∀ k ≤ P.levels,
      (MetricEdge P s (Rim P.na P.nb s t).1 (Rim P.na P.nb s t).2 k (Across s) ≠ 0 →
        Closed P s (MetricEdge P s) A'.edge t k) ∧
      ∀ c, c ≠ Across s → A'.edge c (Beyond P.na P.nb s t).1 (Beyond P.na P.nb s t).2 k =
        A.edge c (Beyond P.na P.nb s t).1 (Beyond P.na P.nb s t).2 k) := by
  have hw := wall_active P s hm (by rw [hs]; decide)
  have hact := act_sealed P s hp hs
  have hkeep : ∀ g o n c, c ≠ Across s → Act.sealed.value s g o n c = o c := by
    intro g o n c h
    cases s <;> simp only [Across, ne_eq] at h <;> simp [Act.value, Side.isA, h]
  refine ⟨fun k hk => ?_, fun hg k hk => ?_⟩
  · have e := apply_node P A A' hr s ha hb hc hw _ hact t ht k hk
    refine ⟨fun h => ?_, fun c h => ?_⟩
    · unfold Closed
      rw [mean_pair, mean_pair, mean_pair, e]
      rw [metricNode_eq, rim_eq] at h ⊢
      exact sealed_mean s _ _ _ h
    · rw [beyond_eq]
      refine (congrFun (congrArg Prod.fst e) c).trans ?_
      exact hkeep _ _ _ c h
  · have e := apply_edge P A A' hr s ha hb hc hw _ hact hg t ht k hk
    refine ⟨fun h => ?_, fun c h => ?_⟩
    · unfold Closed
      rw [mean_pair, mean_pair, mean_pair, e]
      rw [metricEdge_eq, rim_eq] at h ⊢
      exact sealed_mean s _ _ _ h
    · rw [beyond_eq]
      refine (congrFun (congrArg Prod.fst e) c).trans ?_
      exact hkeep _ _ _ c h

/-- A side that is periodic, or where the patch does not reach the boundary of the grid, keeps what the exchange
brought. -/
theorem C102_open (P : Patch) (A A' : State) (hr : apply P A = .ok A') (ha : 3 ≤ P.na) (hb : 3 ≤ P.nb)
    (s : Side) (h : ¬ Meets P s ∨ Asked P s = 0) (t : Nat) (ht : Owned P s t) (c k : Nat) :
    A'.node c (Beyond P.na P.nb s t).1 (Beyond P.na P.nb s t).2 k =
      A.node c (Beyond P.na P.nb s t).1 (Beyond P.na P.nb s t).2 k ∧
    A'.edge c (Beyond P.na P.nb s t).1 (Beyond P.na P.nb s t).2 k =
      A.edge c (Beyond P.na P.nb s t).1 (Beyond P.na P.nb s t).2 k := by
  obtain ⟨B, B', h1, h2⟩ := apply_side P A A' hr s ha hb
  have h1t : t + 1 < s.length P := by rw [← along_eq]; exact ht.2
  obtain ⟨⟨e1, e2⟩, e3, e4⟩ := h2 t ht.1 h1t k
  rw [side_inactive P s B (not_active P s h)] at h1
  cases h1
  rw [beyond_eq]
  exact ⟨congrFun (congrArg Prod.fst (e3.trans e1)) c, congrFun (congrArg Prod.fst (e4.trans e2)) c⟩

/-- The nodes the patch owns are not changed, and neither is temperature, density or anything else but velocities. -/
theorem C102_untouched (P : Patch) (A A' : State) (hr : apply P A = .ok A') (c x y k : Nat)
    (h : (0 < x ∧ x + 1 < P.na ∧ 0 < y ∧ y + 1 < P.nb) ∨ ¬ IsVelocity c) :
    A'.node c x y k = A.node c x y k ∧ A'.edge c x y k = A.edge c x y k := by
  refine apply_frame P A A' hr c x y k (h.imp (fun q s t => ?_) (fun q => by unfold IsVelocity at q; tauto))
  cases s <;> simp only [Side.cell, ne_eq, Prod.mk.injEq] <;> omega

/-- If everything is periodic nothing happens at all. -/
theorem C102_periodic (P : Patch) (A : State) (hg : P.staggering ≠ .levels) (h : ∀ s, ¬ Meets P s ∨ Asked P s = 0) :
    apply P A = .ok A := by
  have q : ∀ s A, side P s A = .ok A := fun s A => side_inactive P s A (not_active P s (h s))
  unfold apply
  rw [if_neg hg, q]
  show (side P .top A >>= _) = _
  rw [q]
  show (side P .left A >>= _) = _
  rw [q]
  exact q _ _

/-- The call succeeds for the conditions the program knows. -/
theorem C102_defined (P : Patch) (A : State) (ha : 2 ≤ P.na) (hb : 2 ≤ P.nb) (hc : 4 ≤ P.components)
    (hg : P.staggering ≠ .levels) (h : ∀ s, Meets P s → Asked P s = 0 ∨ Asked P s = 1 ∨ Asked P s = 2) :
    ∃ A', apply P A = .ok A' := by
  have q : ∀ s A, ∃ A', side P s A = .ok A' := by
    intro s A
    refine side_ok P s A (fun hw => ⟨?_, ?_, hc⟩)
    · have hw1 := hw.1
      have h3 := h s ((meets_iff P s).2 hw.2)
      rw [asked_eq] at h3
      unfold periodic at hw1
      have hq : (∃ q, Side.act P.staggering s 1 = some q) ∧ ∃ q, Side.act P.staggering s 2 = some q := by
        unfold Side.act
        by_cases hi : P.staggering = .interfaces ∧ (s = .right ∨ s = .top)
        · rw [if_pos hi, if_pos hi]; exact ⟨⟨_, rfl⟩, ⟨_, rfl⟩⟩
        · rw [if_neg hi, if_neg hi]; exact ⟨⟨_, rfl⟩, ⟨_, rfl⟩⟩
      rcases h3 with h3 | h3 | h3
      · exact absurd h3 hw1
      · rw [h3]; exact hq.1
      · rw [h3]; exact hq.2
    · cases s <;> simp only [Side.across] <;> omega
  obtain ⟨A1, h1⟩ := q .right A
  obtain ⟨A2, h2⟩ := q .top A1
  obtain ⟨A3, h3⟩ := q .left A2
  obtain ⟨A4, h4⟩ := q .bottom A3
  refine ⟨A4, ?_⟩
  unfold apply
  rw [if_neg hg, h1]
  show (side P .top A1 >>= _) = _
  rw [h2]
  show (side P .left A2 >>= _) = _
  rw [h3]
  exact h4

/-- A condition the program does not know is refused at a wall.

Missing: as in `C102_noslip_partial`. -/
theorem C102_refused_partial (P : Patch) (A A' : State) (hl : 1 ≤ P.levels) (hn : 1 ≤ P.na) (hb : 1 ≤ P.nb) (s : Side)
    (hm : Meets P s)
    (hs : Asked P s ≠ 0 ∧ Asked P s ≠ 1 ∧ Asked P s ≠ 2) (hp : Proper P s) : apply P A ≠ .ok A' := by
  intro hr
  have hact : s.act P.staggering (P.conditions s.index) = none := by
    rw [← asked_eq]
    unfold Side.act
    rw [if_neg, if_neg (show ¬ Asked P s = noSlip from hs.2.2), if_neg (show ¬ Asked P s = noFlux from hs.2.1)]
    rintro ⟨h1, h2⟩
    rcases hp with h | h | h
    · exact h h1
    · subst h; simp at h2
    · subst h; simp at h2
  have hw := wall_active P s hm hs.1
  have bad : ∀ B B', side P s B ≠ .ok B' := by
    intro B B' e
    have stop : ∀ n (body : Nat → State → Except Fault State) B B', 1 ≤ n → (∀ t B B', body t B ≠ .ok B') →
        each n body B ≠ .ok B' := by
      intro n body B B' hn hb e
      obtain ⟨m, rfl⟩ : ∃ m, n = m + 1 := ⟨n - 1, by omega⟩
      rw [each_succ] at e
      obtain ⟨M, -, q⟩ := bind_ok e
      exact hb _ _ _ q
    have ln : 1 ≤ s.length P := by cases s <;> simp only [Side.length] <;> omega
    have pn : ∀ t k B B', pointNode P s t k B ≠ .ok B' := by
      intro t k B B' e
      rw [pointNode_none P s t k B hact] at e
      cases e
    unfold side at e
    unfold Side.active at hw
    rw [if_pos hw] at e
    split_ifs at e
    · exact stop _ _ _ _ hl (fun k B B' => stop _ _ _ _ ln (fun t B B' => pn t k B B')) e
    · refine stop _ _ _ _ ln (fun t B B' e => ?_) e
      obtain ⟨M, q, -⟩ := bind_ok e
      exact stop _ _ _ _ hl (fun k B B' => pn t k B B') q
  obtain ⟨-, A1, A2, A3, h1, h2, h3, h4⟩ := apply_passes P A A' hr
  cases s
  · exact bad _ _ h1
  · exact bad _ _ h2
  · exact bad _ _ h3
  · exact bad _ _ h4

/-- The conditions of a test case, in the order right, top, left, bottom, are those asked for at the four sides, and a
condition set later replaces only its own; a direction that is not a side is refused. -/
theorem C102_settings (P : Patch) (b : Nat → Int) (C : Conditions) :
    (P.conditions = ofTest b C → Asked P .right = b 0 ∧ Asked P .top = b 1 ∧ Asked P .left = b 2 ∧
      Asked P .bottom = b 3) ∧
    (∀ (s : Side) x D, setCondition (s.index : Int) x C = .ok D → ∀ d, D d = if d = s.index then x else C d) ∧
    (∀ s : Side, ∀ x, ∃ D, setCondition (s.index : Int) x C = .ok D) ∧
    ∀ dir x D, (dir < 0 ∨ 3 < dir) → setCondition dir x C ≠ .ok D := by
  refine ⟨fun h => ?_, fun s x D h d => ?_, fun s x => ?_, fun dir x D h e => ?_⟩
  · unfold Asked
    rw [h]
    unfold ofTest
    exact ⟨rfl, rfl, rfl, rfl⟩
  · unfold setCondition at h
    split_ifs at h
    cases h
    simp
  · unfold setCondition
    rw [if_neg (by cases s <;> simp [Side.index])]
    exact ⟨_, rfl⟩
  · unfold setCondition at e
    rw [if_pos (by omega)] at e
    cases e

end Verif.Wall
