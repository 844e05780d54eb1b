import Verif.Wall.Average
import Mathlib.Tactic.NormNum

/-!
# C102: cases that meet the hypotheses, and cases where the code does something else
-/

namespace Verif.Wall

open Verif.Init (Fault put4 each bind_ok each_zero each_succ)

/-- A patch of one element with two nodes each way, which is the whole grid, with flat coordinates. -/
noncomputable def sample (g : Staggering) (right top left bottom : Int) : Patch where
  na := 4
  nb := 4
  levels := 1
  components := 5
  aBegin := 0
  aEnd := 2
  bBegin := 0
  bEnd := 2
  order := 2
  aResolution := 1
  bResolution := 1
  staggering := g
  conditions := fun d => if d = 0 then right else if d = 1 then top else if d = 2 then left else bottom
  metricA := fun _ _ _ d => if d = 0 then 1 else 0
  metricB := fun _ _ _ d => if d = 1 then 1 else 0
  metricAEdge := fun _ _ _ d => if d = 0 then 1 else 0
  metricBEdge := fun _ _ _ d => if d = 1 then 1 else 0

/-- A wind that blows everywhere with the same components. -/
noncomputable def steady : State := ⟨fun _ _ _ _ => 1, fun _ _ _ _ => 1⟩

/-- The same patch for the averaging. -/
def sampleDss : Dss.Patch := ⟨1, 2, 1, 1, false, false, false, false⟩

theorem sample_fits (g : Staggering) (a b c d : Int) : Fits (sample g a b c d) sampleDss :=
  ⟨rfl, by show (2 : Int) ≤ 2; omega, by show (1 : Int) ≤ 1; omega, by show (1 : Int) ≤ 1; omega, rfl, rfl⟩

theorem sample_meets (g : Staggering) (a b c d : Int) (s : Side) : Meets (sample g a b c d) s := by
  cases s <;> simp [Meets, sample]

theorem sample_owned (g : Staggering) (a b c d : Int) (s : Side) : Owned (sample g a b c d) s 1 := by
  cases s <;> exact ⟨by omega, by show 1 + 1 < 4; omega⟩

theorem sample_asked (g : Staggering) (a b c d : Int) :
    Asked (sample g a b c d) .right = a ∧ Asked (sample g a b c d) .top = b ∧ Asked (sample g a b c d) .left = c ∧
      Asked (sample g a b c d) .bottom = d := ⟨rfl, rfl, rfl, rfl⟩

theorem sample_defined (g : Staggering) (hg : g ≠ .levels) (a b c d : Int) (h : ∀ x ∈ [a, b, c, d], x = 0 ∨ x = 1 ∨ x = 2)
    (A : State) : ∃ A', apply (sample g a b c d) A = .ok A' := by
  refine C102_defined _ A (by show 2 ≤ 4; omega) (by show 2 ≤ 4; omega) (by show 4 ≤ 5; omega) hg (fun s _ => ?_)
  cases s
  · exact h a (by simp)
  · exact h b (by simp)
  · exact h c (by simp)
  · exact h d (by simp)

/-- The hypotheses of `C102_noslip_partial` and `C102_noslip_averaged_partial` are met with walls all around. -/
example : ∃ A', apply (sample .lorenz 2 2 2 2) steady = .ok A' ∧ 3 ≤ (sample .lorenz 2 2 2 2).na ∧
    3 ≤ (sample .lorenz 2 2 2 2).nb ∧ 4 ≤ (sample .lorenz 2 2 2 2).components ∧ Meets (sample .lorenz 2 2 2 2) .right ∧
    Asked (sample .lorenz 2 2 2 2) .right = 2 ∧ Proper (sample .lorenz 2 2 2 2) .right ∧
    Owned (sample .lorenz 2 2 2 2) .right 1 ∧ Fits (sample .lorenz 2 2 2 2) sampleDss ∧
    (∀ s', Across s' ≠ Across .right → ¬ Meets (sample .lorenz 2 2 2 2) s' ∨ Asked (sample .lorenz 2 2 2 2) s' = 0 ∨
      (Asked (sample .lorenz 2 2 2 2) s' = 2 ∧ Proper (sample .lorenz 2 2 2 2) s')) := by
  obtain ⟨A', h⟩ := sample_defined .lorenz (by simp) 2 2 2 2 (by simp) steady
  refine ⟨A', h, by show 3 ≤ 4; omega, by show 3 ≤ 4; omega, by show 4 ≤ 5; omega, sample_meets _ _ _ _ _ _, rfl,
    Or.inl (by simp [sample]), sample_owned _ _ _ _ _ _, sample_fits _ _ _ _ _, fun s' _ => ?_⟩
  cases s' <;> exact Or.inr (Or.inr ⟨rfl, Or.inl (by simp [sample])⟩)

/-- The hypotheses of `C102_noflux_partial` and of the two theorems on averaged no-flux walls are met with no-flux walls
at left and right and periodic sides between them. -/
example : ∃ A', apply (sample .lorenz 1 0 1 0) steady = .ok A' ∧ Meets (sample .lorenz 1 0 1 0) .left ∧
    Asked (sample .lorenz 1 0 1 0) .left = 1 ∧ Proper (sample .lorenz 1 0 1 0) .left ∧
    Owned (sample .lorenz 1 0 1 0) .left 1 ∧ MetricNode (sample .lorenz 1 0 1 0) .left 1 1 0 (Across .left) ≠ 0 ∧
    (∀ d < 3, d ≠ Across .left → MetricNode (sample .lorenz 1 0 1 0) .left 1 1 0 d = 0) ∧
    (∀ s', Meets (sample .lorenz 1 0 1 0) s' → Asked (sample .lorenz 1 0 1 0) s' = 0 ∨
      Asked (sample .lorenz 1 0 1 0) s' = 1 ∨ Asked (sample .lorenz 1 0 1 0) s' = 2) := by
  obtain ⟨A', h⟩ := sample_defined .lorenz (by simp) 1 0 1 0 (by simp) steady
  refine ⟨A', h, sample_meets _ _ _ _ _ _, rfl, Or.inl (by simp [sample]), sample_owned _ _ _ _ _ _,
    by simp [MetricNode, sample, Across], fun d _ hd => by simp [Across] at hd; simp [MetricNode, sample, hd],
    fun s' _ => ?_⟩
  cases s' <;> simp [Asked, sample]

/-- Two owned nodes along a wall that are copies of one another: two elements of two nodes (nodes 2 and 3). -/
example : ((3 : Nat) : Int) = Dss.twin 2 (((2 : Nat) : Int) - 1) + 1 := by decide

/-- A periodic side, for `C102_open` and `C102_periodic`; an unknown condition, for `C102_refused_partial`. -/
example : Asked (sample .lorenz 1 0 1 0) .top = 0 ∧ (∀ s, Asked (sample .lorenz 0 0 0 0) s = 0) ∧
    Asked (sample .lorenz 7 0 0 0) .right ≠ 0 ∧ Asked (sample .lorenz 7 0 0 0) .right ≠ 1 ∧
    Asked (sample .lorenz 7 0 0 0) .right ≠ 2 ∧ Proper (sample .lorenz 7 0 0 0) .right ∧
    1 ≤ (sample .lorenz 7 0 0 0).levels := by
  refine ⟨rfl, fun s => by cases s <;> rfl, by simp [Asked, sample], by simp [Asked, sample], by simp [Asked, sample],
    Or.inl (by simp [sample]), by show 1 ≤ 1; omega⟩

/-- Conditions of a test case. -/
example : setCondition 2 1 (ofTest (fun n => (n : Int)) (fun _ => 0)) ≠ .error .exception := by
  unfold setCondition
  rw [if_neg (by omega)]
  simp

/-! ### What the code does instead -/

/-- With everything on interfaces a no-slip wall at the right does not hold the air: the wind along it stays. -/
theorem C102_interfaces_noslip_false : ∃ P A A', apply P A = .ok A' ∧ 3 ≤ P.na ∧ 3 ≤ P.nb ∧ 4 ≤ P.components ∧
    Meets P .right ∧ Asked P .right = 2 ∧ Owned P .right 1 ∧ 0 < P.levels ∧ ¬ Still P .right A'.node 1 0 := by
  obtain ⟨A', h⟩ := sample_defined .interfaces (by simp) 2 0 0 0 (by simp) steady
  refine ⟨_, steady, A', h, by show 3 ≤ 4; omega, by show 3 ≤ 4; omega, by show 4 ≤ 5; omega, sample_meets _ _ _ _ _ _,
    rfl, sample_owned _ _ _ _ _ _, by show 0 < 1; omega, fun q => ?_⟩
  have q1 := q 1 (Or.inr (Or.inl rfl))
  rw [mean_pair, apply_node _ _ _ h .right (by show 3 ≤ 4; omega) (by show 3 ≤ 4; omega) (by show 4 ≤ 5; omega)
    (wall_active _ _ (sample_meets _ _ _ _ _ _) (by simp [Asked, sample])) .sealed (by simp [Side.act, sample, Side.index, noSlip, noFlux])
    1 (sample_owned _ _ _ _ _ _) 0 (by show 0 < 1; omega)] at q1
  simp [Act.value, Side.isA, pair, steady] at q1

/-- With everything on interfaces a no-flux wall at the right turns the wind along it around. -/
theorem C102_interfaces_noflux_false : ∃ P A A', apply P A = .ok A' ∧ 3 ≤ P.na ∧ 3 ≤ P.nb ∧ 4 ≤ P.components ∧
    Meets P .right ∧ Asked P .right = 1 ∧ Owned P .right 1 ∧ 0 < P.levels ∧
    A'.node 1 (Beyond P.na P.nb .right 1).1 (Beyond P.na P.nb .right 1).2 0 ≠
      A.node 1 (Beyond P.na P.nb .right 1).1 (Beyond P.na P.nb .right 1).2 0 := by
  obtain ⟨A', h⟩ := sample_defined .interfaces (by simp) 1 0 0 0 (by simp) steady
  refine ⟨_, steady, A', h, by show 3 ≤ 4; omega, by show 3 ≤ 4; omega, by show 4 ≤ 5; omega, sample_meets _ _ _ _ _ _,
    rfl, sample_owned _ _ _ _ _ _, by show 0 < 1; omega, fun q => ?_⟩
  have e := apply_node _ _ _ h .right (by show 3 ≤ 4; omega) (by show 3 ≤ 4; omega) (by show 4 ≤ 5; omega)
    (wall_active _ _ (sample_meets _ _ _ _ _ _) (by simp [Asked, sample])) .still (by simp [Side.act, sample, Side.index, noSlip])
    1 (sample_owned _ _ _ _ _ _) 0 (by show 0 < 1; omega)
  have e1 := congrFun (congrArg Prod.fst e) 1
  rw [beyond_eq] at q
  have e2 := q.symm.trans e1
  simp [Act.value, pair, steady] at e2
  norm_num at e2

/-- With everything on interfaces a condition the program does not know is accepted at the right. -/
theorem C102_interfaces_unknown_false : ∃ P A A', apply P A = .ok A' ∧ 1 ≤ P.levels ∧ Meets P .right ∧
    Asked P .right = 7 := by
  have q : ∀ s A, ∃ A', side (sample .interfaces 7 0 0 0) s A = .ok A' := by
    intro s A
    refine side_ok _ s A (fun hw => ⟨?_, by cases s <;> (show 2 ≤ 4; omega), by show 4 ≤ 5; omega⟩)
    cases s
    · exact ⟨.still, by simp [Side.act, sample, Side.index, noSlip]⟩
    · exact absurd rfl hw.1
    · exact absurd rfl hw.1
    · exact absurd rfl hw.1
  obtain ⟨A1, h1⟩ := q .right steady
  obtain ⟨A2, h2⟩ := q .top A1
  obtain ⟨A3, h3⟩ := q .left A2
  obtain ⟨A4, h4⟩ := q .bottom A3
  refine ⟨sample .interfaces 7 0 0 0, steady, A4, ?_, by show 1 ≤ 1; omega, sample_meets _ _ _ _ _ _, rfl⟩
  unfold apply
  rw [if_neg (by simp [sample]), h1]
  show (side (sample .interfaces 7 0 0 0) .top A1 >>= _) = _
  rw [h2]
  show (side (sample .interfaces 7 0 0 0) .left A2 >>= _) = _
  rw [h3]
  exact h4

/-- With everything on levels the call always throws, periodic sides or not. -/
theorem C102_levels_false (P : Patch) (A : State) (h : P.staggering = .levels) : apply P A = .error .exception := by
  unfold apply
  rw [if_pos h]

/-- So a grid that is periodic all around cannot be used with everything on levels. -/
example : (∀ s, Asked (sample .levels 0 0 0 0) s = 0) ∧ apply (sample .levels 0 0 0 0) steady = .error .exception :=
  ⟨fun s => by cases s <;> rfl, C102_levels_false _ _ rfl⟩

theorem each_error {σ : Type} (n : Nat) (body : Nat → σ → Except Fault σ) (e : Fault) (hn : 1 ≤ n)
    (h : ∀ t s, body t s = .error e) (s : σ) : each n body s = .error e := by
  induction n with
  | zero => omega
  | succ n ih =>
    rw [each_succ]
    by_cases h0 : n = 0
    · subst h0
      rw [each_zero]
      exact h 0 s
    · rw [ih (by omega)]
      rfl

/-- A set of equations without a vertical velocity (shallow water has three components) cannot have walls: the code
leaves the array of the state. -/
theorem C102_shallow_false (P : Patch) (A : State) (hg : P.staggering ≠ .levels) (hc : P.components < 4)
    (hl : 1 ≤ P.levels) (hb : 1 ≤ P.nb) (hm : Meets P .right) (hs : Asked P .right = 1 ∨ Asked P .right = 2) :
    apply P A = .error .outside := by
  have hw := wall_active P .right hm (by omega)
  have hact : ∃ a, Side.act P.staggering .right (P.conditions Side.right.index) = some a := by
    rw [← asked_eq]
    unfold Side.act
    by_cases hi : P.staggering = .interfaces ∧ (Side.right = .right ∨ Side.right = .top)
    · rw [if_pos hi]
      rcases hs with e | e <;> rw [e] <;> exact ⟨_, rfl⟩
    · rw [if_neg hi]
      rcases hs with e | e <;> rw [e] <;> exact ⟨_, rfl⟩
  obtain ⟨a, ha⟩ := hact
  have pn : ∀ t k B, pointNode P .right t k B = .error .outside := by
    intro t k B
    rw [pointNode_eq P .right t k B a ha, if_pos (Or.inl hc)]
  have e : side P .right A = .error .outside := by
    unfold side
    unfold Side.active at hw
    rw [if_pos hw]
    split_ifs
    · exact each_error _ _ _ hl (fun k B => each_error _ _ _ hb (fun t B => pn t k B) B) A
    · refine each_error _ _ _ hb (fun t B => ?_) A
      show (each P.levels _ B >>= _) = _
      rw [each_error _ _ _ hl (fun k B => pn t k B) B]
      rfl
  unfold apply
  rw [if_neg hg, e]
  rfl

/-- Three components, as shallow water has. -/
example : apply { sample .lorenz 2 0 0 0 with components := 3 } steady = .error .outside :=
  C102_shallow_false _ _ (by simp [sample]) (by show 3 < 4; omega) (by show 1 ≤ 1; omega) (by show 1 ≤ 4; omega)
    (by simp [Meets, sample]) (Or.inr rfl)

/-- The call at the start of a run does nothing: a wind through a no-slip wall is still there. -/
theorem C102_start_false : ∃ P A, Meets P .right ∧ Asked P .right = 2 ∧ Proper P .right ∧ Owned P .right 1 ∧
    0 < P.levels ∧ applyAll [(P, A)] = [(P, A)] ∧ ¬ Still P .right A.node 1 0 := by
  refine ⟨sample .lorenz 2 0 0 0, steady, sample_meets _ _ _ _ _ _, rfl, Or.inl (by simp [sample]),
    sample_owned _ _ _ _ _ _, by show 0 < 1; omega, rfl, fun q => ?_⟩
  have q1 := q 0 (Or.inl rfl)
  unfold mean steady at q1
  norm_num at q1

end Verif.Wall
