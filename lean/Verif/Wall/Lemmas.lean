import Verif.Wall.Model
import Verif.Init.PerturbLemmas
import Verif.Init.Points
import Mathlib.Tactic.Linarith
import Mathlib.Tactic.Ring
import Mathlib.Tactic.Tauto

/-!
# What one side does to the arrays
-/

namespace Verif.Wall

open Verif.Init (Fault put4 each each_view each_frame each_ok bind_ok put4_at each_zero each_succ)

/-- The two things a side may do. -/
inductive Act where
  | still
  | sealed

/-- What the code does for a condition. -/
def Side.act (g : Staggering) (s : Side) (bc : Int) : Option Act :=
  if g = .interfaces ∧ (s = .right ∨ s = .top) then
    if bc ≠ noSlip then some .still else if bc ≠ noFlux then some .sealed else none
  else if bc = noSlip then some .still else if bc = noFlux then some .sealed else none

theorem choice_eq {σ : Type} (g : Staggering) (s : Side) (bc : Int) (x y : Except Fault σ) :
    s.choice g bc x y = match s.act g bc with
      | some .still => x
      | some .sealed => y
      | none => .error .exception := by
  unfold Side.choice Side.act
  cases s <;> by_cases hg : g = .interfaces <;> simp [hg, choose, chooseOther] <;> split_ifs <;> rfl

/-- Whether the side is met in alpha. -/
def Side.isA : Side → Bool
  | .right | .left => true
  | .top | .bottom => false

/-- The velocities of the halo node afterwards from those of the halo node `o` and of its neighbour `n`. -/
noncomputable def Act.value (s : Side) (g : Nat → ℝ) (o n : Nat → ℝ) : Act → Nat → ℝ
  | .still => fun c => if c = 0 ∨ c = 1 ∨ c = 3 then -n c else o c
  | .sealed => fun c =>
    if s.isA then
      if c = 0 then 2 * (-1 / g 0 * (g 1 * ((1 / 2) * (o 1 + n 1)) + g 2 * ((1 / 2) * (o 3 + n 3)))) - n 0 else o c
    else
      if c = 1 then 2 * (-1 / g 1 * (g 0 * ((1 / 2) * (o 0 + n 0)) + g 2 * ((1 / 2) * (o 3 + n 3)))) - n 1 else o c

/-- The metric of a side on levels and on interfaces. -/
def Side.metricNode (P : Patch) (s : Side) : Nat → Nat → Nat → Nat → ℝ := if s.isA then P.metricA else P.metricB
def Side.metricEdge (P : Patch) (s : Side) : Nat → Nat → Nat → Nat → ℝ := if s.isA then P.metricAEdge else P.metricBEdge

/-- An operation at one point. -/
noncomputable def Act.op (s : Side) (G : Nat → Nat → Nat → Nat → ℝ) (c n : Nat × Nat) (k : Nat)
    (r : Nat → Nat → Nat → Nat → ℝ) : Act → Nat → Nat → Nat → Nat → ℝ
  | .still => slip c n k r
  | .sealed => if s.isA then fluxA G c n k r else fluxB G c n k r

theorem op_at (s : Side) (G : Nat → Nat → Nat → Nat → ℝ) (c n : Nat × Nat) (k : Nat) (hcn : c ≠ n)
    (r : Nat → Nat → Nat → Nat → ℝ) (a : Act) (d x y z : Nat) :
    a.op s G c n k r d x y z =
      if (x, y) = c ∧ z = k then
        a.value s (G n.1 n.2 k) (fun d => r d c.1 c.2 k) (fun d => r d n.1 n.2 k) d
      else r d x y z := by
  obtain ⟨c1, c2⟩ := c
  obtain ⟨n1, n2⟩ := n
  have hcn' : ¬ (n1 = c1 ∧ n2 = c2) := by
    rintro ⟨rfl, rfl⟩; exact hcn rfl
  cases a with
  | still =>
    show slip _ _ k r d x y z = _
    unfold slip
    simp only [put4, Act.value, Prod.mk.injEq]
    by_cases h : x = c1 ∧ y = c2
    · obtain ⟨rfl, rfl⟩ := h
      by_cases hz : z = k
      · subst hz
        by_cases d3 : d = 3
        · subst d3; simp [hcn']
        · by_cases d1 : d = 1
          · subst d1; simp [hcn']
          · by_cases d0 : d = 0
            · subst d0; simp
            · simp [d3, d1, d0]
      · simp [hz]
    · have h1 : ∀ e : Nat, ¬ (d = e ∧ x = c1 ∧ y = c2 ∧ z = k) := by tauto
      simp only [h1, if_false]
      rw [if_neg (by tauto)]
  | sealed =>
    show (if s.isA then fluxA G (c1, c2) (n1, n2) k r else fluxB G (c1, c2) (n1, n2) k r) d x y z = _
    cases hs : s.isA
    · simp only [Bool.false_eq_true, if_false, fluxB, put4, Act.value, hs, Prod.mk.injEq]
      by_cases h : (x = c1 ∧ y = c2) ∧ z = k
      · obtain ⟨⟨rfl, rfl⟩, rfl⟩ := h
        by_cases d0 : d = 1
        · subst d0; simp
        · simp [d0]
      · rw [if_neg h, if_neg (by tauto)]
    · simp only [if_true, fluxA, put4, Act.value, hs, Prod.mk.injEq]
      by_cases h : (x = c1 ∧ y = c2) ∧ z = k
      · obtain ⟨⟨rfl, rfl⟩, rfl⟩ := h
        by_cases d0 : d = 0
        · subst d0; simp
        · simp [d0]
      · rw [if_neg h, if_neg (by tauto)]

theorem cell_near (P : Patch) (s : Side) (h : 2 ≤ s.across P) (t u : Nat) : s.cell P t ≠ s.near P u := by
  cases s <;> simp only [Side.cell, Side.near, Side.across, ne_eq, Prod.mk.injEq] at * <;> omega

theorem cell_inj (P : Patch) (s : Side) (t u : Nat) (h : s.cell P t = s.cell P u) : t = u := by
  cases s <;> simp only [Side.cell, Prod.mk.injEq] at h <;> omega

theorem pointNode_eq (P : Patch) (s : Side) (t k : Nat) (A : State) (a : Act)
    (ha : s.act P.staggering (P.conditions s.index) = some a) :
    pointNode P s t k A = if P.components < 4 ∨ s.across P < 2 then .error .outside
      else .ok ⟨a.op s (s.metricNode P) (s.cell P t) (s.near P t) k A.node, A.edge⟩ := by
  unfold pointNode
  rw [choice_eq, ha]
  unfold access
  cases a
  · dsimp only
    split_ifs <;> rfl
  · dsimp only
    split_ifs
    · rfl
    · cases s <;> rfl

theorem pointEdge_eq (P : Patch) (s : Side) (t k : Nat) (A : State) (a : Act)
    (ha : s.act P.staggering (P.conditions s.index) = some a) :
    pointEdge P s t k A = if P.components < 4 ∨ s.across P < 2 then .error .outside
      else .ok ⟨A.node, a.op s (s.metricEdge P) (s.cell P t) (s.near P t) k A.edge⟩ := by
  unfold pointEdge
  rw [choice_eq, ha]
  unfold access
  cases a
  · dsimp only
    split_ifs <;> rfl
  · dsimp only
    split_ifs
    · rfl
    · cases s <;> rfl

theorem pointNode_none (P : Patch) (s : Side) (t k : Nat) (A : State)
    (ha : s.act P.staggering (P.conditions s.index) = none) : pointNode P s t k A = .error .exception := by
  unfold pointNode
  rw [choice_eq, ha]
  rfl

theorem pointEdge_none (P : Patch) (s : Side) (t k : Nat) (A : State)
    (ha : s.act P.staggering (P.conditions s.index) = none) : pointEdge P s t k A = .error .exception := by
  unfold pointEdge
  rw [choice_eq, ha]
  rfl

/-- What an array has become where a side was treated. -/
def Treated (P : Patch) (s : Side) (a : Act) (G : Nat → Nat → Nat → Nat → ℝ) (m : Nat)
    (r r' : Nat → Nat → Nat → Nat → ℝ) : Prop :=
  (∀ t < s.length P, ∀ k < m, ∀ c, r' c (s.cell P t).1 (s.cell P t).2 k =
    a.value s (G (s.near P t).1 (s.near P t).2 k) (fun d => r d (s.cell P t).1 (s.cell P t).2 k)
      (fun d => r d (s.near P t).1 (s.near P t).2 k) c) ∧
  ∀ c x y k, (∀ t < s.length P, (x, y) ≠ s.cell P t) → r' c x y k = r c x y k

/-- The pair of nodes of a side, seen in an array. -/
def pair (P : Patch) (s : Side) (t k : Nat) (r : Nat → Nat → Nat → Nat → ℝ) : (Nat → ℝ) × (Nat → ℝ) :=
  (fun d => r d (s.cell P t).1 (s.cell P t).2 k, fun d => r d (s.near P t).1 (s.near P t).2 k)

theorem op_pair (P : Patch) (s : Side) (h : 2 ≤ s.across P) (a : Act) (G : Nat → Nat → Nat → Nat → ℝ) (t k : Nat)
    (r : Nat → Nat → Nat → Nat → ℝ) :
    pair P s t k (a.op s G (s.cell P t) (s.near P t) k r) =
      (a.value s (G (s.near P t).1 (s.near P t).2 k) (pair P s t k r).1 (pair P s t k r).2, (pair P s t k r).2) := by
  unfold pair
  refine Prod.ext (funext fun d => ?_) (funext fun d => ?_)
  · show a.op s G (s.cell P t) (s.near P t) k r d _ _ k = _
    rw [op_at s G _ _ k (cell_near P s h t t), if_pos ⟨rfl, rfl⟩]
  · show a.op s G (s.cell P t) (s.near P t) k r d _ _ k = _
    rw [op_at s G _ _ k (cell_near P s h t t), if_neg]
    rintro ⟨e, -⟩
    exact cell_near P s h t t e.symm

theorem op_pair_other (P : Patch) (s : Side) (h : 2 ≤ s.across P) (a : Act) (G : Nat → Nat → Nat → Nat → ℝ)
    (t k u l : Nat) (hne : u ≠ t ∨ l ≠ k) (r : Nat → Nat → Nat → Nat → ℝ) :
    pair P s u l (a.op s G (s.cell P t) (s.near P t) k r) = pair P s u l r := by
  unfold pair
  refine Prod.ext (funext fun d => ?_) (funext fun d => ?_)
  · show a.op s G (s.cell P t) (s.near P t) k r d _ _ l = _
    rw [op_at s G _ _ k (cell_near P s h t t), if_neg]
    rintro ⟨e, e2⟩
    have := cell_inj P s u t e
    omega
  · show a.op s G (s.cell P t) (s.near P t) k r d _ _ l = _
    rw [op_at s G _ _ k (cell_near P s h t t), if_neg]
    rintro ⟨e, -⟩
    exact cell_near P s h t u e.symm

theorem op_off (P : Patch) (s : Side) (h : 2 ≤ s.across P) (a : Act) (G : Nat → Nat → Nat → Nat → ℝ)
    (t k : Nat) (r : Nat → Nat → Nat → Nat → ℝ) (c x y z : Nat) (hne : (x, y) ≠ s.cell P t) :
    a.op s G (s.cell P t) (s.near P t) k r c x y z = r c x y z := by
  rw [op_at s G _ _ k (cell_near P s h t t), if_neg (fun e => hne e.1)]

/-- A column of points of one side: a loop over levels. -/
theorem column (P : Patch) (s : Side) (h : 2 ≤ s.across P) (a : Act) (G : Nat → Nat → Nat → Nat → ℝ) (m t : Nat)
    (get : State → Nat → Nat → Nat → Nat → ℝ) (body : Nat → State → Except Fault State)
    (hb : ∀ k A A', body k A = .ok A' → get A' = a.op s G (s.cell P t) (s.near P t) k (get A)) (A A' : State)
    (hr : each m body A = .ok A') :
    (∀ k < m, pair P s t k (get A') =
      (a.value s (G (s.near P t).1 (s.near P t).2 k) (pair P s t k (get A)).1 (pair P s t k (get A)).2,
        (pair P s t k (get A)).2)) ∧
    (∀ u, u ≠ t → ∀ k, pair P s u k (get A') = pair P s u k (get A)) ∧
    ∀ c x y z, (x, y) ≠ s.cell P t → get A' c x y z = get A c x y z := by
  obtain ⟨-, q, -⟩ := each_view m body (fun _ => True) (fun A k => pair P s t k (get A))
    (fun k o n => n = (a.value s (G (s.near P t).1 (s.near P t).2 k) o.1 o.2, o.2))
    (fun k A A' e u hu => by rw [hb k A A' e]; exact op_pair_other P s h a G t k t u (Or.inr hu) _)
    (fun k A A' _ e => ⟨trivial, by rw [hb k A A' e]; exact op_pair P s h a G t k _⟩) A A' trivial hr
  refine ⟨q, fun u hu k => ?_, fun c x y z hne => ?_⟩
  · exact each_frame m body (fun A => pair P s u k (get A))
      (fun l A A' e => by rw [hb l A A' e]; exact op_pair_other P s h a G t l u k (Or.inl hu) _) A A' hr
  · exact each_frame m body (fun A => get A c x y z)
      (fun l A A' e => by rw [hb l A A' e]; exact op_off P s h a G t l _ c x y z hne) A A' hr

theorem treated_of (P : Patch) (s : Side) (a : Act) (G : Nat → Nat → Nat → Nat → ℝ) (m : Nat)
    (r r' : Nat → Nat → Nat → Nat → ℝ)
    (h1 : ∀ t < s.length P, ∀ k < m, pair P s t k r' =
      (a.value s (G (s.near P t).1 (s.near P t).2 k) (pair P s t k r).1 (pair P s t k r).2, (pair P s t k r).2))
    (h2 : ∀ c x y k, (∀ t < s.length P, (x, y) ≠ s.cell P t) → r' c x y k = r c x y k) :
    Treated P s a G m r r' :=
  ⟨fun t ht k hk c => congrFun (congrArg Prod.fst (h1 t ht k hk)) c, h2⟩

/-- A loop over the nodes of a side whose body treats one column. -/
theorem along (P : Patch) (s : Side) (a : Act) (G : Nat → Nat → Nat → Nat → ℝ) (m : Nat)
    (get : State → Nat → Nat → Nat → Nat → ℝ) (body : Nat → State → Except Fault State)
    (hb : ∀ t A A', body t A = .ok A' →
      (∀ k < m, pair P s t k (get A') =
        (a.value s (G (s.near P t).1 (s.near P t).2 k) (pair P s t k (get A)).1 (pair P s t k (get A)).2,
          (pair P s t k (get A)).2)) ∧
      (∀ u, u ≠ t → ∀ k, pair P s u k (get A') = pair P s u k (get A)) ∧
      ∀ c x y z, (x, y) ≠ s.cell P t → get A' c x y z = get A c x y z) (A A' : State)
    (hr : each (s.length P) body A = .ok A') : Treated P s a G m (get A) (get A') := by
  obtain ⟨-, q, -⟩ := each_view (s.length P) body (fun _ => True) (fun A t => fun k => pair P s t k (get A))
    (fun t (o n : Nat → (Nat → ℝ) × (Nat → ℝ)) => ∀ k < m,
      n k = (a.value s (G (s.near P t).1 (s.near P t).2 k) (o k).1 (o k).2, (o k).2))
    (fun t A A' e u hu => funext fun k => (hb t A A' e).2.1 u hu k)
    (fun t A A' _ e => ⟨trivial, (hb t A A' e).1⟩) A A' trivial hr
  refine treated_of P s a G m _ _ q (fun c x y k hne => ?_)
  have key : ∀ n ≤ s.length P, ∀ B, each n body A = .ok B → get B c x y k = get A c x y k := by
    intro n
    induction n with
    | zero => intro _ B hB; rw [each_zero] at hB; cases hB; rfl
    | succ n ih =>
      intro hn B hB
      rw [each_succ] at hB
      cases hm : each n body A with
      | error e => rw [hm] at hB; simp [Except.bind] at hB
      | ok M =>
        rw [hm] at hB
        simp only [Except.bind] at hB
        rw [(hb n M B hB).2.2 c x y k (hne n (by omega)), ih (by omega) M hm]
  exact key _ (le_refl _) A' hr

/-- With levels outside. -/
theorem across (P : Patch) (s : Side) (h : 2 ≤ s.across P) (a : Act) (G : Nat → Nat → Nat → Nat → ℝ) (m : Nat)
    (get : State → Nat → Nat → Nat → Nat → ℝ) (body : Nat → Nat → State → Except Fault State)
    (hb : ∀ k t A A', body k t A = .ok A' → get A' = a.op s G (s.cell P t) (s.near P t) k (get A)) (A A' : State)
    (hr : each m (fun k => each (s.length P) (body k)) A = .ok A') : Treated P s a G m (get A) (get A') := by
  have row : ∀ k A A', each (s.length P) (body k) A = .ok A' →
      (∀ t < s.length P, pair P s t k (get A') =
        (a.value s (G (s.near P t).1 (s.near P t).2 k) (pair P s t k (get A)).1 (pair P s t k (get A)).2,
          (pair P s t k (get A)).2)) ∧
      (∀ t l, l ≠ k → pair P s t l (get A') = pair P s t l (get A)) ∧
      ∀ c x y z, (∀ t < s.length P, (x, y) ≠ s.cell P t) → get A' c x y z = get A c x y z := by
    intro k A A' hr
    obtain ⟨-, q, -⟩ := each_view (s.length P) (body k) (fun _ => True) (fun A t => pair P s t k (get A))
      (fun t o n => n = (a.value s (G (s.near P t).1 (s.near P t).2 k) o.1 o.2, o.2))
      (fun t A A' e u hu => by rw [hb k t A A' e]; exact op_pair_other P s h a G t k u k (Or.inl hu) _)
      (fun t A A' _ e => ⟨trivial, by rw [hb k t A A' e]; exact op_pair P s h a G t k _⟩) A A' trivial hr
    refine ⟨q, fun t l hl => ?_, fun c x y z hne => ?_⟩
    · exact each_frame _ (body k) (fun A => pair P s t l (get A))
        (fun u A A' e => by rw [hb k u A A' e]; exact op_pair_other P s h a G u k t l (Or.inr hl) _) A A' hr
    · have key : ∀ n ≤ s.length P, ∀ B, each n (body k) A = .ok B → get B c x y z = get A c x y z := by
        intro n
        induction n with
        | zero => intro _ B hB; rw [each_zero] at hB; cases hB; rfl
        | succ n ih =>
          intro hn B hB
          rw [each_succ] at hB
          cases hm : each n (body k) A with
          | error e => rw [hm] at hB; simp [Except.bind] at hB
          | ok M =>
            rw [hm] at hB
            simp only [Except.bind] at hB
            rw [hb k n M B hB, op_off P s h a G n k _ c x y z (hne n (by omega)), ih (by omega) M hm]
      exact key _ (le_refl _) A' hr
  obtain ⟨-, q, -⟩ := each_view m _ (fun _ => True) (fun A k => fun t => pair P s t k (get A))
    (fun k (o n : Nat → (Nat → ℝ) × (Nat → ℝ)) => ∀ t < s.length P,
      n t = (a.value s (G (s.near P t).1 (s.near P t).2 k) (o t).1 (o t).2, (o t).2))
    (fun k A A' e l hl => funext fun t => (row k A A' e).2.1 t l hl)
    (fun k A A' _ e => ⟨trivial, (row k A A' e).1⟩) A A' trivial hr
  refine treated_of P s a G m _ _ (fun t ht k hk => q k hk t ht) (fun c x y z hne => ?_)
  exact each_frame m _ (fun A => get A c x y z) (fun k A A' e => (row k A A' e).2.2 c x y z hne) A A' hr

/-- Whether a side is a wall: on the boundary of the grid and not periodic. -/
def Side.active (P : Patch) (s : Side) : Prop := P.conditions s.index ≠ periodic ∧ s.atBoundary P = true

/-- What a side leaves, when its condition is one the code acts on. -/
theorem side_spec (P : Patch) (s : Side) (A A' : State) (a : Act) (hw : s.active P)
    (ha : s.act P.staggering (P.conditions s.index) = some a) (h : 2 ≤ s.across P) (hc : 4 ≤ P.components)
    (hr : side P s A = .ok A') :
    Treated P s a (s.metricNode P) P.levels A.node A'.node ∧
    (P.staggering = .interfaces → A'.edge = A.edge) ∧
    (P.staggering ≠ .interfaces → Treated P s a (s.metricEdge P) (P.levels + 1) A.edge A'.edge) := by
  have en : ∀ t k A, pointNode P s t k A =
      .ok ⟨a.op s (s.metricNode P) (s.cell P t) (s.near P t) k A.node, A.edge⟩ := by
    intro t k A
    rw [pointNode_eq P s t k A a ha, if_neg (by omega)]
  have ee : ∀ t k A, pointEdge P s t k A =
      .ok ⟨A.node, a.op s (s.metricEdge P) (s.cell P t) (s.near P t) k A.edge⟩ := by
    intro t k A
    rw [pointEdge_eq P s t k A a ha, if_neg (by omega)]
  unfold side at hr
  unfold Side.active at hw
  rw [if_pos hw] at hr
  by_cases hg : P.staggering = .interfaces
  · rw [if_pos hg] at hr
    refine ⟨?_, fun _ => ?_, fun h => absurd hg h⟩
    · refine across P s h a _ P.levels State.node (fun k t => pointNode P s t k) (fun k t A A' e => ?_) A A' hr
      rw [en] at e
      cases e
      rfl
    · refine each_frame _ _ State.edge (fun k A A' e => each_frame _ _ State.edge (fun t A A' e => ?_) A A' e) A A' hr
      rw [en] at e
      cases e
      rfl
  · rw [if_neg hg] at hr
    refine ⟨?_, fun h => absurd h hg, fun _ => ?_⟩
    · refine along P s a _ P.levels State.node _ (fun t A A' e => ?_) A A' hr
      obtain ⟨M, e1, e2⟩ := bind_ok e
      have f : A'.node = M.node := each_frame _ _ State.node (fun k A A' e => by
        rw [ee] at e
        cases e
        rfl) M A' e2
      rw [f]
      refine column P s h a _ P.levels t State.node (fun k => pointNode P s t k) (fun k A A' e => ?_) A M e1
      rw [en] at e
      cases e
      rfl
    · refine along P s a _ (P.levels + 1) State.edge _ (fun t A A' e => ?_) A A' hr
      obtain ⟨M, e1, e2⟩ := bind_ok e
      have f : M.edge = A.edge := each_frame _ _ State.edge (fun k A A' e => by
        rw [en] at e
        cases e
        rfl) A M e1
      rw [← f]
      refine column P s h a _ (P.levels + 1) t State.edge (fun k => pointEdge P s t k) (fun k A A' e => ?_) M A' e2
      rw [ee] at e
      cases e
      rfl

theorem side_inactive (P : Patch) (s : Side) (A : State) (hw : ¬ s.active P) : side P s A = .ok A := by
  unfold side
  unfold Side.active at hw
  rw [if_neg hw]

theorem side_ok (P : Patch) (s : Side) (A : State) (h : s.active P → (∃ a, s.act P.staggering
    (P.conditions s.index) = some a) ∧ 2 ≤ s.across P ∧ 4 ≤ P.components) : ∃ A', side P s A = .ok A' := by
  by_cases hw : s.active P
  · obtain ⟨⟨a, ha⟩, h2, hc⟩ := h hw
    have en : ∀ t k A, ∃ A', pointNode P s t k A = .ok A' := by
      intro t k A
      rw [pointNode_eq P s t k A a ha, if_neg (by omega)]
      exact ⟨_, rfl⟩
    have ee : ∀ t k A, ∃ A', pointEdge P s t k A = .ok A' := by
      intro t k A
      rw [pointEdge_eq P s t k A a ha, if_neg (by omega)]
      exact ⟨_, rfl⟩
    have l : ∀ n (body : Nat → State → Except Fault State) A, (∀ t A, ∃ A', body t A = .ok A') →
        ∃ A', each n body A = .ok A' := by
      intro n body A hb
      obtain ⟨A', q, -⟩ := each_ok n body (fun _ => True) (fun t _ A _ => by
        obtain ⟨A', q⟩ := hb t A
        exact ⟨A', q, trivial⟩) A trivial
      exact ⟨A', q⟩
    unfold side
    unfold Side.active at hw
    rw [if_pos hw]
    split_ifs
    · exact l _ _ _ (fun k A => l _ _ _ (fun t A => en t k A))
    · refine l _ _ _ (fun t A => ?_)
      obtain ⟨M, q1⟩ := l P.levels (fun k => pointNode P s t k) A (fun k A => en t k A)
      obtain ⟨A', q2⟩ := l (P.levels + 1) (fun k => pointEdge P s t k) M (fun k A => ee t k A)
      refine ⟨A', ?_⟩
      show (each P.levels (fun k => pointNode P s t k) A >>= _) = _
      rw [q1]
      exact q2
  · exact ⟨A, side_inactive P s A hw⟩

/-- Nothing changes away from the halo nodes of the side, nor in components other than velocities. -/
theorem side_frame (P : Patch) (s : Side) (A A' : State) (hr : side P s A = .ok A') :
    ∀ c x y k, ((∀ t, (x, y) ≠ s.cell P t) ∨ (c ≠ 0 ∧ c ≠ 1 ∧ c ≠ 3)) →
      A'.node c x y k = A.node c x y k ∧ A'.edge c x y k = A.edge c x y k := by
  intro c x y k hne
  have ho : ∀ a G t l r, 2 ≤ s.across P →
      Act.op s G (s.cell P t) (s.near P t) l r a c x y k = r c x y k := by
    intro a G t l r h
    rcases hne with hne | hne
    · exact op_off P s h a G t l r c x y k (hne t)
    · rw [op_at s G _ _ l (cell_near P s h t t)]
      split_ifs with e
      · obtain ⟨e1, e2⟩ := e
        subst e2
        have ex : x = (s.cell P t).1 := congrArg Prod.fst e1
        have ey : y = (s.cell P t).2 := congrArg Prod.snd e1
        rw [ex, ey]
        cases a with
        | still => simp [Act.value, hne]
        | sealed => simp only [Act.value]; split_ifs <;> simp_all
      · rfl
  have fn : ∀ t l (A A' : State), pointNode P s t l A = .ok A' →
      (A'.node c x y k, A'.edge c x y k) = (A.node c x y k, A.edge c x y k) := by
    intro t l A A' e
    cases ha : s.act P.staggering (P.conditions s.index) with
    | none => rw [pointNode_none P s t l A ha] at e; cases e
    | some a =>
      rw [pointNode_eq P s t l A a ha] at e
      split_ifs at e with h
      cases e
      exact Prod.ext (ho a _ t l _ (by omega)) rfl
  have fe : ∀ t l (A A' : State), pointEdge P s t l A = .ok A' →
      (A'.node c x y k, A'.edge c x y k) = (A.node c x y k, A.edge c x y k) := by
    intro t l A A' e
    cases ha : s.act P.staggering (P.conditions s.index) with
    | none => rw [pointEdge_none P s t l A ha] at e; cases e
    | some a =>
      rw [pointEdge_eq P s t l A a ha] at e
      split_ifs at e with h
      cases e
      exact Prod.ext rfl (ho a _ t l _ (by omega))
  have key : (A'.node c x y k, A'.edge c x y k) = (A.node c x y k, A.edge c x y k) := by
    unfold side at hr
    split_ifs at hr
    · exact each_frame _ _ (fun A : State => (A.node c x y k, A.edge c x y k))
        (fun l A A' e => each_frame _ _ (fun A : State => (A.node c x y k, A.edge c x y k))
          (fun t A A' e => fn t l A A' e) A A' e) A A' hr
    · refine each_frame _ _ (fun A : State => (A.node c x y k, A.edge c x y k)) (fun t A A' e => ?_) A A' hr
      obtain ⟨M, e1, e2⟩ := bind_ok e
      have q1 := each_frame _ _ (fun A : State => (A.node c x y k, A.edge c x y k))
        (fun l A A' e => fn t l A A' e) A M e1
      have q2 := each_frame _ _ (fun A : State => (A.node c x y k, A.edge c x y k))
        (fun l A A' e => fe t l A A' e) M A' e2
      exact q2.trans q1
    · cases hr; rfl
  exact ⟨congrArg Prod.fst key, congrArg Prod.snd key⟩

/-- The nodes met by a side, away from its ends, are not halo nodes of another side. -/
theorem other (P : Patch) (s s' : Side) (hs : s' ≠ s) (ha : 3 ≤ P.na) (hb : 3 ≤ P.nb) (t : Nat) (h0 : 0 < t)
    (h1 : t + 1 < s.length P) (u : Nat) : s.cell P t ≠ s'.cell P u ∧ s.near P t ≠ s'.cell P u := by
  cases s <;> cases s' <;> simp only [Side.cell, Side.near, Side.length, ne_eq, Prod.mk.injEq, reduceCtorEq,
    not_true_eq_false, not_false_eq_true] at * <;> omega

theorem pair_other (P : Patch) (s s' : Side) (hs : s' ≠ s) (ha : 3 ≤ P.na) (hb : 3 ≤ P.nb) (t : Nat) (h0 : 0 < t)
    (h1 : t + 1 < s.length P) (A A' : State) (hr : side P s' A = .ok A') (k : Nat) :
    pair P s t k A'.node = pair P s t k A.node ∧ pair P s t k A'.edge = pair P s t k A.edge := by
  have f := side_frame P s' A A' hr
  have o := other P s s' hs ha hb t h0 h1
  unfold pair
  refine ⟨Prod.ext (funext fun d => ?_) (funext fun d => ?_), Prod.ext (funext fun d => ?_) (funext fun d => ?_)⟩
  · exact (f d _ _ k (Or.inl fun u => (o u).1)).1
  · exact (f d _ _ k (Or.inl fun u => (o u).2)).1
  · exact (f d _ _ k (Or.inl fun u => (o u).1)).2
  · exact (f d _ _ k (Or.inl fun u => (o u).2)).2

/-- The four passes. -/
theorem apply_passes (P : Patch) (A A' : State) (hr : apply P A = .ok A') :
    P.staggering ≠ .levels ∧ ∃ A1 A2 A3, side P .right A = .ok A1 ∧ side P .top A1 = .ok A2 ∧
      side P .left A2 = .ok A3 ∧ side P .bottom A3 = .ok A' := by
  unfold apply at hr
  split_ifs at hr with hg
  obtain ⟨A1, h1, hr⟩ := bind_ok hr
  obtain ⟨A2, h2, hr⟩ := bind_ok hr
  obtain ⟨A3, h3, hr⟩ := bind_ok hr
  exact ⟨hg, A1, A2, A3, h1, h2, h3, hr⟩

/-- The pass of a side among the four: what it starts from and ends with, at its own nodes away from the ends. -/
theorem apply_side (P : Patch) (A A' : State) (hr : apply P A = .ok A') (s : Side) (ha : 3 ≤ P.na) (hb : 3 ≤ P.nb) :
    ∃ B B', side P s B = .ok B' ∧ ∀ t, 0 < t → t + 1 < s.length P → ∀ k,
      (pair P s t k B.node = pair P s t k A.node ∧ pair P s t k B.edge = pair P s t k A.edge) ∧
      pair P s t k A'.node = pair P s t k B'.node ∧ pair P s t k A'.edge = pair P s t k B'.edge := by
  obtain ⟨-, A1, A2, A3, h1, h2, h3, h4⟩ := apply_passes P A A' hr
  cases s with
  | right =>
    refine ⟨A, A1, h1, fun t t0 t1 k => ⟨⟨rfl, rfl⟩, ?_⟩⟩
    have q2 := pair_other P .right .top (by simp) ha hb t t0 t1 _ _ h2 k
    have q3 := pair_other P .right .left (by simp) ha hb t t0 t1 _ _ h3 k
    have q4 := pair_other P .right .bottom (by simp) ha hb t t0 t1 _ _ h4 k
    exact ⟨by rw [q4.1, q3.1, q2.1], by rw [q4.2, q3.2, q2.2]⟩
  | top =>
    refine ⟨A1, A2, h2, fun t t0 t1 k => ?_⟩
    have q1 := pair_other P .top .right (by simp) ha hb t t0 t1 _ _ h1 k
    have q3 := pair_other P .top .left (by simp) ha hb t t0 t1 _ _ h3 k
    have q4 := pair_other P .top .bottom (by simp) ha hb t t0 t1 _ _ h4 k
    exact ⟨q1, by rw [q4.1, q3.1], by rw [q4.2, q3.2]⟩
  | left =>
    refine ⟨A2, A3, h3, fun t t0 t1 k => ?_⟩
    have q1 := pair_other P .left .right (by simp) ha hb t t0 t1 _ _ h1 k
    have q2 := pair_other P .left .top (by simp) ha hb t t0 t1 _ _ h2 k
    have q4 := pair_other P .left .bottom (by simp) ha hb t t0 t1 _ _ h4 k
    exact ⟨⟨by rw [q2.1, q1.1], by rw [q2.2, q1.2]⟩, q4⟩
  | bottom =>
    refine ⟨A3, A', h4, fun t t0 t1 k => ?_⟩
    have q1 := pair_other P .bottom .right (by simp) ha hb t t0 t1 _ _ h1 k
    have q2 := pair_other P .bottom .top (by simp) ha hb t t0 t1 _ _ h2 k
    have q3 := pair_other P .bottom .left (by simp) ha hb t t0 t1 _ _ h3 k
    exact ⟨⟨by rw [q3.1, q2.1, q1.1], by rw [q3.2, q2.2, q1.2]⟩, rfl, rfl⟩

theorem apply_frame (P : Patch) (A A' : State) (hr : apply P A = .ok A') (c x y k : Nat)
    (h : (∀ s : Side, ∀ t, (x, y) ≠ s.cell P t) ∨ (c ≠ 0 ∧ c ≠ 1 ∧ c ≠ 3)) :
    A'.node c x y k = A.node c x y k ∧ A'.edge c x y k = A.edge c x y k := by
  obtain ⟨-, A1, A2, A3, h1, h2, h3, h4⟩ := apply_passes P A A' hr
  have w : ∀ s : Side, (∀ t, (x, y) ≠ s.cell P t) ∨ (c ≠ 0 ∧ c ≠ 1 ∧ c ≠ 3) := fun s => h.imp (fun q => q s) id
  have q1 := side_frame P _ _ _ h1 c x y k (w _)
  have q2 := side_frame P _ _ _ h2 c x y k (w _)
  have q3 := side_frame P _ _ _ h3 c x y k (w _)
  have q4 := side_frame P _ _ _ h4 c x y k (w _)
  exact ⟨by rw [q4.1, q3.1, q2.1, q1.1], by rw [q4.2, q3.2, q2.2, q1.2]⟩

end Verif.Wall
