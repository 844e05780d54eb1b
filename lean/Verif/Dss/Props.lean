import Verif.Dss.Lemmas
import Mathlib.Algebra.BigOperators.Group.Finset.Basic
import Mathlib.Algebra.BigOperators.Ring.Finset
import Mathlib.Order.Interval.Finset.Basic
import Mathlib.Data.Int.Interval
import Mathlib.Tactic.NormNum

/-!
# C58: direct stiffness summation makes shared nodes agree
-/

namespace Verif.Dss

/-- A patch as the program makes them: at least one ring of halo, elements of at
least two nodes, at least one element each way. -/
structure Patch.Ok (P : Patch) : Prop where
  halo : 1 ≤ P.halo
  order : 2 ≤ P.order
  elemA : 1 ≤ P.elemA
  elemB : 1 ≤ P.elemB

/-- The nodes the patch owns. -/
def Patch.Interior (P : Patch) (i j : Int) : Prop :=
  P.halo ≤ i ∧ i < P.halo + P.elemA * P.order ∧ P.halo ≤ j ∧ j < P.halo + P.elemB * P.order

/-- The four corners of a patch. -/
inductive Corner
  | topRight | topLeft | bottomLeft | bottomRight

/-- No patch beyond this corner: three panels of the sphere meet there. -/
def Patch.missing (P : Patch) : Corner → Bool
  | .topRight => P.noTopRight
  | .topLeft => P.noTopLeft
  | .bottomLeft => P.noBottomLeft
  | .bottomRight => P.noBottomRight

/-- The alpha and beta numbers of the patch's own node at a corner. -/
def Patch.cornerA (P : Patch) : Corner → Int
  | .topRight | .bottomRight => P.halo + P.elemA * P.order - 1
  | .topLeft | .bottomLeft => P.halo

def Patch.cornerB (P : Patch) : Corner → Int
  | .topRight | .topLeft => P.halo + P.elemB * P.order - 1
  | .bottomRight | .bottomLeft => P.halo

/-- One step out of the patch from the corner, in each direction. -/
def Corner.outA : Corner → Int
  | .topRight | .bottomRight => 1
  | .topLeft | .bottomLeft => -1

def Corner.outB : Corner → Int
  | .topRight | .topLeft => 1
  | .bottomRight | .bottomLeft => -1

/-- The node is the patch's own node at a corner where three panels meet. -/
def Patch.Triple (P : Patch) (i j : Int) : Prop :=
  ∃ c, P.missing c = true ∧ i = P.cornerA c ∧ j = P.cornerB c

/-- The array of patch `P`, whose first element is element `(eA, eB)` of a plane
of elements, holds the values `U` of that plane at its own nodes and at the
first ring of the halo around them (the nodes diagonally beyond a missing corner
excepted). -/
def Patch.Shows (P : Patch) (u : Field) (U : Int → Int → ℝ) (eA eB : Int) : Prop :=
  ∀ i j, P.halo - 1 ≤ i → i ≤ P.halo + P.elemA * P.order →
    P.halo - 1 ≤ j → j ≤ P.halo + P.elemB * P.order → ¬ P.Block i j →
    u i j = U (i - P.halo + eA * P.order) (j - P.halo + eB * P.order)

theorem Patch.block_iff (P : Patch) (h : P.Ok) (i j : Int) (hij : P.Interior i j) :
    P.Block i j ↔ P.Triple i j := by
  obtain ⟨h1, h2, h3, h4⟩ := hij
  unfold Patch.Block Patch.endA Patch.endB Patch.Triple
  constructor
  · rintro (⟨a, b, c⟩ | ⟨a, b, c⟩ | ⟨a, b, c⟩ | ⟨a, b, c⟩)
    · exact ⟨.bottomLeft, a, by simp only [Patch.cornerA]; omega, by simp only [Patch.cornerB]; omega⟩
    · exact ⟨.topLeft, a, by simp only [Patch.cornerA]; omega, by simp only [Patch.cornerB]; omega⟩
    · exact ⟨.bottomRight, a, by simp only [Patch.cornerA]; omega, by simp only [Patch.cornerB]; omega⟩
    · exact ⟨.topRight, a, by simp only [Patch.cornerA]; omega, by simp only [Patch.cornerB]; omega⟩
  · rintro ⟨c, a, b, d⟩
    cases c <;> simp only [Patch.missing, Patch.cornerA, Patch.cornerB] at a b d <;>
      simp only [a, true_and] <;> omega

theorem corner_at (m : Bool) (iA iB dA dB : Int) (u : Field) (i j : Int) :
    corner m iA iB dA dB u i j =
      if m = true ∧ i = iA ∧ j = iB then (u iA iB + u (iA + dA) iB + u iA (iB + dB)) / 3
      else u i j := by
  unfold corner
  cases m
  · simp
  · simp only [if_true, put_at, true_and]
    split_ifs <;> ring

theorem corner_miss (m : Bool) (iA iB dA dB : Int) (u : Field) (i j : Int)
    (h : i ≠ iA ∨ j ≠ iB) : corner m iA iB dA dB u i j = u i j := by
  rw [corner_at, if_neg (fun x => by have := x.2; omega)]

theorem corner_hit (iA iB dA dB : Int) (u : Field) :
    corner true iA iB dA dB u iA iB = (u iA iB + u (iA + dA) iB + u iA (iB + dB)) / 3 := by
  rw [corner_at, if_pos ⟨rfl, rfl, rfl⟩]

theorem cornerPass_other (P : Patch) (u : Field) (i j : Int) (h : ¬ P.Triple i j) :
    cornerPass P u i j = u i j := by
  unfold cornerPass
  simp only [corner_at, Patch.endA, Patch.endB, Patch.beginning]
  rw [if_neg, if_neg, if_neg, if_neg]
  · rintro ⟨a, b, c⟩; exact h ⟨.topRight, a, b, c⟩
  · rintro ⟨a, b, c⟩; exact h ⟨.topLeft, a, b, c⟩
  · rintro ⟨a, b, c⟩; exact h ⟨.bottomLeft, a, b, c⟩
  · rintro ⟨a, b, c⟩; exact h ⟨.bottomRight, a, b, c⟩

theorem cornerPass_at (P : Patch) (hP : P.Ok) (u : Field) (c : Corner) (h : P.missing c = true) :
    cornerPass P u (P.cornerA c) (P.cornerB c) =
      (u (P.cornerA c) (P.cornerB c) + u (P.cornerA c + c.outA) (P.cornerB c)
        + u (P.cornerA c) (P.cornerB c + c.outB)) / 3 := by
  have hw := width P.elemA P.order hP.elemA hP.order
  have hv := width P.elemB P.order hP.elemB hP.order
  have ho := hP.order
  unfold cornerPass
  cases c <;> simp only [Patch.missing] at h <;>
    simp only [Patch.endA, Patch.endB, Patch.beginning, Patch.cornerA, Patch.cornerB,
      Corner.outA, Corner.outB, h] <;>
    simp (disch := omega) only [corner_miss, corner_hit]

theorem Patch.interior_reach (P : Patch) (i j : Int) (h : P.Interior i j) : P.Reach i j := by
  unfold Patch.Interior at h
  unfold Patch.Reach Patch.endA Patch.endB
  omega

/-- A node not at a missing corner becomes the mean over all its copies, those
in the halo included. -/
theorem C58_mean (P : Patch) (hP : P.Ok) (u : Field) (i j : Int) (hij : P.Interior i j)
    (hc : ¬ P.Triple i j) :
    dss P u i j = sharedMean P.order (fun g k => u (g + P.halo) (k + P.halo))
      (i - P.halo) (j - P.halo) := by
  classical
  unfold dss
  rw [cornerPass_other P _ i j hc, passes_at P hP.order hP.elemA hP.elemB,
    if_pos ⟨P.interior_reach i j hij, fun b => hc ((P.block_iff hP i j hij).mp b)⟩]
  unfold sharedMean Patch.twin
  simp only [sub_add_cancel]

theorem corner_interior (P : Patch) (hP : P.Ok) (c : Corner) :
    P.Interior (P.cornerA c) (P.cornerB c) := by
  have hw := width P.elemA P.order hP.elemA hP.order
  have hv := width P.elemB P.order hP.elemB hP.order
  have ho := hP.order
  unfold Patch.Interior
  cases c <;> simp only [Patch.cornerA, Patch.cornerB] <;> omega

/-- At a corner where three panels meet, the node becomes the mean of its own old
value and of the two old halo values beside it. -/
theorem C58_corner (P : Patch) (hP : P.Ok) (u : Field) (c : Corner) (hc : P.missing c = true) :
    dss P u (P.cornerA c) (P.cornerB c) =
      (u (P.cornerA c) (P.cornerB c) + u (P.cornerA c + c.outA) (P.cornerB c)
        + u (P.cornerA c) (P.cornerB c + c.outB)) / 3 := by
  classical
  have hw := width P.elemA P.order hP.elemA hP.order
  have hv := width P.elemB P.order hP.elemB hP.order
  have ho := hP.order
  unfold dss
  rw [cornerPass_at P hP _ c hc]
  have raw : ∀ i j, P.Block i j → betaPass P (alphaPass P u) i j = u i j := by
    intro i j hb
    rw [passes_at P hP.order hP.elemA hP.elemB, if_neg (fun x => x.2 hb)]
  rw [raw, raw, raw] <;> unfold Patch.Block Patch.endA Patch.endB <;>
    cases c <;> simp only [Patch.missing] at hc <;>
      simp only [Patch.cornerA, Patch.cornerB, Corner.outA, Corner.outB, hc, true_and] <;> omega

/-- The mean over copies is the same at every copy. -/
theorem mean_copies (p : Int) (hp : 2 ≤ p) (U : Int → Int → ℝ) (g k g' k' : Int)
    (hg : g' = g ∨ g' = twin p g) (hk : k' = k ∨ k' = twin p k) :
    sharedMean p U g' k' = sharedMean p U g k := by
  unfold sharedMean
  rcases hg with rfl | rfl <;> rcases hk with rfl | rfl <;> simp only [twin_twin p _ hp] <;> ring

theorem mean_shift (p : Int) (U : Int → Int → ℝ) (g k eA eB : Int) :
    sharedMean p (fun a b => U (a + eA * p) (b + eB * p)) g k =
      sharedMean p U (g + eA * p) (k + eB * p) := by
  unfold sharedMean
  simp only [twin_shift]

/-- Whatever patch a node belongs to, its new value is the mean of the old values
of all copies in the plane of elements. -/
theorem C58_global (P : Patch) (hP : P.Ok) (u : Field) (U : Int → Int → ℝ) (eA eB : Int)
    (hu : P.Shows u U eA eB) (i j : Int) (hij : P.Interior i j) (hc : ¬ P.Triple i j) :
    dss P u i j =
      sharedMean P.order U (i - P.halo + eA * P.order) (j - P.halo + eB * P.order) := by
  have hr := P.interior_reach i j hij
  have hb : ¬ P.Block i j := fun b => hc ((P.block_iff hP i j hij).mp b)
  rw [C58_mean P hP u i j hij hc, ← mean_shift]
  have get : ∀ i' j', P.Reach i' j' → ¬ P.Block i' j' →
      u i' j' = U (i' - P.halo + eA * P.order) (j' - P.halo + eB * P.order) := by
    intro i' j' r b
    unfold Patch.Reach Patch.endA Patch.endB at r
    exact hu i' j' (by omega) (by omega) (by omega) (by omega) b
  have e : ∀ x, Dss.twin P.order (x - P.halo) = P.twin x - P.halo := by
    intro x; unfold Patch.twin; ring
  have ra := P.twin_reach hP.order hP.elemA i j hr
  have ba : ¬ P.Block (P.twin i) j := fun x => hb ((P.twin_block hP.order hP.elemA i j hr).mp x)
  unfold sharedMean
  simp only [e, sub_add_cancel]
  rw [get _ _ hr hb, get _ _ ra ba,
    get _ _ (P.twin_reach' hP.order hP.elemB i j hr)
      (fun x => hb ((P.twin_block' hP.order hP.elemB i j hr).mp x)),
    get _ _ (P.twin_reach' hP.order hP.elemB _ j ra)
      (fun x => ba ((P.twin_block' hP.order hP.elemB _ j ra).mp x))]

/-- All copies of a shared node agree afterwards, whichever patches hold them and
however large those patches are: two patches showing the same plane of elements
give the same value to nodes that are the same or copies of one another. -/
theorem C58_agree (P Q : Patch) (hP : P.Ok) (hQ : Q.Ok) (hpq : P.order = Q.order)
    (u v : Field) (U : Int → Int → ℝ) (eA eB fA fB : Int)
    (hu : P.Shows u U eA eB) (hv : Q.Shows v U fA fB)
    (i j i' j' : Int) (hij : P.Interior i j) (hij' : Q.Interior i' j')
    (hc : ¬ P.Triple i j) (hc' : ¬ Q.Triple i' j')
    (hA : i' - Q.halo + fA * Q.order = i - P.halo + eA * P.order ∨
      i' - Q.halo + fA * Q.order = twin P.order (i - P.halo + eA * P.order))
    (hB : j' - Q.halo + fB * Q.order = j - P.halo + eB * P.order ∨
      j' - Q.halo + fB * Q.order = twin P.order (j - P.halo + eB * P.order)) :
    dss Q v i' j' = dss P u i j := by
  rw [C58_global P hP u U eA eB hu i j hij hc, C58_global Q hQ v U fA fB hv i' j' hij' hc',
    ← hpq]
  rw [← hpq] at hA hB
  exact mean_copies P.order hP.order U _ _ _ _ hA hB

/-- Where three panels meet, the three patches agree: each sees the other two in
its halo, in either order. -/
theorem C58_panels (P : Fin 3 → Patch) (hP : ∀ n, (P n).Ok) (u : Fin 3 → Field) (c : Fin 3 → Corner)
    (hc : ∀ n, (P n).missing (c n) = true) (x : Fin 3 → ℝ)
    (own : ∀ n, u n ((P n).cornerA (c n)) ((P n).cornerB (c n)) = x n)
    (halo : ∀ n,
      let a := u n ((P n).cornerA (c n) + (c n).outA) ((P n).cornerB (c n))
      let b := u n ((P n).cornerA (c n)) ((P n).cornerB (c n) + (c n).outB)
      (a = x (n + 1) ∧ b = x (n + 2)) ∨ (a = x (n + 2) ∧ b = x (n + 1))) :
    ∀ n, dss (P n) (u n) ((P n).cornerA (c n)) ((P n).cornerB (c n)) = (x 0 + x 1 + x 2) / 3 := by
  intro n
  rw [C58_corner (P n) (hP n) (u n) (c n) (hc n), own]
  have h := halo n
  simp only at h
  have perm : ∀ n : Fin 3, x n + x (n + 1) + x (n + 2) = x 0 + x 1 + x 2 := by
    intro n
    match n with
    | 0 => rfl
    | 1 => show x 1 + x 2 + x 0 = _; ring
    | 2 => show x 2 + x 0 + x 1 = _; ring
  rw [← perm n]
  rcases h with ⟨a, b⟩ | ⟨a, b⟩ <;> rw [a, b] <;> ring

/-- The averaging stays within the old range of values. -/
theorem C58_bounds (P : Patch) (hP : P.Ok) (u : Field) (lo hi : ℝ)
    (hu : ∀ i j, P.Reach i j → lo ≤ u i j ∧ u i j ≤ hi) (i j : Int) (hij : P.Interior i j) :
    lo ≤ dss P u i j ∧ dss P u i j ≤ hi := by
  have hr := P.interior_reach i j hij
  by_cases hc : P.Triple i j
  · obtain ⟨c, m, rfl, rfl⟩ := hc
    rw [C58_corner P hP u c m]
    have h1 := hu _ _ hr
    have hw := width P.elemA P.order hP.elemA hP.order
    have hv := width P.elemB P.order hP.elemB hP.order
    have h2 := hu (P.cornerA c + c.outA) (P.cornerB c) (by
      unfold Patch.Reach Patch.endA Patch.endB at hr ⊢
      cases c <;> simp only [Patch.cornerA, Patch.cornerB, Corner.outA] at hr ⊢ <;> omega)
    have h3 := hu (P.cornerA c) (P.cornerB c + c.outB) (by
      unfold Patch.Reach Patch.endA Patch.endB at hr ⊢
      cases c <;> simp only [Patch.cornerA, Patch.cornerB, Corner.outB] at hr ⊢ <;> omega)
    constructor <;> linarith [h1.1, h1.2, h2.1, h2.2, h3.1, h3.2]
  · have e : ∀ x, Dss.twin P.order (x - P.halo) + P.halo = P.twin x := fun _ => rfl
    rw [C58_mean P hP u i j hij hc]
    unfold sharedMean
    simp only [e, sub_add_cancel]
    have ra := P.twin_reach hP.order hP.elemA i j hr
    have h1 := hu _ _ hr
    have h2 := hu _ _ ra
    have h3 := hu _ _ (P.twin_reach' hP.order hP.elemB i j hr)
    have h4 := hu _ _ (P.twin_reach' hP.order hP.elemB _ j ra)
    constructor <;> linarith [h1.1, h1.2, h2.1, h2.2, h3.1, h3.2, h4.1, h4.2]

/-- A constant field stays that constant. -/
theorem C58_constant (P : Patch) (hP : P.Ok) (u : Field) (k : ℝ)
    (hu : ∀ i j, P.Reach i j → u i j = k) (i j : Int) (hij : P.Interior i j) :
    dss P u i j = k := by
  have := C58_bounds P hP u k k (fun a b r => by rw [hu a b r]; exact ⟨le_refl _, le_refl _⟩) i j hij
  exact le_antisymm this.2 this.1

/-- Averaging data that are already continuous (all copies equal) changes
nothing, corners where three panels meet included. -/
theorem C58_continuous (P : Patch) (hP : P.Ok) (u : Field)
    (hA : ∀ i j, P.Reach i j → u (P.twin i) j = u i j)
    (hB : ∀ i j, P.Reach i j → u i (P.twin j) = u i j)
    (i j : Int) (hij : P.Interior i j) : dss P u i j = u i j := by
  have hr := P.interior_reach i j hij
  by_cases hc : P.Triple i j
  · obtain ⟨c, m, rfl, rfl⟩ := hc
    rw [C58_corner P hP u c m]
    have a := hA _ _ hr
    have b := hB _ _ hr
    have ta : P.twin (P.cornerA c) = P.cornerA c + c.outA := by
      unfold Patch.twin
      cases c <;> simp only [Patch.cornerA, Corner.outA]
      · rw [show P.halo + P.elemA * P.order - 1 - P.halo = P.elemA * P.order - 1 by ring,
          twin_last _ _ hP.order]; ring
      · rw [show P.halo - P.halo = 0 * P.order by ring, twin_first _ _ hP.order]; ring
      · rw [show P.halo - P.halo = 0 * P.order by ring, twin_first _ _ hP.order]; ring
      · rw [show P.halo + P.elemA * P.order - 1 - P.halo = P.elemA * P.order - 1 by ring,
          twin_last _ _ hP.order]; ring
    have tb : P.twin (P.cornerB c) = P.cornerB c + c.outB := by
      unfold Patch.twin
      cases c <;> simp only [Patch.cornerB, Corner.outB]
      · rw [show P.halo + P.elemB * P.order - 1 - P.halo = P.elemB * P.order - 1 by ring,
          twin_last _ _ hP.order]; ring
      · rw [show P.halo + P.elemB * P.order - 1 - P.halo = P.elemB * P.order - 1 by ring,
          twin_last _ _ hP.order]; ring
      · rw [show P.halo - P.halo = 0 * P.order by ring, twin_first _ _ hP.order]; ring
      · rw [show P.halo - P.halo = 0 * P.order by ring, twin_first _ _ hP.order]; ring
    rw [ta] at a
    rw [tb] at b
    rw [a, b]; ring
  · have e : ∀ x, Dss.twin P.order (x - P.halo) + P.halo = P.twin x := fun _ => rfl
    rw [C58_mean P hP u i j hij hc]
    unfold sharedMean
    simp only [e, sub_add_cancel]
    rw [hB _ _ (P.twin_reach hP.order hP.elemA i j hr), hA _ _ hr, hB _ _ hr]
    ring

/-- The Cartesian grid does exactly what the cubed sphere does when no corner
neighbour is missing. -/
theorem C58_cartesian (P : Patch) (hP : P.Ok)
    (hm : ∀ c, P.missing c = false) (u : Field) : dssCartesian P u = dss P u := by
  have hf : P.full = P := by
    have h1 := hm .topRight
    have h2 := hm .topLeft
    have h3 := hm .bottomLeft
    have h4 := hm .bottomRight
    simp only [Patch.missing] at h1 h2 h3 h4
    unfold Patch.full
    rw [← h1]
    cases P
    simp_all
  rw [cart_eq P hP.order hP.elemA hP.elemB, hf]
  unfold dss
  funext i j
  rw [cornerPass_other]
  rintro ⟨c, m, _⟩
  rw [hm c] at m
  exact Bool.false_ne_true m

/-- Repeating the averaging changes nothing, anywhere in the array, when no
corner neighbour is missing. -/
theorem C58_idempotent (P : Patch) (hP : P.Ok) (hm : ∀ c, P.missing c = false) (u : Field) :
    dss P (dss P u) = dss P u := by
  classical
  have noT : ∀ i j, ¬ P.Triple i j := by
    rintro i j ⟨c, m, _⟩; rw [hm c] at m; exact Bool.false_ne_true m
  have noB : ∀ i j, ¬ P.Block i j := by
    intro i j
    have h1 := hm .topRight
    have h2 := hm .topLeft
    have h3 := hm .bottomLeft
    have h4 := hm .bottomRight
    simp only [Patch.missing] at h1 h2 h3 h4
    unfold Patch.Block
    rw [h1, h2, h3, h4]
    simp
  have at_ : ∀ (w : Field) i j, dss P w i j = if P.Reach i j then
      (w i j + w (P.twin i) j + w i (P.twin j) + w (P.twin i) (P.twin j)) / 4 else w i j := by
    intro w i j
    unfold dss
    rw [cornerPass_other _ _ _ _ (noT i j), passes_at P hP.order hP.elemA hP.elemB]
    simp only [noB, not_false_eq_true, and_true]
  funext i j
  rw [at_ (dss P u) i j]
  by_cases hr : P.Reach i j
  · have ra := P.twin_reach hP.order hP.elemA i j hr
    have rb := P.twin_reach' hP.order hP.elemB i j hr
    have rab := P.twin_reach' hP.order hP.elemB _ j ra
    rw [if_pos hr, at_ u, at_ u, at_ u, at_ u, if_pos hr, if_pos ra, if_pos rb, if_pos rab]
    simp only [P.twin_twin hP.order]
    ring
  · rw [if_neg hr]

/-- The topography derivative on the Cartesian grid is averaged twice, which is
the same as once. -/
theorem C58_topography (P : Patch) (hP : P.Ok) (u : Field) :
    dssCartesianTopography P u = dssCartesian P u := by
  have hf : ∀ w, dssCartesian P w = dssCartesian P.full w := by
    intro w
    rw [cart_eq P hP.order hP.elemA hP.elemB, cart_eq P.full hP.order hP.elemA hP.elemB]
    rfl
  have ok : P.full.Ok := ⟨hP.halo, hP.order, hP.elemA, hP.elemB⟩
  have m : ∀ c, P.full.missing c = false := by intro c; cases c <;> rfl
  unfold dssCartesianTopography
  rw [hf (dssCartesian P u), hf u, C58_cartesian _ ok m, C58_cartesian _ ok m,
    C58_idempotent _ ok m]

/-- Repeating the averaging over the whole plane of elements changes nothing. -/
theorem C58_repeat (p : Int) (hp : 2 ≤ p) (U : Int → Int → ℝ) (g k : Int) :
    sharedMean p (sharedMean p U) g k = sharedMean p U g k := by
  have h := mean_copies p hp U g k
  conv_lhs => unfold sharedMean
  have e : ∀ g' k', (g' = g ∨ g' = twin p g) → (k' = k ∨ k' = twin p k) →
      (U g' k' + U (twin p g') k' + U g' (twin p k') + U (twin p g') (twin p k')) / 4 =
        sharedMean p U g k := h
  rw [e g k (.inl rfl) (.inl rfl), e _ k (.inr rfl) (.inl rfl), e g _ (.inl rfl) (.inr rfl),
    e _ _ (.inr rfl) (.inr rfl)]
  ring

theorem mod_shift (M g : Int) : g % M = g + -(g / M) * M := by
  have := Int.emod_add_mul_ediv g M
  have e : M * (g / M) = (g / M) * M := mul_comm _ _
  rw [neg_mul]; omega

/-- Passing to the other copy permutes the nodes of a periodic row. -/
theorem sum_twin (p N : Int) (hp : 2 ≤ p) (hN : 1 ≤ N) (f : Int → ℝ)
    (hf : ∀ g, f (g + N * p) = f g) :
    ∑ g ∈ Finset.Ico 0 (N * p), f (twin p g) = ∑ g ∈ Finset.Ico 0 (N * p), f g := by
  have hM : 0 < N * p := by nlinarith
  have per : ∀ (e g : Int), f (g + e * (N * p)) = f g := by
    intro e g
    induction e using Int.induction_on with
    | zero => simp
    | succ n ih => rw [← ih, show g + ((n : Int) + 1) * (N * p) = g + n * (N * p) + N * p by ring, hf]
    | pred n ih =>
      rw [← ih, ← hf (g + (-(n : Int) - 1) * (N * p))]
      congr 1; ring
  have inv : ∀ g, g ∈ Finset.Ico 0 (N * p) → twin p (twin p g % (N * p)) % (N * p) = g := by
    intro g hg
    rw [Finset.mem_Ico] at hg
    rw [mod_shift (N * p) (twin p g),
      show -(twin p g / (N * p)) * (N * p) = (-(twin p g / (N * p)) * N) * p by ring, twin_shift,
      twin_twin p g hp,
      show g + -(twin p g / (N * p)) * N * p = g + (N * p) * -(twin p g / (N * p)) by ring,
      Int.add_mul_emod_self_left]
    exact Int.emod_eq_of_lt hg.1 hg.2
  refine Finset.sum_bij' (fun g _ => twin p g % (N * p)) (fun g _ => twin p g % (N * p))
    ?_ ?_ inv inv ?_
  · intro g _
    exact Finset.mem_Ico.mpr ⟨Int.emod_nonneg _ (by omega), Int.emod_lt_of_pos _ hM⟩
  · intro g _
    exact Finset.mem_Ico.mpr ⟨Int.emod_nonneg _ (by omega), Int.emod_lt_of_pos _ hM⟩
  · intro g _
    rw [mod_shift (N * p) (twin p g), per]

/-- On a doubly periodic plane the total over all nodes is unchanged. -/
theorem C58_conserved (p NA NB : Int) (hp : 2 ≤ p) (hA : 1 ≤ NA) (hB : 1 ≤ NB)
    (U : Int → Int → ℝ) (perA : ∀ g k, U (g + NA * p) k = U g k)
    (perB : ∀ g k, U g (k + NB * p) = U g k) :
    ∑ g ∈ Finset.Ico 0 (NA * p), ∑ k ∈ Finset.Ico 0 (NB * p), sharedMean p U g k =
      ∑ g ∈ Finset.Ico 0 (NA * p), ∑ k ∈ Finset.Ico 0 (NB * p), U g k := by
  have b1 : ∀ g, ∑ k ∈ Finset.Ico 0 (NB * p), U g (twin p k) =
      ∑ k ∈ Finset.Ico 0 (NB * p), U g k := fun g => sum_twin p NB hp hB (U g) (perB g)
  have a1 : ∑ g ∈ Finset.Ico 0 (NA * p), ∑ k ∈ Finset.Ico 0 (NB * p), U (twin p g) k =
      ∑ g ∈ Finset.Ico 0 (NA * p), ∑ k ∈ Finset.Ico 0 (NB * p), U g k :=
    sum_twin p NA hp hA (fun g => ∑ k ∈ Finset.Ico 0 (NB * p), U g k)
      (fun g => Finset.sum_congr rfl (fun k _ => perA g k))
  have e : ∀ g k, sharedMean p U g k = (1 / 4) * (U g k + U (twin p g) k + U g (twin p k)
      + U (twin p g) (twin p k)) := by intro g k; unfold sharedMean; ring
  simp only [e, ← Finset.mul_sum, Finset.sum_add_distrib, b1, a1]
  ring

/-- Reads and writes stay within one ring of the patch's own nodes, hence inside
the allocated array: nothing outside is changed, nothing outside matters, and
those nodes have indices from zero up to below the total width. -/
theorem C58_inside (P : Patch) (hP : P.Ok) (u v : Field)
    (huv : ∀ i j, P.Reach i j → u i j = v i j) :
    (∀ i j, ¬ P.Reach i j → dss P u i j = u i j) ∧
    (∀ i j, P.Interior i j → dss P u i j = dss P v i j) ∧
    (∀ i j, P.Reach i j → 0 ≤ i ∧ i < P.elemA * P.order + 2 * P.halo ∧
      0 ≤ j ∧ j < P.elemB * P.order + 2 * P.halo) := by
  classical
  have hw := width P.elemA P.order hP.elemA hP.order
  have hv := width P.elemB P.order hP.elemB hP.order
  refine ⟨?_, ?_, ?_⟩
  · intro i j hr
    unfold dss
    rw [cornerPass_other, passes_at P hP.order hP.elemA hP.elemB, if_neg (fun x => hr x.1)]
    rintro ⟨c, _, rfl, rfl⟩
    exact hr (P.interior_reach _ _ (corner_interior P hP c))
  · intro i j hij
    have hr := P.interior_reach i j hij
    by_cases hc : P.Triple i j
    · obtain ⟨c, m, rfl, rfl⟩ := hc
      rw [C58_corner P hP u c m, C58_corner P hP v c m, huv _ _ hr]
      rw [huv (P.cornerA c + c.outA) _ (by
        unfold Patch.Reach Patch.endA Patch.endB at hr ⊢
        cases c <;> simp only [Patch.cornerA, Patch.cornerB, Corner.outA] at hr ⊢ <;> omega),
        huv (P.cornerA c) (P.cornerB c + c.outB) (by
        unfold Patch.Reach Patch.endA Patch.endB at hr ⊢
        cases c <;> simp only [Patch.cornerA, Patch.cornerB, Corner.outB] at hr ⊢ <;> omega)]
    · have e : ∀ x, Dss.twin P.order (x - P.halo) + P.halo = P.twin x := fun _ => rfl
      rw [C58_mean P hP u i j hij hc, C58_mean P hP v i j hij hc]
      unfold sharedMean
      simp only [e, sub_add_cancel]
      have ra := P.twin_reach hP.order hP.elemA i j hr
      rw [huv _ _ hr, huv _ _ ra, huv _ _ (P.twin_reach' hP.order hP.elemB i j hr),
        huv _ _ (P.twin_reach' hP.order hP.elemB _ j ra)]
  · intro i j hr
    have := hP.halo
    unfold Patch.Reach Patch.endA Patch.endB at hr
    omega

/-! ## The hypotheses are met -/

/-- Two by three elements of four nodes, no neighbour at the bottom left. -/
def samplePatch : Patch := ⟨1, 4, 2, 3, false, false, true, false⟩

theorem samplePatch_ok : samplePatch.Ok := ⟨by decide, by decide, by decide, by decide⟩

/-- A node on an element edge inside the patch. -/
example : dss samplePatch (fun i j => (i : ℝ) * i + j) 4 2 = (16 + 25) / 2 + 2 := by
  rw [C58_mean _ samplePatch_ok _ _ _ (by simp [Patch.Interior, samplePatch])
    (by rintro ⟨c, m, e, f⟩; cases c <;> simp [Patch.missing, samplePatch, Patch.cornerA] at m e)]
  norm_num [sharedMean, twin, samplePatch]

/-- The corner where three panels meet. -/
example : dss samplePatch (fun i j => (i : ℝ) + 10 * j) 1 1 = (11 + 10 + 1) / 3 := by
  have := C58_corner _ samplePatch_ok (fun i j => (i : ℝ) + 10 * j) .bottomLeft rfl
  simp [Patch.cornerA, Patch.cornerB, Corner.outA, Corner.outB, samplePatch] at this
  rw [samplePatch, this]; norm_num

/-- Two neighbouring patches of different sizes share the edge between global
elements 1 and 2. -/
example (U : Int → Int → ℝ) (P Q : Patch) (hP : P = ⟨1, 4, 2, 1, false, false, false, false⟩)
    (hQ : Q = ⟨2, 4, 3, 1, false, false, false, false⟩) :
    dss Q (fun i j => U (i - Q.halo + 2 * Q.order) (j - Q.halo + 0 * Q.order)) 2 2 =
      dss P (fun i j => U (i - P.halo + 0 * P.order) (j - P.halo + 0 * P.order)) 8 1 := by
  have p1 : P.halo = 1 ∧ P.order = 4 ∧ P.elemA = 2 ∧ P.elemB = 1 := by simp [hP]
  have q1 : Q.halo = 2 ∧ Q.order = 4 ∧ Q.elemA = 3 ∧ Q.elemB = 1 := by simp [hQ]
  obtain ⟨p1, p2, p3, p4⟩ := p1
  obtain ⟨q1, q2, q3, q4⟩ := q1
  refine C58_agree P Q ⟨by omega, by omega, by omega, by omega⟩
    ⟨by omega, by omega, by omega, by omega⟩ (by omega) _ _ U 0 0 2 0 (fun _ _ _ _ _ _ _ => rfl)
    (fun _ _ _ _ _ _ _ => rfl) 8 1 2 2 (by simp [Patch.Interior, *])
    (by simp [Patch.Interior, *]) ?_ ?_ (Or.inr ?_) (Or.inl ?_)
  · rintro ⟨c, m, _⟩; cases c <;> simp [Patch.missing, hP] at m
  · rintro ⟨c, m, _⟩; cases c <;> simp [Patch.missing, hQ] at m
  · rw [p1, p2, q1, q2]; norm_num [twin]
  · rw [p1, p2, q1, q2]; norm_num

/-- A periodic field that is not continuous. -/
example : ∃ U : Int → Int → ℝ, (∀ g k, U (g + 2 * 4) k = U g k) ∧ (∀ g k, U g (k + 3 * 4) = U g k) ∧
    sharedMean 4 U 3 0 ≠ U 3 0 := by
  refine ⟨fun g _ => if g % 8 = 3 then 1 else 0, fun g k => ?_, fun g k => rfl, ?_⟩
  · simp
  · norm_num [sharedMean, twin]

end Verif.Dss
