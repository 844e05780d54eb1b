import Verif.Whole.Spec
import Verif.Dss.Props
import Verif.Panel.Props
import Mathlib.Algebra.BigOperators.Group.Finset.Sigma

/-!
# Sharing is mutual

If a node sees another as its copy, the other sees it as one: for the plane and for the sphere.  With that, averaging
over the copies conserves the sum of anything weighted alike at all copies.
-/

namespace Verif.Whole

open Verif.Dss (twin twin_twin twin_cases twin_first twin_last)

/-! ### Averages over mutual copies -/

open Classical in
theorem mean_conserved {N : Type*} (nodes : Finset N) (T : N → Prop) (op : Bool → N → N)
    (turn : N → Bool → Bool) (diag : N → N) (A f : N → ℝ) (closed : ∀ d n, n ∈ nodes → op d n ∈ nodes)
    (back : ∀ d n, n ∈ nodes → op (turn n d) (op d n) = n ∧ turn (op d n) (turn n d) = d)
    (dclosed : ∀ n, n ∈ nodes → ¬ T n → diag n ∈ nodes ∧ ¬ T (diag n) ∧ diag (diag n) = n)
    (hT : ∀ d n, n ∈ nodes → (T (op d n) ↔ T n)) (hA : ∀ d n, n ∈ nodes → A (op d n) = A n)
    (hD : ∀ n, n ∈ nodes → ¬ T n → A (diag n) = A n) :
    ∑ n ∈ nodes, A n * (if T n then (f n + f (op true n) + f (op false n)) / 3
      else (f n + f (op true n) + f (op false n) + f (diag n)) / 4) = ∑ n ∈ nodes, A n * f n := by
  let c : N → ℝ := fun n => if T n then 1 / 3 else 1 / 4
  have e1 : ∑ n ∈ nodes, ∑ d : Bool, A n * c n * f (op d n) = ∑ n ∈ nodes, ∑ _d : Bool, A n * c n * f n := by
    rw [← Finset.sum_product', ← Finset.sum_product']
    refine Finset.sum_bij' (fun x _ => (op x.2 x.1, turn x.1 x.2)) (fun x _ => (op x.2 x.1, turn x.1 x.2)) ?_ ?_ ?_ ?_ ?_
    · intro x hx
      simp only [Finset.mem_product, Finset.mem_univ, and_true] at hx ⊢
      exact closed _ _ hx
    · intro x hx
      simp only [Finset.mem_product, Finset.mem_univ, and_true] at hx ⊢
      exact closed _ _ hx
    · intro x hx
      simp only [Finset.mem_product, Finset.mem_univ, and_true] at hx
      exact Prod.ext (back x.2 x.1 hx).1 (back x.2 x.1 hx).2
    · intro x hx
      simp only [Finset.mem_product, Finset.mem_univ, and_true] at hx
      exact Prod.ext (back x.2 x.1 hx).1 (back x.2 x.1 hx).2
    · intro x hx
      simp only [Finset.mem_product, Finset.mem_univ, and_true] at hx
      have : c (op x.2 x.1) = c x.1 := by
        simp only [c, hT x.2 x.1 hx]
      rw [hA _ _ hx, this]
  have e2 : ∑ n ∈ nodes.filter (fun n => ¬ T n), A n * f (diag n) = ∑ n ∈ nodes.filter (fun n => ¬ T n), A n * f n := by
    have m : ∀ n, n ∈ nodes.filter (fun n => ¬ T n) → diag n ∈ nodes.filter (fun n => ¬ T n) := fun n hn => by
      rw [Finset.mem_filter] at hn ⊢
      exact ⟨(dclosed n hn.1 hn.2).1, (dclosed n hn.1 hn.2).2.1⟩
    have b : ∀ n, n ∈ nodes.filter (fun n => ¬ T n) → diag (diag n) = n := fun n hn => by
      rw [Finset.mem_filter] at hn
      exact (dclosed n hn.1 hn.2).2.2
    refine Finset.sum_bij' (fun n _ => diag n) (fun n _ => diag n) m m b b (fun n hn => ?_)
    rw [Finset.mem_filter] at hn
    rw [hD n hn.1 hn.2]
  rw [Finset.sum_filter, Finset.sum_filter] at e2
  simp only [Fintype.sum_bool] at e1
  have e3 : ∀ n ∈ nodes, A n * (if T n then (f n + f (op true n) + f (op false n)) / 3
      else (f n + f (op true n) + f (op false n) + f (diag n)) / 4) =
      A n * c n * f n + (A n * c n * f (op true n) + A n * c n * f (op false n)) +
        1 / 4 * (if ¬ T n then A n * f (diag n) else 0) := by
    intro n _
    simp only [c]
    by_cases h : T n
    · simp only [h, if_true, not_true_eq_false, if_false]; ring
    · simp only [h, if_false, not_false_eq_true, if_true]; ring
  have e4 : ∀ n ∈ nodes, A n * f n = A n * c n * f n + (A n * c n * f n + A n * c n * f n) +
        1 / 4 * (if ¬ T n then A n * f n else 0) := by
    intro n _
    simp only [c]
    by_cases h : T n
    · simp only [h, if_true, not_true_eq_false, if_false]; ring
    · simp only [h, if_false, not_false_eq_true, if_true]; ring
  rw [Finset.sum_congr rfl e3, Finset.sum_congr rfl e4]
  simp only [Finset.sum_add_distrib, ← Finset.mul_sum] at e1 ⊢
  rw [e1, e2]

/-! ### The nodes of the grid and their copies -/

variable (W : World)

/-- The nodes of all panels. -/
noncomputable def World.nodes : Finset (Int × Int × Int) :=
  Finset.Ico 0 W.kind.panels ×ˢ Finset.Ico 0 ((W.order : Int) * W.elemA) ×ˢ Finset.Ico 0 ((W.order : Int) * W.elemB)

theorem World.mem_nodes (p g h : Int) : (p, g, h) ∈ W.nodes ↔ (0 ≤ p ∧ p < W.kind.panels) ∧
    (0 ≤ g ∧ g < (W.order : Int) * W.elemA) ∧ 0 ≤ h ∧ h < (W.order : Int) * W.elemB := by
  unfold World.nodes
  simp only [Finset.mem_product, Finset.mem_Ico]

/-- The index of the other copy of a node along alpha (`true`) or beta. -/
def World.shift (d : Bool) (n : Int × Int × Int) : Int × Int :=
  if d then (twin W.order n.2.1, n.2.2) else (n.2.1, twin W.order n.2.2)

/-- The other copy of a node along alpha (`true`) or beta. -/
def World.op (d : Bool) (n : Int × Int × Int) : Int × Int × Int :=
  (W.see n.1 (W.shift d n).1 (W.shift d n).2).getD n

/-- The copy diagonally opposite. -/
def World.diag (n : Int × Int × Int) : Int × Int × Int :=
  (W.see n.1 (twin W.order n.2.1) (twin W.order n.2.2)).getD n

/-- Three panels meet at the node. -/
def World.Triple (n : Int × Int × Int) : Prop := W.see n.1 (twin W.order n.2.1) (twin W.order n.2.2) = none

/-- The copies are mutual. -/
structure World.Mutual (turn : Int × Int × Int → Bool → Bool) : Prop where
  seen : ∀ d n, n ∈ W.nodes → W.see n.1 (W.shift d n).1 (W.shift d n).2 = some (W.op d n)
  closed : ∀ d n, n ∈ W.nodes → W.op d n ∈ W.nodes
  back : ∀ d n, n ∈ W.nodes → W.op (turn n d) (W.op d n) = n ∧ turn (W.op d n) (turn n d) = d
  dclosed : ∀ n, n ∈ W.nodes → ¬ W.Triple n → W.diag n ∈ W.nodes ∧ ¬ W.Triple (W.diag n) ∧ W.diag (W.diag n) = n
  triple : ∀ d n, n ∈ W.nodes → (W.Triple (W.op d n) ↔ W.Triple n)

/-! ### Twins at the edges of a panel -/

theorem twin_zero (p : Int) (hp : 2 ≤ p) : twin p 0 = -1 := by
  have := twin_first p 0 hp
  simpa using this

theorem twin_end (p n : Int) (hp : 2 ≤ p) : twin p (p * n - 1) = p * n := by
  have := twin_last p n hp
  rwa [mul_comm n p] at this

theorem twin_mirror (p n g : Int) (hp : 2 ≤ p) : twin p (p * n - 1 - g) = p * n - 1 - twin p g := by
  rcases twin_cases p g hp with ⟨a, h, e⟩ | ⟨a, h, e⟩ | ⟨e, h⟩
  · rw [e, h, show p * n - 1 - a * p = (n - a) * p - 1 by ring, twin_last p _ hp]; ring
  · rw [e, h, show p * n - 1 - (a * p - 1) = (n - a) * p by ring, twin_first p _ hp]; ring
  · rcases twin_cases p (p * n - 1 - g) hp with ⟨b, h', e'⟩ | ⟨b, h', e'⟩ | ⟨e', _⟩
    · exact absurd (show g = (n - b) * p - 1 by rw [sub_mul, ← h']; ring) (h (n - b)).2
    · exact absurd (show g = (n - b) * p by rw [sub_mul]; linarith [h']) (h (n - b)).1
    · rw [e', e]

/-- The other copy of a node of a row is in the row, or the node is the first or the last. -/
theorem twin_stays (p n g : Int) (hp : 2 ≤ p) (h0 : 0 ≤ g) (h1 : g < p * n) :
    (0 ≤ twin p g ∧ twin p g < p * n) ∨ (g = 0 ∧ twin p g = -1) ∨ (g = p * n - 1 ∧ twin p g = p * n) := by
  rcases twin_cases p g hp with ⟨a, h, e⟩ | ⟨a, h, e⟩ | ⟨e, h⟩
  · by_cases hg : g = 0
    · right; left; exact ⟨hg, by omega⟩
    · left; omega
  · by_cases hg : g = p * n - 1
    · right; right; exact ⟨hg, by omega⟩
    · left; omega
  · left; omega

end Verif.Whole
