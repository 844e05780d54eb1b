import Verif.Halo.Corner
import Verif.Halo.Setting
import Verif.Sphere.PropsPanel

/-!
# The transform of the halo, node by node
-/

namespace Verif.Halo

open Verif.Dss (twin)
open Verif.Sphere
open Verif.Exchange (Dir)
open Verif.Panel (outside inside IsEdge relativeCoord Rel place panelFromDirection opposingDirection switchParallel
  invalidPanel)

/-- Nodes across a panel. -/
def Placed.N (B : Placed) : Int := B.order * B.res

theorem Placed.Ok.ranges {B : Placed} (h : B.Ok) : 0 ≤ B.beginA ∧ B.beginA < B.endA ∧ B.endA ≤ B.N ∧
    0 ≤ B.beginB ∧ B.beginB < B.endB ∧ B.endB ≤ B.N ∧ 2 ≤ B.N := by
  obtain ⟨-, h1, -, h3, h4, h5, h6, h7, h8⟩ := h
  unfold Placed.beginA Placed.beginB Placed.endA Placed.endB Placed.N
  refine ⟨by nlinarith, by nlinarith, by nlinarith, by nlinarith, by nlinarith, by nlinarith, by nlinarith⟩

/-- The whole stripe a loop over beta transforms. -/
theorem stripA (i lo hi : Int) (f : Int → Pair → Option Pair) (F : Int → ℝ × ℝ → ℝ × ℝ)
    (hf : ∀ n, lo ≤ n → n < hi → ∀ V, f n V = some (fun a b => if a = i ∧ b = n then F n (V i n) else V a b)) (V : Pair) :
    loopM lo hi f V = some (fun a b => if a = i ∧ lo ≤ b ∧ b < hi then F b (V a b) else V a b) := by
  have key : ∀ m : Nat, (m : Int) ≤ (hi - lo).toNat → (List.range m).foldlM (fun W (n : Nat) => f (lo + n) W) V =
      some (fun a b => if a = i ∧ lo ≤ b ∧ b < lo + m then F b (V a b) else V a b) := by
    intro m
    induction m with
    | zero =>
      intro _
      simp only [List.range_zero, List.foldlM_nil]
      congr 1
      funext a b
      rw [if_neg (by omega)]
    | succ m ih =>
      intro hm
      rw [List.range_succ, List.foldlM_append, ih (by push_cast at hm; omega)]
      simp only [Option.bind_eq_bind, Option.bind_some, List.foldlM_cons, List.foldlM_nil]
      rw [hf _ (by omega) (by omega)]
      simp only [Option.bind_some]
      congr 1
      funext a b
      by_cases ha : a = i
      · by_cases hb : b = lo + m
        · rw [if_pos ⟨ha, hb⟩, if_neg (by omega), if_pos ⟨ha, by omega, by push_cast; omega⟩, ha, hb]
        · rw [if_neg (fun h => hb h.2)]
          by_cases hb' : lo ≤ b ∧ b < lo + m
          · rw [if_pos ⟨ha, hb'⟩, if_pos ⟨ha, hb'.1, by push_cast; omega⟩]
          · rw [if_neg (fun h => hb' h.2), if_neg (fun h => hb' ⟨h.2.1, by have := h.2.2; push_cast at this; omega⟩)]
      · rw [if_neg (fun h => ha h.1), if_neg (fun h => ha h.1), if_neg (fun h => ha h.1)]
  unfold loopM
  rw [key _ (le_refl _)]
  congr 1
  funext a b
  by_cases ha : a = i ∧ lo ≤ b ∧ b < hi
  · rw [if_pos ha, if_pos ⟨ha.1, ha.2.1, by have := ha.2; omega⟩]
  · rw [if_neg ha, if_neg (fun h => ha ⟨h.1, h.2.1, by have := h.2; omega⟩)]

/-- The whole stripe a loop over alpha transforms. -/
theorem stripB (j lo hi : Int) (f : Int → Pair → Option Pair) (F : Int → ℝ × ℝ → ℝ × ℝ)
    (hf : ∀ n, lo ≤ n → n < hi → ∀ V, f n V = some (fun a b => if a = n ∧ b = j then F n (V n j) else V a b)) (V : Pair) :
    loopM lo hi f V = some (fun a b => if b = j ∧ lo ≤ a ∧ a < hi then F a (V a b) else V a b) := by
  have h := stripA j lo hi (fun n V => (f n (fun a b => V b a)).map (fun U a b => U b a)) F (by
    intro n h1 h2 V
    simp only [hf n h1 h2, Option.map_some]
    congr 1
    funext a b
    by_cases hc : a = j ∧ b = n
    · rw [if_pos ⟨hc.2, hc.1⟩, if_pos hc]
    · rw [if_neg (fun h => hc ⟨h.2, h.1⟩), if_neg hc]) (fun a b => V b a)
  have conj : ∀ (l : List Nat) (V : Pair), l.foldlM (fun W (n : Nat) =>
      (f (lo + n) (fun a b => W b a)).map (fun (U : Pair) a b => U b a)) (fun a b => V b a) =
      (l.foldlM (fun W (n : Nat) => f (lo + n) W) V).map (fun (U : Pair) a b => U b a) := by
    intro l
    induction l with
    | nil => intro V; rfl
    | cons n l ih =>
      intro V
      simp only [List.foldlM_cons, Option.bind_eq_bind]
      cases hfn : f (lo + n) V with
      | none => rfl
      | some U => simpa using ih U
  unfold loopM at h ⊢
  rw [conj] at h
  cases hl : (List.range (hi - lo).toNat).foldlM (fun W (n : Nat) => f (lo + n) W) V with
  | none => rw [hl] at h; cases h
  | some U =>
    rw [hl] at h
    simp only [Option.map_some, Option.some.injEq] at h ⊢
    funext a b
    exact congrFun (congrFun h b) a

variable {m : Momenta} {B : Placed} {x : Nat → ℝ}

/-- The transform of one node, as a total function. -/
noncomputable def F (m : Momenta) (B : Placed) (x : Nat → ℝ) (q i j : Int) (v : ℝ × ℝ) : ℝ × ℝ :=
  (panelTrans m q B.panel v (coord B.order B.res x (B.beginA - B.halo + i))
    (coord B.order B.res x (B.beginB - B.halo + j))).getD v

theorem panelTrans_some (m : Momenta) (q a : Int) (h : Adjacent q a) (v : ℝ × ℝ) (X Y : ℝ) :
    panelTrans m q a v X Y = some ((panelTrans m q a v X Y).getD v) := by
  have hd := C35_defined q a h.1 h.2.1 v.1 v.2 X Y
  have : (panelTrans m q a v X Y).isSome := by
    cases m
    · exact hd.2.mpr h
    · exact hd.1.mpr h
  obtain ⟨w, hw⟩ := Option.isSome_iff_exists.mp this
  rw [hw]; rfl

theorem transNode_eq (L : Line B.order B.res x) (hA : Adjacent q B.panel) (i j : Int)
    (hi : -1 ≤ B.beginA - B.halo + i) (hj : -1 ≤ B.beginB - B.halo + j) (V : Pair) :
    transNode m B x q i j V = some (fun a b => if a = i ∧ b = j then F m B x q i j (V i j) else V a b) := by
  unfold transNode Placed.xNode Placed.yNode F
  rw [coordinate_eq L _ hi, coordinate_eq L _ hj]
  simp only [Option.bind_eq_bind, Option.bind_some]
  rw [panelTrans_some m q B.panel hA]
  rfl

theorem adjacent_of (a b : Int) (ha : Panel.IsPanel a) (d : Dir) (hd : IsEdge d)
    (h : panelFromDirection a d = some b) : Adjacent b a := by
  obtain ⟨h0, h5⟩ := ha
  unfold Adjacent IsPanel
  interval_cases a <;> rcases hd with rfl | rfl | rfl | rfl <;> simp [panelFromDirection] at h <;> subst h <;>
    simp [dot, centre]

theorem inner_panel (N q g k : Int) (h0 : 0 ≤ g) (h1 : g < N) (h2 : 0 ≤ k) (h3 : k < N) :
    (relativeCoord N q g k).map Rel.panel = some q := by
  unfold relativeCoord; rw [if_pos ⟨h2, h0, h3, h1⟩]; rfl

theorem outer_panel (N a b t : Int) (ha : Panel.IsPanel a) (d : Dir) (hd : IsEdge d) (h0 : 0 ≤ t) (h1 : t < N)
    (hq : panelFromDirection a d = some b) (i j : Int) (hij : outside N d 0 t = (i, j)) :
    (relativeCoord N a i j).map Rel.panel = some b := by
  obtain ⟨b', d', h, -, -, -, ho, -⟩ := Panel.C30_edges a ha d hd
  rw [hq] at h
  simp only [Option.some.injEq] at h
  subst h
  have := Panel.crossing N a b 0 t ha d d' hd le_rfl h0 h1 hq ho
  rw [hij] at this
  rw [this]
  rfl

section
variable (hB : B.Ok) (L : Line B.order B.res x)
include hB L

theorem right_spec (V : Pair) : ∃ q, panelFromDirection B.panel .right = some q ∧
    transRight m B x V = some (fun i j => if B.endA = B.N ∧ i = B.lastA ∧ B.first - 1 ≤ j ∧ j < B.lastB + 1 then
      F m B x q i j (V i j) else V i j) := by
  obtain ⟨b1, b2, b3, b4, b5, b6, b7⟩ := hB.ranges
  have hh := hB.halo
  obtain ⟨q, d', hq, hqp, hne, -, ho, -⟩ := Panel.C30_edges B.panel hB.panel .right (.inl rfl)
  have hadj := adjacent_of _ _ hB.panel .right (.inl rfl) hq
  refine ⟨q, hq, ?_⟩
  unfold transRight
  by_cases he : B.endA = B.N
  · have hn : B.neighbour .right = some q := by
      unfold Placed.neighbour
      exact outer_panel B.N B.panel q B.beginB hB.panel .right (.inl rfl) b4 (by omega) hq _ _ (by
        simp only [outside, Prod.mk.injEq, and_true]; omega)
    rw [hn]
    simp only [Option.bind_eq_bind, Option.bind_some]
    rw [if_pos hne, stripA B.lastA _ _ _ (fun j => F m B x q B.lastA j)]
    · congr 1
      funext i j
      by_cases h : i = B.lastA ∧ B.first - 1 ≤ j ∧ j < B.lastB + 1
      · rw [if_pos h, if_pos ⟨he, h⟩, h.1]
      · rw [if_neg h, if_neg (fun c => h c.2)]
    · intro n h1 h2 W
      apply transNode_eq L hadj
      · unfold Placed.lastA; have : 0 ≤ B.elemA * B.order := by have := hB.elemA; have := hB.order; nlinarith
        omega
      · unfold Placed.first at h1; omega
  · have hn : B.neighbour .right = some B.panel := inner_panel _ _ _ _ (by omega) (by
      have : B.endA < B.N := by omega
      exact this) b4 (by
      have : B.beginB < B.N := by omega
      exact this)
    rw [hn]
    simp only [Option.bind_eq_bind, Option.bind_some]
    rw [if_neg (by simp)]
    simp only [he, false_and, if_false]
    rfl

theorem left_spec (V : Pair) : ∃ q, panelFromDirection B.panel .left = some q ∧
    transLeft m B x V = some (fun i j => if B.beginA = 0 ∧ i = B.first - 1 ∧ B.first - 1 ≤ j ∧ j < B.lastB + 1 then
      F m B x q i j (V i j) else V i j) := by
  obtain ⟨b1, b2, b3, b4, b5, b6, b7⟩ := hB.ranges
  have hh := hB.halo
  obtain ⟨q, d', hq, hqp, hne, -, ho, -⟩ := Panel.C30_edges B.panel hB.panel .left (.inr (.inr (.inl rfl)))
  have hadj := adjacent_of _ _ hB.panel .left (.inr (.inr (.inl rfl))) hq
  refine ⟨q, hq, ?_⟩
  unfold transLeft
  by_cases he : B.beginA = 0
  · have hn : B.neighbour .left = some q := by
      unfold Placed.neighbour
      exact outer_panel B.N B.panel q B.beginB hB.panel .left (.inr (.inr (.inl rfl))) b4 (by omega) hq _ _ (by
        simp only [outside, Prod.mk.injEq, and_true]; omega)
    rw [hn]
    simp only [Option.bind_eq_bind, Option.bind_some]
    rw [if_pos hne, stripA (B.first - 1) _ _ _ (fun j => F m B x q (B.first - 1) j)]
    · congr 1
      funext i j
      by_cases h : i = B.first - 1 ∧ B.first - 1 ≤ j ∧ j < B.lastB + 1
      · rw [if_pos h, if_pos ⟨he, h⟩, h.1]
      · rw [if_neg h, if_neg (fun c => h c.2)]
    · intro n h1 h2 W
      apply transNode_eq L hadj
      · unfold Placed.first; omega
      · unfold Placed.first at h1; omega
  · have hn : B.neighbour .left = some B.panel := inner_panel _ _ _ _ (by omega) (by
        have : B.beginA - 1 < B.N := by omega
        exact this) b4 (by
        have : B.beginB < B.N := by omega
        exact this)
    rw [hn]
    simp only [Option.bind_eq_bind, Option.bind_some]
    rw [if_neg (by simp)]
    simp only [he, false_and, if_false]
    rfl

theorem top_spec (V : Pair) : ∃ q, panelFromDirection B.panel .top = some q ∧
    transTop m B x V = some (fun i j => if B.endB = B.N ∧ j = B.lastB ∧ B.first - 1 ≤ i ∧ i < B.lastA + 1 then
      F m B x q i j (V i j) else V i j) := by
  obtain ⟨b1, b2, b3, b4, b5, b6, b7⟩ := hB.ranges
  have hh := hB.halo
  obtain ⟨q, d', hq, hqp, hne, -, ho, -⟩ := Panel.C30_edges B.panel hB.panel .top (.inr (.inl rfl))
  have hadj := adjacent_of _ _ hB.panel .top (.inr (.inl rfl)) hq
  refine ⟨q, hq, ?_⟩
  unfold transTop
  by_cases he : B.endB = B.N
  · have hn : B.neighbour .top = some q := by
      unfold Placed.neighbour
      exact outer_panel B.N B.panel q B.beginA hB.panel .top (.inr (.inl rfl)) b1 (by omega) hq _ _ (by
        simp only [outside, Prod.mk.injEq, true_and]; omega)
    rw [hn]
    simp only [Option.bind_eq_bind, Option.bind_some]
    rw [if_pos hne, stripB B.lastB _ _ _ (fun i => F m B x q i B.lastB)]
    · congr 1
      funext i j
      by_cases h : j = B.lastB ∧ B.first - 1 ≤ i ∧ i < B.lastA + 1
      · rw [if_pos h, if_pos ⟨he, h⟩, h.1]
      · rw [if_neg h, if_neg (fun c => h c.2)]
    · intro n h1 h2 W
      apply transNode_eq L hadj
      · unfold Placed.first at h1; omega
      · unfold Placed.lastB; have : 0 ≤ B.elemB * B.order := by have := hB.elemB; have := hB.order; nlinarith
        omega
  · have hn : B.neighbour .top = some B.panel := inner_panel _ _ _ _ b1 (by
        have : B.beginA < B.N := by omega
        exact this) (by omega) (by
        have : B.endB < B.N := by omega
        exact this)
    rw [hn]
    simp only [Option.bind_eq_bind, Option.bind_some]
    rw [if_neg (by simp)]
    simp only [he, false_and, if_false]
    rfl

theorem bottom_spec (V : Pair) : ∃ q, panelFromDirection B.panel .bottom = some q ∧
    transBottom m B x V = some (fun i j => if B.beginB = 0 ∧ j = B.first - 1 ∧ B.first - 1 ≤ i ∧ i < B.lastA + 1 then
      F m B x q i j (V i j) else V i j) := by
  obtain ⟨b1, b2, b3, b4, b5, b6, b7⟩ := hB.ranges
  have hh := hB.halo
  obtain ⟨q, d', hq, hqp, hne, -, ho, -⟩ := Panel.C30_edges B.panel hB.panel .bottom (.inr (.inr (.inr rfl)))
  have hadj := adjacent_of _ _ hB.panel .bottom (.inr (.inr (.inr rfl))) hq
  refine ⟨q, hq, ?_⟩
  unfold transBottom
  by_cases he : B.beginB = 0
  · have hn : B.neighbour .bottom = some q := by
      unfold Placed.neighbour
      exact outer_panel B.N B.panel q B.beginA hB.panel .bottom (.inr (.inr (.inr rfl))) b1 (by omega) hq _ _ (by
        simp only [outside, Prod.mk.injEq, true_and]; omega)
    rw [hn]
    simp only [Option.bind_eq_bind, Option.bind_some]
    rw [if_pos hne, stripB (B.first - 1) _ _ _ (fun i => F m B x q i (B.first - 1))]
    · congr 1
      funext i j
      by_cases h : j = B.first - 1 ∧ B.first - 1 ≤ i ∧ i < B.lastA + 1
      · rw [if_pos h, if_pos ⟨he, h⟩, h.1]
      · rw [if_neg h, if_neg (fun c => h c.2)]
    · intro n h1 h2 W
      apply transNode_eq L hadj
      · unfold Placed.first at h1; omega
      · unfold Placed.first; omega
  · have hn : B.neighbour .bottom = some B.panel := inner_panel _ _ _ _ b1 (by
        have : B.beginA < B.N := by omega
        exact this) (by omega) (by
        have : B.beginB - 1 < B.N := by omega
        exact this)
    rw [hn]
    simp only [Option.bind_eq_bind, Option.bind_some]
    rw [if_neg (by simp)]
    simp only [he, false_and, if_false]
    rfl

end

end Verif.Halo
