import Verif.Halo.Lemmas
import Verif.Quad.Model
import Verif.Vert.PropsSpacing

/-!
# C98: velocities shared between panels are averaged as vectors
-/

namespace Verif.Halo

open Verif.Dss (twin)
open Verif.Sphere
open Verif.Panel (relativeCoord)

variable {m : Momenta} {B : Placed} {x : Nat → ℝ}

theorem node_eq (B : Placed) (i j : Int) : B.node i j = (B.panel, B.ga i, B.gb j) := by
  unfold Placed.node Placed.ga Placed.gb Placed.beginA Placed.beginB
  simp only [Prod.mk.injEq, true_and]
  constructor <;> ring

theorem average_components (hB : B.Ok) (L : Line B.order B.res x) (W : Node → Vec3) (V : Pair)
    (hV : ∀ i j, B.halo - 1 ≤ i → i ≤ B.halo + B.elemA * B.order → B.halo - 1 ≤ j → j ≤ B.halo + B.elemB * B.order →
        B.Stands i j → Components m B.panel (coord B.order B.res x (B.ga i)) (coord B.order B.res x (B.gb j)) (V i j)
          (W (owner B.N B.panel (B.ga i) (B.gb j)))) (i j : Int) (hij : B.Own i j) :
    Components m B.panel (coord B.order B.res x (B.ga i)) (coord B.order B.res x (B.gb j)) (average B.patch V i j)
      (meanVector B.order B.res x W (B.panel, B.ga i, B.gb j)) := by
  obtain ⟨b1, b2, b3, b4, b5, b6, b7⟩ := hB.ranges
  have hint : B.patch.Interior i j := hij
  have hreach := B.patch.interior_reach i j hint
  have ea : B.endA = B.beginA + B.elemA * B.order := rfl
  have eb : B.endB = B.beginB + B.elemB * B.order := rfl
  have ga : B.ga i = B.beginA - B.halo + i := rfl
  have gb : B.gb j = B.beginB - B.halo + j := rfl
  have hA := B.patch.twin_reach hB.order hB.elemA i j hreach
  have hAB := B.patch.twin_reach' hB.order hB.elemB i j hreach
  have hABB := B.patch.twin_reach' hB.order hB.elemB _ j hA
  have tA := twin_ga B i
  have tB := twin_gb B j
  have cA := coord_twin L (B.ga i)
  have cB := coord_twin L (B.gb j)
  rw [← tA] at cA
  rw [← tB] at cB
  have get : ∀ i' j', B.patch.Reach i' j' → B.Stands i' j' →
      coord B.order B.res x (B.ga i') = coord B.order B.res x (B.ga i) →
      coord B.order B.res x (B.gb j') = coord B.order B.res x (B.gb j) →
      Components m B.panel (coord B.order B.res x (B.ga i)) (coord B.order B.res x (B.gb j)) (V i' j')
          (W (owner B.N B.panel (B.ga i') (B.gb j'))) := by
    intro i' j' hr hs e1 e2
    obtain ⟨r1, r2, r3, r4⟩ := hr
    have r2' : i' < B.halo + B.elemA * B.order + 1 := r2
    have r4' : j' < B.halo + B.elemB * B.order + 1 := r4
    have r1' : B.halo - 1 ≤ i' := r1
    have r3' : B.halo - 1 ≤ j' := r3
    have := hV i' j' r1' (by omega) r3' (by omega) hs
    rw [e1, e2] at this
    exact this
  unfold Placed.Own at hij
  have g0 : 0 ≤ B.ga i := by omega
  have g1 : B.ga i < B.N := by omega
  have k0 : 0 ≤ B.gb j := by omega
  have k1 : B.gb j < B.N := by omega
  have s1 : B.Stands i j := by unfold Placed.Stands; omega
  have s2 : B.Stands (B.patch.twin i) j := by unfold Placed.Stands; omega
  have s3 : B.Stands i (B.patch.twin j) := by unfold Placed.Stands; omega
  have h1 := get i j hreach s1 rfl rfl
  have h2 := get _ j hA s2 cA rfl
  have h3 := get i _ hAB s3 rfl cB
  have mo := mean_owner L W B.panel hB.panel (B.ga i) (B.gb j) g0 g1 k0 k1
  rw [← tA, ← tB] at mo
  by_cases hc : AtCube B.N (B.ga i) (B.gb j)
  · rw [mo.2 hc]
    have htr := (triple_iff hB i j hint).mpr hc
    have av : average B.patch V i j = (1 / 3 : ℝ) • (V i j + V (B.patch.twin i) j + V i (B.patch.twin j)) := by
      obtain ⟨c, hm, rfl, rfl⟩ := htr
      have ok := patch_ok hB
      have ta : B.patch.twin (B.patch.cornerA c) = B.patch.cornerA c + c.outA := by
        have z := Dss.twin_first B.patch.order 0 ok.order
        have e := Dss.twin_last B.patch.order B.patch.elemA ok.order
        rw [Int.zero_mul, Int.zero_sub] at z
        unfold Dss.Patch.twin
        cases c <;> simp only [Dss.Patch.cornerA, Dss.Corner.outA]
        · rw [show B.patch.halo + B.patch.elemA * B.patch.order - 1 - B.patch.halo = B.patch.elemA * B.patch.order - 1 by ring,
            e]; ring
        · rw [sub_self, z]; ring
        · rw [sub_self, z]; ring
        · rw [show B.patch.halo + B.patch.elemA * B.patch.order - 1 - B.patch.halo = B.patch.elemA * B.patch.order - 1 by ring,
            e]; ring
      have tb : B.patch.twin (B.patch.cornerB c) = B.patch.cornerB c + c.outB := by
        have z := Dss.twin_first B.patch.order 0 ok.order
        have e := Dss.twin_last B.patch.order B.patch.elemB ok.order
        rw [Int.zero_mul, Int.zero_sub] at z
        unfold Dss.Patch.twin
        cases c <;> simp only [Dss.Patch.cornerB, Dss.Corner.outB]
        · rw [show B.patch.halo + B.patch.elemB * B.patch.order - 1 - B.patch.halo = B.patch.elemB * B.patch.order - 1 by ring,
            e]; ring
        · rw [show B.patch.halo + B.patch.elemB * B.patch.order - 1 - B.patch.halo = B.patch.elemB * B.patch.order - 1 by ring,
            e]; ring
        · rw [sub_self, z]; ring
        · rw [sub_self, z]; ring
      rw [ta, tb]
      unfold average
      simp only [Dss.C58_corner B.patch ok _ c hm]
      refine Prod.ext ?_ ?_
      · simp only [Prod.smul_fst, Prod.fst_add, smul_eq_mul]; ring
      · simp only [Prod.smul_snd, Prod.snd_add, smul_eq_mul]; ring
    rw [av]
    exact components_scale _ _ _ _ _ _ (components_combine _ _ _ _ _ _ _
      (components_combine _ _ _ _ _ _ _ h1 h2) h3)
  · rw [mo.1 hc]
    have hnt : ¬ B.patch.Triple i j := fun h => hc ((triple_iff hB i j hint).mp h)
    have s4 : B.Stands (B.patch.twin i) (B.patch.twin j) := by
      unfold Placed.Stands
      rintro ⟨o1, o2⟩
      apply hc
      rw [tA] at o1
      rw [tB] at o2
      unfold AtCube
      constructor
      · by_contra hn
        have hN : B.N = B.order * B.res := rfl
        have hlt : B.ga i < B.order * B.res - 1 := by omega
        have := twin_inner L.order B.res (B.ga i) (by omega) hlt
        have : 0 ≤ twin B.order (B.ga i) ∧ twin B.order (B.ga i) < B.N := this
        omega
      · by_contra hn
        have hN : B.N = B.order * B.res := rfl
        have hlt : B.gb j < B.order * B.res - 1 := by omega
        have := twin_inner L.order B.res (B.gb j) (by omega) hlt
        have : 0 ≤ twin B.order (B.gb j) ∧ twin B.order (B.gb j) < B.N := this
        omega
    have h4 := get _ _ hABB s4 cA cB
    have av : average B.patch V i j = (1 / 4 : ℝ) • (V i j + V (B.patch.twin i) j + V i (B.patch.twin j)
        + V (B.patch.twin i) (B.patch.twin j)) := by
      unfold average
      simp only [Dss.C58_mean B.patch (patch_ok hB) _ i j hint hnt, Dss.sharedMean, sub_add_cancel]
      unfold Dss.Patch.twin
      refine Prod.ext ?_ ?_
      · simp only [Prod.smul_fst, Prod.fst_add, smul_eq_mul]; ring
      · simp only [Prod.smul_snd, Prod.snd_add, smul_eq_mul]; ring
    rw [av]
    exact components_scale _ _ _ _ _ _ (components_combine _ _ _ _ _ _ _ (components_combine _ _ _ _ _ _ _
      (components_combine _ _ _ _ _ _ _ h1 h2) h3) h4)

/-- **C98 (mean).**  After the exchange, applying direct stiffness summation to the velocities of any patch of the
cubed sphere succeeds, and each node of the patch then holds the components, in its own panel, of the mean of the
vectors that all nodes at the same point of the sphere held, on whatever panels and patches they are. -/
theorem C98_mean (hB : B.Ok) (L : Line B.order B.res x) (W : Node → Vec3) (V : Pair) (hV : Exchanged m B x W V) :
    ∃ V', applyDSS m B x V = some V' ∧ ∀ i j, B.Own i j →
      Components m B.panel (coord B.order B.res x (B.node i j).2.1) (coord B.order B.res x (B.node i j).2.2) (V' i j)
        (meanVector B.order B.res x W (B.node i j)) := by
  obtain ⟨V1, e, h⟩ := transform_spec hB L W V hV
  refine ⟨average B.patch V1, ?_, ?_⟩
  · unfold applyDSS
    rw [e]
    rfl
  · intro i j hij
    rw [node_eq]
    exact average_components hB L W V1 h i j hij

/-- **C98 (topography).**  The same for the two derivatives of the topography: each node ends with the derivatives,
along its own panel's coordinates, of the mean gradient. -/
theorem C98_topography (hB : B.Ok) (L : Line B.order B.res x) (W : Node → Vec3) (V : Pair)
    (hV : Exchanged .covariant B x W V) :
    ∃ V', applyDSSTopography B x V = some V' ∧ ∀ i j, B.Own i j →
      Covariant B.panel (coord B.order B.res x (B.node i j).2.1) (coord B.order B.res x (B.node i j).2.2) (V' i j)
        (meanVector B.order B.res x W (B.node i j)) := C98_mean hB L W V hV

theorem copies_congr {p res : Int} (n n' : Node) (h : point p res x n = point p res x n') :
    copies p res x n = copies p res x n' := by
  unfold copies; rw [h]

/-- **C98 (agreement).**  Two nodes at the same point of the sphere, on any two patches and panels, end with the
components of one and the same vector. -/
theorem C98_agree (B B' : Placed) (hB : B.Ok) (hB' : B'.Ok) (ho : B'.order = B.order) (hr : B'.res = B.res)
    (L : Line B.order B.res x) (W : Node → Vec3) (V V' : Pair) (hV : Exchanged m B x W V) (hV' : Exchanged m B' x W V')
    (i j i' j' : Int) (hij : B.Own i j) (hij' : B'.Own i' j')
    (hpt : point B.order B.res x (B.node i j) = point B.order B.res x (B'.node i' j')) :
    ∃ U U' w, applyDSS m B x V = some U ∧ applyDSS m B' x V' = some U' ∧
      Components m B.panel (coord B.order B.res x (B.node i j).2.1) (coord B.order B.res x (B.node i j).2.2) (U i j) w ∧
      Components m B'.panel (coord B.order B.res x (B'.node i' j').2.1) (coord B.order B.res x (B'.node i' j').2.2)
        (U' i' j') w := by
  obtain ⟨U, e, h⟩ := C98_mean hB L W V hV
  obtain ⟨U', e', h'⟩ := C98_mean hB' (by rw [ho, hr]; exact L) W V' hV'
  refine ⟨U, U', meanVector B.order B.res x W (B.node i j), e, e', h i j hij, ?_⟩
  have := h' i' j' hij'
  rw [ho, hr] at this
  unfold meanVector at this ⊢
  rw [copies_congr _ _ hpt]
  exact this

/-- Components are determined by the vector. -/
theorem components_unique (q : Int) (hq : Panel.IsPanel q) (X Y : ℝ) (v v' : ℝ × ℝ) (w : Vec3)
    (h : Components m q X Y v w) (h' : Components m q X Y v' w) : v = v' := by
  cases m
  · exact Prod.ext (h.1.trans h'.1.symm) (h.2.trans h'.2.symm)
  · have a : Contravariant q X Y v w := h
    have b : Contravariant q X Y v' w := h'
    unfold Contravariant at a b
    obtain ⟨c, d⟩ := physical_injective (sphere_panel hq) (a.trans b.symm)
    exact Prod.ext c d

theorem self_copy (L : Line B.order B.res x) (hB : B.Ok) (i j : Int) (hij : B.Own i j) :
    B.node i j ∈ copies B.order B.res x (B.node i j) := by
  obtain ⟨b1, b2, b3, b4, b5, b6, b7⟩ := hB.ranges
  rw [mem_copies]
  have ea : B.endA = B.beginA + B.elemA * B.order := rfl
  have eb : B.endB = B.beginB + B.elemB * B.order := rfl
  have ba : B.beginA = B.eA * B.order := rfl
  have bb : B.beginB = B.eB * B.order := rfl
  have hN : B.N = B.order * B.res := rfl
  have hp := hB.panel
  unfold Panel.IsPanel at hp
  unfold Placed.Own at hij
  unfold Placed.node
  simp only
  refine ⟨by omega, by omega, by omega, trivial⟩

/-- **C98 (continuous velocities).**  A velocity that is the same vector at all copies of a point is not changed
there. -/
theorem C98_continuous (hB : B.Ok) (L : Line B.order B.res x) (W : Node → Vec3) (V : Pair) (hV : Exchanged m B x W V)
    (i j : Int) (hij : B.Own i j) (hW : ∀ n ∈ copies B.order B.res x (B.node i j), W n = W (B.node i j)) :
    ∃ V', applyDSS m B x V = some V' ∧ V' i j = V i j := by
  obtain ⟨V', e, h⟩ := C98_mean hB L W V hV
  refine ⟨V', e, ?_⟩
  have h1 := h i j hij
  obtain ⟨b1, b2, b3, b4, b5, b6, b7⟩ := hB.ranges
  have hm : meanVector B.order B.res x W (B.node i j) = W (B.node i j) := by
    unfold meanVector
    rw [Finset.sum_congr rfl hW, Finset.sum_const]
    have : ((copies B.order B.res x (B.node i j)).card : ℝ) ≠ 0 := by
      have := Finset.card_pos.mpr ⟨_, self_copy L hB i j hij⟩
      exact_mod_cast this.ne'
    rw [← Nat.cast_smul_eq_nsmul ℝ, smul_smul, one_div, inv_mul_cancel₀ this, one_smul]
  rw [hm] at h1
  have ea : B.endA = B.beginA + B.elemA * B.order := rfl
  have eb : B.endB = B.beginB + B.elemB * B.order := rfl
  have ba : B.beginA = B.eA * B.order := rfl
  have bb : B.beginB = B.eB * B.order := rfl
  have hN : B.N = B.order * B.res := rfl
  unfold Placed.Own at hij
  have h2 := hV i j (by omega) (by omega) (by omega) (by omega)
    ⟨B.panel, B.eA * B.order + (i - B.halo), B.eB * B.order + (j - B.halo), false, false, false⟩ (by
      unfold relativeCoord
      rw [if_pos (by omega)]) (by have := hB.panel.1; simp only; omega)
  exact components_unique B.panel hB.panel _ _ _ _ _ h1 h2

/-- The points of an element in the program: the quadrature rule of the given size rescaled to the element,
`GaussLobattoQuadrature::GetPoints` (src/base/GaussLobattoQuadrature.cpp:206-221) as `GridSpacingGaussLobattoRepeated`
calls it. -/
noncomputable def elementPoints (roots : Nat → List ℝ) (p : Int) (w : ℝ) (s : Nat) : ℝ :=
  match Quad.lobattoPoints roots p with
  | some r => (Quad.rescale 0 w r).1.getD s 0
  | none => 0

/-- What is asked of a table of points on [-1, 1], in a form that can be evaluated. -/
def tableOk (n : Nat) (g : List ℚ) : Bool :=
  g.length == n && g.getD 0 0 == -1 && g.getD (n - 1) 0 == 1 &&
  (List.range n).all (fun s => (List.range n).all fun t => !decide (s < t) || decide (g.getD s 0 < g.getD t 0)) &&
  (List.range n).all (fun s => g.getD (n - 1 - s) 0 == - g.getD s 0)

theorem tables_ok (n : Nat) (h2 : 2 ≤ n) (h10 : n ≤ 10) :
    ∃ r, Quad.lobattoTable n = some r ∧ tableOk n r.1 = true := by
  have : n = 2 ∨ n = 3 ∨ n = 4 ∨ n = 5 ∨ n = 6 ∨ n = 7 ∨ n = 8 ∨ n = 9 ∨ n = 10 := by omega
  rcases this with h | h | h | h | h | h | h | h | h <;> subst h <;>
    exact ⟨_, rfl, by decide +kernel⟩

/-- **C98 (points).**  For two to ten nodes per element, where the program has tables, the points it uses divide a
panel as the other theorems ask, whatever its root finder would return. -/
theorem C98_points (roots : Nat → List ℝ) (p res : Int) (h2 : 2 ≤ p) (h10 : p ≤ 10) (hres : 1 ≤ res) :
    Line p res (elementPoints roots p (Real.pi / 2 / res)) := by
  obtain ⟨n, rfl⟩ : ∃ n : Nat, p = n := ⟨p.toNat, by omega⟩
  obtain ⟨r, hr, hok⟩ := tables_ok n (by omega) (by omega)
  have hw : 0 < Real.pi / 2 / (res : ℝ) := by
    have : (0 : ℝ) < res := by exact_mod_cast (by omega : 0 < res)
    have := Real.pi_pos
    positivity
  refine ⟨h2, hres, ?_⟩
  generalize Real.pi / 2 / (res : ℝ) = w at hw ⊢
  unfold tableOk at hok
  simp only [Bool.and_eq_true, beq_iff_eq, List.all_eq_true, List.mem_range, Bool.or_eq_true, Bool.not_eq_true',
    decide_eq_false_iff_not, decide_eq_true_eq] at hok
  obtain ⟨⟨⟨⟨hl, h0⟩, h1⟩, hinc⟩, hsym⟩ := hok
  have key : ∀ s, s < n → elementPoints roots n w s = 0.5 * w * ((r.1.getD s 0 : ℚ) + 1) := by
    intro s hs
    unfold elementPoints Quad.lobattoPoints
    rw [if_neg (by omega)]
    simp only [Int.toNat_natCast, hr, Quad.rescale, List.getD_eq_getElem?_getD, List.getElem?_map]
    rw [List.getElem?_eq_getElem (by omega)]
    simp
  refine ⟨?_, ?_, ?_, ?_⟩
  · rw [key 0 (by omega), h0]; norm_num
  · rw [show ((n : Int) - 1).toNat = n - 1 by omega, key (n - 1) (by omega), h1]; norm_num; ring
  · intro s t hst ht
    have ht' : t < n := by exact_mod_cast ht
    rw [key s (by omega), key t ht']
    rcases hinc s (by omega) t ht' with h | h
    · exact absurd hst h
    · have : ((r.1.getD s 0 : ℚ) : ℝ) < ((r.1.getD t 0 : ℚ) : ℝ) := by exact_mod_cast h
      nlinarith
  · intro s h0 hs
    obtain ⟨k, rfl⟩ : ∃ k : Nat, s = k := ⟨s.toNat, by omega⟩
    have hk : k < n := by exact_mod_cast hs
    rw [show ((n : Int) - 1 - k).toNat = n - 1 - k by omega, Int.toNat_natCast, key _ (by omega), key k hk, hsym k hk]
    push_cast
    ring

/-- **C98 (refused).**  A node exactly one element before the beginning of a panel has no coordinate: the program
throws.  So a patch at the left edge of a panel can be set up only with a halo narrower than an element; one ring, the
width the program uses, always is. -/
theorem C98_refused (hB : B.Ok) (hA : B.eA = 0) : B.xNode x (B.halo - B.order) = none := by
  have ho := hB.order
  unfold Placed.xNode coordinate Placed.beginA
  rw [hA, show 0 * B.order - B.halo + (B.halo - B.order) = -B.order by ring,
    (Vert.C52_repeated_partial B.order (by omega) x _ _ (-B.order)).2 ⟨by omega, by simp⟩]

/-- The vectors of the witness: any two numbers as components at each node give one. -/
noncomputable def sampleVector (p res : Int) (x : Nat → ℝ) (n : Node) : Vec3 :=
  physical n.1 (coord p res x n.2.1) (coord p res x n.2.2) (n.2.1 + 1) (n.1 - n.2.2)

/-- The array of the witness. -/
noncomputable def sampleArray (m : Momenta) (B : Placed) (x : Nat → ℝ) : Pair := fun i j =>
  match relativeCoord (B.order * B.res) B.panel (B.eA * B.order + (i - B.halo)) (B.eB * B.order + (j - B.halo)) with
  | none => 0
  | some r =>
    let X := coord B.order B.res x r.ix
    let Y := coord B.order B.res x r.jx
    let w := sampleVector B.order B.res x (r.panel, r.ix, r.jx)
    match m with
    | .covariant => (dot w (tangentA r.panel X Y), dot w (tangentB r.panel X Y))
    | .contravariant => (r.ix + 1, r.panel - r.jx)

theorem sample_exchanged (m : Momenta) (B : Placed) (x : Nat → ℝ) :
    Exchanged m B x (sampleVector B.order B.res x) (sampleArray m B x) := by
  intro i j _ _ _ _ r hr _
  unfold sampleArray
  rw [hr]
  cases m
  · exact ⟨rfl, rfl⟩
  · exact rfl

/-- The hypotheses of the theorems above are met: the patches that cover each panel of a sphere with three by three
elements of four nodes, both choices of components, and velocities that differ from node to node. -/
example (m : Momenta) (q : Int) (hq : Panel.IsPanel q) (eA eB : Int) (hA : 0 ≤ eA) (hB : 0 ≤ eB) (hA3 : eA < 3) (hB3 : eB < 3)
    (roots : Nat → List ℝ) :
    let B : Placed := { panel := q, res := 3, order := 4, halo := 1, eA := eA, eB := eB, elemA := 1, elemB := 1 }
    let x := elementPoints roots 4 (Real.pi / 2 / 3)
    B.Ok ∧ Line B.order B.res x ∧ Exchanged m B x (sampleVector 4 3 x) (sampleArray m B x) ∧ B.Own 1 1 ∧ B.Own 4 4 := by
  refine ⟨⟨hq, by simp, by simp, by simp, by simp, hA, hB, by simp; omega, by simp; omega⟩, ?_, sample_exchanged m _ _, ?_, ?_⟩
  · have := C98_points roots 4 3 (by norm_num) (by norm_num) (by norm_num)
    push_cast at this
    exact this
  · unfold Placed.Own; simp
  · unfold Placed.Own; simp

/-- Two nodes at one point of the sphere on different panels: the last of panel 0 and the first of panel 1 in the row
`j`. -/
example (x : Nat → ℝ) (L : Line 4 3 x) (j : Int) : point 4 3 x (0, 11, j) = point 4 3 x (1, 0, j) := by
  have a : angle 4 3 x 11 = Real.pi / 4 := by
    have := L.points.last
    unfold angle
    norm_num at this ⊢
    rw [this]; ring
  have b : angle 4 3 x 0 = -(Real.pi / 4) := by
    have := L.points.first
    unfold angle
    norm_num
    exact this
  unfold point coord
  simp only [a, b, Real.tan_neg, Real.tan_pi_div_four]
  unfold image centre axisA axisB
  simp

end Verif.Halo
