import Verif.Halo.Strips
import Verif.Dss.Props

/-!
# From the transform of the halo to the averages
-/

namespace Verif.Halo

open Verif.Dss (twin)
open Verif.Sphere
open Verif.Exchange (Dir)
open Verif.Panel (outside inside IsEdge relativeCoord Rel place panelFromDirection opposingDirection switchParallel
  invalidPanel)

variable {m : Momenta} {B : Placed} {x : Nat → ℝ}

theorem trans_components (src dst : Int) (hadj : Adjacent src dst) (X Y Xs Ys : ℝ)
    (hpt : image dst X Y = image src Xs Ys) (v : ℝ × ℝ) (w : Vec3) (h : Components m src Xs Ys v w) :
    Components m dst X Y ((panelTrans m src dst v X Y).getD v) w := by
  have hx := (C33_panels X Y Xs Ys dst src hadj.2.1 hadj.1).mpr hpt
  have hs := panelTrans_some m src dst hadj v X Y
  generalize (panelTrans m src dst v X Y).getD v = v' at *
  cases m
  · exact C35_covector X Y Xs Ys v.1 v.2 v'.1 v'.2 w src dst hadj hx h.1 h.2 hs
  · exact (C35_vector X Y Xs Ys v.1 v.2 v'.1 v'.2 src dst hadj hx hs).trans h

/-- Global number of an array index. -/
def Placed.ga (B : Placed) (i : Int) : Int := B.beginA - B.halo + i
def Placed.gb (B : Placed) (j : Int) : Int := B.beginB - B.halo + j

theorem F_components (hB : B.Ok) (L : Line B.order B.res x) (W : Node → Vec3) (d : Dir) (hd : IsEdge d) (q t i j : Int)
    (hq : panelFromDirection B.panel d = some q) (h0 : 0 ≤ t) (h1 : t < B.N)
    (ho : outside B.N d 0 t = (B.ga i, B.gb j)) (v : ℝ × ℝ)
    (hv : ∀ r, relativeCoord B.N B.panel (B.ga i) (B.gb j) = some r → r.panel ≠ -1 →
      Components m r.panel (coord B.order B.res x r.ix) (coord B.order B.res x r.jx) v (W (r.panel, r.ix, r.jx))) :
    Components m B.panel (coord B.order B.res x (B.ga i)) (coord B.order B.res x (B.gb j)) (F m B x q i j v)
      (W (owner B.N B.panel (B.ga i) (B.gb j))) := by
  obtain ⟨q', d', hq', hqp, hne, hd', hop, -⟩ := Panel.C30_edges B.panel hB.panel d hd
  rw [hq] at hq'
  simp only [Option.some.injEq] at hq'
  subst hq'
  have hc := Panel.crossing B.N B.panel q 0 t hB.panel d d' hd le_rfl h0 h1 hq hop
  have hpo := point_out L B.panel q t hB.panel d d' hd h0 h1 hq hop
  have how := owner_out B.N B.panel q t hB.panel d d' hd h0 h1 hq hop
  rw [ho] at hc how
  simp only at hc how
  have h2 := hv _ hc (by have := hqp.1; simp only; omega)
  simp only at h2
  rw [how]
  refine trans_components q B.panel (adjacent_of _ _ hB.panel d hd hq) _ _ _ _ ?_ v _ h2
  have hp := L.order
  have same : coord B.order B.res x (B.ga i) = coord B.order B.res x (inside B.N d 0 t).1 ∧
      coord B.order B.res x (B.gb j) = coord B.order B.res x (inside B.N d 0 t).2 := by
    have e1 := congrArg Prod.fst ho
    have e2 := congrArg Prod.snd ho
    simp only at e1 e2
    rw [← e1, ← e2]
    unfold Placed.N
    rcases hd with rfl | rfl | rfl | rfl <;> simp only [outside, inside, add_zero, sub_zero] <;>
      simp only [coord_last L, coord_after L, coord_zero L, coord_before L, and_self]
  rw [same.1, same.2]
  exact hpo.symm

/-- The node of the array stands for a node of the sphere. -/
def Placed.Stands (B : Placed) (i j : Int) : Prop :=
  ¬ ((B.ga i < 0 ∨ B.N ≤ B.ga i) ∧ (B.gb j < 0 ∨ B.N ≤ B.gb j))

theorem transform_spec (hB : B.Ok) (L : Line B.order B.res x) (W : Node → Vec3) (V : Pair)
    (hV : Exchanged m B x W V) : ∃ V', transformHalo m B x V = some V' ∧
      ∀ i j, B.halo - 1 ≤ i → i ≤ B.halo + B.elemA * B.order → B.halo - 1 ≤ j → j ≤ B.halo + B.elemB * B.order →
        B.Stands i j → Components m B.panel (coord B.order B.res x (B.ga i)) (coord B.order B.res x (B.gb j)) (V' i j)
          (W (owner B.N B.panel (B.ga i) (B.gb j))) := by
  obtain ⟨b1, b2, b3, b4, b5, b6, b7⟩ := hB.ranges
  have hh := hB.halo
  obtain ⟨q1, hq1, e1⟩ := right_spec (m := m) hB L V
  obtain ⟨V1, v1, e1⟩ : ∃ V1 : Pair, (∀ i j, V1 i j =
      if B.endA = B.N ∧ i = B.lastA ∧ B.first - 1 ≤ j ∧ j < B.lastB + 1 then F m B x q1 i j (V i j) else V i j) ∧
      transRight m B x V = some V1 := ⟨_, fun _ _ => rfl, e1⟩
  obtain ⟨q2, hq2, e2⟩ := top_spec (m := m) hB L V1
  obtain ⟨V2, v2, e2⟩ : ∃ V2 : Pair, (∀ i j, V2 i j =
      if B.endB = B.N ∧ j = B.lastB ∧ B.first - 1 ≤ i ∧ i < B.lastA + 1 then F m B x q2 i j (V1 i j) else V1 i j) ∧
      transTop m B x V1 = some V2 := ⟨_, fun _ _ => rfl, e2⟩
  obtain ⟨q3, hq3, e3⟩ := left_spec (m := m) hB L V2
  obtain ⟨V3, v3, e3⟩ : ∃ V3 : Pair, (∀ i j, V3 i j =
      if B.beginA = 0 ∧ i = B.first - 1 ∧ B.first - 1 ≤ j ∧ j < B.lastB + 1 then F m B x q3 i j (V2 i j) else V2 i j) ∧
      transLeft m B x V2 = some V3 := ⟨_, fun _ _ => rfl, e3⟩
  obtain ⟨q4, hq4, e4⟩ := bottom_spec (m := m) hB L V3
  refine ⟨fun i j => if B.beginB = 0 ∧ j = B.first - 1 ∧ B.first - 1 ≤ i ∧ i < B.lastA + 1 then
      F m B x q4 i j (V3 i j) else V3 i j, ?_, ?_⟩
  · unfold transformHalo
    rw [e1]
    simp only [Option.bind_eq_bind, Option.bind_some]
    rw [e2]
    simp only [Option.bind_some]
    rw [e3]
    simp only [Option.bind_some]
    exact e4
  intro i j i0 i1 j0 j1 hs
  have hv : ∀ r, relativeCoord B.N B.panel (B.ga i) (B.gb j) = some r → r.panel ≠ -1 →
      Components m r.panel (coord B.order B.res x r.ix) (coord B.order B.res x r.jx) (V i j) (W (r.panel, r.ix, r.jx)) := by
    intro r hr hne
    refine hV i j i0 i1 j0 j1 r ?_ hne
    rw [← hr]
    unfold Placed.ga Placed.gb Placed.beginA Placed.beginB Placed.N
    congr 1 <;> ring
  clear hV e1 e2 e3 e4
  simp only [v3, v2, v1]
  unfold Placed.Stands at hs
  have ea : B.endA = B.beginA + B.elemA * B.order := rfl
  have eb : B.endB = B.beginB + B.elemB * B.order := rfl
  have la : B.lastA = B.halo + B.elemA * B.order := rfl
  have lb : B.lastB = B.halo + B.elemB * B.order := rfl
  have fi : B.first = B.halo := rfl
  have ga : B.ga i = B.beginA - B.halo + i := rfl
  have gb : B.gb j = B.beginB - B.halo + j := rfl
  generalize B.elemA * B.order = wA at *
  generalize B.elemB * B.order = wB at *
  by_cases c1 : B.endA = B.N ∧ i = B.lastA
  · have n2 : ¬ (B.endB = B.N ∧ j = B.lastB ∧ B.first - 1 ≤ i ∧ i < B.lastA + 1) := by omega
    have n3 : ¬ (B.beginA = 0 ∧ i = B.first - 1 ∧ B.first - 1 ≤ j ∧ j < B.lastB + 1) := by omega
    have n4 : ¬ (B.beginB = 0 ∧ j = B.first - 1 ∧ B.first - 1 ≤ i ∧ i < B.lastA + 1) := by omega
    rw [if_neg n4, if_neg n3, if_neg n2, if_pos (by omega)]
    exact F_components hB L W .right (.inl rfl) q1 (B.gb j) i j hq1 (by omega) (by omega)
      (by simp only [outside, Prod.mk.injEq, and_true]; omega) _ hv
  · by_cases c2 : B.endB = B.N ∧ j = B.lastB
    · have n3 : ¬ (B.beginA = 0 ∧ i = B.first - 1 ∧ B.first - 1 ≤ j ∧ j < B.lastB + 1) := by omega
      have n4 : ¬ (B.beginB = 0 ∧ j = B.first - 1 ∧ B.first - 1 ≤ i ∧ i < B.lastA + 1) := by omega
      rw [if_neg n4, if_neg n3, if_pos (by omega), if_neg (by omega)]
      exact F_components hB L W .top (.inr (.inl rfl)) q2 (B.ga i) i j hq2 (by omega) (by omega)
        (by simp only [outside, Prod.mk.injEq, true_and]; omega) _ hv
    · by_cases c3 : B.beginA = 0 ∧ i = B.first - 1
      · have n4 : ¬ (B.beginB = 0 ∧ j = B.first - 1 ∧ B.first - 1 ≤ i ∧ i < B.lastA + 1) := by omega
        rw [if_neg n4, if_pos (by omega), if_neg (by omega), if_neg (by omega)]
        exact F_components hB L W .left (.inr (.inr (.inl rfl))) q3 (B.gb j) i j hq3 (by omega) (by omega)
          (by simp only [outside, Prod.mk.injEq, and_true]; omega) _ hv
      · by_cases c4 : B.beginB = 0 ∧ j = B.first - 1
        · rw [if_pos (by omega), if_neg (by omega), if_neg (by omega), if_neg (by omega)]
          exact F_components hB L W .bottom (.inr (.inr (.inr rfl))) q4 (B.ga i) i j hq4 (by omega) (by omega)
            (by simp only [outside, Prod.mk.injEq, true_and]; omega) _ hv
        · rw [if_neg (by omega), if_neg (by omega), if_neg (by omega), if_neg (by omega)]
          have r : relativeCoord B.N B.panel (B.ga i) (B.gb j) = some ⟨B.panel, B.ga i, B.gb j, false, false, false⟩ := by
            unfold relativeCoord
            rw [if_pos (by omega)]
          have := hv _ r (by have := hB.panel.1; simp only; omega)
          rw [owner_in _ _ _ _ (by omega) (by omega) (by omega) (by omega)]
          exact this

/-- Components are linear in the vector. -/
theorem components_combine (q : Int) (X Y : ℝ) (v v' : ℝ × ℝ) (w w' : Vec3) (h : Components m q X Y v w)
    (h' : Components m q X Y v' w') : Components m q X Y (v + v') (w + w') := by
  cases m
  · obtain ⟨a, b⟩ := h
    obtain ⟨a', b'⟩ := h'
    refine ⟨?_, ?_⟩
    · rw [Prod.fst_add, a, a']; simp only [dot, Prod.fst_add, Prod.snd_add]; ring
    · rw [Prod.snd_add, b, b']; simp only [dot, Prod.fst_add, Prod.snd_add]; ring
  · have e : Contravariant q X Y (v + v') (w + w') := by
      have a : Contravariant q X Y v w := h
      have b : Contravariant q X Y v' w' := h'
      unfold Contravariant physical at *
      rw [← a, ← b, Prod.fst_add, Prod.snd_add]
      module
    exact e

theorem components_scale (q : Int) (X Y : ℝ) (v : ℝ × ℝ) (w : Vec3) (c : ℝ) (h : Components m q X Y v w) :
    Components m q X Y (c • v) (c • w) := by
  cases m
  · obtain ⟨a, b⟩ := h
    refine ⟨?_, ?_⟩
    · rw [Prod.smul_fst, a]; simp only [dot, Prod.smul_fst, Prod.smul_snd, smul_eq_mul]; ring
    · rw [Prod.smul_snd, b]; simp only [dot, Prod.smul_fst, Prod.smul_snd, smul_eq_mul]; ring
  · have e : Contravariant q X Y (c • v) (c • w) := by
      have a : Contravariant q X Y v w := h
      unfold Contravariant physical at *
      rw [← a, Prod.smul_fst, Prod.smul_snd, smul_eq_mul, smul_eq_mul]
      module
    exact e

theorem invalid_iff (N q g k : Int) (hN : 2 ≤ N) (hq : Panel.IsPanel q) (hg : -1 ≤ g ∧ g ≤ N) (hk : -1 ≤ k ∧ k ≤ N) :
    ((relativeCoord N q g k).map Rel.panel == some invalidPanel) = true ↔ (g < 0 ∨ N ≤ g) ∧ (k < 0 ∨ N ≤ k) := by
  constructor
  · intro h
    by_contra hc
    have hr : Panel.Reach N (g, k) := by unfold Panel.Reach; simp only; omega
    obtain ⟨r, e, ip, -⟩ := Panel.C31_valid N q g k hq hr
    rw [e] at h
    simp only [Option.map_some, beq_iff_eq, Option.some.injEq] at h
    rw [h] at ip
    have := ip.1
    unfold invalidPanel at this
    omega
  · rintro ⟨a, b⟩
    obtain ⟨r, e, pl, -⟩ := Panel.C31_corner N q g k a b
    rw [e]
    have : r.panel = -1 := congrArg Prod.fst pl
    simp [this, invalidPanel]

theorem patch_ok (hB : B.Ok) : B.patch.Ok := ⟨hB.halo, hB.order, hB.elemA, hB.elemB⟩

/-- The patch's own node at a corner with no neighbour is at a corner of the cube. -/
theorem triple_iff (hB : B.Ok) (i j : Int) (hij : B.patch.Interior i j) :
    B.patch.Triple i j ↔ AtCube B.N (B.ga i) (B.gb j) := by
  obtain ⟨b1, b2, b3, b4, b5, b6, b7⟩ := hB.ranges
  have ea : B.endA = B.beginA + B.elemA * B.order := rfl
  have eb : B.endB = B.beginB + B.elemB * B.order := rfl
  have ga : B.ga i = B.beginA - B.halo + i := rfl
  have gb : B.gb j = B.beginB - B.halo + j := rfl
  have tr := invalid_iff B.N B.panel B.endA B.endB b7 hB.panel (by omega) (by omega)
  have tl := invalid_iff B.N B.panel (B.beginA - 1) B.endB b7 hB.panel (by omega) (by omega)
  have bl := invalid_iff B.N B.panel (B.beginA - 1) (B.beginB - 1) b7 hB.panel (by omega) (by omega)
  have br := invalid_iff B.N B.panel B.endA (B.beginB - 1) b7 hB.panel (by omega) (by omega)
  unfold Dss.Patch.Interior at hij
  have hij' : B.halo ≤ i ∧ i < B.halo + B.elemA * B.order ∧ B.halo ≤ j ∧ j < B.halo + B.elemB * B.order := hij
  unfold Dss.Patch.Triple AtCube
  constructor
  · rintro ⟨c, h1, h2, h3⟩
    cases c
    · have h := tr.mp h1
      have h2' : i = B.halo + B.elemA * B.order - 1 := h2
      have h3' : j = B.halo + B.elemB * B.order - 1 := h3
      omega
    · have h := tl.mp h1
      have h2' : i = B.halo := h2
      have h3' : j = B.halo + B.elemB * B.order - 1 := h3
      omega
    · have h := bl.mp h1
      have h2' : i = B.halo := h2
      have h3' : j = B.halo := h3
      omega
    · have h := br.mp h1
      have h2' : i = B.halo + B.elemA * B.order - 1 := h2
      have h3' : j = B.halo := h3
      omega
  · rintro ⟨h1, h2⟩
    rcases h1 with h1 | h1 <;> rcases h2 with h2 | h2
    · exact ⟨.bottomLeft, bl.mpr (by omega), show i = B.halo by omega, show j = B.halo by omega⟩
    · exact ⟨.topLeft, tl.mpr (by omega), show i = B.halo by omega, show j = B.halo + B.elemB * B.order - 1 by omega⟩
    · exact ⟨.bottomRight, br.mpr (by omega), show i = B.halo + B.elemA * B.order - 1 by omega, show j = B.halo by omega⟩
    · exact ⟨.topRight, tr.mpr (by omega), show i = B.halo + B.elemA * B.order - 1 by omega,
        show j = B.halo + B.elemB * B.order - 1 by omega⟩

theorem twin_ga (B : Placed) (i : Int) : B.ga (B.patch.twin i) = twin B.order (B.ga i) := by
  unfold Placed.ga Dss.Patch.twin Placed.beginA
  have := Dss.twin_shift B.order (i - B.halo) B.eA
  change B.eA * B.order - B.halo + (twin B.order (i - B.halo) + B.halo) = _
  rw [show B.eA * B.order - B.halo + i = i - B.halo + B.eA * B.order by ring, this]; ring

theorem twin_gb (B : Placed) (j : Int) : B.gb (B.patch.twin j) = twin B.order (B.gb j) := by
  unfold Placed.gb Dss.Patch.twin Placed.beginB
  have := Dss.twin_shift B.order (j - B.halo) B.eB
  change B.eB * B.order - B.halo + (twin B.order (j - B.halo) + B.halo) = _
  rw [show B.eB * B.order - B.halo + j = j - B.halo + B.eB * B.order by ring, this]; ring

end Verif.Halo
