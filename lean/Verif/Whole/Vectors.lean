import Verif.Whole.Means

/-!
# Averaging velocities over the whole sphere
-/

namespace Verif.Whole

open Verif.Dss (twin twin_twin)
open Halo (Node Momenta Placed Components coord angle copies Line)
open Verif.Panel (relativeCoord)

variable (W : World)

theorem World.see_none_iff (hk : W.kind = .sphere) (p g h : Int) (hp : Panel.IsPanel p)
    (hN : 2 ≤ (W.order : Int) * W.elemA) (hg : -1 ≤ g ∧ g ≤ W.order * W.elemA) (hh : -1 ≤ h ∧ h ≤ W.order * W.elemA) :
    W.see p g h = none ↔ (g < 0 ∨ W.order * W.elemA ≤ g) ∧ (h < 0 ∨ W.order * W.elemA ≤ h) := by
  constructor
  · intro ht
    by_contra hc
    have reach : Panel.Reach (W.order * W.elemA) (g, h) := by
      unfold Panel.Reach
      simp only
      omega
    obtain ⟨r, hr, -, on⟩ := Panel.C31_valid (W.order * W.elemA) p _ _ hp reach
    unfold World.see at ht
    rw [hk] at ht
    simp only at ht
    rw [hr] at ht
    simp only at ht
    rw [if_neg (by
      unfold Panel.OnPanel at on
      simp only at on
      omega)] at ht
    cases ht
  · rintro ⟨a, b⟩
    exact W.see_out hk p g h a b

section
variable (hW : W.Tiled) (hk : W.kind = .sphere)

include hW hk

theorem World.placed_ok (i : Fin W.count) : (W.placed i).Ok := by
  have h1 := hW.panel i
  have h2 := hW.some i
  have h3 := hW.inside i
  have h4 := hW.order
  have h5 := hW.halo
  rw [hk] at h1
  have hs := hW.square hk
  have hp : (W.tile i).panel < 6 := h1.2
  constructor
  · exact ⟨h1.1, by have : (W.placed i).panel = (W.tile i).panel := rfl; omega⟩
  all_goals simp only [World.placed]; omega

theorem World.patch_placed (i : Fin W.count) : W.patch i = (W.placed i).patch := by
  obtain ⟨s1, s2, -⟩ := hW.shape i
  have ok := W.placed_ok hW hk i
  obtain ⟨b1, b2, b3, b4, b5, b6, b7⟩ := ok.ranges
  have flag : ∀ g h : Int, -1 ≤ g → g ≤ (W.placed i).N → -1 ≤ h → h ≤ (W.placed i).N →
      (W.see (W.tile i).panel g h).isNone =
        ((relativeCoord ((W.placed i).order * (W.placed i).res) (W.placed i).panel g h).map Panel.Rel.panel ==
          some Panel.invalidPanel) := by
    intro g h g0 g1 h0 h1
    rw [Bool.eq_iff_iff, Option.isNone_iff_eq_none]
    exact (W.see_none_iff hk _ g h ok.panel b7 ⟨g0, g1⟩ ⟨h0, h1⟩).trans
      (Halo.invalid_iff (W.placed i).N _ g h b7 ok.panel ⟨g0, g1⟩ ⟨h0, h1⟩).symm
  have eA : ((W.tile i).M.G.S.elemA : Int) * W.order + (W.tile i).eA * W.order = (W.placed i).endA := by
    unfold Placed.endA; simp only [World.placed]; ring
  have eB : ((W.tile i).M.G.S.elemB : Int) * W.order + (W.tile i).eB * W.order = (W.placed i).endB := by
    unfold Placed.endB; simp only [World.placed]; ring
  have fA : (-1 : Int) + (W.tile i).eA * W.order = (W.placed i).beginA - 1 := by
    unfold Placed.beginA; simp only [World.placed]; ring
  have fB : (-1 : Int) + (W.tile i).eB * W.order = (W.placed i).beginB - 1 := by
    unfold Placed.beginB; simp only [World.placed]; ring
  unfold World.patch Placed.patch World.blind
  simp only [s1, s2, eA, eB, fA, fB]
  rw [flag _ _ (by omega) (by omega) (by omega) (by omega), flag _ _ (by omega) (by omega) (by omega) (by omega),
    flag _ _ (by omega) (by omega) (by omega) (by omega), flag _ _ (by omega) (by omega) (by omega) (by omega)]
  rfl

omit hk in
/-- What the exchange leaves at a node that shows a node of the sphere. -/
theorem World.exchange_seen (v : W.Field) (i : Fin W.count) (c k : Nat) (a b : Int) (a0 : 0 ≤ a) (b0 : 0 ≤ b) (n : Node)
    (hn : W.see (W.tile i).panel (a - W.halo + (W.tile i).eA * W.order) (b - W.halo + (W.tile i).eB * W.order) = some n) :
    W.exchange v i c a.toNat b.toNat k = W.field v c k n := by
  obtain ⟨a, rfl⟩ := Int.eq_ofNat_of_zero_le a0
  obtain ⟨b, rfl⟩ := Int.eq_ofNat_of_zero_le b0
  exact W.exchange_at hW v i c a b k n hn

theorem World.exchanged (m : Momenta) (x : Nat → ℝ) (v : W.Field) (k : Nat) (w : Node → Sphere.Vec3)
    (hv : W.Moves m x v k w) (i : Fin W.count) : Halo.Exchanged m (W.placed i) x w
      (fun a b => (W.exchange v i 0 a.toNat b.toNat k, W.exchange v i 1 a.toNat b.toNat k)) := by
  intro a b a0 a1 b0 b1 r hr hr'
  have ok := W.placed_ok hW hk i
  obtain ⟨c1, c2, c3, c4, c5, c6, c7⟩ := ok.ranges
  have hh := ok.halo
  have hN : (W.placed i).N = W.order * W.elemA := rfl
  have bA : (W.placed i).beginA = (W.placed i).eA * (W.placed i).order := rfl
  have bB : (W.placed i).beginB = (W.placed i).eB * (W.placed i).order := rfl
  have eA : (W.placed i).endA = (W.placed i).beginA + (W.placed i).elemA * (W.placed i).order := rfl
  have eB : (W.placed i).endB = (W.placed i).beginB + (W.placed i).elemB * (W.placed i).order := rfl
  by_cases hout : (((W.placed i).eA * (W.placed i).order + (a - (W.placed i).halo) < 0 ∨
      (W.placed i).N ≤ (W.placed i).eA * (W.placed i).order + (a - (W.placed i).halo)) ∧
      ((W.placed i).eB * (W.placed i).order + (b - (W.placed i).halo) < 0 ∨
      (W.placed i).N ≤ (W.placed i).eB * (W.placed i).order + (b - (W.placed i).halo)))
  · obtain ⟨r', e, pl, -⟩ := Panel.C31_corner (W.placed i).N (W.placed i).panel _ _ hout.1 hout.2
    rw [show relativeCoord (W.placed i).N = relativeCoord ((W.placed i).order * (W.placed i).res) from rfl, hr] at e
    exact absurd (Option.some.inj e ▸ congrArg Prod.fst pl) hr'
  · have reach : Panel.Reach (W.placed i).N ((W.placed i).eA * (W.placed i).order + (a - (W.placed i).halo),
        (W.placed i).eB * (W.placed i).order + (b - (W.placed i).halo)) := by
      unfold Panel.Reach
      simp only
      omega
    obtain ⟨r', e, ip, on⟩ := Panel.C31_valid (W.placed i).N (W.placed i).panel _ _ ok.panel reach
    rw [show relativeCoord (W.placed i).N = relativeCoord ((W.placed i).order * (W.placed i).res) from rfl, hr] at e
    obtain rfl := Option.some.inj e
    unfold Panel.OnPanel at on
    simp only at on
    have hn : W.see (W.tile i).panel (a - W.halo + (W.tile i).eA * W.order) (b - W.halo + (W.tile i).eB * W.order) =
        some (r.panel, r.ix, r.jx) := by
      unfold World.see
      rw [hk]
      simp only
      rw [show a - W.halo + (W.tile i).eA * W.order = (W.placed i).eA * (W.placed i).order + (a - (W.placed i).halo) by
          simp only [World.placed]; ring,
        show b - W.halo + (W.tile i).eB * W.order = (W.placed i).eB * (W.placed i).order + (b - (W.placed i).halo) by
          simp only [World.placed]; ring,
        show relativeCoord (W.order * W.elemA) (W.tile i).panel =
          relativeCoord ((W.placed i).order * (W.placed i).res) (W.placed i).panel from rfl, hr]
      simp only
      rw [if_neg (by omega)]
    simp only
    rw [W.exchange_seen hW v i 0 k a b (by omega) (by omega) _ hn, W.exchange_seen hW v i 1 k a b (by omega) (by omega) _ hn]
    have hnode : (r.panel, r.ix, r.jx) ∈ W.nodes := by
      have ip2 := ip.2
      rw [W.mem_nodes, ← hW.square hk, hk, ← hN]
      refine ⟨⟨ip.1, ?_⟩, by omega, by omega⟩
      show r.panel < 6
      omega
    obtain ⟨i', hi'⟩ := W.contains_some hW _ _ _ hnode
    obtain ⟨a1, ⟨a2, a3⟩, a4, a5⟩ := (W.contains_iff hW i' _ _ _).mp hi'
    obtain ⟨s1, s2, -⟩ := hW.shape i'
    rw [add_mul] at a3 a5
    obtain ⟨iA, hA⟩ : ∃ iA : Nat, (iA : Int) = r.ix - (W.tile i').eA * W.order + W.halo :=
      ⟨(r.ix - (W.tile i').eA * W.order + W.halo).toNat, by omega⟩
    obtain ⟨iB, hB⟩ : ∃ iB : Nat, (iB : Int) = r.jx - (W.tile i').eB * W.order + W.halo :=
      ⟨(r.jx - (W.tile i').eB * W.order + W.halo).toNat, by omega⟩
    have hI : Horiz.Interior (W.tile i').M.G.S iA iB := by
      unfold Horiz.Interior
      rw [s1, s2]
      zify
      refine ⟨?_, ?_, ?_, ?_⟩ <;> linarith
    have hpl : (r.panel, r.ix, r.jx) = W.place i' iA iB := by
      unfold World.place
      rw [a1, hA, hB]
      simp
    have := hv i' iA iB hI
    rw [hpl, W.field_own hW v 0 k i' iA iB hI, W.field_own hW v 1 k i' iA iB hI, a1]
    have e1 : (W.at_ i' iA iB).2.1 = r.ix := by
      rw [W.at_place, ← hpl]
    have e2 : (W.at_ i' iA iB).2.2 = r.jx := by
      rw [W.at_place, ← hpl]
    rw [e1, e2] at this
    exact this

/-- The velocities of the state after averaging. -/
theorem World.velocity (m : Momenta) (x : Nat → ℝ) (L : Line W.order W.elemA x) (hturn : W.turn = W.haloTurn m x)
    (h2 : 2 ≤ W.components) (v : W.Field) (k : Nat) (hl : k < W.levels) (w : Node → Sphere.Vec3)
    (hv : W.Moves m x v k w) : W.Moves m x (W.dssState v) k (Halo.meanVector W.order W.elemA x w) := by
  intro i iA iB hI
  have ok := W.placed_ok hW hk i
  obtain ⟨s1, s2, -⟩ := hW.shape i
  obtain ⟨U, e, h⟩ := Halo.transform_spec ok L w _ (W.exchanged hW hk m x v k w hv i)
  have hh := ok.halo
  have key := Halo.average_components (m := m) ok L w (fun a b => U (a.toNat : Int) (b.toNat : Int)) (fun a b a0 a1 b0 b1 hs => by
    have ea : ((a.toNat : Int)) = a := by omega
    have eb : ((b.toNat : Int)) = b := by omega
    rw [ea, eb]
    exact h a b a0 a1 b0 b1 hs) iA iB (by
      unfold Horiz.Interior at hI
      rw [s1, s2] at hI
      unfold Placed.Own
      simp only [World.placed]
      refine ⟨?_, ?_, ?_, ?_⟩
      · exact_mod_cast hI.1
      · exact_mod_cast hI.2.1
      · exact_mod_cast hI.2.2.1
      · exact_mod_cast hI.2.2.2)
  have turned : ∀ a b : Int, W.turn i (W.exchange v i) 0 a.toNat b.toNat k = (U a.toNat b.toNat).1 ∧
      W.turn i (W.exchange v i) 1 a.toNat b.toNat k = (U a.toNat b.toNat).2 := by
    intro a b
    rw [hturn]
    unfold World.haloTurn
    simp only [e, Option.getD_some, if_true, one_ne_zero, if_false, and_self]
  have g1 : (W.placed i).ga iA = (W.at_ i iA iB).2.1 := by
    unfold Placed.ga Placed.beginA World.at_; simp only [World.placed]; ring
  have g2 : (W.placed i).gb iB = (W.at_ i iA iB).2.2 := by
    unfold Placed.gb Placed.beginB World.at_; simp only [World.placed]; ring
  have g3 : ((W.placed i).panel, (W.placed i).ga iA, (W.placed i).gb iB) = W.at_ i iA iB := by
    rw [g1, g2]; rfl
  rw [g3, g1, g2, ← W.patch_placed hW hk i] at key
  have r0 : W.dssState v i 0 iA iB k = (Halo.average (W.patch i) (fun a b => U (a.toNat : Int) (b.toNat : Int)) iA iB).1 := by
    unfold World.dssState World.averageAll World.average Halo.average
    simp only [hk]
    rw [if_pos ⟨by omega, hl⟩]
    simp only [fun a b => (turned a b).1]
  have r1 : W.dssState v i 1 iA iB k = (Halo.average (W.patch i) (fun a b => U (a.toNat : Int) (b.toNat : Int)) iA iB).2 := by
    unfold World.dssState World.averageAll World.average Halo.average
    simp only [hk]
    rw [if_pos ⟨by omega, hl⟩]
    simp only [fun a b => (turned a b).2]
  rw [r0, r1]
  exact key

end

end Verif.Whole
