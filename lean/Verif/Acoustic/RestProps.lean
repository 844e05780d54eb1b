import Verif.Acoustic.Conserve
import Verif.Acoustic.Implicit

/-!
# C122: air at rest in balance stays at rest
-/

namespace Verif.Acoustic

open Verif.Horiz

/-- The summation of two components takes nothing to nothing. -/
def KeepsNothing (G : Grid) : Prop :=
  ∀ φ : Nat → Nat → Nat → ℝ × ℝ,
    (∀ e i j, e < G.elements → i < G.order → j < G.order → φ e i j = (0, 0)) →
    ∀ e i j, e < G.elements → i < G.order → j < G.order → G.vec φ e i j = (0, 0)

/-- Nothing anywhere. -/
structure Quiet (G : Grid) (a : State) : Prop where
  u : ∀ e i j k, e < G.elements → i < G.order → j < G.order → k < G.levels → a.u e i j k = 0
  v : ∀ e i j k, e < G.elements → i < G.order → j < G.order → k < G.levels → a.v e i j k = 0
  p : ∀ e i j k, e < G.elements → i < G.order → j < G.order → k < G.levels → a.p e i j k = 0
  r : ∀ e i j k, e < G.elements → i < G.order → j < G.order → k < G.levels → a.r e i j k = 0
  w : ∀ e i j k, e < G.elements → i < G.order → j < G.order → 0 < k → k < G.levels → a.w e i j k = 0

section

variable (G : Grid)

theorem derA_zero (φ : Fld) (e i j k : Nat) (h : ∀ s, s < G.order → φ e s j k = 0) : derA G φ e i j k = 0 := by
  rw [derA_geo, derivA_sum, Finset.sum_eq_zero, zero_mul]
  intro s hs
  show φ e s j k * _ = 0
  rw [h s (Finset.mem_range.1 hs), zero_mul]

theorem derB_zero (φ : Fld) (e i j k : Nat) (h : ∀ s, s < G.order → φ e i s k = 0) : derB G φ e i j k = 0 := by
  rw [derB_geo, derivB_sum, Finset.sum_eq_zero, zero_mul]
  intro s hs
  show φ e i s k * _ = 0
  rw [h s (Finset.mem_range.1 hs), zero_mul]

theorem weakA_zero (φ : Fld) (e i j k : Nat) (h : ∀ s, s < G.order → φ e s j k = 0) : weakA G φ e i j k = 0 := by
  rw [weakA_geo, weakA_sum, Finset.sum_eq_zero, neg_zero, zero_mul]
  intro s hs
  show φ e s j k * _ = 0
  rw [h s (Finset.mem_range.1 hs), zero_mul]

theorem weakB_zero (φ : Fld) (e i j k : Nat) (h : ∀ s, s < G.order → φ e i s k = 0) : weakB G φ e i j k = 0 := by
  rw [weakB_geo, weakB_sum, Finset.sum_eq_zero, neg_zero, zero_mul]
  intro s hs
  show φ e i s k * _ = 0
  rw [h s (Finset.mem_range.1 hs), zero_mul]

theorem div_zero' (φ ψ : Fld) (e i j k : Nat) (hi : i < G.order) (hj : j < G.order)
    (hφ : ∀ i j, i < G.order → j < G.order → φ e i j k = 0) (hψ : ∀ i j, i < G.order → j < G.order → ψ e i j k = 0) :
    div G φ ψ e i j k = 0 := by
  unfold div
  rw [weakA_zero G φ e i j k (fun s hs => hφ s j hs hj), weakB_zero G ψ e i j k (fun s hs => hψ i s hi hs)]
  ring

theorem dz_zero (φ : Fld) (e i j k : Nat) (h : φ e i j k = 0) (h' : φ e i j (k + 1) = 0) : dz G φ e i j k = 0 := by
  unfold dz
  rw [h, h']
  ring

theorem dzEdge_zero (φ : Fld) (e i j k : Nat) (h : φ e i j k = 0) (h' : φ e i j (k - 1) = 0) :
    dzEdge G φ e i j k = 0 := by
  unfold dzEdge
  rw [h, h']
  ring

theorem dzNode_zero (hn : 2 ≤ G.levels) (φ : Fld) (e i j k : Nat) (hk : k < G.levels)
    (h : ∀ k, k < G.levels → φ e i j k = 0) : dzNode G φ e i j k = 0 := by
  unfold dzNode
  split
  · rw [h (k + 1) (by omega), h k hk]
    ring
  · split
    · rw [h k hk, h (k - 1) (by omega)]
      ring
    · rw [h (k + 1) (by omega), h (k - 1) (by omega)]
      ring

theorem conGrad_zero (hn : 2 ≤ G.levels) (φ : Fld) (e i j k : Nat) (hi : i < G.order) (hj : j < G.order)
    (hk : k < G.levels) (h : ∀ i j k, i < G.order → j < G.order → k < G.levels → φ e i j k = 0) :
    conGradA G φ e i j k = 0 ∧ conGradB G φ e i j k = 0 := by
  have a : gradA G φ e i j k = 0 := by
    unfold gradA
    rw [derA_zero G φ e i j k (fun s hs => h s j k hs hj hk),
      dzNode_zero G hn φ e i j k hk (fun k hk => h i j k hi hj hk)]
    ring
  have b : gradB G φ e i j k = 0 := by
    unfold gradB
    rw [derB_zero G φ e i j k (fun s hs => h i s k hi hs hk),
      dzNode_zero G hn φ e i j k hk (fun k hk => h i j k hi hj hk)]
    ring
  constructor
  · unfold conGradA
    rw [a, b]
    ring
  · unfold conGradB
    rw [a, b]
    ring

theorem solve_zero (solver : Solver) (hs : Exact G.levels solver) (τ : ℝ) (q θ rhs X : Fld)
    (h : solveAll G solver τ q θ rhs = some X) (e i j : Nat) (he : e < G.elements) (hi : i < G.order)
    (hj : j < G.order) (h0 : ∀ k, k ≤ G.levels → rhs e i j k = 0) (k : Nat) (hk : k ≤ G.levels) : X e i j k = 0 := by
  have := (hs _ _ _ _ _ (solveAll_eq G solver τ q θ rhs X h e i j he hi hj)).2 (fun _ => 0)
    ⟨by rw [h0 0 (Nat.zero_le _)]; ring, fun k hk hkn => by rw [h0 k (by omega)]; ring,
      by rw [h0 _ le_rfl]; ring⟩ k hk
  exact this.symm

variable {G}

theorem dss_quiet (hv : KeepsNothing G) (a : State) (h : Quiet G a) : Quiet G (dss G a) where
  u := fun e i j k he hi hj hk => by
    show (G.vec _ e i j).1 = 0
    rw [hv _ (fun e i j he hi hj => by rw [h.u e i j k he hi hj hk, h.v e i j k he hi hj hk]) e i j he hi hj]
  v := fun e i j k he hi hj hk => by
    show (G.vec _ e i j).2 = 0
    rw [hv _ (fun e i j he hi hj => by rw [h.u e i j k he hi hj hk, h.v e i j k he hi hj hk]) e i j he hi hj]
  p := fun e i j k _ _ _ hk => mean_zero G a.p e i j k (fun e i j he hi hj => h.p e i j k he hi hj hk)
  r := fun e i j k _ _ _ hk => mean_zero G a.r e i j k (fun e i j he hi hj => h.r e i j k he hi hj hk)
  w := fun e i j k _ _ _ hk hkn => mean_zero G a.w e i j k (fun e i j he hi hj => h.w e i j k he hi hj hk hkn)

theorem rest_tendencies (ω : Nat → ℝ) (hB : Paired G.order G.B ω) (s : State) (h : Rest G s) (e i j k : Nat)
    (hi : i < G.order) (hj : j < G.order) :
    tendU G s e i j k = 0 ∧ tendV G s e i j k = 0 ∧ tendR G s e i j k = 0 ∧ tendP G s e i j k = 0 ∧
      tendW G s e i j k = 0 ∧ carryW G s e i j k = 0 := by
  have flatP : derA G (pres G s) e i j k = 0 ∧ derB G (pres G s) e i j k = 0 := by
    constructor
    · exact derivA_const (geo G e) G.B ω hB (fun i j => pres G s e i j k) (pres G s e i j k) i j hi
        (fun s' _ => by show G.pressure _ = G.pressure _; rw [h.level e s' j i j k])
    · exact derivB_const (geo G e) G.B ω hB (fun i j => pres G s e i j k) (pres G s e i j k) i j hj
        (fun s' _ => by show G.pressure _ = G.pressure _; rw [h.level e i s' i j k])
  have cA : ∀ e i j k, conUa s e i j k = 0 := fun e i j k => by unfold conUa; rw [h.u, mul_zero]
  have cB : ∀ e i j k, conUb s e i j k = 0 := fun e i j k => by unfold conUb; rw [h.v, mul_zero]
  have vA : ∀ e i j k, covUa G s e i j k = 0 := fun e i j k => by unfold covUa; rw [cA, cB]; ring
  have vB : ∀ e i j k, covUb G s e i j k = 0 := fun e i j k => by unfold covUb; rw [cA, cB]; ring
  have ke : ∀ e i j k, kinetic G s e i j k = 0 := fun e i j k => by unfold kinetic; rw [vA, vB]; ring
  have uE : ∀ e i j k, uEdge s e i j k = 0 := fun e i j k => by unfold uEdge; rw [h.u, h.u]; ring
  have vE : ∀ e i j k, vEdge s e i j k = 0 := fun e i j k => by unfold vEdge; rw [h.v, h.v]; ring
  have sd : ∀ e i j k, sDot G s e i j k = 0 := fun e i j k => by
    unfold sDot inner
    rw [h.w, uE, vE]
    simp
  have sU : ∀ e i j k, sDotU G s e i j k = 0 := fun e i j k => by
    unfold sDotU inner; rw [sd]; simp
  have sV : ∀ e i j k, sDotV G s e i j k = 0 := fun e i j k => by
    unfold sDotV inner; rw [sd]; simp
  have sT : ∀ e i j k, sDotTheta G s e i j k = 0 := fun e i j k => by
    unfold sDotTheta inner; rw [sd]; simp
  have mA : ∀ e i j k, massA G s e i j k = 0 := fun e i j k => by unfold massA; rw [h.u, mul_zero]
  have mB : ∀ e i j k, massB G s e i j k = 0 := fun e i j k => by unfold massB; rw [h.v, mul_zero]
  have dm : div G (massA G s) (massB G s) e i j k = 0 :=
    div_zero' G _ _ e i j k hi hj (fun i j _ _ => mA e i j k) (fun i j _ _ => mB e i j k)
  have dh : div G (heatA G s) (heatB G s) e i j k = 0 :=
    div_zero' G _ _ e i j k hi hj (fun i j _ _ => by unfold heatA; rw [mA]; ring)
      (fun i j _ _ => by unfold heatB; rw [mB]; ring)
  have wA : ∀ e i j k, wFluxA G s e i j k = 0 := fun e i j k => by unfold wFluxA inner; rw [h.w]; simp
  have wB : ∀ e i j k, wFluxB G s e i j k = 0 := fun e i j k => by unfold wFluxB inner; rw [h.w]; simp
  have sW : ∀ e i j k, sDotW G s e i j k = 0 := fun e i j k => by
    unfold sDotW; rw [h.w, h.w, h.u, h.v]; ring
  have gA : gradA G (pres G s) e i j k = 0 := by unfold gradA; rw [flatP.1, h.flat]; ring
  have gB : gradB G (pres G s) e i j k = 0 := by unfold gradB; rw [flatP.2, h.flat]; ring
  have kA := derA_zero G (kinetic G s) e i j k (fun s' _ => ke e s' j k)
  have kB := derB_zero G (kinetic G s) e i j k (fun s' _ => ke e i s' k)
  have cw : carryW G s e i j k = 0 := by
    unfold carryW
    rw [weakA_zero G _ e i j k (fun s' _ => wA e s' j k), weakB_zero G _ e i j k (fun s' _ => wB e i s' k),
      dzEdge_zero G _ e i j k (sW _ _ _ _) (sW _ _ _ _)]
    ring
  refine ⟨?_, ?_, ?_, ?_, ?_, cw⟩
  · unfold tendU conGradA conDaKE turnA
    rw [gA, gB, kA, kB, vB, dm, cA, dz_zero G _ e i j k (sU _ _ _ _) (sU _ _ _ _)]
    ring
  · unfold tendV conGradB conDbKE turnB
    rw [gA, gB, kA, kB, vA, dm, cB, dz_zero G _ e i j k (sV _ _ _ _) (sV _ _ _ _)]
    ring
  · unfold tendR
    rw [dm, dz_zero G _ e i j k (sd _ _ _ _) (sd _ _ _ _)]
    ring
  · unfold tendP
    rw [dh, dz_zero G _ e i j k (sT _ _ _ _) (sT _ _ _ _)]
    ring
  · unfold tendW
    by_cases hk : 0 < k ∧ k < G.levels
    · rw [inner_of G k _ hk, cw]
      unfold dzEdge pres rhoEdge
      rw [h.weight e i j k hk.1 hk.2]
      have := h.apart e i j k hk.1 hk.2
      field_simp
      norm_num
    · exact if_neg hk

theorem rest_quiet (ω : Nat → ℝ) (hB : Paired G.order G.B ω) (hv : KeepsNothing G) (s old : State) (h : Rest G s) :
    Quiet G (tendencies G s old) := by
  refine dss_quiet hv _ ⟨?_, ?_, ?_, ?_, ?_⟩
  · exact fun e i j k _ hi hj _ => (rest_tendencies ω hB s h e i j k hi hj).1
  · exact fun e i j k _ hi hj _ => (rest_tendencies ω hB s h e i j k hi hj).2.1
  · exact fun e i j k _ hi hj _ => (rest_tendencies ω hB s h e i j k hi hj).2.2.2.1
  · exact fun e i j k _ hi hj _ => (rest_tendencies ω hB s h e i j k hi hj).2.2.1
  · intro e i j k _ hi hj hk hkn
    show (if 0 < k ∧ k < G.levels then _ else _) = _
    rw [if_pos ⟨hk, hkn⟩]
    exact (rest_tendencies ω hB s h e i j k hi hj).2.2.2.2.1

theorem firstLoop_quiet (hv : KeepsNothing G) (solver : Solver) (hs : Exact G.levels solver) (s T old a : State)
    (hT : Quiet G T) (dt : ℝ) (h : firstLoop G solver s T dt old = some a) :
    Quiet G a ∧ a.wNode = old.wNode := by
  unfold firstLoop at h
  obtain ⟨X, hX, rfl⟩ := Option.map_eq_some_iff.1 h
  have mass : ∀ e i j k, e < G.elements → i < G.order → j < G.order → k < G.levels →
      firstMass G T dt (fun e i j k => dt * T.u e i j k) (fun e i j k => dt * T.v e i j k) e i j k = 0 := by
    intro e i j k he hi hj hk
    unfold firstMass
    rw [div_zero' G _ _ e i j k hi hj (fun i j hi hj => by simp only [hT.u e i j k he hi hj hk]; simp)
      (fun i j hi hj => by simp only [hT.v e i j k he hi hj hk]; simp), hT.r e i j k he hi hj hk]
    simp
  have heat : ∀ e i j k, e < G.elements → i < G.order → j < G.order → k < G.levels →
      firstHeat G s T dt (fun e i j k => dt * T.u e i j k) (fun e i j k => dt * T.v e i j k) e i j k = 0 := by
    intro e i j k he hi hj hk
    unfold firstHeat
    rw [div_zero' G _ _ e i j k hi hj (fun i j hi hj => by simp only [hT.u e i j k he hi hj hk]; simp)
      (fun i j hi hj => by simp only [hT.v e i j k he hi hj hk]; simp), hT.p e i j k he hi hj hk]
    simp
  have zero : ∀ e i j k, e < G.elements → i < G.order → j < G.order → k ≤ G.levels → X e i j k = 0 := by
    intro e i j k he hi hj hk
    refine solve_zero G solver hs _ _ _ _ X hX e i j he hi hj (fun k _ => ?_) k hk
    unfold firstRhs
    by_cases hk : 0 < k ∧ k < G.levels
    · rw [inner_of G k _ hk, hT.w e i j k he hi hj hk.1 hk.2, mass e i j k he hi hj hk.2,
        mass e i j (k - 1) he hi hj (by omega),
        dzEdge_zero G _ e i j k (heat e i j k he hi hj hk.2) (heat e i j (k - 1) he hi hj (by omega))]
      simp
    · exact if_neg hk
  refine ⟨dss_quiet hv _ ⟨?_, ?_, ?_, ?_, ?_⟩, rfl⟩
  · intro e i j k he hi hj hk
    show dt * T.u e i j k = 0
    rw [hT.u e i j k he hi hj hk, mul_zero]
  · intro e i j k he hi hj hk
    show dt * T.v e i j k = 0
    rw [hT.v e i j k he hi hj hk, mul_zero]
  · intro e i j k he hi hj hk
    show firstHeat G s T dt _ _ e i j k + _ = 0
    rw [heat e i j k he hi hj hk, dz_zero G (fun e i j k => X e i j k * thetaEdge G s e i j k) e i j k
      (by rw [zero e i j k he hi hj (by omega), zero_mul]) (by rw [zero e i j (k + 1) he hi hj (by omega), zero_mul])]
    simp
  · intro e i j k he hi hj hk
    show firstMass G T dt _ _ e i j k + _ = 0
    rw [mass e i j k he hi hj hk, dz_zero G X e i j k (zero e i j k he hi hj (by omega))
      (zero e i j (k + 1) he hi hj (by omega))]
    simp
  · intro e i j k he hi hj hk hkn
    show newW G old X e i j k = 0
    unfold newW
    rw [if_neg (by omega), if_pos hkn]
    exact zero e i j k he hi hj (by omega)

theorem nextLoop_quiet (hn : 2 ≤ G.levels) (hv : KeepsNothing G) (solver : Solver) (hs : Exact G.levels solver)
    (s T a0 a1 old a : State) (hT : Quiet G T) (h0 : Quiet G a0) (h1 : Quiet G a1)
    (hw : ∀ e i j k, a1.wNode e i j k = 0) (dt : ℝ) (h : nextLoop G solver s T dt a0 a1 old = some a) :
    Quiet G a ∧ a.wNode = old.wNode := by
  unfold nextLoop at h
  obtain ⟨X, hX, rfl⟩ := Option.map_eq_some_iff.1 h
  have sound : ∀ e i j k, e < G.elements → i < G.order → j < G.order → k < G.levels →
      soundPressure G s a0 a1 e i j k = 0 := by
    intro e i j k he hi hj hk
    unfold soundPressure
    rw [h1.p e i j k he hi hj hk, h0.p e i j k he hi hj hk]
    simp
  have grad : ∀ e i j k, e < G.elements → i < G.order → j < G.order → k < G.levels →
      conGradA G (soundPressure G s a0 a1) e i j k = 0 ∧ conGradB G (soundPressure G s a0 a1) e i j k = 0 :=
    fun e i j k he hi hj hk => conGrad_zero G hn _ e i j k hi hj hk (fun i j k hi hj hk => sound e i j k he hi hj hk)
  have hu : ∀ e i j k, e < G.elements → i < G.order → j < G.order → k < G.levels →
      a1.u e i j k - dt * conGradA G (soundPressure G s a0 a1) e i j k + dt * T.u e i j k = 0 := by
    intro e i j k he hi hj hk
    rw [h1.u e i j k he hi hj hk, (grad e i j k he hi hj hk).1, hT.u e i j k he hi hj hk]
    simp
  have hvv : ∀ e i j k, e < G.elements → i < G.order → j < G.order → k < G.levels →
      a1.v e i j k - dt * conGradB G (soundPressure G s a0 a1) e i j k + dt * T.v e i j k = 0 := by
    intro e i j k he hi hj hk
    rw [h1.v e i j k he hi hj hk, (grad e i j k he hi hj hk).2, hT.v e i j k he hi hj hk]
    simp
  have f1 : ∀ e i j k, e < G.elements → i < G.order → j < G.order → zFlux1 G a1 e i j k = 0 := by
    intro e i j k he hi hj
    unfold zFlux1
    by_cases hk : 0 < k ∧ k < G.levels
    · rw [inner_of G k _ hk, hw, h1.u e i j k he hi hj hk.2, h1.u e i j (k - 1) he hi hj (by omega),
        h1.v e i j k he hi hj hk.2, h1.v e i j (k - 1) he hi hj (by omega)]
      simp
    · exact if_neg hk
  have f2 : ∀ e i j k, e < G.elements → i < G.order → j < G.order → zFlux2 G a1 e i j k = 0 := by
    intro e i j k he hi hj
    unfold zFlux2
    by_cases hk : 0 < k ∧ k < G.levels
    · rw [inner_of G k _ hk, h1.u e i j k he hi hj hk.2, h1.u e i j (k - 1) he hi hj (by omega),
        h1.v e i j k he hi hj hk.2, h1.v e i j (k - 1) he hi hj (by omega)]
      simp
    · exact if_neg hk
  set U : Fld := fun e i j k => a1.u e i j k - dt * conGradA G (soundPressure G s a0 a1) e i j k + dt * T.u e i j k
    with hU
  set V : Fld := fun e i j k => a1.v e i j k - dt * conGradB G (soundPressure G s a0 a1) e i j k + dt * T.v e i j k
    with hV
  have hu' : ∀ e i j k, e < G.elements → i < G.order → j < G.order → k < G.levels → U e i j k = 0 := hu
  have hv' : ∀ e i j k, e < G.elements → i < G.order → j < G.order → k < G.levels → V e i j k = 0 := hvv
  have mass : ∀ e i j k, e < G.elements → i < G.order → j < G.order → k < G.levels →
      nextMass G T dt a1 U V e i j k = 0 := by
    intro e i j k he hi hj hk
    unfold nextMass
    rw [div_zero' G _ _ e i j k hi hj (fun i j hi hj => by rw [hu' e i j k he hi hj hk]; simp)
      (fun i j hi hj => by rw [hv' e i j k he hi hj hk]; simp), hT.r e i j k he hi hj hk,
      dz_zero G _ e i j k (f1 e i j k he hi hj) (f1 e i j (k + 1) he hi hj),
      dz_zero G _ e i j k (f2 e i j k he hi hj) (f2 e i j (k + 1) he hi hj)]
    simp
  have heat : ∀ e i j k, e < G.elements → i < G.order → j < G.order → k < G.levels →
      nextHeat G s T dt a1 U V e i j k = 0 := by
    intro e i j k he hi hj hk
    unfold nextHeat
    rw [div_zero' G _ _ e i j k hi hj (fun i j hi hj => by rw [hu' e i j k he hi hj hk]; simp)
      (fun i j hi hj => by rw [hv' e i j k he hi hj hk]; simp), hT.p e i j k he hi hj hk,
      dz_zero G (fun e i j k => zFlux1 G a1 e i j k * thetaEdge G s e i j k) e i j k
        (by rw [f1 e i j k he hi hj, zero_mul]) (by rw [f1 e i j (k + 1) he hi hj, zero_mul]),
      dz_zero G (fun e i j k => zFlux2 G a1 e i j k * thetaEdge G s e i j k) e i j k
        (by rw [f2 e i j k he hi hj, zero_mul]) (by rw [f2 e i j (k + 1) he hi hj, zero_mul])]
    simp
  have zero : ∀ e i j k, e < G.elements → i < G.order → j < G.order → k ≤ G.levels → X e i j k = 0 := by
    intro e i j k he hi hj hk
    refine solve_zero G solver hs _ _ _ _ X hX e i j he hi hj (fun k _ => ?_) k hk
    unfold nextRhs
    by_cases hk : 0 < k ∧ k < G.levels
    · rw [inner_of G k _ hk, hT.w e i j k he hi hj hk.1 hk.2, mass e i j k he hi hj hk.2,
        mass e i j (k - 1) he hi hj (by omega), hw, h1.r e i j k he hi hj hk.2, h1.r e i j (k - 1) he hi hj (by omega),
        dzEdge_zero G _ e i j k (heat e i j k he hi hj hk.2) (heat e i j (k - 1) he hi hj (by omega)),
        dzEdge_zero G (fun e i j k => stiffness G s e i j k * a1.p e i j k) e i j k
          (by rw [h1.p e i j k he hi hj hk.2, mul_zero]) (by rw [h1.p e i j (k - 1) he hi hj (by omega), mul_zero])]
      simp
    · exact if_neg hk
  refine ⟨dss_quiet hv _ ⟨hu', hv', ?_, ?_, ?_⟩, rfl⟩
  · intro e i j k he hi hj hk
    show a1.p e i j k + nextHeat G s T dt a1 U V e i j k + _ = 0
    rw [heat e i j k he hi hj hk, h1.p e i j k he hi hj hk,
      dz_zero G (fun e i j k => X e i j k * thetaEdge G s e i j k) e i j k
      (by rw [zero e i j k he hi hj (by omega), zero_mul]) (by rw [zero e i j (k + 1) he hi hj (by omega), zero_mul])]
    simp
  · intro e i j k he hi hj hk
    show a1.r e i j k + nextMass G T dt a1 U V e i j k + _ = 0
    rw [mass e i j k he hi hj hk, h1.r e i j k he hi hj hk, dz_zero G X e i j k (zero e i j k he hi hj (by omega))
      (zero e i j (k + 1) he hi hj (by omega))]
    simp
  · intro e i j k he hi hj hk hkn
    show newW G old X e i j k = 0
    unfold newW
    rw [if_neg (by omega), if_pos hkn]
    exact zero e i j k he hi hj (by omega)

end

theorem zero_quiet (G : Grid) (s : State) : Quiet G (zero s) :=
  ⟨fun _ _ _ _ _ _ _ _ => rfl, fun _ _ _ _ _ _ _ _ => rfl, fun _ _ _ _ _ _ _ _ => rfl, fun _ _ _ _ _ _ _ _ => rfl,
    fun _ _ _ _ _ _ _ _ _ => rfl⟩

/-- A split-explicit step from air at rest in balance over flat ground changes nothing in the updated instance. -/
theorem C122_split (G : Grid) (hn : 2 ≤ G.levels) (ω : Nat → ℝ) (hB : Paired G.order G.B ω) (hv : KeepsNothing G)
    (solver : Solver) (hs : Exact G.levels solver) (nh lo : Bool) (base iI iU : Nat) (hI : iI < base) (hU : iU < base)
    (dt : ℝ) (st st' : Store) (hr : Rest G (st iI)) (hst : stepExplicit G solver nh lo base iI iU dt st = some st')
    (e i j k : Nat) (he : e < G.elements) (hi : i < G.order) (hj : j < G.order) (hk : k < G.levels) :
    (st' iU).u e i j k = (st iU).u e i j k ∧ (st' iU).v e i j k = (st iU).v e i j k ∧
      (st' iU).p e i j k = (st iU).p e i j k ∧ (st' iU).r e i j k = (st iU).r e i j k ∧
      (0 < k → (st' iU).w e i j k = (st iU).w e i j k) := by
  obtain ⟨_, _, _, a, b, c, ha, hb, hc, hU', _⟩ := stepExplicit_parts G solver nh lo base iI iU dt st st' hI hU hst
  have T := rest_quiet ω hB hv (st iI) (st base) hr
  have A := firstLoop_quiet hv solver hs _ _ _ _ T _ ha
  have B := nextLoop_quiet hn hv solver hs _ _ _ _ _ _ T (zero_quiet G _) A.1 (fun e i j k => by rw [A.2]; rfl) _ hb
  have C := nextLoop_quiet hn hv solver hs _ _ _ _ _ _ T A.1 B.1 (fun e i j k => by rw [B.2]; rfl) _ hc
  rw [hU']
  refine ⟨?_, ?_, ?_, ?_, ?_⟩
  · show (st iU).u e i j k + c.u e i j k = _
    rw [C.1.u e i j k he hi hj hk, add_zero]
  · show (st iU).v e i j k + c.v e i j k = _
    rw [C.1.v e i j k he hi hj hk, add_zero]
  · show (st iU).p e i j k + c.p e i j k = _
    rw [C.1.p e i j k he hi hj hk, add_zero]
  · show (st iU).r e i j k + c.r e i j k = _
    rw [C.1.r e i j k he hi hj hk, add_zero]
  · intro h0
    show (if k < G.levels then (st iU).w e i j k + c.w e i j k else (st iU).w e i j k) = _
    rw [if_pos hk, C.1.w e i j k he hi hj h0 hk, add_zero]

/-- The explicit part of the high-speed dynamics with an argument at rest in balance gives the combination of the
instances and nothing else. -/
theorem C122_explicit (G : Grid) (ω : Nat → ℝ) (hB : Paired G.order G.B ω) (coeff : List ℝ) (inst : List Nat)
    (iA iU : Nat) (dt : ℝ) (st st' : Store) (hr : Rest G (st iA))
    (hst : explicitCombine G coeff inst iA iU dt st = some st') (e i j k : Nat) (hi : i < G.order) (hj : j < G.order)
    (hk : k < G.levels) :
    (st' iU).u e i j k = mixed coeff inst st State.u e i j k ∧ (st' iU).v e i j k = mixed coeff inst st State.v e i j k ∧
      (st' iU).p e i j k = mixed coeff inst st State.p e i j k ∧
      (st' iU).r e i j k = mixed coeff inst st State.r e i j k ∧
      (st' iU).w e i j k = mixed coeff inst st State.w e i j k := by
  unfold explicitCombine at hst
  by_cases hc : combinable coeff inst iU = true
  swap
  · rw [if_pos (by simpa using hc)] at hst
    exact absurd hst (by simp)
  rw [if_neg (by simp [hc])] at hst
  have : st' iU = _ := congrFun (Option.some.inj hst).symm iU
  rw [this, putSlot_same]
  have cs : ∀ part : State → Fld, ∀ e i j k, combine coeff inst st part e i j k = mixed coeff inst st part e i j k :=
    fun part e i j k => combine_sum coeff inst iU hc st part e i j k
  obtain ⟨tu, tv, tr, tp, _, tw⟩ := rest_tendencies ω hB (st iA) hr e i j k hi hj
  have dm : div G (massA G (st iA)) (massB G (st iA)) e i j k = 0 :=
    div_zero' G _ _ e i j k hi hj (fun i j _ _ => by unfold massA; rw [hr.u, mul_zero])
      (fun i j _ _ => by unfold massB; rw [hr.v, mul_zero])
  have dh : div G (heatA G (st iA)) (heatB G (st iA)) e i j k = 0 :=
    div_zero' G _ _ e i j k hi hj (fun i j _ _ => by unfold heatA massA; rw [hr.u]; ring)
      (fun i j _ _ => by unfold heatB massB; rw [hr.v]; ring)
  refine ⟨?_, ?_, ?_, ?_, ?_⟩
  · show combine coeff inst st State.u e i j k + dt * tendU G (st iA) e i j k = _
    rw [cs, tu, mul_zero, add_zero]
  · show combine coeff inst st State.v e i j k + dt * tendV G (st iA) e i j k = _
    rw [cs, tv, mul_zero, add_zero]
  · show combine coeff inst st State.p e i j k + -dt * div G _ _ e i j k = _
    rw [cs, dh, mul_zero, add_zero]
  · show combine coeff inst st State.r e i j k + -dt * div G _ _ e i j k = _
    rw [cs, dm, mul_zero, add_zero]
  · show (if k < G.levels then combine coeff inst st State.w e i j k + inner G k (-dt * carryW G (st iA) e i j k)
      else _) = _
    rw [if_pos hk, cs, tw, mul_zero]
    unfold inner
    simp

/-- The implicit part with an argument at rest in balance gives the combination of the instances and nothing else. -/
theorem C122_implicit (G : Grid) (hz : Heights G) (solver : Solver) (hs : Exact G.levels solver) (coeff : List ℝ)
    (inst : List Nat) (iA iU : Nat) (dt : ℝ) (st st' : Store) (hA : Continuous G (st iA))
    (hI : ∀ m, m ∈ inst → Continuous G (st m)) (hr : Rest G (st iA))
    (hst : implicitCombine G solver coeff inst iA iU dt st = some st') (e i j k : Nat) (he : e < G.elements)
    (hi : i < G.order) (hj : j < G.order) (hk : k < G.levels) :
    (st' iU).p e i j k = mixed coeff inst st State.p e i j k ∧ (st' iU).r e i j k = mixed coeff inst st State.r e i j k ∧
      (0 < k → (st' iU).w e i j k = mixed coeff inst st State.w e i j k) := by
  obtain ⟨X, hX, hcol⟩ := implicit_column G hz solver coeff inst iA iU dt st st' hA hI hst
  have zero : ∀ k, k ≤ G.levels → X e i j k = 0 := by
    refine fun k hk => solve_zero G solver hs _ _ _ _ X hX e i j he hi hj (fun k _ => ?_) k hk
    unfold implicitRhs
    by_cases hk : 0 < k ∧ k < G.levels
    · rw [inner_of G k _ hk, hr.w]
      unfold dzEdge pres rhoEdge
      rw [hr.weight e i j k hk.1 hk.2]
      have := hr.apart e i j k hk.1 hk.2
      field_simp
      norm_num
    · exact if_neg hk
  obtain ⟨hr', hp', _, hw'⟩ := hcol e i j k he hi hj
  refine ⟨?_, ?_, ?_⟩
  · rw [hp', dz_zero G (fun e i j k => X e i j k * thetaEdge G (st iA) e i j k) e i j k
      (by rw [zero k (by omega), zero_mul]) (by rw [zero (k + 1) (by omega), zero_mul])]
    ring
  · rw [hr', dz_zero G X e i j k (zero k (by omega)) (zero (k + 1) (by omega))]
    ring
  · intro h0
    rw [hw' h0 hk, zero k (by omega), hr.w]
    ring

end Verif.Acoustic
