import Verif.Acoustic.Column
import Verif.Acoustic.Reverse
import Mathlib.Analysis.SpecialFunctions.Pow.Real

/-!
# C121, C123, C124, C125: what the dynamics do not do
-/

namespace Verif.Acoustic

open Verif.Horiz

/-- Density, density times potential temperature and one tracer the same everywhere; vertical motion as given. -/
def rising (w : Nat → ℝ) : State where
  u := fun _ _ _ _ => 0
  v := fun _ _ _ _ => 0
  p := fun _ _ _ _ => 1
  r := fun _ _ _ _ => 1
  w := fun _ _ _ k => w k
  wNode := fun _ _ _ _ => 0
  pEdge := fun _ _ _ _ => 0
  t := fun _ _ _ _ _ => 2

theorem rising_theta (n : Nat) (g gamma : ℝ) (pressure : ℝ → ℝ) (w : Nat → ℝ) (hn : 1 < n) (e i j : Nat) :
    thetaEdge (column n g gamma pressure) (rising w) e i j 1 = 1 := by
  unfold thetaEdge
  rw [if_pos ⟨one_pos, hn⟩]
  simp only [rhoEdge, rising]
  norm_num

theorem rising_diag (g gamma τ : ℝ) (pressure : ℝ → ℝ) (w : Nat → ℝ) (e i j : Nat) :
    diag (column 2 g gamma pressure) τ (stiffness (column 2 g gamma pressure) (rising w))
      (thetaEdge (column 2 g gamma pressure) (rising w)) e i j 1 = 1 + τ * τ * (2 * (pressure 1 * gamma)) := by
  unfold diag
  rw [rising_theta _ _ _ _ _ (by omega), if_pos ⟨one_pos, by show 1 < 2; omega⟩]
  simp only [stiffness, pres, rising, column]
  push_cast
  ring

theorem rising_stiffness (g gamma : ℝ) (pressure : ℝ → ℝ) (w : Nat → ℝ) (e i j k : Nat) :
    stiffness (column 2 g gamma pressure) (rising w) e i j k = pressure 1 * gamma := by
  simp [stiffness, pres, rising, column]

theorem scale (δ y : ℝ) : δ * (-0.5 * (1.0 + bs) * y) = -(timeScale δ * y) := by
  unfold timeScale
  rw [show (0.5 : ℝ) = 1 / 2 by norm_num, show (1.0 : ℝ) = 1 by norm_num]
  ring

section

variable (g gamma : ℝ) (pressure : ℝ → ℝ) (w : Nat → ℝ) (δ : ℝ)
  (hD : 1 + timeScale δ * timeScale δ * (2 * (pressure 1 * gamma)) ≠ 0)

/-- What the equation of a column comes to in the first substep. -/
noncomputable def firstX (T : State) : ℝ :=
  (δ * T.w 0 0 0 1 - timeScale δ * (δ * T.p 0 0 0 1 - δ * T.p 0 0 0 0 + 0.5 * g * (δ * T.r 0 0 0 1 + δ * T.r 0 0 0 0))) /
    (1 + timeScale δ * timeScale δ * (2 * (pressure 1 * gamma)))

include hD in
theorem column_first (T old : State) : ∃ a, firstLoop (column 2 g gamma pressure) (ideal 2) (rising w) T δ old = some a ∧
    a.wNode = old.wNode ∧ a.w 0 0 0 1 = firstX g gamma pressure δ T ∧
    a.p 0 0 0 0 = δ * T.p 0 0 0 0 - timeScale δ * firstX g gamma pressure δ T ∧
    a.p 0 0 0 1 = δ * T.p 0 0 0 1 + timeScale δ * firstX g gamma pressure δ T ∧
    a.r 0 0 0 0 = δ * T.r 0 0 0 0 - timeScale δ * firstX g gamma pressure δ T ∧
    a.r 0 0 0 1 = δ * T.r 0 0 0 1 + timeScale δ * firstX g gamma pressure δ T := by
  set G := column 2 g gamma pressure with hG
  obtain ⟨X, hX, hX'⟩ := solve_two G rfl (timeScale δ) (stiffness G (rising w)) (thetaEdge G (rising w))
    (firstRhs G T δ (firstMass G T δ (fun e i j k => δ * T.u e i j k) (fun e i j k => δ * T.v e i j k))
      (firstHeat G (rising w) T δ (fun e i j k => δ * T.u e i j k) (fun e i j k => δ * T.v e i j k)))
    (fun e i j _ _ _ => by rw [hG, rising_diag]; exact hD)
    (fun _ _ _ => by unfold firstRhs inner; exact if_neg (by omega))
    (fun _ _ _ => by unfold firstRhs inner; exact if_neg (fun h => absurd h.2 (by show ¬2 < 2; omega)))
  obtain ⟨x0, x1, x2⟩ := hX' 0 0 0 (by show 0 < 1; omega) (by show 0 < 1; omega) (by show 0 < 1; omega)
  have mass : ∀ k, firstMass G T δ (fun e i j k => δ * T.u e i j k) (fun e i j k => δ * T.v e i j k) 0 0 0 k =
      δ * T.r 0 0 0 k := by
    intro k
    unfold firstMass
    rw [hG, column_div, neg_zero, zero_add]
  have heat : ∀ k, firstHeat G (rising w) T δ (fun e i j k => δ * T.u e i j k) (fun e i j k => δ * T.v e i j k) 0 0 0 k =
      δ * T.p 0 0 0 k := by
    intro k
    unfold firstHeat
    rw [hG, column_div, neg_zero, zero_add]
  have hx : X 0 0 0 1 = firstX g gamma pressure δ T := by
    rw [x1, hG, rising_diag]
    unfold firstRhs firstX
    rw [inner_of _ _ _ ⟨one_pos, by show 1 < 2; omega⟩, column_dzEdge, ← hG, heat, heat, mass, mass]
    rfl
  have θ : thetaEdge G (rising w) 0 0 0 1 = 1 := rising_theta _ _ _ _ _ (by omega) _ _ _
  have run : firstLoop G (ideal 2) (rising w) T δ old = some (dss G
    { old with
      u := fun e i j k => δ * T.u e i j k
      v := fun e i j k => δ * T.v e i j k
      r := fun e i j k => firstMass G T δ (fun e i j k => δ * T.u e i j k) (fun e i j k => δ * T.v e i j k) e i j k +
        δ * (-0.5 * (1.0 + bs) * dz G X e i j k)
      p := fun e i j k =>
        firstHeat G (rising w) T δ (fun e i j k => δ * T.u e i j k) (fun e i j k => δ * T.v e i j k) e i j k +
        δ * (-0.5 * (1.0 + bs) * dz G (fun e i j k => X e i j k * thetaEdge G (rising w) e i j k) e i j k)
      w := newW G old X }) := by
    unfold firstLoop
    simp only [hX, Option.map_some]
  refine ⟨_, run, rfl, ?_, ?_, ?_, ?_, ?_⟩
  · show mean G _ 0 0 0 1 = _
    rw [hG, column_mean]
    dsimp only
    unfold newW
    rw [if_neg (by omega), if_pos (by show 1 < 2; omega), hx]
  · show mean G _ 0 0 0 0 = _
    rw [hG, column_mean]
    dsimp only
    rw [column_dz, ← hG, heat]
    simp only [Nat.zero_add]
    rw [θ, x0, hx]
    rw [scale]
    ring
  · show mean G _ 0 0 0 1 = _
    rw [hG, column_mean]
    dsimp only
    rw [column_dz, ← hG, heat]
    simp only [Nat.reduceAdd]
    rw [θ, x2, hx]
    rw [scale]
    ring
  · show mean G _ 0 0 0 0 = _
    rw [hG, column_mean]
    dsimp only
    rw [column_dz, ← hG, mass]
    simp only [Nat.zero_add]
    rw [x0, hx]
    rw [scale]
    ring
  · show mean G _ 0 0 0 1 = _
    rw [hG, column_mean]
    dsimp only
    rw [column_dz, ← hG, mass]
    simp only [Nat.reduceAdd]
    rw [x2, hx]
    rw [scale]
    ring

/-- What the equation of a column comes to in a later substep. -/
noncomputable def nextX (T a1 : State) : ℝ :=
  (a1.wNode 0 0 0 1 - δ * (pressure 1 * gamma * (a1.p 0 0 0 1 - a1.p 0 0 0 0) + 0.5 * g * (a1.r 0 0 0 1 + a1.r 0 0 0 0)
      - T.w 0 0 0 1)
    - timeScale δ * (δ * T.p 0 0 0 1 - δ * T.p 0 0 0 0 + 0.5 * g * (δ * T.r 0 0 0 1 + δ * T.r 0 0 0 0))) /
    (1 + timeScale δ * timeScale δ * (2 * (pressure 1 * gamma)))

include hD in
theorem column_next (T a0 a1 old : State) (hw : ∀ k, a1.wNode 0 0 0 k = 0) :
    ∃ a, nextLoop (column 2 g gamma pressure) (ideal 2) (rising w) T δ a0 a1 old = some a ∧
    a.wNode = old.wNode ∧ a.w 0 0 0 1 = nextX g gamma pressure δ T a1 ∧
    a.p 0 0 0 0 = a1.p 0 0 0 0 + δ * T.p 0 0 0 0 - timeScale δ * nextX g gamma pressure δ T a1 ∧
    a.p 0 0 0 1 = a1.p 0 0 0 1 + δ * T.p 0 0 0 1 + timeScale δ * nextX g gamma pressure δ T a1 ∧
    a.r 0 0 0 0 = a1.r 0 0 0 0 + δ * T.r 0 0 0 0 - timeScale δ * nextX g gamma pressure δ T a1 ∧
    a.r 0 0 0 1 = a1.r 0 0 0 1 + δ * T.r 0 0 0 1 + timeScale δ * nextX g gamma pressure δ T a1 := by
  set G := column 2 g gamma pressure with hG
  set U : Fld := fun e i j k => a1.u e i j k - δ * conGradA G (soundPressure G (rising w) a0 a1) e i j k + δ * T.u e i j k
  set V : Fld := fun e i j k => a1.v e i j k - δ * conGradB G (soundPressure G (rising w) a0 a1) e i j k + δ * T.v e i j k
  obtain ⟨X, hX, hX'⟩ := solve_two G rfl (timeScale δ) (stiffness G (rising w)) (thetaEdge G (rising w))
    (nextRhs G (rising w) T δ a1 (nextMass G T δ a1 U V) (nextHeat G (rising w) T δ a1 U V))
    (fun e i j _ _ _ => by rw [hG, rising_diag]; exact hD)
    (fun _ _ _ => by unfold nextRhs inner; exact if_neg (by omega))
    (fun _ _ _ => by unfold nextRhs inner; exact if_neg (fun h => absurd h.2 (by show ¬2 < 2; omega)))
  obtain ⟨x0, x1, x2⟩ := hX' 0 0 0 (by show 0 < 1; omega) (by show 0 < 1; omega) (by show 0 < 1; omega)
  have z1 : ∀ k, zFlux1 G a1 0 0 0 k = 0 := by
    intro k
    unfold zFlux1
    rw [hw]
    simp [hG, column, inner]
  have z2 : ∀ k, zFlux2 G a1 0 0 0 k = 0 := by
    intro k
    unfold zFlux2
    simp [hG, column, inner]
  have mass : ∀ k, nextMass G T δ a1 U V 0 0 0 k = δ * T.r 0 0 0 k := by
    intro k
    unfold nextMass
    rw [hG, column_div, column_dz, column_dz, ← hG, z1, z1, z2, z2]
    simp only [sub_self, mul_zero, add_zero, zero_sub, neg_mul_neg]
  have heat : ∀ k, nextHeat G (rising w) T δ a1 U V 0 0 0 k = δ * T.p 0 0 0 k := by
    intro k
    unfold nextHeat
    rw [hG, column_div, column_dz, column_dz, ← hG, z1, z1, z2, z2]
    simp only [zero_mul, sub_self, mul_zero, add_zero, zero_sub, neg_mul_neg]
  have hx : X 0 0 0 1 = nextX g gamma pressure δ T a1 := by
    rw [x1, hG, rising_diag]
    unfold nextRhs nextX
    rw [inner_of _ _ _ ⟨one_pos, by show 1 < 2; omega⟩, column_dzEdge, column_dzEdge, ← hG, heat, heat, mass, mass]
    simp only [hG, rising_stiffness]
    show (_ - δ * (_ + 0.5 * g * _ - _) - timeScale δ * (_ + 0.5 * g * _)) / _ = _
    congr 1
    simp only [Nat.sub_self]
    ring
  have θ : thetaEdge G (rising w) 0 0 0 1 = 1 := rising_theta _ _ _ _ _ (by omega) _ _ _
  have run : nextLoop G (ideal 2) (rising w) T δ a0 a1 old = some (dss G
    { old with
      u := U
      v := V
      r := fun e i j k => a1.r e i j k + nextMass G T δ a1 U V e i j k + δ * (-0.5 * (1.0 + bs) * dz G X e i j k)
      p := fun e i j k => a1.p e i j k + nextHeat G (rising w) T δ a1 U V e i j k +
        δ * (-0.5 * (1.0 + bs) * dz G (fun e i j k => X e i j k * thetaEdge G (rising w) e i j k) e i j k)
      w := newW G old X }) := by
    unfold nextLoop
    show Option.map _ (solveAll G (ideal 2) (timeScale δ) (stiffness G (rising w)) (thetaEdge G (rising w))
      (nextRhs G (rising w) T δ a1 (nextMass G T δ a1 U V) (nextHeat G (rising w) T δ a1 U V))) = _
    rw [hX]
    rfl
  refine ⟨_, run, rfl, ?_, ?_, ?_, ?_, ?_⟩
  · show mean G _ 0 0 0 1 = _
    rw [hG, column_mean]
    dsimp only
    unfold newW
    rw [if_neg (by omega), if_pos (by show 1 < 2; omega), hx]
  · show mean G _ 0 0 0 0 = _
    rw [hG, column_mean]
    dsimp only
    rw [column_dz, ← hG, heat]
    simp only [Nat.zero_add]
    rw [θ, x0, hx]
    rw [scale]
    ring
  · show mean G _ 0 0 0 1 = _
    rw [hG, column_mean]
    dsimp only
    rw [column_dz, ← hG, heat]
    simp only [Nat.reduceAdd]
    rw [θ, x2, hx]
    rw [scale]
    ring
  · show mean G _ 0 0 0 0 = _
    rw [hG, column_mean]
    dsimp only
    rw [column_dz, ← hG, mass]
    simp only [Nat.zero_add]
    rw [x0, hx]
    rw [scale]
    ring
  · show mean G _ 0 0 0 1 = _
    rw [hG, column_mean]
    dsimp only
    rw [column_dz, ← hG, mass]
    simp only [Nat.reduceAdd]
    rw [x2, hx]
    rw [scale]
    ring

end

/-- The tendencies of a column whose only motion is on the interface between the two levels. -/
theorem column_tendencies (g gamma : ℝ) (pressure : ℝ → ℝ) (w : ℝ) (old : State) :
    let T := tendencies (column 2 g gamma pressure) (rising (fun k => if k = 1 then w else 0)) old
    T.r 0 0 0 0 = -w ∧ T.r 0 0 0 1 = w ∧ T.p 0 0 0 0 = -w ∧ T.p 0 0 0 1 = w ∧ T.w 0 0 0 1 = -g := by
  set G := column 2 g gamma pressure with hG
  set s := rising (fun k => if k = 1 then w else 0) with hs
  have θ : thetaEdge G s 0 0 0 1 = 1 := rising_theta _ _ _ _ _ (by omega) _ _ _
  refine ⟨?_, ?_, ?_, ?_, ?_⟩
  · show mean G (tendR G s) 0 0 0 0 = -w
    rw [hG, column_mean]
    unfold tendR
    rw [column_div, column_dz]
    simp [sDot, inner, column, hs, rising, uEdge, vEdge]
  · show mean G (tendR G s) 0 0 0 1 = w
    rw [hG, column_mean]
    unfold tendR
    rw [column_div, column_dz]
    simp [sDot, inner, column, hs, rising, uEdge, vEdge]
  · show mean G (tendP G s) 0 0 0 0 = -w
    rw [hG, column_mean]
    unfold tendP
    rw [column_div, column_dz]
    unfold sDotTheta
    rw [show (0 : Nat) + 1 = 1 from rfl, ← hG, θ]
    simp [sDot, inner, hG, column, hs, rising, uEdge, vEdge]
  · show mean G (tendP G s) 0 0 0 1 = w
    rw [hG, column_mean]
    unfold tendP
    rw [column_div, column_dz]
    unfold sDotTheta
    rw [← hG, θ]
    simp [sDot, inner, hG, column, hs, rising, uEdge, vEdge]
  · show mean G (fun e i j k => if 0 < k ∧ k < G.levels then tendW G s e i j k else old.w e i j k) 0 0 0 1 = -g
    rw [hG, column_mean, if_pos ⟨one_pos, by show 1 < 2; omega⟩]
    unfold tendW
    rw [inner_of _ _ _ ⟨one_pos, by show 1 < 2; omega⟩, column_dzEdge,
      column_carryW _ _ _ _ _ _ _ _ (fun _ _ _ _ => rfl) (fun _ _ _ _ => rfl)]
    simp [pres, hs, rising, column, rhoEdge]
    norm_num

/-! ## C121 -/

/-- The first substep of the split-explicit dynamics does not solve the equations of sound linearised about the initial
instance: the new vertical momentum is not the old tendency less the gradient of the new pressure and the new weight.
There is a column with pressure linear in density times potential temperature, a solver that keeps the promise of
`dgtsv`, and the tendencies that the dynamics compute themselves, for which it fails. -/
theorem C121_split_false : ∃ (G : Grid) (solver : Solver) (s old old' a : State) (dt : ℝ),
    G.levels = 2 ∧ Exact G.levels solver ∧ (∀ x, G.pressure x = 2 * x) ∧ G.gamma = 1 ∧
      firstLoop G solver s (tendencies G s old) dt old' = some a ∧
      let P := fun k => deriv G.pressure (s.p 0 0 0 k) * a.p 0 0 0 k
      let R := fun k => a.r 0 0 0 k
      a.w 0 0 0 1 ≠ dt * (tendencies G s old).w 0 0 0 1 - dt * 0.5 * (1.0 + bs) *
        ((P 1 - P 0) / (G.zn 0 0 0 1 - G.zn 0 0 0 0) + G.g * ((R 0 + R 1) / 2)) := by
  have ts : timeScale 1 = 11 / 20 := by unfold timeScale bs; norm_num
  have t1 : (1 : ℝ) * 0.5 * (1.0 + bs) = 11 / 20 := by unfold bs; norm_num
  set s := rising (fun k => if k = 1 then 1 else 0) with hs
  obtain ⟨Tr0, Tr1, Tp0, Tp1, Tw⟩ := column_tendencies 0 1 (fun x => 2 * x) 1 s
  obtain ⟨a, run, _, hw, hp0, hp1, hr0, hr1⟩ := column_first 0 1 (fun x => 2 * x) (fun k => if k = 1 then 1 else 0) 1
    (by rw [ts]; norm_num) (tendencies (column 2 0 1 (fun x => 2 * x)) s s) s
  refine ⟨column 2 0 1 (fun x => 2 * x), ideal 2, s, s, s, a, 1, rfl, ideal_exact 2, fun _ => rfl, rfl, run, ?_⟩
  have dp : ∀ x, deriv (column 2 0 1 (fun x => 2 * x)).pressure x = 2 := by
    intro x
    show deriv (fun x : ℝ => 2 * x) x = 2
    rw [deriv_const_mul_field, deriv_id'', mul_one]
  simp only [dp]
  rw [hw, hp0, hp1, hr0, hr1]
  unfold firstX
  rw [hs, Tr0, Tr1, Tp0, Tp1, Tw, ts, t1]
  simp only [column]
  norm_num

/-! ## C123 -/

/-- A later substep of the split-explicit dynamics does not depend on the vertical momentum of the substep before. -/
theorem C123_forgets_false (G : Grid) (solver : Solver) (s T a0 a1 old : State) (dt : ℝ) (w : Fld) :
    nextLoop G solver s T dt a0 { a1 with w := w } old = nextLoop G solver s T dt a0 a1 old := rfl

theorem third (δ D x y : ℝ) (h0 : 0 < δ) (h1 : δ ≤ 1 / 3) (hD : 1 ≤ D) (hx : x = -δ / D)
    (hy : y = -δ * (1 + 7 / 5 * (11 / 10 * δ * x)) / D) :
    -δ ≤ -δ * (1 + 7 / 5 * (11 / 10 * δ * (x + y))) / D ∧ -δ * (1 + 7 / 5 * (11 / 10 * δ * (x + y))) / D ≤ 0 := by
  have frac : ∀ z, 0 ≤ z → z ≤ 1 → -δ ≤ -δ * z / D ∧ -δ * z / D ≤ 0 := by
    intro z z0 z1
    have hp : 0 < D := by linarith
    constructor
    · rw [le_div_iff₀ hp]
      nlinarith
    · exact div_nonpos_of_nonpos_of_nonneg (by nlinarith) hp.le
  have part : ∀ z, -(2 * δ) ≤ z → z ≤ 0 →
      0 ≤ 1 + 7 / 5 * (11 / 10 * δ * z) ∧ 1 + 7 / 5 * (11 / 10 * δ * z) ≤ 1 := by
    intro z z0 z1
    constructor <;> nlinarith
  have bx : -δ ≤ x ∧ x ≤ 0 := by
    have := frac 1 zero_le_one le_rfl
    rwa [mul_one, ← hx] at this
  have by' : -δ ≤ y ∧ y ≤ 0 := by
    have := part x (by linarith [bx.1]) bx.2
    rw [hy]
    exact frac _ this.1 this.2
  have := part (x + y) (by linarith [bx.1, by'.1]) (by linarith [bx.2, by'.2])
  exact frac _ this.1 this.2

/-- The vertical momentum of a step of the split-explicit dynamics is not that of its forces: there is a column of air in
which pressure does not balance the weight, so that vertical momentum changes at the rate `-1`, and yet in a step of any
length up to one it changes by at most a third of that. -/
theorem C123_fall_false : ∃ (G : Grid) (solver : Solver) (s : State), Exact G.levels solver ∧
    G.g = 1 ∧ (∀ x, G.pressure x = x ^ G.gamma) ∧ G.gamma = 7 / 5 ∧
    tendW G s 0 0 0 1 = -1 ∧ ∀ dt : ℝ, 0 < dt → dt ≤ 1 → ∃ st', stepExplicit G solver true true 2 0 1 dt (fun _ => s) =
      some st' ∧ -(dt / 3) ≤ (st' 1).w 0 0 0 1 - s.w 0 0 0 1 ∧ (st' 1).w 0 0 0 1 - s.w 0 0 0 1 ≤ 0 := by
  set G := column 2 1 (7 / 5) (fun x => x ^ (7 / 5 : ℝ)) with hG
  set s := rising (fun k => if k = 1 then 0 else 0) with hs
  refine ⟨G, ideal 2, s, ideal_exact 2, rfl, fun _ => rfl, rfl, ?_, fun dt h0 h1 => ?_⟩
  · unfold tendW
    rw [inner_of _ _ _ ⟨one_pos, by show 1 < 2; omega⟩, hG, column_dzEdge,
      column_carryW _ _ _ _ _ _ _ _ (fun _ _ _ _ => rfl) (fun _ _ _ _ => rfl)]
    simp [pres, hs, rising, column, rhoEdge]
    norm_num
  set δ := dt / 3 with hδ
  have hδ0 : 0 < δ := by positivity
  have hδ1 : δ ≤ 1 / 3 := by rw [hδ]; linarith
  have ts : timeScale δ = 11 / 20 * δ := by
    unfold timeScale bs
    rw [show (0.5 : ℝ) = 1 / 2 by norm_num, show (1.0 : ℝ) = 1 by norm_num, show (0.1 : ℝ) = 1 / 10 by norm_num]
    ring
  have p1 : (fun x : ℝ => x ^ (7 / 5 : ℝ)) 1 = 1 := Real.one_rpow _
  set D := 1 + timeScale δ * timeScale δ * (2 * ((fun x : ℝ => x ^ (7 / 5 : ℝ)) 1 * (7 / 5))) with hD
  have hD1 : 1 ≤ D := by
    rw [hD, p1, ts]
    nlinarith
  have hDne : D ≠ 0 := by positivity
  obtain ⟨Tr0, Tr1, Tp0, Tp1, Tw⟩ := column_tendencies 1 (7 / 5) (fun x => x ^ (7 / 5 : ℝ)) 0 s
  obtain ⟨a, runA, na, aw, ap0, ap1, ar0, ar1⟩ := column_first 1 (7 / 5) (fun x => x ^ (7 / 5 : ℝ))
    (fun k => if k = 1 then 0 else 0) δ hDne (tendencies G s s) (zero s)
  obtain ⟨b, runB, nb, bw, bp0, bp1, br0, br1⟩ := column_next 1 (7 / 5) (fun x => x ^ (7 / 5 : ℝ))
    (fun k => if k = 1 then 0 else 0) δ hDne (tendencies G s s) (zero s) a (zero s) (fun k => by rw [na]; rfl)
  obtain ⟨c, runC, nc, cw, _⟩ := column_next 1 (7 / 5) (fun x => x ^ (7 / 5 : ℝ))
    (fun k => if k = 1 then 0 else 0) δ hDne (tendencies G s s) a b (zero s) (fun k => by rw [nb]; rfl)
  obtain ⟨st', run⟩ := split_runs G rfl 2 0 1 (by omega) (by omega) dt (fun _ => s)
    (fun e i j _ _ _ => by rw [hG, hs, rising_diag]; exact hDne)
  refine ⟨st', run, ?_⟩
  obtain ⟨_, _, _, a', b', c', ha, hb, hc, hU, _⟩ :=
    stepExplicit_parts G (ideal 2) true true 2 0 1 dt _ st' (by omega) (by omega) run
  obtain rfl : a = a' := Option.some.inj (runA.symm.trans ha)
  obtain rfl : b = b' := Option.some.inj (runB.symm.trans hb)
  obtain rfl : c = c' := Option.some.inj (runC.symm.trans hc)
  have fall : (st' 1).w 0 0 0 1 - s.w 0 0 0 1 = c.w 0 0 0 1 := by
    rw [hU]
    show (if 1 < 2 then s.w 0 0 0 1 + c.w 0 0 0 1 else s.w 0 0 0 1) - s.w 0 0 0 1 = _
    rw [if_pos (by omega)]
    ring
  have eA : firstX 1 (7 / 5) (fun x => x ^ (7 / 5 : ℝ)) δ (tendencies G s s) = -δ / D := by
    unfold firstX
    rw [← hD, Tr0, Tr1, Tp0, Tp1, Tw, show (0.5 : ℝ) = 1 / 2 by norm_num]
    congr 1
    ring
  rw [eA] at ap0 ap1 ar0 ar1
  have eB : nextX 1 (7 / 5) (fun x => x ^ (7 / 5 : ℝ)) δ (tendencies G s s) a =
      -δ * (1 + 7 / 5 * (11 / 10 * δ * (-δ / D))) / D := by
    unfold nextX
    rw [← hD, na, p1, ap0, ap1, ar0, ar1, Tr0, Tr1, Tp0, Tp1, Tw, ts]
    congr 1
    show 0 - _ - _ = _
    rw [show (0.5 : ℝ) = 1 / 2 by norm_num]
    ring
  rw [eB] at bp0 bp1 br0 br1
  set x := -δ / D with hx
  set y := -δ * (1 + 7 / 5 * (11 / 10 * δ * x)) / D with hy
  have eC : nextX 1 (7 / 5) (fun x => x ^ (7 / 5 : ℝ)) δ (tendencies G s s) b =
      -δ * (1 + 7 / 5 * (11 / 10 * δ * (x + y))) / D := by
    unfold nextX
    rw [← hD, nb, p1, bp0, bp1, br0, br1, ap0, ap1, ar0, ar1, Tr0, Tr1, Tp0, Tp1, Tw, ts]
    congr 1
    show 0 - _ - _ = _
    rw [show (0.5 : ℝ) = 1 / 2 by norm_num]
    ring
  rw [fall, cw, eC]
  exact third δ D x y hδ0 hδ1 hD1 hx hy

/-! ## C124 -/

/-- Reversing the motion does not leave the gain of vertical momentum: there is a column that does not rotate in which
both directions of motion gain differently. -/
theorem C124_vertical_false : ∃ (G : Grid) (st st1 st2 : Store), (∀ e i j, G.coriolis e i j = 0) ∧
    explicitCombine G [1] [0] 1 2 1 st = some st1 ∧
    explicitCombine (turned G) [1] [0] 1 2 1 (putSlot st 1 (reversed (st 1))) = some st2 ∧
    gain [1] [0] st st2 2 State.w 0 0 0 1 ≠ gain [1] [0] st st1 2 State.w 0 0 0 1 := by
  have ok : combinable [1] [0] 2 = true := by simp [combinable]
  refine ⟨column 3 0 1 (fun x => x), fun _ => rising (fun k => if k = 1 ∨ k = 2 then 1 else 0), _, _, fun _ _ _ => rfl,
    if_neg (by simp [ok]), if_neg (by simp [ok]), ?_⟩
  unfold gain
  rw [putSlot_same, putSlot_same]
  show (if 1 < 3 then _ + inner (column 3 0 1 (fun x => x)) 1 (-1 * carryW (column 3 0 1 (fun x => x))
      (reversed (rising (fun k => if k = 1 ∨ k = 2 then 1 else 0))) 0 0 0 1)
      else (rising (fun k => if k = 1 ∨ k = 2 then 1 else 0)).w 0 0 0 1) - _ ≠
    (if 1 < 3 then _ + inner (column 3 0 1 (fun x => x)) 1 (-1 * carryW (column 3 0 1 (fun x => x))
      (rising (fun k => if k = 1 ∨ k = 2 then 1 else 0)) 0 0 0 1)
      else (rising (fun k => if k = 1 ∨ k = 2 then 1 else 0)).w 0 0 0 1) - _
  rw [if_pos (by omega), if_pos (by omega), inner_of _ _ _ ⟨one_pos, by show 1 < 3; omega⟩,
    inner_of _ _ _ ⟨one_pos, by show 1 < 3; omega⟩,
    column_carryW _ _ _ _ _ _ _ _ (fun _ _ _ _ => neg_zero) (fun _ _ _ _ => neg_zero),
    column_carryW _ _ _ _ _ _ _ _ (fun _ _ _ _ => rfl) (fun _ _ _ _ => rfl)]
  simp [combine, putSlot, reversed, rising, mixed]
  norm_num

/-! ## C125 -/

/-- No step of these dynamics changes the tracers of the updated instance. -/
theorem C125_kept (G : Grid) (solver : Solver) (dt : ℝ) (st st' : Store) (iU : Nat) :
    (∀ nh lo base iI, iI < base → iU < base → stepExplicit G solver nh lo base iI iU dt st = some st' →
      (st' iU).t = (st iU).t) ∧
    (∀ coeff inst iA, explicitCombine G coeff inst iA iU dt st = some st' → (st' iU).t = (st iU).t) ∧
    (∀ coeff inst iA, implicitCombine G solver coeff inst iA iU dt st = some st' → (st' iU).t = (st iU).t) := by
  refine ⟨?_, ?_, ?_⟩
  · intro nh lo base iI hI hU h
    obtain ⟨_, _, _, a, b, c, _, _, _, e, _⟩ := stepExplicit_parts G solver nh lo base iI iU dt st st' hI hU h
    rw [e]
    rfl
  · intro coeff inst iA h
    unfold explicitCombine at h
    split at h
    · exact absurd h (by simp)
    · rw [← Option.some.inj h, putSlot_same]
  · intro coeff inst iA h
    unfold implicitCombine at h
    obtain ⟨a, ha, rfl⟩ := Option.map_eq_some_iff.1 h
    rw [putSlot_same]
    show a.t = _
    unfold implicitCore at ha
    split at ha
    · exact absurd ha (by simp)
    · obtain ⟨X, _, rfl⟩ := Option.map_eq_some_iff.1 ha
      rfl

/-- Air that is everywhere mixed in the same ratio with a tracer does not stay so: there is a column of such air that
moves, for which the split-explicit dynamics and the implicit part of the high-speed dynamics lose the ratio. -/
theorem C125_mixing_false : ∃ (G : Grid) (solver : Solver) (st st1 st2 : Store), Exact G.levels solver ∧
    (∀ m e i j k, (st m).t 0 e i j k = 2 * (st m).r e i j k) ∧
    stepExplicit G solver true true 2 0 1 1 st = some st1 ∧ (st1 1).t 0 0 0 0 1 ≠ 2 * (st1 1).r 0 0 0 1 ∧
    implicitCombine G solver [1] [0] 0 1 1 st = some st2 ∧ (st2 1).t 0 0 0 0 1 ≠ 2 * (st2 1).r 0 0 0 1 := by
  set G := column 2 0 1 (fun x => x) with hG
  set s := rising (fun k => if k = 1 then 1 else 0) with hs
  have ts : timeScale (1 / 3) = 11 / 60 := by unfold timeScale bs; norm_num
  have hD : 1 + timeScale (1 / 3) * timeScale (1 / 3) * (2 * ((fun x : ℝ => x) 1 * 1)) ≠ 0 := by rw [ts]; norm_num
  obtain ⟨Tr0, Tr1, Tp0, Tp1, Tw⟩ := column_tendencies 0 1 (fun x => x) 1 s
  obtain ⟨a, runA, na, aw, ap0, ap1, ar0, ar1⟩ := column_first 0 1 (fun x => x)
    (fun k => if k = 1 then 1 else 0) (1 / 3) hD (tendencies G s s) (zero s)
  obtain ⟨b, runB, nb, bw, bp0, bp1, br0, br1⟩ := column_next 0 1 (fun x => x)
    (fun k => if k = 1 then 1 else 0) (1 / 3) hD (tendencies G s s) (zero s) a (zero s) (fun k => by rw [na]; rfl)
  obtain ⟨c, runC, nc, cw, _, _, _, cr1⟩ := column_next 0 1 (fun x => x)
    (fun k => if k = 1 then 1 else 0) (1 / 3) hD (tendencies G s s) a b (zero s) (fun k => by rw [nb]; rfl)
  obtain ⟨st1, run⟩ := split_runs G rfl 2 0 1 (by omega) (by omega) 1 (fun _ => s)
    (fun e i j _ _ _ => by rw [hG, hs, rising_diag]; exact hD)
  obtain ⟨X, hX, hX'⟩ := solve_two G rfl 1 (stiffness G s) (thetaEdge G s) (implicitRhs G s 1)
    (fun e i j _ _ _ => by rw [hG, hs, rising_diag]; norm_num)
    (fun _ _ _ => by unfold implicitRhs inner; exact if_neg (by omega))
    (fun _ _ _ => by unfold implicitRhs inner; exact if_neg (fun h => absurd h.2 (by show ¬2 < 2; omega)))
  obtain ⟨_, x1, x2⟩ := hX' 0 0 0 (by show 0 < 1; omega) (by show 0 < 1; omega) (by show 0 < 1; omega)
  have x1' : X 0 0 0 1 = 1 / 3 := by
    rw [x1, hG, hs, rising_diag]
    unfold implicitRhs
    rw [inner_of _ _ _ ⟨one_pos, by show 1 < 2; omega⟩, column_dzEdge]
    simp [pres, rising, column]
    norm_num
  have ok : combinable [1] [0] 1 = true := by simp [combinable]
  have imp : ∃ st2, implicitCombine G (ideal 2) [1] [0] 0 1 1 (fun _ => s) = some st2 := by
    unfold implicitCombine implicitCore
    rw [if_neg (by simp [ok])]
    simp only [hX, Option.map_some]
    exact ⟨_, rfl⟩
  obtain ⟨st2, imp⟩ := imp
  refine ⟨G, ideal 2, fun _ => s, st1, st2, ideal_exact 2, fun m e i j k => ?_, run, ?_, imp, ?_⟩
  · simp [hs, rising]
  · rw [((C125_kept G (ideal 2) 1 _ st1 1).1 true true 2 0 (by omega) (by omega) run)]
    obtain ⟨_, _, _, a', b', c', ha, hb, hc, hU, _⟩ :=
      stepExplicit_parts G (ideal 2) true true 2 0 1 1 _ st1 (by omega) (by omega) run
    obtain rfl : a = a' := Option.some.inj (runA.symm.trans ha)
    obtain rfl : b = b' := Option.some.inj (runB.symm.trans hb)
    obtain rfl : c = c' := Option.some.inj (runC.symm.trans hc)
    rw [hU]
    show (2 : ℝ) ≠ 2 * (1 + c.r 0 0 0 1)
    rw [cr1, br1, ar1]
    unfold nextX
    rw [bp0, bp1, br0, br1, ap0, ap1, ar0, ar1]
    unfold nextX
    rw [nb, na, ap0, ap1, ar0, ar1]
    unfold firstX
    rw [Tr0, Tr1, Tp0, Tp1, Tw, ts]
    simp only [zero]
    norm_num
  · rw [(C125_kept G (ideal 2) 1 _ st2 1).2.2 [1] [0] 0 imp]
    obtain ⟨X', hX2, hcol⟩ := implicit_column G ⟨fun _ _ _ _ _ _ _ _ => rfl, fun _ _ _ _ _ _ _ _ => rfl⟩ (ideal 2) [1] [0] 0 1
      1 _ st2 ⟨fun _ _ _ _ _ _ _ _ => rfl, fun _ _ _ _ _ _ _ _ => rfl, fun _ _ _ _ _ _ _ _ => rfl,
        fun _ _ _ _ _ _ _ _ => rfl⟩ (fun m _ => ⟨fun _ _ _ _ _ _ _ _ => rfl, fun _ _ _ _ _ _ _ _ => rfl,
        fun _ _ _ _ _ _ _ _ => rfl, fun _ _ _ _ _ _ _ _ => rfl⟩) imp
    obtain rfl : X = X' := Option.some.inj (hX.symm.trans hX2)
    rw [(hcol 0 0 0 1 (by show 0 < 1; omega) (by show 0 < 1; omega) (by show 0 < 1; omega)).1, hG, column_dz, x1', x2]
    simp [mixed, hs, rising]

end Verif.Acoustic
