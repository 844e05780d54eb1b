import Verif.HorizV2.Same

/-!
# The viscosities of the two versions
-/

namespace Verif.HorizV2

open Verif.Horiz Verif.Nonhydro

/-- Two passes can change places. -/
def Comm (f g : Data → Data) : Prop := ∀ u, f (g u) = g (f u)

theorem comm_loop (n : Nat) (f : Nat → Data → Data) (g : Data → Data) (h : ∀ t, t < n → Comm (f t) g) :
    Comm (loop n f) g := by
  induction n with
  | zero => exact fun _ => rfl
  | succ n ih =>
    intro u
    rw [loop_succ, loop_succ, ih (fun t ht => h t (by omega)), h n (by omega)]

theorem Comm.symm {f g : Data → Data} (h : Comm f g) : Comm g f := fun u => (h u).symm

/-- A loop whose body does two things is two loops. -/
theorem loop_both (m : Nat) (f g : Nat → Data → Data) (h : ∀ j j', j < m → j' < m → j ≠ j' → Comm (g j) (f j'))
    (u : Data) : loop m (fun j u => f j (g j u)) u = loop m f (loop m g u) := by
  induction m with
  | zero => rfl
  | succ m ih =>
    rw [loop_succ, loop_succ, loop_succ, ih (fun j j' hj hj' => h j j' (by omega) (by omega))]
    congr 1
    exact ((comm_loop m f (g m) (fun t ht => (h m t (by omega) (by omega) (by omega)).symm)) _).symm

/-- Two nested loops can change places if passes that differ in both indices can. -/
theorem loop_swap (n m : Nat) (f : Nat → Nat → Data → Data)
    (h : ∀ i i' j j', i ≠ i' → j ≠ j' → Comm (f i j) (f i' j')) (u : Data) :
    loop n (fun i u => loop m (fun j u => f i j u) u) u = loop m (fun j u => loop n (fun i u => f i j u) u) u := by
  induction n with
  | zero =>
    rw [loop_zero]
    induction m with
    | zero => rfl
    | succ m ih => rw [loop_succ, loop_zero]; exact ih
  | succ n ih =>
    rw [loop_succ, ih]
    have e : (fun j u => loop (n + 1) (fun i u => f i j u) u) =
        fun (j : Nat) (u : Data) => f n j (loop n (fun i u => f i j u) u) := by
      funext j u
      rw [loop_succ]
    rw [e]
    refine (loop_both m (fun j => f n j) (fun j u => loop n (fun i u => f i j u) u) ?_ u).symm
    intro j j' _ _ hjj
    exact comm_loop n _ _ (fun i hi => h i n j j' (by omega) hjj)

/-- The loop over levels outside or inside the loops over the nodes. -/
theorem levels_inside (n m p : Nat) (f : Nat → Nat → Nat → Data → Data)
    (h : ∀ k k' i i' j j', k ≠ k' → Comm (f k i j) (f k' i' j')) (u : Data) :
    loop n (fun k u => loop m (fun i u => loop p (fun j u => f k i j u) u) u) u =
      loop m (fun i u => loop p (fun j u => loop n (fun k u => f k i j u) u) u) u := by
  rw [loop_swap n m (fun k i u => loop p (fun j u => f k i j u) u)]
  · refine loop_congr _ _ _ _ (fun i _ u => ?_)
    exact loop_swap n p (fun k j => f k i j) (fun k k' j j' hk _ => h k k' i i j j' hk) u
  · intro k k' i i' hk _
    exact comm_loop _ _ _ (fun j _ => (comm_loop _ _ _ (fun j' _ => (h k k' i i' j j' hk).symm)).symm)

/-- Passes that write different cells can change places. -/
theorem comm_put (x y : Cell) (h : x ≠ y) (f g : ℝ → ℝ) :
    Comm (fun u => put u x (f (u x))) (fun u => put u y (g (u y))) := by
  intro u
  funext z
  simp only [put]
  by_cases hx : z = x
  · subst hx
    simp [h]
  · by_cases hy : z = y
    · subst hy
      simp [hx, Ne.symm h]
    · simp [hx, hy]

theorem comm_comp {f f' g : Data → Data} (h : Comm f g) (h' : Comm f' g) : Comm (fun u => f' (f u)) g := by
  intro u
  show f' (f (g u)) = g (f' (f u))
  rw [h, h']

section

variable (M : Medium) (h : M.G.S.order = 4)

include h

theorem hold_eq (init : Data) (r : Bool) (v : Var) (a b k : Nat) : hold M init r v a b k = buffer M init r v a b k := by
  funext i j
  unfold hold buffer
  rw [at4_eq h, at4_eq h]

theorem gradA_eq (v : Var) (a b k : Nat) (psi : Nat → Nat → ℝ) : gradA M v a b k psi = gradientA M v a b k psi := by
  funext i j
  unfold gradA gradientA
  rw [at4_eq h, at4_eq h, slopeA_eq _ h, slopeB_eq _ h]

theorem gradB_eq (v : Var) (a b k : Nat) (psi : Nat → Nat → ℝ) : gradB M v a b k psi = gradientB M v a b k psi := by
  funext i j
  unfold gradB gradientB
  rw [at4_eq h, at4_eq h, slopeA_eq _ h, slopeB_eq _ h]

theorem diffusePoint_eq (init : Data) (r : Bool) (v : Var) (a b k : Nat) (dt nu : ℝ) (i j : Nat) :
    diffusePoint M init r v a b k dt nu i j = Horiz.diffusePoint M init r v a b k dt nu i j := by
  funext u
  unfold diffusePoint Horiz.diffusePoint
  rw [at4_eq h, at4_eq h, fluxOutA_eq _ h, fluxOutB_eq _ h, hold_eq M h, gradA_eq M h, gradB_eq M h, stiffA_weak,
    stiffB_weak]
  simp only
  congr 1
  ring

theorem diffuseVar_eq (init : Data) (r : Bool) (dt nu : ℝ) (n : Nat) (v : Var) (u : Data) :
    diffuseVar M init r dt nu n v u = Horiz.diffuseVar M init r dt nu n v u := by
  unfold diffuseVar Horiz.diffuseVar
  refine loop_congr _ _ _ _ (fun a _ u => loop_congr _ _ _ _ (fun b _ u => ?_))
  rw [h]
  simp only [diffusePoint_eq M h]
  refine (levels_inside n 4 4 (fun k i j => Horiz.diffusePoint M init r v a b k dt nu i j) ?_ u).symm
  intro k k' i i' j j' hk
  unfold Horiz.diffusePoint
  exact comm_put _ _ (fun e => hk (by injection e)) (fun y => y - _) (fun y => y - _)

theorem applyScalar_eq : applyScalar M = Horiz.applyScalar M := by
  funext init dt nu scale c r u
  unfold applyScalar Horiz.applyScalar
  simp only [diffuseVar_eq M h]
  rfl

theorem curl_eq (init : Data) (a b k : Nat) : curl M init a b k = vorticity M init a b k := by
  funext i j
  unfold curl vorticity
  rw [at4_eq h, at4_eq h, slopeA_eq _ h, slopeB_eq _ h, cell_eq h, cell_eq h]
  ring

theorem div_eq (init : Data) (a b k : Nat) : div M init a b k = divergence M init a b k := by
  funext i j
  unfold div divergence
  rw [slopeA_eq _ h, slopeB_eq _ h, swUa_eq h, swUb_eq h]
  simp only [at4_eq h]
  ring

theorem dampA_eq (init : Data) (a b k : Nat) (nd nv : ℝ) (i j : Nat) :
    dampA M init a b k nd nv i j = vectorUa M init a b k nd nv i j := by
  unfold dampA vectorUa
  rw [at4_eq h, at4_eq h, fluxOutA_eq _ h, fluxOutB_eq _ h, curl_eq M h, div_eq M h]

theorem dampB_eq (init : Data) (a b k : Nat) (nd nv : ℝ) (i j : Nat) :
    dampB M init a b k nd nv i j = vectorUb M init a b k nd nv i j := by
  unfold dampB vectorUb
  rw [at4_eq h, at4_eq h, fluxOutA_eq _ h, fluxOutB_eq _ h, curl_eq M h, div_eq M h]

theorem dampPoint_eq (init : Data) (a b k : Nat) (dt nd nv : ℝ) (i j : Nat) :
    dampPoint M init a b k dt nd nv i j = vectorPoint M init a b k false dt nd nv i j := by
  funext u
  unfold dampPoint vectorPoint
  rw [if_pos rfl]
  simp only [at4_eq h, dampA_eq M h, dampB_eq M h]

theorem applyVector_eq : applyVector M = Horiz.applyVector M false := by
  funext init dt nd nv scale u
  unfold applyVector Horiz.applyVector
  refine loop_congr _ _ _ _ (fun a _ u => loop_congr _ _ _ _ (fun b _ u => ?_))
  rw [h]
  simp only [dampPoint_eq M h]
  refine (levels_inside _ 4 4
    (fun k i j => vectorPoint M init a b k false dt (M.localNu nd scale) (M.localNu nv scale) i j) ?_ u).symm
  intro k k' i i' j j' hk
  have one : ∀ c c' x y, Comm (fun u : Data => put u ⟨.state c, M.G.S.at a i, M.G.S.at b j, k⟩
      (u ⟨.state c, M.G.S.at a i, M.G.S.at b j, k⟩ - x))
      (fun u => put u ⟨.state c', M.G.S.at a i', M.G.S.at b j', k'⟩
        (u ⟨.state c', M.G.S.at a i', M.G.S.at b j', k'⟩ - y)) :=
    fun c c' x y => comm_put _ _ (fun e => hk (by injection e)) (fun z => z - x) (fun z => z - y)
  unfold vectorPoint
  simp only [if_true]
  exact comm_comp (comm_comp (one 0 0 _ _).symm (one 0 1 _ _).symm).symm
    (comm_comp (one 1 0 _ _).symm (one 1 1 _ _).symm).symm

end

end Verif.HorizV2
