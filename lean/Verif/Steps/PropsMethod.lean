/-
C42 and C44: the drivers compute the published Runge-Kutta methods, and these meet their order conditions.
-/
import Verif.Steps.Programs
import Verif.Steps.Weights
import Verif.Steps.Schemes
import Mathlib.Analysis.SpecialFunctions.Pow.Real

namespace Verif.Steps

section
variable {K V W : Type*} [Field K] [DecidableEq K] [AddCommGroup V] [Module K V] [AddCommGroup W] [Module K W]

/-! ### The last calls of a step -/

theorem run_tailB (Dy : Dyn K V W) {r a b w : Nat} {dt : K} {ys : List (V × W)} {v : V × W} (hr : ys[r]? = some v)
    (ha : a < ys.length) (hb : b < ys.length) (hw : w < ys.length) (haw : a ≠ w) (hbw : b ≠ w) (h0 : 0 < ys.length) :
    ∃ zs, run (modOps K) (modOps K) Dy (tailB r a b w dt) (ofPairs ys) = some (ofPairs zs) ∧
      zs[0]? = some (Dy.hyper dt v) := by
  obtain ⟨z, hz⟩ := run_after Dy (a := a) (u := b) (w := w) (c := dt) (l := ys.set a v) (x := v)
    (get_set_self ha) haw hbw (by simpa using hb) (by simpa using hw)
  have hb' : (((ys.set a v).set b (Dy.hyper dt v)).set w z)[b]? = some (Dy.hyper dt v) := by
    rw [List.getElem?_set_ne (fun h => hbw h.symm), List.getElem?_set_self (by simpa using hb)]
  refine ⟨(((ys.set a v).set b (Dy.hyper dt v)).set w z).set 0 (Dy.hyper dt v), ?_,
    get_set_self (by simpa using h0)⟩
  rw [tailB, run_append, run_append, run_copy2 _ _ _ hr ha, Option.bind_some, hz, Option.bind_some,
    run_copy2 _ _ _ hb' (by simpa using h0)]

theorem run_tailA (Dy : Dyn K V W) {r w : Nat} {dt : K} {ys : List (V × W)} {v : V × W} (hr : ys[r]? = some v)
    (hw : w < ys.length) (hrw : r ≠ w) (h0w : 0 ≠ w) (h0 : 0 < ys.length) :
    ∃ zs, run (modOps K) (modOps K) Dy (tailA r w dt) (ofPairs ys) = some (ofPairs zs) ∧
      zs[0]? = some (Dy.hyper dt v) := by
  have hr' : (ys.set 0 v)[r]? = some v := by
    rw [List.getElem?_set]
    split_ifs with h1
    · rfl
    · exact hr
  obtain ⟨z, hz⟩ := run_after Dy (a := r) (u := 0) (w := w) (c := dt) hr' hrw h0w (by simpa using h0) (by simpa using hw)
  refine ⟨_, by rw [tailA, run_append, run_copy2 _ _ _ hr h0, Option.bind_some, hz], ?_⟩
  rw [List.getElem?_set_ne h0w.symm, List.getElem?_set_self (by simpa using h0)]

/-- The step from its symbolic execution. -/
theorem step_gives {Dy : Dyn K V W} {ex : Nat → Nat → K → List (Cmd K)} {ef : K → V × W → V × W → V × W}
    {P : V × W →ₗ[K] V × W} {F G : V × W → V × W} (hs : SolvesE Dy ef P F) (hex : IsEx Dy ex ef)
    {u : V × W} (hu : P u = u) {ms : List (Mac K)} {n r : Nat} {T : Tableau K} (hT : T.Shape) {dt : K}
    (hm : ∀ m ∈ ms, macOk W (ef = exH Dy) (SolvesI Dy P G) m) (hG : Gives ms n r T dt)
    {d : Data V W} (hd : Current (n + 1) d u) {tail : List (Cmd K)}
    (ht : ∀ (ys : List (V × W)) (v : V × W), ys.length = n + 1 → ys[r]? = some v →
      ∃ zs, run (modOps K) (modOps K) Dy tail (ofPairs ys) = some (ofPairs zs) ∧ zs[0]? = some (Dy.hyper dt v)) :
    ∃ v, IsStep T F G dt u v ∧ StepsTo Dy (expandAll ex ms ++ tail) d (Dy.hyper dt v) := by
  obtain ⟨S, h1, h2, h3, h4⟩ := hG
  obtain ⟨l, hl, rfl⟩ := exists_ofPairs d (n + 1) hd.1 hd.2.1
  cases l with
  | nil => simp at hl
  | cons x xs =>
    have hx : x = u := by simpa [get_ofPairs] using hd.2.2
    subst hx
    obtain ⟨ys, v, hrun, hlen, hv, hstep, -⟩ := step_of_sym hs hex hu ms n S T hT dt r hm h1 h2 h3 h4 xs
      (by simpa using hl)
    obtain ⟨zs, hz, h0⟩ := ht ys v hlen hv
    refine ⟨v, hstep, ofPairs zs, ?_, by rw [get_ofPairs, h0]⟩
    rw [run_append, hrun, Option.bind_some, hz]

theorem isRK_of_isStep {A : List (List K)} {b : List K} {F G : V × W → V × W} {dt : K} {u v : V × W}
    (h : IsStep (expTab A b) F G dt u v) : IsRK A b F dt u v := by
  obtain ⟨k, l, h1, h2, h3, -, h5⟩ := h
  refine ⟨k, h1, fun i r hr => ?_, ?_⟩
  · have hr' : i < A.length := lt_of_get hr
    have := h3 i r hr [] (by
      simp only [Option.mem_def] at hr ⊢
      simp only [expTab, List.getElem?_map, hr, Option.map_some])
    simpa using this
  · simpa [expTab] using h5

theorem shape_expTab (A : List (List K)) (b : List K) (h : b.length = A.length) : (expTab A b).Shape := by
  simp [Tableau.Shape, expTab, h]

/-! ### C42 -/

/-- The textbook tableau of each explicit discretization (SSPRK53 is treated separately). -/
def Erk.A : Erk → List (List K)
  | .forwardEuler => eulerA
  | .rungeKutta4 => rk4A
  | .rungeKuttaSSP3 => ssp3A
  | .kinnmarkGrayUllrich35 => kgu35A
  | .rungeKuttaSSPRK53 => []
def Erk.b : Erk → List K
  | .forwardEuler => eulerB
  | .rungeKutta4 => rk4B
  | .rungeKuttaSSP3 => ssp3B
  | .kinnmarkGrayUllrich35 => kgu35B
  | .rungeKuttaSSPRK53 => []
/-- Its order. -/
def Erk.order : Erk → Nat
  | .forwardEuler => 1
  | .rungeKutta4 => 4
  | .rungeKuttaSSP3 => 3
  | .kinnmarkGrayUllrich35 => 3
  | .rungeKuttaSSPRK53 => 3

theorem gives_erk [CharZero K] (m : Erk) (hm : m ≠ .rungeKuttaSSPRK53) (dt : K) :
    ∃ ms, (∀ ex, m.block ex dt = expandAll ex ms) ∧ Gives ms 4 4 (expTab m.A m.b) dt ∧
      (∀ (W : Type _) (p : Prop) (q : K → Prop), ∀ x ∈ ms, macOk W p q x) := by
  cases m with
  | forwardEuler => exact ⟨eulerM dt, fun ex => euler_eq ex dt, gives_euler dt 0, by simp [eulerM, macOk]⟩
  | rungeKutta4 => exact ⟨rk4M dt, fun ex => rk4_eq ex dt, gives_rk4 dt, by simp [rk4M, macOk]⟩
  | rungeKuttaSSP3 => exact ⟨ssp3M dt, fun ex => ssp3_eq ex dt, gives_ssp3 dt, by simp [ssp3M, macOk]⟩
  | kinnmarkGrayUllrich35 => exact ⟨kgu35M dt, fun ex => kgu35_eq ex dt, gives_kgu35 dt, by simp [kgu35M, macOk]⟩
  | rungeKuttaSSPRK53 => exact absurd rfl hm

/-- C42: for every right-hand side, state, scratch contents and step length, a step of `TimestepSchemeERK` is the
step of the textbook Runge-Kutta method followed by the hyperdiffusion.  (Missing: SSPRK53, see
`C42_ssprk53_partial`.) -/
theorem C42_erk_step_partial [CharZero K] {Dy : Dyn K V W} {P : V × W →ₗ[K] V × W} {F : V × W → V × W}
    (hs : SolvesE Dy (exH Dy) P F) (m : Erk) (hm : m ≠ .rungeKuttaSSPRK53) (dt : K) {d : Data V W} {u : V × W}
    (hd : Current 5 d u) (hu : P u = u) :
    ∃ v, IsRK m.A m.b F dt u v ∧ StepsTo Dy (erkStep m.block dt) d (Dy.hyper dt v) := by
  obtain ⟨ms, h1, h2, h3⟩ := gives_erk m hm dt
  obtain ⟨v, hv, hst⟩ := step_gives (G := fun _ => 0) hs (isEx_H Dy) hu (n := 4) (r := 4)
    (shape_expTab m.A m.b (by cases m <;> rfl)) (h3 W _ _) h2 hd (tail := tailA 4 2 dt)
    (fun ys v hl hr => run_tailA Dy hr (by omega) (by decide) (by decide) (by omega))
  refine ⟨v, isRK_of_isStep hv, ?_⟩
  have : erkStep m.block dt = expandAll expH ms ++ tailA 4 2 dt := by
    simp only [erkStep, tailA, h1, List.append_assoc]
  rw [this]; exact hst

omit [DecidableEq K] in
/-- C42: the tableaux meet Butcher's conditions up to the advertised order. -/
theorem C42_erk_order_partial [CharZero K] (m : Erk) (hm : m ≠ .rungeKuttaSSPRK53) :
    RKOrder (m.A : List (List K)) m.b m.order := by
  cases m with
  | forwardEuler => simp [RKOrder, Erk.A, Erk.b, Erk.order, eulerA, eulerB]
  | rungeKutta4 => simp [RKOrder, Erk.A, Erk.b, Erk.order, rk4A, rk4B, rs, dp, had, mv]; norm_num
  | rungeKuttaSSP3 => simp [RKOrder, Erk.A, Erk.b, Erk.order, ssp3A, ssp3B, rs, dp, had, mv]; norm_num
  | kinnmarkGrayUllrich35 => simp [RKOrder, Erk.A, Erk.b, Erk.order, kgu35A, kgu35B, rs, dp, had, mv]; norm_num
  | rungeKuttaSSPRK53 => exact absurd rfl hm

end

/-- A model problem: one state variable, no tracers, explicit tendency `x ↦ -x²`, implicit tendency `x ↦ -x`
solved exactly, nothing averaged or diffused. -/
noncomputable def decay : Dyn ℝ ℝ Unit where
  hExp c x y := (y.1 + c * -(x.1 * x.1), ())
  vExp _ _ y := y
  vImp c _ y := (y.1 / (1 + c), ())
  hImp _ _ y := y
  vImpExp _ _ y := y
  postS x := x
  postT x := x
  filt x := x
  hyper _ x := x
  work _ z := z

theorem decay_solves : SolvesE decay (exH decay) LinearMap.id (fun x => (-(x.1 * x.1), ())) where
  post _ := rfl
  expl c x y _ := by ext; simp [exH, decay]
  fixF _ := rfl

example : ∃ v : ℝ × Unit, IsRK (rk4A : List (List ℝ)) rk4B (fun x : ℝ × Unit => (-(x.1 * x.1), ())) (1 / 10)
    (2, ()) v ∧
    StepsTo decay (erkStep (Erk.block .rungeKutta4) (1 / 10 : ℝ)) ⟨[2, 9, 9, 9, 9], [(), (), (), (), ()]⟩ v :=
  C42_erk_step_partial decay_solves .rungeKutta4 (by simp) (1 / 10)
    (d := ⟨[2, 9, 9, 9, 9], [(), (), (), (), ()]⟩) (u := (2, ())) ⟨rfl, rfl, rfl⟩ rfl

/-! ### SSPRK53 -/

/-- A step of a Runge-Kutta method whose stages and result start from multiples of the current state: stage `i`
from `ws[i] • u`, the result from `w • u`. -/
def IsRKW {K D : Type*} [Semiring K] [AddCommMonoid D] [Module K D] (ws : List K) (A : List (List K)) (w : K)
    (b : List K) (F : D → D) (dt : K) (u u' : D) : Prop :=
  ∃ k : List D, k.length = A.length ∧
    (∀ i : Nat, ∀ r ∈ A[i]?, ∀ a ∈ ws[i]?, k[i]? = some (F (a • u + dt • dot r k))) ∧ u' = w • u + dt • dot b k

/-- `a` and `b` differ by at most `10⁻¹⁵`. -/
def Near (a b : ℝ) : Prop := |a - b| ≤ 1 / 10 ^ 15

/-- The decimals of TimestepSchemeERK.cpp:60-80, 257-287. -/
noncomputable def sA : ℝ := 377268915331368 / 10 ^ 15
noncomputable def sB : ℝ := 644090224936674 / 10 ^ 15
noncomputable def sC : ℝ := 242995220537396 / 10 ^ 15
noncomputable def sD : ℝ := 632066208361863 / 10 ^ 15
noncomputable def sE : ℝ := 238458932846290 / 10 ^ 15
noncomputable def sF : ℝ := 762406163401431 / 10 ^ 15
noncomputable def sG : ℝ := 237593836598569 / 10 ^ 15
noncomputable def sH : ℝ := 287632146308408 / 10 ^ 15
/-- The weight the third stage starts from. -/
noncomputable def sW : ℝ := 1 + 1 / 10 ^ 15

noncomputable def sspA : List (List ℝ) := [[], [sA], [sA, sA], [sB * sA, sB * sA, sC], [sD * (sB * sA), sD * (sB * sA), sD * sC, sE]]
noncomputable def sspB : List ℝ :=
  [sF * (sD * (sB * sA)) + sG * sA, sF * (sD * (sB * sA)) + sG * sA, sF * (sD * sC), sF * sE, sH]
noncomputable def sspWs : List ℝ := [1, 1, 1, sW, 1 + sD / 10 ^ 15]
noncomputable def sspW : ℝ := 1 + sF * sD / 10 ^ 15

theorem gives_ssprk53 (dt : ℝ) :
    ∃ S, symRun (ssprk53M dt) (symInit 4) = some S ∧
      S.fa = List.zipWith (fun w r => (⟨w, r.map (dt * ·), []⟩ : Lin ℝ)) sspWs sspA ∧ S.ga = [] ∧
      S.slots[4]? = some (some ⟨sspW, sspB.map (dt * ·), []⟩) := by
  simp only [ssprk53M, sspWs, sspA, sspW, sspB, sA, sB, sC, sD, sE, sF, sG, sH, sW]
  simp [symRun, symStep, symInit, Sym.addF, Sym.addG, Lin.add, Lin.smul, unitL, addL, symDot]
  norm_num
  ring_nf
  simp

theorem sym_length {K : Type*} [Field K] [DecidableEq K] (p : List (Mac K)) (S S' : Sym K)
    (h : symRun p S = some S') : S'.slots.length = S.slots.length := by
  induction p generalizing S with
  | nil => simp only [symRun, Option.some.injEq] at h; rw [h]
  | cons m p ih =>
    simp only [symRun, Option.bind_eq_some_iff] at h
    obtain ⟨S1, h1, h2⟩ := h
    rw [ih _ h2]
    cases m <;> simp only [symStep] at h1 <;> split at h1 <;>
      (first
        | (cases h1; done)
        | (split_ifs at h1 <;> simp only [Option.some.injEq] at h1 <;> subst h1 <;>
            simp [Sym.addF, Sym.addG])
        | (simp only [Option.some.injEq] at h1; subst h1; simp [Sym.addF, Sym.addG]))

/-- C42 for SSPRK53: the step is the five-stage Shu-Osher method with stages that start from slightly more than the
current state, because two decimals of the source add up to `1 + 10⁻¹⁵`.  (Missing: the exact method; see
`C47_false_ssprk53`.) -/
theorem C42_ssprk53_partial {V W : Type*} [AddCommGroup V] [Module ℝ V] [AddCommGroup W] [Module ℝ W]
    {Dy : Dyn ℝ V W} {P : V × W →ₗ[ℝ] V × W} {F : V × W → V × W}
    (hs : SolvesE Dy (exH Dy) P F) (dt : ℝ) {d : Data V W} {u : V × W} (hd : Current 5 d u) (hu : P u = u) :
    ∃ v, IsRKW sspWs sspA sspW sspB F dt u v ∧
      StepsTo Dy (erkStep (Erk.block .rungeKuttaSSPRK53) dt) d (Dy.hyper dt v) := by
  obtain ⟨S, hS, hf, hg, hr⟩ := gives_ssprk53 dt
  obtain ⟨l, hl, rfl⟩ := exists_ofPairs d 5 hd.1 hd.2.1
  cases l with
  | nil => simp at hl
  | cons x xs =>
    have hx : x = u := by simpa [get_ofPairs] using hd.2.2
    subst hx
    obtain ⟨k, l, ys, hrep, hrun⟩ := sym_sound (G := fun _ => 0) hs (isEx_H Dy) hu (ssprk53M dt)
      (rep_init P F _ x 4 xs (by simpa using hl)) (by simp [ssprk53M, macOk]) hS
    have hlen : ys.length = 5 := by rw [hrep.slots.1, sym_length _ _ _ hS]; simp [symInit]
    obtain ⟨-, hv⟩ := hrep.slots.2 4 _ hr
    obtain ⟨zs, hz, h0⟩ := run_tailA Dy (w := 2) (dt := dt) hv (by omega) (by decide) (by decide) (by omega)
    refine ⟨_, ⟨k, ?_, ?_, ?_⟩, ofPairs zs, ?_, by rw [get_ofPairs, h0]⟩
    · rw [hrep.klen, hf]; rfl
    · intro i r hr w hw
      rw [Option.mem_def] at hr hw
      have := (hrep.keq i ⟨w, r.map (dt * ·), []⟩ (by rw [hf]; simp [List.getElem?_zipWith, hr, hw])).2
      rw [this]
      simp [Lin.val, dot_map_mul]
    · simp [Lin.val, dot_map_mul]
    · have : erkStep (Erk.block .rungeKuttaSSPRK53) dt = expandAll expH (ssprk53M dt) ++ tailA 4 2 dt := by
        simp only [erkStep, tailA, Erk.block, ssprk53_eq, List.append_assoc]
      rw [this, run_append, hrun, Option.bind_some, hz]

/-- C42 for SSPRK53: the weights are within `10⁻¹⁵` of one, and the conditions for order 3 are met within
`10⁻¹⁵`. -/
theorem C42_ssprk53_order_partial :
    (∀ w ∈ sspW :: sspWs, Near w 1) ∧ Near sspB.sum 1 ∧ Near (dp sspB (rs sspA)) (1 / 2) ∧
      Near (dp sspB (had (rs sspA) (rs sspA))) (1 / 3) ∧ Near (dp sspB (mv sspA (rs sspA))) (1 / 6) := by
  simp only [Near, sspWs, sspA, sspW, sspB, sA, sB, sC, sD, sE, sF, sG, sH, sW, dp, rs, had, mv, abs_le]
  norm_num

/-! ### C44 -/

section
variable {K V W : Type*} [Field K] [DecidableEq K] [AddCommGroup V] [Module K V] [AddCommGroup W] [Module K W]
  {Dy : Dyn K V W} {P : V × W →ₗ[K] V × W} {F G : V × W → V × W} {d : Data V W} {u : V × W}

/-- C44, ARS222: without tracers, the step is the published pair of Runge-Kutta methods followed by the
hyperdiffusion, for every nonlinear explicit and implicit tendency, step length and contents of the other slots.
(Missing: tracers, for which C43_false_ars222 shows it false.) -/
theorem C44_ars222_partial [Subsingleton W] {γ δ : K} (hγ : γ ≠ 0) (hs : SolvesE Dy (exHV Dy) P F)
    (dt : K) (hi : SolvesI Dy P G (γ * dt)) (hd : Current 4 d u) (hu : P u = u) :
    ∃ v, IsStep (tab222 γ δ) F G dt u v ∧ StepsTo Dy (ars222 γ δ dt) d (Dy.hyper dt v) := by
  rw [ars222_eq]
  exact step_gives hs (isEx_HV Dy) hu ⟨rfl, rfl, rfl, rfl⟩
    (by simp only [ars222M, List.mem_cons, List.not_mem_nil, or_false, forall_eq_or_imp, forall_eq, macOk]; tauto)
    (gives_222 hγ δ dt) hd
    (fun ys v hl hr => run_tailB Dy hr (by omega) (by omega) (by omega) (by decide) (by decide) (by omega))

/-- C44, ARS232, tracers included. -/
theorem C44_ars232 {γ δ : K} (hγ : γ ≠ 0) (hδ : 1 - δ ≠ 0) (hs : SolvesE Dy (exHV Dy) P F)
    (dt : K) (hi : SolvesI Dy P G (γ * dt)) (hd : Current 7 d u) (hu : P u = u) :
    ∃ v, IsStep (tab232 γ δ) F G dt u v ∧ StepsTo Dy (ars232 γ δ dt) d (Dy.hyper dt v) := by
  rw [ars232_eq]
  exact step_gives hs (isEx_HV Dy) hu ⟨rfl, rfl, rfl, rfl⟩
    (by simp only [ars232M, List.mem_cons, List.not_mem_nil, or_false, forall_eq_or_imp, forall_eq, macOk]; tauto)
    (gives_232 hγ hδ dt) hd
    (fun ys v hl hr => run_tailB Dy hr (by omega) (by omega) (by omega) (by decide) (by decide) (by omega))

/-- C44, ARS343, tracers included. -/
theorem C44_ars343 [CharZero K] (T : Tab343 K) (h : T.γ ≠ 0) (h2 : T.a32 ≠ 0) (h3 : T.a43 ≠ 0)
    (hs : SolvesE Dy (exHV Dy) P F) (dt : K) (hi : SolvesI Dy P G (T.γ * dt)) (hd : Current 7 d u) (hu : P u = u) :
    ∃ v, IsStep (tableau343 T) F G dt u v ∧ StepsTo Dy (ars343 T dt) d (Dy.hyper dt v) := by
  rw [ars343_eq]
  exact step_gives hs (isEx_HV Dy) hu ⟨rfl, rfl, rfl, rfl⟩
    (by simp only [ars343M, List.mem_cons, List.not_mem_nil, or_false, forall_eq_or_imp, forall_eq, macOk]; tauto)
    (gives_343 T h h2 h3 dt) hd
    (fun ys v hl hr => run_tailA Dy hr (by omega) (by decide) (by decide) (by omega))

/-- C44, ARS343b (explicit sub-steps with the horizontal dynamics only), tracers included. -/
theorem C44_ars343b [CharZero K] (T : Tab343 K) (h : T.γ ≠ 0) (h2 : T.a32 ≠ 0) (h3 : T.a43 ≠ 0)
    (hs : SolvesE Dy (exH Dy) P F) (dt : K) (hi : SolvesI Dy P G (T.γ * dt)) (hd : Current 7 d u) (hu : P u = u) :
    ∃ v, IsStep (tableau343 T) F G dt u v ∧ StepsTo Dy (ars343b T dt) d (Dy.hyper dt v) := by
  rw [ars343b_eq]
  refine step_gives hs (isEx_H Dy) hu ⟨rfl, rfl, rfl, rfl⟩
    (by simp only [ars343bM, List.mem_cons, List.not_mem_nil, or_false, forall_eq_or_imp, forall_eq, macOk]; tauto)
    (gives_343b T h h2 h3 dt) hd (fun ys v hl hr => ?_)
  obtain ⟨z, hz⟩ := run_afterC Dy (u := 0) (w := 1) (c := dt) hr (by decide) (by omega)
  exact ⟨_, hz, by rw [List.getElem?_set_ne (by decide), List.getElem?_set_self (by omega)]⟩

/-- C44, ARS443, without tracers. (Missing: tracers, C43_false_ars443.) -/
theorem C44_ars443_partial [Subsingleton W] [CharZero K] (hs : SolvesE Dy (exHV Dy) P F)
    (dt : K) (hi : SolvesI Dy P G (1 / 2 * dt)) (hd : Current 10 d u) (hu : P u = u) :
    ∃ v, IsStep tab443 F G dt u v ∧ StepsTo Dy (ars443 dt) d (Dy.hyper dt v) := by
  rw [ars443_eq]
  exact step_gives hs (isEx_HV Dy) hu ⟨rfl, rfl, rfl, rfl⟩
    (by simp only [ars443M, List.mem_cons, List.not_mem_nil, or_false, forall_eq_or_imp, forall_eq, macOk]; tauto)
    (gives_443 dt) hd
    (fun ys v hl hr => run_tailB Dy hr (by omega) (by omega) (by omega) (by decide) (by decide) (by omega))

/-- C44, SSP3(3,3,2), without tracers. (Missing: tracers, C43_false_ssp3332.) -/
theorem C44_ssp3332_partial [Subsingleton W] [CharZero K] {γ : K} (hγ : γ ≠ 0) (hs : SolvesE Dy (exHV Dy) P F)
    (dt : K) (hi : SolvesI Dy P G (γ * dt)) (hd : Current 9 d u) (hu : P u = u) :
    ∃ v, IsStep (tab3332 γ) F G dt u v ∧ StepsTo Dy (ssp3332 γ dt) d (Dy.hyper dt v) := by
  rw [ssp3332_eq]
  exact step_gives hs (isEx_HV Dy) hu ⟨rfl, rfl, rfl, rfl⟩
    (by simp only [ssp3332M, List.mem_cons, List.not_mem_nil, or_false, forall_eq_or_imp, forall_eq, macOk]; tauto)
    (gives_3332 hγ dt) hd
    (fun ys v hl hr => run_tailB Dy hr (by omega) (by omega) (by omega) (by decide) (by decide) (by omega))

/-- C44, GARK2, without tracers. (Missing: tracers, C43_false_gark2.) -/
theorem C44_gark2_partial [Subsingleton W] {γ : K} (hγ : γ ≠ 0) (α : K) (hs : SolvesE Dy (exHV Dy) P F)
    (dt : K) (hi : SolvesI Dy P G (γ * dt)) (hd : Current 5 d u) (hu : P u = u) :
    ∃ v, IsStep (tabGark2 γ α) F G dt u v ∧ StepsTo Dy (gark2 γ α dt) d (Dy.hyper dt v) := by
  rw [gark2_eq]
  exact step_gives hs (isEx_HV Dy) hu ⟨rfl, rfl, rfl, rfl⟩
    (by simp only [gark2M, List.mem_cons, List.not_mem_nil, or_false, forall_eq_or_imp, forall_eq, macOk]; tauto)
    (gives_gark2 hγ α dt) hd
    (fun ys v hl hr => run_tailB Dy hr (by omega) (by omega) (by omega) (by decide) (by decide) (by omega))

end

/-- The constants of the source: TimestepSchemeARS222.cpp:27-28 (and TimestepSchemeGARK2.cpp:27-28),
TimestepSchemeARS232.cpp:26-27 (and TimestepSchemeSSP3332.cpp:27). -/
noncomputable def γ222 : ℝ := 1 - 1 / 2 * √2
noncomputable def δ222 : ℝ := 1 - 1 / (2 * γ222)
noncomputable def γ232 : ℝ := 1 - 1 / √2
noncomputable def δ232 : ℝ := -(2 * √2) / 3

theorem sq2 : √2 * √2 = (2 : ℝ) := Real.mul_self_sqrt (by norm_num)
theorem sq2_pos : 0 < √2 := Real.sqrt_pos.mpr (by norm_num)
theorem sq2_ub : √2 < 3 / 2 := by nlinarith [sq2, sq2_pos]
theorem sq2_lb : 7 / 5 < √2 := by nlinarith [sq2, sq2_pos]
theorem γ232_eq : γ232 = 1 - √2 / 2 := by
  have := sq2_pos.ne'
  unfold γ232; field_simp; nlinarith [sq2]
theorem γ222_ne : γ222 ≠ 0 := by unfold γ222; nlinarith [sq2_ub]
theorem γ232_ne : γ232 ≠ 0 := by rw [γ232_eq]; nlinarith [sq2_ub]

/-- C44: with the constants of the source, ARS222, ARS232, SSP3(3,3,2) and GARK2 meet all coupled conditions for
second order. -/
theorem C44_order2 : (tab222 γ222 δ222).Order2 ∧ (tab232 γ232 δ232).Order2 ∧ (tab3332 γ232).Order2 ∧
    (tabGark2 γ222 (1 / 2)).Order2 := by
  have h2 : (2 - √2) ≠ 0 := by nlinarith [sq2_ub]
  have := sq2
  refine ⟨?_, ?_, ?_, ?_⟩
  · have hg : γ222 = 1 - √2 / 2 := by unfold γ222; ring
    have hd : δ222 * (2 * γ222) = 2 * γ222 - 1 := by
      unfold δ222; have := γ222_ne; field_simp
    simp only [Tableau.Order2, tab222, dp, rs]
    norm_num
    rw [hg] at hd ⊢
    and_intros <;> nlinarith
  · simp only [Tableau.Order2, tab232, dp, rs, γ232_eq, δ232]
    norm_num
    and_intros <;> nlinarith
  · simp only [Tableau.Order2, tab3332, dp, rs, γ232_eq]
    norm_num
    and_intros <;> nlinarith
  · have hg : γ222 = 1 - √2 / 2 := by unfold γ222; ring
    simp only [Tableau.Order2, tabGark2, dp, rs, hg]
    norm_num
    and_intros <;> nlinarith

/-- C44: ARS443 meets all coupled conditions for third order. -/
theorem C44_order3_ars443 {K : Type*} [Field K] [CharZero K] : (tab443 : Tableau K).Order3 := by
  simp only [Tableau.Order3, Tableau.Order2, Tableau.order3Terms, tab443, dp, rs, had, mv]
  norm_num

/-- C44: ARS343 meets the conditions for first order exactly, and those for second and third order within
`10⁻¹⁵` (its constants are decimals). -/
theorem C44_order3_ars343_partial :
    let T := tableau343 (tab343 (K := ℝ))
    T.bE.sum = 1 ∧ T.bI.sum = 1 ∧
      Near (dp T.bE (rs T.EE)) (1 / 2) ∧ Near (dp T.bE (rs T.EI)) (1 / 2) ∧
      Near (dp T.bI (rs T.IE)) (1 / 2) ∧ Near (dp T.bI (rs T.II)) (1 / 2) ∧
      ∀ p ∈ T.order3Terms, Near p.1 p.2 := by
  simp only [Tableau.order3Terms, tableau343, tab343, dp, rs, had, mv, Near, abs_le]
  norm_num

/-- ARS343's constants meet the hypotheses of `C44_ars343`. -/
example : (tab343 (K := ℝ)).γ ≠ 0 ∧ (tab343 (K := ℝ)).a32 ≠ 0 ∧ (tab343 (K := ℝ)).a43 ≠ 0 := by
  simp only [tab343]; norm_num

theorem decay_solvesHV : SolvesE decay (exHV decay) LinearMap.id (fun x => (-(x.1 * x.1), ())) where
  post _ := rfl
  expl c x y _ := by ext; simp [exHV, decay]
  fixF _ := rfl

theorem decay_solvesI {c : ℝ} (h : 1 + c ≠ 0) : SolvesI decay LinearMap.id (fun x => (-x.1, ())) c where
  impl x _ := by ext; simp only [decay, Prod.fst_add, Prod.smul_fst, smul_eq_mul]; field_simp; ring
  fixG _ := rfl
  hImp _ := rfl

/-- The model problem meets the hypotheses of the theorems above. -/
example : ∃ v : ℝ × Unit, IsStep (tab222 γ222 δ222) (fun x : ℝ × Unit => (-(x.1 * x.1), ())) (fun x => (-x.1, ()))
      (1 / 10 : ℝ) (2, ()) v ∧
    StepsTo decay (ars222 γ222 δ222 (1 / 10 : ℝ)) ⟨[2, 9, 9, 9], [(), (), (), ()]⟩ v :=
  C44_ars222_partial γ222_ne decay_solvesHV (1 / 10)
    (decay_solvesI (by have := sq2_ub; unfold γ222; nlinarith))
    (d := ⟨[2, 9, 9, 9], [(), (), (), ()]⟩) (u := (2, ())) ⟨rfl, rfl, rfl⟩ rfl

end Verif.Steps
