import Verif.Acoustic.Conserve
import Verif.Acoustic.After

/-!
# C126, C127, C128 and C125: whole steps of the high-speed dynamics, and viscosity
-/

namespace Verif.Acoustic

open Verif.Horiz

section

variable (G : Grid) (S : Settings)

theorem stiffA_weak (φ : Fld) (e i j k : Nat) : stiffA G φ e i j k = -weakA G φ e i j k := by
  unfold stiffA weakA
  rw [loop_add G.order (fun s => φ e s j k * G.B.stiff i s), loop_sub G.order (fun s => φ e s j k * G.B.stiff i s)]
  ring

theorem stiffB_weak (φ : Fld) (e i j k : Nat) : stiffB G φ e i j k = -weakB G φ e i j k := by
  unfold stiffB weakB
  rw [loop_add G.order (fun s => φ e i s k * G.B.stiff j s), loop_sub G.order (fun s => φ e i s k * G.B.stiff j s)]
  ring

theorem smoothing_div (scale : Bool) (dt nu : ℝ) (φ : Fld) (e i j k : Nat) :
    smoothing G S scale dt nu G.jac φ e i j k =
      -(dt * localNu G S scale nu e) * div G (jGradA G G.jac φ) (jGradB G G.jac φ) e i j k := by
  unfold smoothing div
  rw [stiffA_weak, stiffB_weak]
  ring

theorem slab_smoothing (area : Fld) (h : Fits G area) (scale : Bool) (dt nu : ℝ) (φ : Fld) (e k : Nat)
    (he : e < G.elements) (hk : k < G.levels) : slab G area (smoothing G S scale dt nu G.jac φ) e k = 0 := by
  have := slab_mul G area (div G (jGradA G G.jac φ) (jGradB G G.jac φ)) (-(dt * localNu G S scale nu e)) e k
  rw [slab_div G area _ _ h e k he hk, mul_zero] at this
  rw [← this]
  unfold slab
  simp only [smoothing_div]

theorem slab_minus (area : Fld) (h : Fits G area) (scale : Bool) (dt nu : ℝ) (φ ψ : Fld) (e k : Nat)
    (he : e < G.elements) (hk : k < G.levels) :
    slab G area (fun e i j k => ψ e i j k - smoothing G S scale dt nu G.jac φ e i j k) e k = slab G area ψ e k := by
  have a := slab_add G area ψ (fun e i j k => -1 * smoothing G S scale dt nu G.jac φ e i j k) e k
  rw [slab_mul, slab_smoothing G S area h scale dt nu φ e k he hk, mul_zero, add_zero] at a
  rw [← a]
  unfold slab
  refine Finset.sum_congr rfl (fun i _ => Finset.sum_congr rfl (fun j _ => by ring))

theorem total_minus (area : Fld) (h : Fits G area) (scale : Bool) (dt nu : ℝ) (φ ψ : Fld) :
    total G area (fun e i j k => ψ e i j k - smoothing G S scale dt nu G.jac φ e i j k) = total G area ψ := by
  rw [total_slab, total_slab]
  exact Finset.sum_congr rfl (fun e he => Finset.sum_congr rfl (fun k hk =>
    slab_minus G S area h scale dt nu φ ψ e k (Finset.mem_range.1 he) (Finset.mem_range.1 hk)))

theorem total_rub (area : Fld) (dt : ℝ) (s : State) : total G area (rub S dt s).r = total G area s.r ∧
    (S.friction = false → total G area (rub S dt s).p = total G area s.p) := by
  unfold rub
  refine ⟨by split <;> rfl, fun hf => ?_⟩
  rw [hf]
  rfl

/-- The viscosity of the high-speed dynamics leaves the integral of density as it is, and without friction that of
density times potential temperature. -/
theorem C126_viscosity (area : Fld) (h : Fits G area) (iU iW : Nat) (dt : ℝ) (st st' : Store)
    (hst : afterCombine G S iU iW dt st = some st') :
    total G area (st' iU).r = total G area (st iU).r ∧
      (S.friction = false → total G area (st' iU).p = total G area (st iU).p) := by
  unfold afterCombine at hst
  by_cases h0 : iU = iW
  · rw [if_pos h0] at hst
    exact absurd hst (by simp)
  rw [if_neg h0] at hst
  by_cases h1 : S.nuScalar = 0 ∧ S.nuDiv = 0 ∧ S.nuVort = 0
  · rw [if_pos h1] at hst
    rw [← Option.some.inj hst, putSlot_same]
    exact total_rub G S area dt _
  rw [if_neg h1] at hst
  by_cases h2 : S.order = 4
  swap
  · rw [if_neg h2] at hst
    exact absurd hst (by simp)
  rw [if_pos h2] at hst
  rw [← Option.some.inj hst, putSlot_same]
  obtain ⟨a, b⟩ := total_rub G S area dt (finish G S (vectorDiffusion G S false true
    (scalarDiffusion G S false true (-dt) S.nuScalar (dssTracers G (dss G (vectorDiffusion G S true false (st iU).r 1 1 1
      (st iU) (scalarDiffusion G S true false 1 1 (st iU) (st iW))))) (st iU)).r (-dt) S.nuDiv S.nuVort
    (dssTracers G (dss G (vectorDiffusion G S true false (st iU).r 1 1 1 (st iU)
      (scalarDiffusion G S true false 1 1 (st iU) (st iW)))))
    (scalarDiffusion G S false true (-dt) S.nuScalar (dssTracers G (dss G (vectorDiffusion G S true false (st iU).r 1 1 1
      (st iU) (scalarDiffusion G S true false 1 1 (st iU) (st iW))))) (st iU))))
  refine ⟨a.trans ?_, fun hf => (b hf).trans ?_⟩
  · exact (total_mean G area _ h).trans (total_minus G S area h true (-dt) S.nuScalar _ _)
  · exact (total_mean G area _ h).trans (total_minus G S area h true (-dt) S.nuScalar _ _)

/-- The same for the viscosity of the split-explicit dynamics. -/
theorem C126_split (area : Fld) (h : Fits G area) (iI iU iW : Nat) (dt : ℝ) (st st' : Store)
    (hst : stepAfter G S iI iU iW dt st = some st') :
    total G area (st' iU).r = total G area (st iI).r ∧
      (S.friction = false → total G area (st' iU).p = total G area (st iI).p) := by
  unfold stepAfter at hst
  by_cases h0 : iI = iW ∨ iU = iW
  · rw [if_pos h0] at hst
    exact absurd hst (by simp)
  rw [if_neg h0] at hst
  by_cases h1 : S.nuScalar = 0 ∧ S.nuDiv = 0 ∧ S.nuVort = 0
  · rw [if_pos h1] at hst
    rw [← Option.some.inj hst, putSlot_same]
    exact total_rub G S area dt _
  rw [if_neg h1] at hst
  by_cases h2 : S.order = 0
  · rw [if_pos h2] at hst
    rw [← Option.some.inj hst, putSlot_same]
    exact total_rub G S area dt _
  rw [if_neg h2] at hst
  by_cases h3 : S.order = 2
  · rw [if_pos h3] at hst
    rw [← Option.some.inj hst, putSlot_same]
    obtain ⟨a, b⟩ := total_rub G S area dt (finish G S (vectorDiffusion G S false false (st iI).r (-dt) S.nuDiv S.nuVort
      (st iI) (scalarDiffusion G S false false dt S.nuScalar (st iI) (st iI))))
    refine ⟨a.trans ?_, fun hf => (b hf).trans ?_⟩
    · exact (total_mean G area _ h).trans (total_minus G S area h false dt S.nuScalar _ _)
    · exact (total_mean G area _ h).trans (total_minus G S area h false dt S.nuScalar _ _)
  rw [if_neg h3] at hst
  by_cases h4 : S.order = 4
  swap
  · rw [if_neg h4] at hst
    exact absurd hst (by simp)
  rw [if_pos h4] at hst
  rw [← Option.some.inj hst, putSlot_same]
  obtain ⟨a, b⟩ := total_rub G S area dt (finish G S (vectorDiffusion G S false true (st iI).r (-dt) S.nuDiv S.nuVort
    (dssTracers G (dss G (vectorDiffusion G S false false (st iI).r 1 1 1 (st iI)
      (scalarDiffusion G S false false 1 1 (st iI) { zero (st iW) with t := fun _ _ _ _ _ => 0 }))))
    (scalarDiffusion G S false true (-dt) S.nuScalar (dssTracers G (dss G (vectorDiffusion G S false false (st iI).r 1 1 1
      (st iI) (scalarDiffusion G S false false 1 1 (st iI) { zero (st iW) with t := fun _ _ _ _ _ => 0 })))) (st iI))))
  refine ⟨a.trans ?_, fun hf => (b hf).trans ?_⟩
  · exact (total_mean G area _ h).trans (total_minus G S area h true (-dt) S.nuScalar _ _)
  · exact (total_mean G area _ h).trans (total_minus G S area h true (-dt) S.nuScalar _ _)

/-! ## Whole steps -/

/-- What a call does to the integrals of the instances. -/
theorem explicit_total (area : Fld) (h : Fits G area) (coeff : List ℝ) (inst : List Nat) (iA iU : Nat) (dt : ℝ)
    (st st' : Store) (hst : explicitCombine G coeff inst iA iU dt st = some st') :
    total G area (st' iU).r = ((coeff.zip inst).map fun x => x.1 * total G area (st x.2).r).sum ∧
      total G area (st' iU).p = ((coeff.zip inst).map fun x => x.1 * total G area (st x.2).p).sum := by
  have sum : ∀ (part : State → Fld), (∀ e k, e < G.elements → k < G.levels → slab G area (part (st' iU)) e k =
      ((coeff.zip inst).map fun x => x.1 * slab G area (part (st x.2)) e k).sum) →
      total G area (part (st' iU)) = ((coeff.zip inst).map fun x => x.1 * total G area (part (st x.2))).sum := by
    intro part hp
    rw [← total_combine, total_slab, total_slab]
    refine Finset.sum_congr rfl (fun e he => Finset.sum_congr rfl (fun k hk => ?_))
    rw [hp e k (Finset.mem_range.1 he) (Finset.mem_range.1 hk), slab_combine]
  exact ⟨sum State.r (fun e k he hk => (C120_explicit G area h coeff inst iA iU dt st st' hst e k he hk).1),
    sum State.p (fun e k he hk => (C120_explicit G area h coeff inst iA iU dt st st' hst e k he hk).2)⟩

theorem explicit_others (coeff : List ℝ) (inst : List Nat) (iA iU : Nat) (dt : ℝ) (st st' : Store)
    (hst : explicitCombine G coeff inst iA iU dt st = some st') (m : Nat) (hm : m ≠ iU) : st' m = st m := by
  unfold explicitCombine at hst
  split at hst
  · exact absurd hst (by simp)
  · rw [← Option.some.inj hst]
    exact putSlot_other _ _ _ _ hm

theorem implicit_others (solver : Solver) (coeff : List ℝ) (inst : List Nat) (iA iU : Nat) (dt : ℝ) (st st' : Store)
    (hst : implicitCombine G solver coeff inst iA iU dt st = some st') (m : Nat) (hm : m ≠ iU) : st' m = st m := by
  unfold implicitCombine at hst
  obtain ⟨s, _, rfl⟩ := Option.map_eq_some_iff.1 hst
  exact putSlot_other _ _ _ _ hm

theorem total_post (area : Fld) (h : Fits G area) (s : State) :
    total G area (post G .tracers (post G .state s)).r = total G area s.r ∧
      total G area (post G .tracers (post G .state s)).p = total G area s.p :=
  ⟨total_mean G area s.r h, total_mean G area s.p h⟩

end

/-- An explicit stage of ARS343b with the post-processing of state and tracers. -/
theorem run_explicit (G : Grid) (S : Settings) (solver : Solver) (others : Steps.Cmd ℝ → Store → Option Store)
    (inst : List Nat) (coeff : List ℝ) (a u : Nat) (dt : ℝ) (rest : List (Steps.Cmd ℝ)) (st st' : Store)
    (h : runCalls (callHighSpeed G S solver others)
      (.expCombine inst coeff a u dt :: .post u .state :: .post u .tracers :: rest) st = some st') :
    ∃ m, explicitCombine G coeff inst a u dt st = some m ∧
      runCalls (callHighSpeed G S solver others) rest
        (putSlot (putSlot m u (post G .state (m u))) u (post G .tracers (post G .state (m u)))) = some st' := by
  simp only [runCalls, callHighSpeed, Option.bind_eq_some_iff, Option.some.injEq, exists_eq_left'] at h
  obtain ⟨m, hm, h⟩ := h
  refine ⟨m, hm, ?_⟩
  rwa [putSlot_same] at h

theorem run_implicit (G : Grid) (S : Settings) (solver : Solver) (others : Steps.Cmd ℝ → Store → Option Store)
    (inst : List Nat) (coeff : List ℝ) (a u : Nat) (dt : ℝ) (rest : List (Steps.Cmd ℝ)) (st st' : Store)
    (h : runCalls (callHighSpeed G S solver others) (.impCombine inst coeff a u dt :: rest) st = some st') :
    ∃ m, implicitCombine G solver coeff inst a u dt st = some m ∧
      runCalls (callHighSpeed G S solver others) rest m = some st' := by
  simpa only [runCalls, callHighSpeed, Option.bind_eq_some_iff] using h

/-- The integrals of one kind in the instances `0` to `6`, as one number each. -/
theorem stages (T : Steps.Tab343 ℝ) (M : ℝ) :
    (([1] : List ℝ).map fun c => c * M).sum = M ∧
    ((Steps.u2c T).map fun c => c * M).sum = M ∧ ((Steps.u3c T).map fun c => c * M).sum = M ∧
      ((Steps.u4c T).map fun c => c * M).sum = M := by
  refine ⟨by simp, ?_, ?_, ?_⟩
  · simp only [Steps.u2c, List.map_cons, List.map_nil, List.sum_cons, List.sum_nil]
    ring
  · simp only [Steps.u3c, List.map_cons, List.map_nil, List.sum_cons, List.sum_nil]
    ring
  · simp only [Steps.u4c, List.map_cons, List.map_nil, List.sum_cons, List.sum_nil]
    ring

/-- The combination of instances that all have the same integral. -/
theorem combine_same (coeff : List ℝ) (inst : List Nat) (F : Nat → ℝ) (M : ℝ) (hl : coeff.length = inst.length)
    (h : ∀ m ∈ inst, F m = M) : ((coeff.zip inst).map fun x => x.1 * F x.2).sum = (coeff.map fun c => c * M).sum := by
  induction coeff generalizing inst with
  | nil => rfl
  | cons c cs ih =>
    cases inst with
    | nil => exact absurd hl (by simp)
    | cons m ms =>
      simp only [List.zip_cons_cons, List.map_cons, List.sum_cons]
      rw [h m (by simp), ih ms (by simpa using hl) (fun m hm => h m (by simp [hm]))]

section

variable (G : Grid) (S : Settings) (solver : Solver) (others : Steps.Cmd ℝ → Store → Option Store)

/-- Instances up to `n` (other than `0`, which is `M` anyway) have the same integrals. -/
def Level (area : Fld) (part : State → Fld) (M : ℝ) (st : Store) (n : Nat) : Prop :=
  ∀ m, m < n → total G area (part (st m)) = M

theorem level_explicit (area : Fld) (h : Fits G area) (coeff : List ℝ) (inst : List Nat) (iA iU : Nat) (dt : ℝ)
    (st m : Store) (hst : explicitCombine G coeff inst iA iU dt st = some m) (R P : ℝ) (n : Nat)
    (hl : coeff.length = inst.length) (hi : ∀ x ∈ inst, x < n) (hU : iU = n ∨ iU < n)
    (hc : (coeff.map fun c => c * R).sum = R ∧ (coeff.map fun c => c * P).sum = P)
    (hR : Level G area State.r R st n) (hP : Level G area State.p P st n) :
    Level G area State.r R (putSlot (putSlot m iU (post G .state (m iU))) iU (post G .tracers (post G .state (m iU))))
      (max n (iU + 1)) ∧
    Level G area State.p P (putSlot (putSlot m iU (post G .state (m iU))) iU (post G .tracers (post G .state (m iU))))
      (max n (iU + 1)) := by
  obtain ⟨tr, tp⟩ := explicit_total G area h coeff inst iA iU dt st m hst
  rw [combine_same coeff inst (fun x => total G area (st x).r) R hl (fun x hx => hR x (hi x hx)), hc.1] at tr
  rw [combine_same coeff inst (fun x => total G area (st x).p) P hl (fun x hx => hP x (hi x hx)), hc.2] at tp
  obtain ⟨pr, pp⟩ := total_post G area h (m iU)
  constructor <;> intro x hx
  · by_cases hxU : x = iU
    · rw [hxU, putSlot_same]
      exact pr.trans tr
    · rw [putSlot_other _ _ _ _ hxU, putSlot_other _ _ _ _ hxU, explicit_others G coeff inst iA iU dt st m hst x hxU]
      exact hR x (by omega)
  · by_cases hxU : x = iU
    · rw [hxU, putSlot_same]
      exact pp.trans tp
    · rw [putSlot_other _ _ _ _ hxU, putSlot_other _ _ _ _ hxU, explicit_others G coeff inst iA iU dt st m hst x hxU]
      exact hP x (by omega)

theorem level_implicit (area : Fld) (h : Fits G area) (hn : 0 < G.levels) (hs : Exact G.levels solver) (a n : Nat)
    (han : a < n) (dt : ℝ) (st m : Store) (hst : implicitCombine G solver [1] [a] a n dt st = some m) (R P : ℝ)
    (hR : Level G area State.r R st n) (hP : Level G area State.p P st n) :
    Level G area State.r R m (n + 1) ∧ Level G area State.p P m (n + 1) := by
  obtain ⟨tr, tp⟩ := C120_implicit G area h hn solver hs [1] [a] a n dt st m hst
  constructor <;> intro x hx
  · by_cases hxn : x = n
    · rw [hxn, tr]
      simpa using hR a han
    · rw [implicit_others G solver [1] [a] a n dt st m hst x hxn]
      exact hR x (by omega)
  · by_cases hxn : x = n
    · rw [hxn, tp]
      simpa using hP a han
    · rw [implicit_others G solver [1] [a] a n dt st m hst x hxn]
      exact hP x (by omega)

/-- A whole step of ARS343b with the high-speed dynamics leaves the integral of density over the model's state as it was,
whatever the state, the step and the viscosity; and without friction that of density times potential temperature. -/
theorem C126_step (area : Fld) (h : Fits G area) (hn : 0 < G.levels) (hs : Exact G.levels solver) (T : Steps.Tab343 ℝ)
    (dt : ℝ) (st st' : Store)
    (hst : runCalls (callHighSpeed G S solver others) (Steps.ars343b T dt) st = some st') :
    total G area (st' 0).r = total G area (st 0).r ∧
      (S.friction = false → total G area (st' 0).p = total G area (st 0).p) := by
  set R := total G area (st 0).r with hR
  set P := total G area (st 0).p with hP
  have s0r : Level G area State.r R st 1 := fun m hm => by obtain rfl : m = 0 := by omega
                                                           rfl
  have s0p : Level G area State.p P st 1 := fun m hm => by obtain rfl : m = 0 := by omega
                                                           rfl
  simp only [Steps.ars343b, Steps.post2, List.cons_append, List.nil_append] at hst
  obtain ⟨m1, e1, hst⟩ := run_explicit G S solver others _ _ _ _ _ _ _ _ hst
  obtain ⟨r1, p1⟩ := level_explicit G area h [1] [0] 0 1 _ _ _ e1 R P 1 rfl (by simp) (Or.inl rfl)
    ⟨(stages T R).1, (stages T P).1⟩ s0r s0p
  obtain ⟨m2, e2, hst⟩ := run_implicit G S solver others _ _ _ _ _ _ _ _ hst
  obtain ⟨r2, p2⟩ := level_implicit G solver area h hn hs 1 2 (by omega) _ _ _ e2 R P r1 p1
  obtain ⟨m3, e3, hst⟩ := run_explicit G S solver others _ _ _ _ _ _ _ _ hst
  obtain ⟨r3, p3⟩ := level_explicit G area h _ _ 2 3 _ _ _ e3 R P 3 rfl (by simp) (Or.inl rfl)
    ⟨(stages T R).2.1, (stages T P).2.1⟩ r2 p2
  obtain ⟨m4, e4, hst⟩ := run_implicit G S solver others _ _ _ _ _ _ _ _ hst
  obtain ⟨r4, p4⟩ := level_implicit G solver area h hn hs 3 4 (by omega) _ _ _ e4 R P r3 p3
  obtain ⟨m5, e5, hst⟩ := run_explicit G S solver others _ _ _ _ _ _ _ _ hst
  obtain ⟨r5, p5⟩ := level_explicit G area h _ _ 4 5 _ _ _ e5 R P 5 rfl (by simp) (Or.inl rfl)
    ⟨(stages T R).2.2.1, (stages T P).2.2.1⟩ r4 p4
  obtain ⟨m6, e6, hst⟩ := run_implicit G S solver others _ _ _ _ _ _ _ _ hst
  obtain ⟨r6, p6⟩ := level_implicit G solver area h hn hs 5 6 (by omega) _ _ _ e6 R P r5 p5
  obtain ⟨m7, e7, hst⟩ := run_explicit G S solver others _ _ _ _ _ _ _ _ hst
  obtain ⟨r7, p7⟩ := level_explicit G area h _ _ 6 0 _ _ _ e7 R P 7 rfl (by simp) (Or.inr (by omega))
    ⟨(stages T R).2.2.2, (stages T P).2.2.2⟩ r6 p6
  simp only [runCalls, callHighSpeed, Option.bind_eq_some_iff, Option.some.injEq, exists_eq_right] at hst
  obtain ⟨a, b⟩ := C126_viscosity G S area h 0 1 dt _ _ hst
  exact ⟨a.trans (r7 0 (by omega)), fun hf => (b hf).trans (p7 0 (by omega))⟩

/-- A run: any number of steps, of any lengths. -/
theorem C126_run (area : Fld) (h : Fits G area) (hn : 0 < G.levels) (hs : Exact G.levels solver) (T : Steps.Tab343 ℝ)
    (dts : List ℝ) (st st' : Store)
    (hst : runCalls (callHighSpeed G S solver others) (dts.flatMap (Steps.ars343b T)) st = some st') :
    total G area (st' 0).r = total G area (st 0).r ∧
      (S.friction = false → total G area (st' 0).p = total G area (st 0).p) := by
  have split : ∀ (a b : List (Steps.Cmd ℝ)) (x : Store), runCalls (callHighSpeed G S solver others) (a ++ b) x =
      (runCalls (callHighSpeed G S solver others) a x).bind (runCalls (callHighSpeed G S solver others) b) := by
    intro a
    induction a with
    | nil => intro b x; rfl
    | cons c cs ih =>
      intro b x
      simp only [List.cons_append, runCalls, Option.bind_assoc]
      congr 1
      funext y
      exact ih b y
  induction dts generalizing st with
  | nil =>
    obtain rfl : st = st' := Option.some.inj hst
    exact ⟨rfl, fun _ => rfl⟩
  | cons dt dts ih =>
    rw [List.flatMap_cons, split, Option.bind_eq_some_iff] at hst
    obtain ⟨m, h1, h2⟩ := hst
    obtain ⟨a, b⟩ := C126_step G S solver others area h hn hs T dt st m h1
    obtain ⟨c, d⟩ := ih m h2
    exact ⟨c.trans a, fun hf => (d hf).trans (b hf)⟩

end

end Verif.Acoustic
