import Verif.Acoustic.Whole
import Verif.Acoustic.Faults

/-!
# C125, C127, C128: tracers in a whole step, schemes and dynamics that do not go together, non-negative tracers
-/

namespace Verif.Acoustic

open Verif.Horiz

section

variable (G : Grid) (S : Settings) (solver : Solver) (others : Steps.Cmd ℝ → Store → Option Store)

/-! ## C125 -/

theorem rub_tracers (dt : ℝ) (s : State) : (rub S dt s).t = s.t := by
  unfold rub
  split <;> rfl

/-- A whole step of ARS343b with the high-speed dynamics and without viscosity does nothing with the tracers but to
average them over the nodes that share a point, whatever the wind. -/
theorem C125_step (hnu : S.nuScalar = 0 ∧ S.nuDiv = 0 ∧ S.nuVort = 0) (T : Steps.Tab343 ℝ) (dt : ℝ) (st st' : Store)
    (hst : runCalls (callHighSpeed G S solver others) (Steps.ars343b T dt) st = some st') (n : Nat) :
    (st' 0).t n = mean G ((st 0).t n) := by
  simp only [Steps.ars343b, Steps.post2, List.cons_append, List.nil_append] at hst
  obtain ⟨m1, e1, hst⟩ := run_explicit G S solver others _ _ _ _ _ _ _ _ hst
  obtain ⟨m2, e2, hst⟩ := run_implicit G S solver others _ _ _ _ _ _ _ _ hst
  obtain ⟨m3, e3, hst⟩ := run_explicit G S solver others _ _ _ _ _ _ _ _ hst
  obtain ⟨m4, e4, hst⟩ := run_implicit G S solver others _ _ _ _ _ _ _ _ hst
  obtain ⟨m5, e5, hst⟩ := run_explicit G S solver others _ _ _ _ _ _ _ _ hst
  obtain ⟨m6, e6, hst⟩ := run_implicit G S solver others _ _ _ _ _ _ _ _ hst
  obtain ⟨m7, e7, hst⟩ := run_explicit G S solver others _ _ _ _ _ _ _ _ hst
  simp only [runCalls, callHighSpeed, Option.bind_eq_some_iff, Option.some.injEq, exists_eq_right] at hst
  unfold afterCombine at hst
  rw [if_neg (by omega), if_pos hnu] at hst
  rw [← Option.some.inj hst, putSlot_same, rub_tracers, putSlot_same]
  show mean G ((m7 0).t n) = _
  rw [(C125_kept G solver _ _ m7 0).2.1 _ _ _ e7, implicit_others G solver _ _ _ _ _ _ _ e6 0 (by omega),
    putSlot_other _ _ _ _ (by omega), putSlot_other _ _ _ _ (by omega), explicit_others G _ _ _ _ _ _ _ e5 0 (by omega),
    implicit_others G solver _ _ _ _ _ _ _ e4 0 (by omega), putSlot_other _ _ _ _ (by omega),
    putSlot_other _ _ _ _ (by omega), explicit_others G _ _ _ _ _ _ _ e3 0 (by omega),
    implicit_others G solver _ _ _ _ _ _ _ e2 0 (by omega), putSlot_other _ _ _ _ (by omega),
    putSlot_other _ _ _ _ (by omega), explicit_others G _ _ _ _ _ _ _ e1 0 (by omega)]

/-! ## C127 -/

/-- A call of `StepExplicit` of the horizontal dynamics. -/
def explicitCall : Steps.Cmd ℝ → Bool
  | .hExp _ _ _ => true
  | _ => false

theorem refused (prog : List (Steps.Cmd ℝ)) (h : prog.any explicitCall = true) (st : Store) :
    runCalls (callHighSpeed G S solver others) prog st = none := by
  induction prog generalizing st with
  | nil => exact absurd h (by simp)
  | cons d ds ih =>
    rw [List.any_cons, Bool.or_eq_true] at h
    simp only [runCalls]
    rcases h with h | h
    · cases d <;> first | rfl | exact absurd h (by simp [explicitCall])
    · cases callHighSpeed G S solver others d st with
      | none => rfl
      | some x => exact ih h x

theorem scheme_explicit (sch : Steps.Scheme ℝ) (h : ∀ T, sch ≠ .ars343b T) (dt : ℝ) :
    (sch.prog dt).any explicitCall = true := by
  have hv : ∀ a u (dt : ℝ), (Steps.expHV a u dt).any explicitCall = true := fun a u dt => rfl
  have left : ∀ a b : List (Steps.Cmd ℝ), a.any explicitCall = true → (a ++ b).any explicitCall = true :=
    fun a b h => by rw [List.any_append, h, Bool.true_or]
  have last : ∀ (l : List (Steps.Cmd ℝ)) a u (dt : ℝ), (l ++ Steps.expHV a u dt).any explicitCall = true :=
    fun l a u dt => by rw [List.any_append, hv, Bool.or_true]
  cases sch with
  | erk m => cases m <;> rfl
  | strang m oc first last =>
    have : (m.block Steps.expHV dt).any explicitCall = true := by cases m <;> rfl
    simp only [Steps.Scheme.prog, Steps.strangStep, List.any_append, Bool.or_eq_true]
    tauto
  | ars343b T => exact absurd rfl (h T)
  | splitExp ns =>
    simp only [Steps.Scheme.prog, Steps.splitExp, List.any_append, Bool.or_eq_true]
    exact Or.inl (Or.inl rfl)
  | ars222 γ δ => simp only [Steps.Scheme.prog, Steps.ars222, List.any_append, hv, Bool.or_true, Bool.true_or]
  | ars232 γ δ => simp only [Steps.Scheme.prog, Steps.ars232, List.any_append, hv, Bool.or_true, Bool.true_or]
  | ars343 T => simp only [Steps.Scheme.prog, Steps.ars343, List.any_append, hv, Bool.or_true, Bool.true_or]
  | ars443 =>
    unfold Steps.Scheme.prog Steps.ars443
    repeat (first | with_reducible exact last _ _ _ _ | with_reducible refine left _ _ ?_)
  | ssp3332 γ => simp only [Steps.Scheme.prog, Steps.ssp3332, List.any_append, hv, Bool.or_true, Bool.true_or]
  | gark2 γ α => simp only [Steps.Scheme.prog, Steps.gark2, List.any_append, hv, Bool.or_true, Bool.true_or]
  | ark232 γ δ α => simp only [Steps.Scheme.prog, Steps.ark232, List.any_append, hv, Bool.or_true, Bool.true_or]
  | ark4 =>
    unfold Steps.Scheme.prog Steps.ark4
    repeat (first | with_reducible exact last _ _ _ _ | with_reducible refine left _ _ ?_)

/-- With the high-speed dynamics every time scheme but ARS343b ends in an exception, whatever the other parts of the model
do. -/
theorem C127_refused (sch : Steps.Scheme ℝ) (h : ∀ T, sch ≠ .ars343b T) (dt : ℝ) (st : Store) :
    runCalls (callHighSpeed G S solver others) (sch.prog dt) st = none :=
  refused G S solver others _ (scheme_explicit sch h dt) st

/-- With every other dynamics a step of ARS343b ends without an exception and does nothing to the model's state but the
averaging over the nodes that share a point: the model's time goes on and its state does not. -/
theorem C127_idle (T : Steps.Tab343 ℝ) (dt : ℝ) (st : Store) :
    ∃ st', runCalls (callOther G others) (Steps.ars343b T dt) st = some st' ∧
      st' 0 = dssTracers G (dss G (st 0)) := by
  simp only [Steps.ars343b, Steps.post2, List.cons_append, List.nil_append, runCalls, callOther, Option.bind_some,
    Option.some.injEq, exists_eq_left']
  simp only [putSlot_same, putSlot_other _ _ _ _ (show (0 : Nat) ≠ 1 by omega),
    putSlot_other _ _ _ _ (show (0 : Nat) ≠ 3 by omega), putSlot_other _ _ _ _ (show (0 : Nat) ≠ 5 by omega)]
  rfl

/-- So a run of ARS343b with any dynamics but the high-speed one, over any number of steps, succeeds and ends with the
density, the density times potential temperature, the vertical momentum and the tracers it began with, whatever the
wind. -/
theorem C127_advances_false (T : Steps.Tab343 ℝ) (dts : List ℝ) (st : Store) (hc : Continuous G (st 0))
    (ht : ∀ n e i j e' i' j' k, G.point e i j = G.point e' i' j' → (st 0).t n e i j k = (st 0).t n e' i' j' k) :
    ∃ st', runCalls (callOther G others) (dts.flatMap (Steps.ars343b T)) st = some st' ∧
      ∀ e i j k, e < G.elements → i < G.order → j < G.order →
        (st' 0).r e i j k = (st 0).r e i j k ∧ (st' 0).p e i j k = (st 0).p e i j k ∧
        (st' 0).w e i j k = (st 0).w e i j k ∧ ∀ n, (st' 0).t n e i j k = (st 0).t n e i j k := by
  have split : ∀ (a b : List (Steps.Cmd ℝ)) (x : Store), runCalls (callOther G others) (a ++ b) x =
      (runCalls (callOther G others) a x).bind (runCalls (callOther G others) b) := by
    intro a
    induction a with
    | nil => intro b x; rfl
    | cons c cs ih =>
      intro b x
      simp only [List.cons_append, runCalls, Option.bind_assoc]
      congr 1
      funext y
      exact ih b y
  have still : ∀ φ ψ : Fld, (∀ e i j e' i' j' k, G.point e i j = G.point e' i' j' → φ e i j k = φ e' i' j' k) →
      (∀ e i j k, e < G.elements → i < G.order → j < G.order → ψ e i j k = φ e i j k) →
      ∀ e i j k, e < G.elements → i < G.order → j < G.order → mean G ψ e i j k = φ e i j k := by
    intro φ ψ hφ h e i j k he hi hj
    rw [mean_same G ψ e i j k he hi hj, h e i j k he hi hj]
    intro e' i' j' he' hi' hj' hp
    rw [h e' i' j' k he' hi' hj', h e i j k he hi hj]
    exact hφ _ _ _ _ _ _ _ hp
  suffices ∀ x : Store, (∀ e i j k, e < G.elements → i < G.order → j < G.order →
        (x 0).r e i j k = (st 0).r e i j k ∧ (x 0).p e i j k = (st 0).p e i j k ∧
        (x 0).w e i j k = (st 0).w e i j k ∧ ∀ n, (x 0).t n e i j k = (st 0).t n e i j k) →
      ∃ st', runCalls (callOther G others) (dts.flatMap (Steps.ars343b T)) x = some st' ∧
        ∀ e i j k, e < G.elements → i < G.order → j < G.order →
          (st' 0).r e i j k = (st 0).r e i j k ∧ (st' 0).p e i j k = (st 0).p e i j k ∧
          (st' 0).w e i j k = (st 0).w e i j k ∧ ∀ n, (st' 0).t n e i j k = (st 0).t n e i j k from
    this st (fun _ _ _ _ _ _ _ => ⟨rfl, rfl, rfl, fun _ => rfl⟩)
  induction dts with
  | nil => exact fun x hx => ⟨x, rfl, hx⟩
  | cons dt dts ih =>
    intro x hx
    obtain ⟨y, hy, y0⟩ := C127_idle G others T dt x
    obtain ⟨z, hz, z0⟩ := ih y (fun e i j k he hi hj => by
      rw [y0]
      exact ⟨still _ _ hc.r (fun e i j k he hi hj => (hx e i j k he hi hj).1) e i j k he hi hj,
        still _ _ hc.p (fun e i j k he hi hj => (hx e i j k he hi hj).2.1) e i j k he hi hj,
        still _ _ hc.w (fun e i j k he hi hj => (hx e i j k he hi hj).2.2.1) e i j k he hi hj,
        fun n => still _ _ (ht n) (fun e i j k he hi hj => (hx e i j k he hi hj).2.2.2 n) e i j k he hi hj⟩)
    refine ⟨z, ?_, z0⟩
    rw [List.flatMap_cons, split, hy]
    exact hz

/-! ## C128 -/

theorem elementMass_slab (φ : Fld) (e k : Nat) : elementMass G S φ false e k = slab G S.area φ e k := by
  unfold elementMass slab
  simp only [Bool.false_and, Bool.false_eq_true, if_false]
  have inner : ∀ i (acc : ℝ), loop G.order (fun j acc => acc + φ e i j k * S.area e i j k) acc =
      acc + ∑ j ∈ Finset.range G.order, φ e i j k * S.area e i j k := fun i acc => loop_add _ _ _
  simp only [inner]
  rw [loop_add G.order (fun i => ∑ j ∈ Finset.range G.order, φ e i j k * S.area e i j k), zero_add]
  exact Finset.sum_congr rfl (fun i _ => Finset.sum_congr rfl (fun j _ => mul_comm _ _))

theorem elementMass_pos (φ : Fld) (e k : Nat) :
    elementMass G S φ true e k = slab G S.area (fun e i j k => max (φ e i j k) 0) e k := by
  unfold elementMass slab
  have inner : ∀ i (acc : ℝ), loop G.order (fun j acc => if (true && decide (φ e i j k < 0)) = true then acc else
      acc + φ e i j k * S.area e i j k) acc =
      acc + ∑ j ∈ Finset.range G.order, max (φ e i j k) 0 * S.area e i j k := fun i acc => by
    rw [← loop_add]
    congr 1
    funext j acc
    by_cases h : φ e i j k < 0
    · simp [h, max_eq_right h.le]
    · simp [h, max_eq_left (not_lt.1 h)]
  simp only [inner]
  rw [loop_add G.order (fun i => ∑ j ∈ Finset.range G.order, max (φ e i j k) 0 * S.area e i j k), zero_add]
  exact Finset.sum_congr rfl (fun i _ => Finset.sum_congr rfl (fun j _ => mul_comm _ _))

/-- What the filter leaves of a tracer in a layer of an element with some of it. -/
theorem filter_element (s : State) (n : Nat) (hn : n < S.tracers) (e k : Nat)
    (harea : ∀ i j, i < G.order → j < G.order → 0 < S.area e i j k) (hm : 0 ≤ slab G S.area (s.t n) e k) :
    (∀ i j, 0 ≤ (filterNegative G S s).t n e i j k) ∧
      slab G S.area ((filterNegative G S s).t n) e k = slab G S.area (s.t n) e k := by
  set M := slab G S.area (s.t n) e k with hM
  set N := slab G S.area (fun e i j k => max (s.t n e i j k) 0) e k with hN
  have val : ∀ i j, (filterNegative G S s).t n e i j k = max (s.t n e i j k) 0 * (M / N) := by
    intro i j
    unfold filterNegative
    dsimp only
    rw [if_pos hn, elementMass_slab, elementMass_pos, ← hM, ← hN]
    by_cases h : 0 < s.t n e i j k
    · rw [if_pos h, max_eq_left h.le]
    · rw [if_neg h, max_eq_right (not_lt.1 h), zero_mul]
  have N0 : 0 ≤ N := by
    rw [hN]
    unfold slab
    exact Finset.sum_nonneg (fun i hi => Finset.sum_nonneg (fun j hj =>
      mul_nonneg (harea i j (Finset.mem_range.1 hi) (Finset.mem_range.1 hj)).le (le_max_right _ _)))
  have MN : M ≤ N := by
    rw [hM, hN]
    unfold slab
    exact Finset.sum_le_sum (fun i hi => Finset.sum_le_sum (fun j hj =>
      mul_le_mul_of_nonneg_left (le_max_left _ _) (harea i j (Finset.mem_range.1 hi) (Finset.mem_range.1 hj)).le))
  refine ⟨fun i j => by rw [val]; exact mul_nonneg (le_max_right _ _) (div_nonneg hm N0), ?_⟩
  have : slab G S.area ((filterNegative G S s).t n) e k = N * (M / N) := by
    generalize M / N = q at val ⊢
    rw [hN]
    unfold slab
    rw [Finset.sum_mul]
    refine Finset.sum_congr rfl (fun i _ => ?_)
    rw [Finset.sum_mul]
    refine Finset.sum_congr rfl (fun j _ => ?_)
    rw [val, mul_assoc]
  rw [this]
  by_cases h : N = 0
  · have : M = 0 := le_antisymm (h ▸ MN) hm
    rw [h, this, zero_mul]
  · field_simp

theorem mean_nonneg (φ : Fld) (k : Nat) (h : ∀ e i j, e < G.elements → i < G.order → j < G.order → 0 ≤ φ e i j k)
    (e i j : Nat) : 0 ≤ mean G φ e i j k := by
  rw [mean_nodes]
  refine div_nonneg (Finset.sum_nonneg fun x hx => ?_) (Finset.sum_nonneg fun x _ => by split <;> norm_num)
  obtain ⟨a, b, c⟩ := in_range G x hx
  split
  · exact h _ _ _ a b c
  · exact le_rfl

/-- The filter and the averaging after it. -/
theorem finish_tracers (h : Fits G S.area) (s : State) (n : Nat) (hn : n < S.tracers)
    (harea : ∀ e i j k, e < G.elements → i < G.order → j < G.order → k < G.levels → 0 < S.area e i j k)
    (hm : ∀ e k, e < G.elements → k < G.levels → 0 ≤ slab G S.area (s.t n) e k) :
    (∀ e i j k, k < G.levels → 0 ≤ (finish G S s).t n e i j k) ∧
      total G S.area ((finish G S s).t n) = total G S.area (s.t n) := by
  have el := fun e k (he : e < G.elements) (hk : k < G.levels) => filter_element G S s n hn e k
    (fun i j hi hj => harea e i j k he hi hj hk) (hm e k he hk)
  constructor
  · intro e i j k hk
    exact mean_nonneg G _ k (fun e i j he _ _ => (el e k he hk).1 i j) e i j
  · refine (total_mean G S.area _ h).trans ?_
    rw [total_slab, total_slab]
    exact Finset.sum_congr rfl (fun e he => Finset.sum_congr rfl (fun k hk =>
      (el e k (Finset.mem_range.1 he) (Finset.mem_range.1 hk)).2))

/-- After the viscosity of the high-speed dynamics no tracer is negative and its integral is what it was, if the integral
over no layer of an element was negative. -/
theorem C128_nonnegative (h : Fits G S.area)
    (harea : ∀ e i j k, e < G.elements → i < G.order → j < G.order → k < G.levels → 0 < S.area e i j k)
    (hnu : ¬(S.nuScalar = 0 ∧ S.nuDiv = 0 ∧ S.nuVort = 0)) (iU iW : Nat) (dt : ℝ) (st st' : Store) (n : Nat)
    (hn : n < S.tracers) (hm : ∀ e k, e < G.elements → k < G.levels → 0 ≤ slab G S.area ((st iU).t n) e k)
    (hst : afterCombine G S iU iW dt st = some st') :
    (∀ e i j k, k < G.levels → 0 ≤ (st' iU).t n e i j k) ∧
      total G S.area ((st' iU).t n) = total G S.area ((st iU).t n) := by
  unfold afterCombine at hst
  by_cases h0 : iU = iW
  · rw [if_pos h0] at hst
    exact absurd hst (by simp)
  rw [if_neg h0, if_neg hnu] at hst
  by_cases h2 : S.order = 4
  swap
  · rw [if_neg h2] at hst
    exact absurd hst (by simp)
  rw [if_pos h2] at hst
  rw [← Option.some.inj hst, putSlot_same, rub_tracers]
  set W := dssTracers G (dss G (vectorDiffusion G S true false (st iU).r 1 1 1 (st iU)
    (scalarDiffusion G S true false 1 1 (st iU) (st iW)))) with hW
  have key : (vectorDiffusion G S false true (scalarDiffusion G S false true (-dt) S.nuScalar W (st iU)).r (-dt) S.nuDiv
      S.nuVort W (scalarDiffusion G S false true (-dt) S.nuScalar W (st iU))).t n =
      fun e i j k => (st iU).t n e i j k - smoothing G S true (-dt) S.nuScalar G.jac (W.t n) e i j k := by
    unfold vectorDiffusion scalarDiffusion
    simp only [if_pos hn, Bool.false_eq_true, if_false]
  obtain ⟨a, b⟩ := finish_tracers G S h (vectorDiffusion G S false true
    (scalarDiffusion G S false true (-dt) S.nuScalar W (st iU)).r (-dt) S.nuDiv S.nuVort W
    (scalarDiffusion G S false true (-dt) S.nuScalar W (st iU))) n hn harea (fun e k he hk => by
      rw [key, slab_minus G S S.area h _ _ _ _ _ e k he hk]
      exact hm e k he hk)
  refine ⟨a, b.trans ?_⟩
  rw [key]
  exact total_minus G S S.area h _ _ _ _ _

/-- The same for the split-explicit dynamics. -/
theorem C128_split (h : Fits G S.area)
    (harea : ∀ e i j k, e < G.elements → i < G.order → j < G.order → k < G.levels → 0 < S.area e i j k)
    (hnu : ¬(S.nuScalar = 0 ∧ S.nuDiv = 0 ∧ S.nuVort = 0)) (hord : S.order ≠ 0) (iI iU iW : Nat) (dt : ℝ)
    (st st' : Store) (n : Nat) (hn : n < S.tracers)
    (hm : ∀ e k, e < G.elements → k < G.levels → 0 ≤ slab G S.area ((st iI).t n) e k)
    (hst : stepAfter G S iI iU iW dt st = some st') :
    (∀ e i j k, k < G.levels → 0 ≤ (st' iU).t n e i j k) ∧
      total G S.area ((st' iU).t n) = total G S.area ((st iI).t n) := by
  have done : ∀ (scale : Bool) (τ : ℝ) (φ : Fld) (s : State),
      s.t n = (fun e i j k => (st iI).t n e i j k - smoothing G S scale τ S.nuScalar G.jac φ e i j k) →
      (∀ e i j k, k < G.levels → 0 ≤ (finish G S s).t n e i j k) ∧
        total G S.area ((finish G S s).t n) = total G S.area ((st iI).t n) := by
    intro scale τ φ s key
    obtain ⟨a, b⟩ := finish_tracers G S h s n hn harea (fun e k he hk => by
      rw [key, slab_minus G S S.area h _ _ _ _ _ e k he hk]
      exact hm e k he hk)
    refine ⟨a, b.trans ?_⟩
    rw [key]
    exact total_minus G S S.area h _ _ _ _ _
  unfold stepAfter at hst
  by_cases h0 : iI = iW ∨ iU = iW
  · rw [if_pos h0] at hst
    exact absurd hst (by simp)
  rw [if_neg h0, if_neg hnu, if_neg hord] at hst
  by_cases h3 : S.order = 2
  · rw [if_pos h3] at hst
    rw [← Option.some.inj hst, putSlot_same, rub_tracers]
    refine done false dt ((st iI).t n) _ ?_
    unfold vectorDiffusion scalarDiffusion
    simp only [if_pos hn, Bool.false_eq_true, if_false]
  rw [if_neg h3] at hst
  by_cases h4 : S.order = 4
  swap
  · rw [if_neg h4] at hst
    exact absurd hst (by simp)
  rw [if_pos h4] at hst
  rw [← Option.some.inj hst, putSlot_same, rub_tracers]
  set W := dssTracers G (dss G (vectorDiffusion G S false false (st iI).r 1 1 1 (st iI)
      (scalarDiffusion G S false false 1 1 (st iI) { zero (st iW) with t := fun _ _ _ _ _ => 0 }))) with hW
  refine done true (-dt) (W.t n) _ ?_
  unfold vectorDiffusion scalarDiffusion
  simp only [if_pos hn, Bool.false_eq_true, if_false]

end

end Verif.Acoustic
