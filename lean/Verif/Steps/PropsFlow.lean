/-
C18, C43 and C65: combining slots, independence of scratch contents, and no access outside the reserved slots.
The statements about dependence and failure hold for arbitrary (in particular rounded) arithmetic.
-/
import Verif.Steps.Flow
import Verif.Steps.Schemes
import Mathlib.Tactic.NormNum
import Mathlib.Tactic.Ring
import Mathlib.Tactic.FieldSimp
import Mathlib.Data.Rat.Defs

namespace Verif.Steps

section C18
variable {K V : Type*}

/-- C18: over exact arithmetic the destination becomes the linear combination of the slots as they were, and the
other slots keep their contents. -/
theorem C18_linearCombine [Semiring K] [DecidableEq K] [AddCommMonoid V] [Module K V] (coeffs : List K) (dest : Nat)
    (slots : List V) (h1 : dest < coeffs.length) (h2 : coeffs.length ≤ slots.length) :
    ∃ slots', linearCombine (modOps K) coeffs (dest : Int) slots = some slots' ∧ slots'.length = slots.length ∧
      slots'[dest]? = some ((List.zipWith (fun c x => c • x) coeffs slots).sum) ∧
      ∀ i : Nat, i ≠ dest → slots'[i]? = slots[i]? := by
  refine ⟨_, linearCombine_dot coeffs dest slots h1 h2, by simp, ?_, fun i hi => ?_⟩
  · rw [List.getElem?_set_self (by omega)]; rfl
  · rw [List.getElem?_set_ne (fun h => hi h.symm)]

example : linearCombine (modOps ℚ) [2, 0, -1] 1 [(5 : ℚ), 7, 3, 4] = some [5, 7, 3, 4] := by
  rw [show (1 : Int) = ((1 : Nat) : Int) from rfl, linearCombine_dot _ _ _ (by decide) (by decide)]
  simp [dot]; norm_num

/-- C18, for arbitrary arithmetic: a slot with coefficient zero (the destination included) is not read, whatever
it contains. -/
theorem C18_zero_not_read [Zero K] [DecidableEq K] (o : Ops K V) (coeffs : List K) (dest : Nat) (slots slots' : List V)
    (hl : slots.length = slots'.length)
    (h : ∀ i : Nat, i < slots.length → coeffs[i]? ≠ some 0 → slots[i]? = slots'[i]?)
    (r : List V) (hr : linearCombine o coeffs (dest : Int) slots = some r) :
    ∃ r', linearCombine o coeffs (dest : Int) slots' = some r' ∧ r[dest]? = r'[dest]? := by
  classical
  have ha : AgreeL ((List.range slots.length).map fun i => decide (coeffs[i]? ≠ some 0)) slots slots' := by
    refine ⟨by simp, by simp [hl], fun i hi => ?_⟩
    simp only [List.getElem?_map, Option.map_eq_some_iff, decide_eq_true_eq] at hi
    obtain ⟨j, hj, hne⟩ := hi
    have hjl := (List.getElem?_eq_some_iff.mp hj).1
    rw [List.getElem?_range (by simpa using hjl), Option.some.injEq] at hj
    subst hj
    exact h i (by simpa using hjl) hne
  have key := linearCombine_flow o ha coeffs dest
  rw [hr] at key
  cases hr' : linearCombine o coeffs (dest : Int) slots' with
  | none => rw [hr'] at key; exact absurd key (by simp [Both])
  | some r' =>
    rw [hr'] at key
    refine ⟨r', rfl, ?_⟩
    simp only [Both] at key
    by_cases hd : dest < slots.length
    · refine key.2.2 dest ?_
      rw [List.getElem?_set_self (by simpa using hd), Option.some.injEq]
      unfold combKnown
      rw [List.all_eq_true]
      intro x hx
      obtain ⟨i, hi, rfl⟩ := List.mem_iff_getElem.mp hx
      simp only [List.length_zipWith, List.length_map, List.length_range, lt_min_iff] at hi
      simp only [List.getElem_zipWith, List.getElem_map, List.getElem_range, id_eq, Bool.or_eq_true,
        decide_eq_true_eq]
      by_cases h0 : coeffs[i] = 0
      · exact Or.inl h0
      · right; rw [List.getElem?_eq_getElem hi.1]; simpa using h0
    · rw [List.getElem?_eq_none (by rw [key.1]; simp; omega), List.getElem?_eq_none (by rw [key.2.1]; simp; omega)]

example : linearCombine (⟨9, fun x c => x * c, fun x y c => x + y * c⟩ : Ops ℚ ℚ) [2, 0] (1 : Nat) [3, 100]
    = some [3, 15] := by decide +kernel

/-- C18: calls with a negative destination, one outside the coefficients or the slots, or more coefficients than
slots are refused. -/
theorem C18_refused [Zero K] [DecidableEq K] (o : Ops K V) (coeffs : List K) (dest : Int) (slots : List V) :
    linearCombine o coeffs dest slots = none ↔
      dest < 0 ∨ (coeffs.length : Int) ≤ dest ∨ (slots.length : Int) ≤ dest ∨ slots.length < coeffs.length := by
  unfold linearCombine
  by_cases h0 : dest < 0
  · simp [h0]
  · rw [if_neg h0]
    by_cases h1 : dest.toNat < coeffs.length
    · by_cases h2 : dest.toNat < slots.length
      · simp only [List.getElem?_eq_getElem h1, List.getElem?_eq_getElem h2]
        by_cases h3 : slots.length < coeffs.length
        · simp [h3]
        · rw [if_neg h3]; simp only [reduceCtorEq, false_iff, not_or]; omega
      · rw [List.getElem?_eq_none (by omega : slots.length ≤ dest.toNat)]
        simp; omega
    · rw [List.getElem?_eq_none (by omega : coeffs.length ≤ dest.toNat)]
      simp; omega

/-- C18: copying sets the destination to the source and nothing else; bad slots are refused. -/
theorem C18_copy (src dest : Int) (slots : List V) :
    (∀ r, copyData src dest slots = some r → ∃ x, slots[src.toNat]? = some x ∧ r = slots.set dest.toNat x) ∧
    (copyData src dest slots = none ↔
      src < 0 ∨ dest < 0 ∨ (slots.length : Int) ≤ src ∨ (slots.length : Int) ≤ dest) := by
  unfold copyData
  by_cases h0 : src < 0 ∨ dest < 0
  · rw [if_pos h0]
    refine ⟨fun r h => by simp at h, ?_⟩
    simp only [true_iff]; tauto
  · rw [if_neg h0]
    simp only [not_or] at h0
    by_cases h1 : src.toNat < slots.length
    · by_cases h2 : dest.toNat < slots.length
      · simp only [List.getElem?_eq_getElem h1, List.getElem?_eq_getElem h2]
        refine ⟨fun r h => ⟨_, rfl, (Option.some.inj h).symm⟩, ?_⟩
        simp only [reduceCtorEq, false_iff, not_or]; omega
      · rw [List.getElem?_eq_none (by omega : slots.length ≤ dest.toNat)]
        refine ⟨fun r h => by simp at h, ?_⟩
        simp; omega
    · rw [List.getElem?_eq_none (by omega : slots.length ≤ src.toNat)]
      refine ⟨fun r h => by simp at h, ?_⟩
      simp only [true_iff]; omega

example : copyData 0 2 [1, 2, 3] = some [1, 2, 1] := by decide

/-- C18: zeroing sets the destination to zero and nothing else; bad slots are refused. -/
theorem C18_zero (o : Ops K V) (dest : Int) (slots : List V) :
    (∀ r, zeroData o dest slots = some r → r = slots.set dest.toNat o.zero) ∧
    (zeroData o dest slots = none ↔ dest < 0 ∨ (slots.length : Int) ≤ dest) := by
  unfold zeroData
  by_cases h0 : dest < 0
  · simp [h0]
  · rw [if_neg h0]
    by_cases h2 : dest.toNat < slots.length
    · simp only [List.getElem?_eq_getElem h2]
      refine ⟨fun r h => (Option.some.inj h).symm, ?_⟩
      simp only [reduceCtorEq, false_iff, not_or]; omega
    · rw [List.getElem?_eq_none (by omega : slots.length ≤ dest.toNat)]
      refine ⟨fun r h => by simp at h, ?_⟩
      simp only [true_iff]; omega

end C18

/-- Write a program out as a list of calls. -/
local macro "flatten" : tactic => `(tactic| (
  simp only [Scheme.prog, Scheme.slots, erkStep, Erk.block, forwardEuler, rk4, ssp3, kgu35, ssprk53, strangStep,
    strangStart, Steps.ars222, Steps.ars232, Steps.ars343, Steps.ars343b, Steps.ssp3332, Steps.gark2,
    Steps.ark232, ark232Sub, u2c, u3c, u4c, ark4U, ark4Known, ark4Kh, ark4K, ark4Minus, splitSmall,
    copy2, copySS, comb2, post2, expH, expHV, expV, impV, List.cons_append, List.nil_append, List.append_assoc,
    List.append_nil, if_true, if_false, Bool.false_eq_true, List.range_succ, List.range_zero, List.flatMap_append,
    List.flatMap_cons, List.flatMap_nil, Nat.reduceAdd, Nat.reduceEqDiff, Nat.reduceSub]))

/-! ### C65 -/

section C65
variable {K V W : Type*} [Field K] [DecidableEq K]

local macro "okeval" : tactic => `(tactic| (flatten; simp [okCmd]))

set_option maxHeartbeats 2000000 in
omit [DecidableEq K] in
theorem ok_all (s : Scheme K) (dt : K) : (s.prog dt).all (okCmd s.slots) = true := by
  cases s with
  | erk m => cases m <;> okeval
  | strang m oc f l => cases m <;> cases f <;> cases l <;> okeval
  | splitExp ns =>
    simp only [Scheme.prog, Scheme.slots, Steps.splitExp, List.all_append, Bool.and_eq_true, List.all_flatMap,
      List.all_eq_true]
    refine ⟨⟨?_, ?_⟩, fun n _ c hc => ?_⟩
    · rw [← List.all_eq_true]; okeval
    · rw [← List.all_eq_true]; okeval
    · have : (splitSmall (n + 1 == ns) (ns : K) dt).all (okCmd 6) = true := by
        cases (n + 1 == ns) <;> okeval
      exact List.all_eq_true.mp this c hc
  | ars443 => simp only [Scheme.prog]; delta Steps.ars443; okeval
  | ark4 => simp only [Scheme.prog]; delta Steps.ark4; okeval
  | _ => okeval

/-- C65: a patch that has the number of slots a scheme asks for is all the scheme's step needs: no call is refused
and no slot outside the reserved ones is touched, for any arithmetic, dynamics, constants and step length. -/
theorem C65_step_succeeds (oV : Ops K V) (oW : Ops K W) (D : Dyn K V W) (s : Scheme K) (dt : K) (d : Data V W)
    (h1 : d.st.length = s.slots) (h2 : d.tr.length = s.slots) :
    ∃ d', run oV oW D (s.prog dt) d = some d' ∧ d'.st.length = s.slots ∧ d'.tr.length = s.slots :=
  run_ok oV oW D (ok_all s dt) ⟨h1, h2⟩

/-- Dynamics that change nothing. -/
def idle (K V W : Type*) : Dyn K V W :=
  ⟨fun _ _ y => y, fun _ _ y => y, fun _ _ y => y, fun _ _ y => y, fun _ _ y => y, id, id, id, fun _ x => x,
    fun _ z => z⟩

example : (run (modOps ℚ) (modOps ℚ) (idle ℚ ℚ ℚ) ((Scheme.ars222 (1 / 2) 0).prog 1)
    ⟨[7, 1, 2, 3], [7, 1, 7, 3]⟩).isSome = true := by decide +kernel

/-- With one slot less, ARS(2,2,2) does fail. -/
theorem C65_needed : run (modOps ℚ) (modOps ℚ) (idle ℚ ℚ ℚ) ((Scheme.ars222 (1 / 2) 0).prog 1)
    ⟨[7, 1, 2], [7, 1, 7]⟩ = none := by decide +kernel

end C65

/-! ### C43 -/

section C43
variable {K V W : Type*} [Field K] [DecidableEq K]

/-- The schemes whose stages copy both state and tracers. -/
def Scheme.CopiesTracers : Scheme K → Prop
  | .erk _ => True
  | .strang _ _ first _ => first = true
  | .ars232 .. => True
  | .ars343 _ => True
  | .ars343b _ => True
  | .splitExp _ => True
  | _ => False

/-- Everything but a Strang step that continues from an earlier one. -/
def Scheme.Fresh : Scheme K → Prop
  | .strang _ _ first _ => first = true
  | _ => True

local macro "floweval" : tactic => `(tactic| (
  flatten; simp [flowRun, flow, Sh.put, Sh.knows, knows, combKnown, List.replicate]))

theorem flowRun_append (p q : List (Cmd K)) (s : Sh) : flowRun (p ++ q) s = flowRun q (flowRun p s) := by
  induction p generalizing s with
  | nil => rfl
  | cons c p ih => exact ih _

theorem flow_small (last : Bool) (n dt : K) (a1 a2 a3 a4 a5 b1 b2 b3 b4 b5 : Bool) :
    ∃ a1' a2' a3' a4' a5' b1' b2' b3' b4' b5',
      flowRun (splitSmall last n dt) ⟨[true, a1, a2, a3, a4, a5], [true, b1, b2, b3, b4, b5]⟩
        = ⟨[true, a1', a2', a3', a4', a5'], [true, b1', b2', b3', b4', b5']⟩ := by
  cases last <;> floweval

theorem flow_smalls (l : List Nat) (f : Nat → Bool) (n dt : K) (a1 a2 a3 a4 a5 b1 b2 b3 b4 b5 : Bool) :
    (flowRun (l.flatMap fun k => splitSmall (f k) n dt) ⟨[true, a1, a2, a3, a4, a5], [true, b1, b2, b3, b4, b5]⟩).knows 0
      = true := by
  induction l generalizing a1 a2 a3 a4 a5 b1 b2 b3 b4 b5 with
  | nil => rfl
  | cons k l ih =>
    rw [List.flatMap_cons, flowRun_append]
    obtain ⟨_, _, _, _, _, _, _, _, _, _, e⟩ := flow_small (f k) n dt a1 a2 a3 a4 a5 b1 b2 b3 b4 b5
    rw [e]
    exact ih ..

theorem flow_split (ns : Nat) (dt : K) :
    (flowRun ((Scheme.splitExp ns).prog dt) ⟨true :: List.replicate 5 false, true :: List.replicate 5 false⟩).knows 0
      = true := by
  simp only [Scheme.prog, Steps.splitExp]
  rw [flowRun_append]
  have : ∃ a1 a2 a3 a4 a5 b1 b2 b3 b4 b5, flowRun (kgu35 expH dt ++ copy2 4 0)
      ⟨true :: List.replicate 5 false, true :: List.replicate 5 false⟩
      = ⟨[true, a1, a2, a3, a4, a5], [true, b1, b2, b3, b4, b5]⟩ := by
    refine ⟨true, true, true, true, false, true, true, true, true, false, ?_⟩
    floweval
  obtain ⟨_, _, _, _, _, _, _, _, _, _, e⟩ := this
  rw [e]
  exact flow_smalls ..

/-- Slot 0 is determined after the program when it is before; with `t`, tracers play no role. -/
def Determined (s : Scheme K) (t : Bool) (dt : K) : Prop :=
  (flowRun (s.prog dt) ⟨true :: List.replicate (s.slots - 1) false,
    true :: List.replicate (s.slots - 1) t⟩).knows 0 = true

local macro "det" : tactic => `(tactic| (unfold Determined; floweval))

set_option maxHeartbeats 1000000 in
theorem det_erk (m : Erk) (dt : K) : Determined (.erk m) false dt := by cases m <;> det
set_option maxHeartbeats 2000000 in
theorem det_strang (m : Erk) (oc : K) (l : Bool) (dt : K) : Determined (.strang m oc true l) false dt := by
  cases m <;> cases l <;> det
set_option maxHeartbeats 1000000 in
theorem det_232 (γ δ dt : K) : Determined (.ars232 γ δ) false dt := by det
set_option maxHeartbeats 1000000 in
theorem det_343 (T : Tab343 K) (dt : K) : Determined (.ars343 T) false dt := by det
set_option maxHeartbeats 1000000 in
theorem det_343b (T : Tab343 K) (dt : K) : Determined (.ars343b T) false dt := by det
set_option maxHeartbeats 1000000 in
theorem det_222 (γ δ dt : K) : Determined (.ars222 γ δ) true dt := by det
set_option maxHeartbeats 1000000 in
theorem det_443 (dt : K) : Determined (.ars443) true dt := by
  unfold Determined; simp only [Scheme.prog]; delta Steps.ars443; floweval
set_option maxHeartbeats 1000000 in
theorem det_3332 (γ dt : K) : Determined (.ssp3332 γ) true dt := by det
set_option maxHeartbeats 1000000 in
theorem det_gark2 (γ α dt : K) : Determined (.gark2 γ α) true dt := by det
set_option maxHeartbeats 1000000 in
theorem det_ark232 (γ δ α dt : K) : Determined (.ark232 γ δ α) true dt := by det
set_option maxHeartbeats 4000000 in
set_option maxRecDepth 4000 in
theorem det_ark4 (dt : K) : Determined (.ark4) true dt := by
  unfold Determined; simp only [Scheme.prog]; delta Steps.ark4; floweval

theorem flow_tracers (s : Scheme K) (hs : s.CopiesTracers) (dt : K) : Determined s false dt := by
  cases s with
  | erk m => exact det_erk m dt
  | strang m oc f l =>
    have hf : f = true := hs
    subst hf
    exact det_strang m oc l dt
  | ars232 γ δ => exact det_232 γ δ dt
  | ars343 T => exact det_343 T dt
  | ars343b T => exact det_343b T dt
  | splitExp ns => exact flow_split ns dt
  | _ => exact absurd hs (by simp [Scheme.CopiesTracers])

theorem flow_state (s : Scheme K) (hs : s.Fresh) (hs' : ¬ s.CopiesTracers) (dt : K) : Determined s true dt := by
  cases s with
  | erk m => exact absurd trivial hs'
  | strang m oc f l => exact absurd hs hs'
  | ars232 => exact absurd trivial hs'
  | ars343 => exact absurd trivial hs'
  | ars343b => exact absurd trivial hs'
  | splitExp ns => exact absurd trivial hs'
  | ars222 γ δ => exact det_222 γ δ dt
  | ars443 => exact det_443 dt
  | ssp3332 γ => exact det_3332 γ dt
  | gark2 γ α => exact det_gark2 γ α dt
  | ark232 γ δ α => exact det_ark232 γ δ α dt
  | ark4 => exact det_ark4 dt

omit [Field K] [DecidableEq K] in
theorem slots_pos (s : Scheme K) : s.slots = (s.slots - 1) + 1 := by cases s <;> rfl

/-- C43 for the explicit schemes, ARS232, ARS343, ARS343b, SplitExp and the first Strang step: for every arithmetic
and every dynamics the result depends only on the state and tracers at the start of the step.  (Missing: the other
schemes with tracers, for which it is false, see `C43_false_…`.) -/
theorem C43_scratch_partial (oV : Ops K V) (oW : Ops K W) (D : Dyn K V W) (s : Scheme K) (hs : s.CopiesTracers)
    (dt : K) (d d' : Data V W) (u : V × W) (h : Current s.slots d u) (h' : Current s.slots d' u) :
    ∃ e e' v, run oV oW D (s.prog dt) d = some e ∧ run oV oW D (s.prog dt) d' = some e' ∧
      e.get 0 = some v ∧ e'.get 0 = some v := by
  refine same_result oV oW D (ok_all s dt) (flow_tracers s hs dt) (by rw [slots_pos]; omega) ?_ ⟨h.1, h.2.1⟩
  rw [slots_pos] at h h'
  exact agree_start h h'

example : Current (Scheme.erk (K := ℚ) .rungeKutta4).slots
    (⟨[1, 2, 3, 4, 5], [6, 7, 8, 9, 10]⟩ : Data ℚ ℚ) (1, 6) := ⟨rfl, rfl, rfl⟩
example : (Scheme.splitExp (K := ℚ) 3).CopiesTracers := trivial

/-- C43 without tracers, for every scheme and every step but a continuing Strang step. -/
theorem C43_no_tracers_partial [Subsingleton W] (oV : Ops K V) (oW : Ops K W) (D : Dyn K V W) (s : Scheme K)
    (hs : s.Fresh) (dt : K) (d d' : Data V W) (u : V × W) (h : Current s.slots d u) (h' : Current s.slots d' u) :
    ∃ e e' v, run oV oW D (s.prog dt) d = some e ∧ run oV oW D (s.prog dt) d' = some e' ∧
      e.get 0 = some v ∧ e'.get 0 = some v := by
  by_cases hc : s.CopiesTracers
  · exact C43_scratch_partial oV oW D s hc dt d d' u h h'
  · refine same_result oV oW D (ok_all s dt) (flow_state s hs hc dt) (by rw [slots_pos]; omega) ?_ ⟨h.1, h.2.1⟩
    have e := slots_pos s
    rw [e] at h h'
    have := agree_start_noTracers h h'
    exact this

example : (Scheme.ark4 (K := ℚ)).Fresh ∧
    Current (Scheme.ars222 (1 / 2 : ℚ) 0).slots (⟨[1, 2, 3, 4], [(), (), (), ()]⟩ : Data ℚ Unit) (1, ()) :=
  ⟨trivial, rfl, rfl, rfl⟩

set_option maxHeartbeats 4000000 in
theorem flow_strang (m : Erk) (oc : K) (last : Bool) (dt : K) :
    let r := flowRun ((Scheme.strang m oc false last).prog dt)
      ⟨[true, true, false, false, false], [true, true, false, false, false]⟩
    r.knows 0 = true ∧ r.knows 1 = true := by
  cases m <;> cases last <;> floweval

/-- C43 for a Strang step that continues from an earlier one: the result, and the increment it leaves for the next
step in slot 1, depend only on the state and on the increment left by the step before. -/
theorem C43_strang_next (oV : Ops K V) (oW : Ops K W) (D : Dyn K V W) (m : Erk) (oc : K) (last : Bool) (dt : K)
    (d d' : Data V W) (u c : V × W) (h : Current 5 d u) (h' : Current 5 d' u) (hc : d.get 1 = some c)
    (hc' : d'.get 1 = some c) :
    ∃ e e' v w, run oV oW D ((Scheme.strang m oc false last).prog dt) d = some e ∧
      run oV oW D ((Scheme.strang m oc false last).prog dt) d' = some e' ∧
      e.get 0 = some v ∧ e'.get 0 = some v ∧ e.get 1 = some w ∧ e'.get 1 = some w := by
  have hl : HasSlots 5 d := ⟨h.1, h.2.1⟩
  have g : ∀ (e : Data V W) (i : Nat) (u : V × W), e.get i = some u → e.st[i]? = some u.1 ∧ e.tr[i]? = some u.2 := by
    intro e i u he
    unfold Data.get at he
    split at he
    · rename_i v w hv hw
      simp only [Option.some.injEq] at he
      subst he
      exact ⟨hv, hw⟩
    · simp at he
  have ag : Agree ⟨[true, true, false, false, false], [true, true, false, false, false]⟩ d d' := by
    constructor
    · refine ⟨h.1, h'.1, fun i hi => ?_⟩
      match i, hi with
      | 0, _ => rw [(g _ _ _ h.2.2).1, (g _ _ _ h'.2.2).1]
      | 1, _ => rw [(g _ _ _ hc).1, (g _ _ _ hc').1]
      | 2, hi => simp at hi
      | 3, hi => simp at hi
      | 4, hi => simp at hi
      | i + 5, hi => simp at hi
    · refine ⟨h.2.1, h'.2.1, fun i hi => ?_⟩
      match i, hi with
      | 0, _ => rw [(g _ _ _ h.2.2).2, (g _ _ _ h'.2.2).2]
      | 1, _ => rw [(g _ _ _ hc).2, (g _ _ _ hc').2]
      | 2, hi => simp at hi
      | 3, hi => simp at hi
      | 4, hi => simp at hi
      | i + 5, hi => simp at hi
  obtain ⟨e, he, hse⟩ := run_ok oV oW D (ok_all (Scheme.strang m oc false last) dt) hl
  have := flowRun_sound oV oW D ((Scheme.strang m oc false last).prog dt) ag
  rw [he] at this
  cases he' : run oV oW D ((Scheme.strang m oc false last).prog dt) d' with
  | none => rw [he'] at this; exact absurd this (by simp [Both])
  | some e' =>
    rw [he'] at this
    simp only [Both] at this
    obtain ⟨f0, f1⟩ := flow_strang m oc last dt
    obtain ⟨x, hx⟩ := get_ok hse (show 0 < 5 by decide)
    obtain ⟨x1, hx1⟩ := get_ok hse (show 1 < 5 by decide)
    rcases get_flow this 0 with ⟨y, z, hy, hz, hyz⟩ | ⟨hy, _⟩
    · rcases get_flow this 1 with ⟨y1, z1, hy1, hz1, hyz1⟩ | ⟨hy1, _⟩
      · exact ⟨e, e', y, y1, he, rfl, hy, by rw [hz, hyz f0], hy1, by rw [hz1, hyz1 f1]⟩
      · rw [hx1] at hy1; simp at hy1
    · rw [hx] at hy; simp at hy

example : Current 5 (⟨[1, 2, 3, 4, 5], [6, 7, 8, 9, 10]⟩ : Data ℚ ℚ) (1, 6) ∧
    (⟨[1, 2, 3, 4, 5], [6, 7, 8, 9, 10]⟩ : Data ℚ ℚ).get 1 = some (2, 7) := ⟨⟨rfl, rfl, rfl⟩, rfl⟩

end C43

end Verif.Steps
