/-
C43 is false with tracers for the schemes that copy the state twice: the tracers of a scratch slot enter the result.
-/
import Verif.Steps.PropsFlow

namespace Verif.Steps

section
variable {K : Type*} [Field K] [DecidableEq K]

/-- Two patches with the same current state and tracers (and scratch tracers differing) whose steps end with
different tracers, although the dynamics change nothing. -/
def StaleTracers (p : List (Cmd K)) (n : Nat) : Prop :=
  ∃ (d d' : Data K K) (u : K × K) (e e' : Data K K) (v v' : K × K), Current n d u ∧ Current n d' u ∧
    run (modOps K) (modOps K) (idle K K K) p d = some e ∧ run (modOps K) (modOps K) (idle K K K) p d' = some e' ∧
    e.get 0 = some v ∧ e'.get 0 = some v' ∧ v.2 ≠ v'.2

/-- Effect of a call of the idle dynamics on the tracers. -/
def idleT : Cmd K → List K → List K
  | .copy s t .tracers, l => l.set t ((l[s]?).getD 0)
  | .combine c t .tracers, l => l.set t (dot c l)
  | .after a u _ _, l => l.set u ((l[a]?).getD 0)
  | _, l => l

/-- Calls covered by `idleT`. -/
def plain : Cmd K → Bool
  | .expCombine .. => false
  | .impCombine .. => false
  | .afterCombine .. => false
  | _ => true

theorem getD_of_lt {l : List K} {i : Nat} (h : i < l.length) : l[i]? = some ((l[i]?).getD 0) := by
  rw [List.getElem?_eq_getElem h]; rfl

omit [DecidableEq K] in
theorem set_same {l : List K} {i : Nat} {x : K} (h : l[i]? = some x) : l.set i x = l := by
  obtain ⟨h1, rfl⟩ := List.getElem?_eq_some_iff.mp h
  exact List.set_getElem_self h1

theorem idle_tr {n : Nat} {c : Cmd K} (hc : okCmd n c = true) (hp : plain c = true) {d : Data K K}
    (h : HasSlots n d) : ∃ e, exec (modOps K) (modOps K) (idle K K K) c d = some e ∧ e.tr = idleT c d.tr := by
  obtain ⟨e, he, hs⟩ := exec_ok (modOps K) (modOps K) (idle K K K) hc h
  refine ⟨e, he, ?_⟩
  have dynTr : ∀ {f : K × K → K × K → K × K} {a u : Nat}, (∀ x y, (f x y).2 = y.2) → dynCall f a u d = some e →
      e.tr = d.tr := by
    intro f a u hf hd
    unfold dynCall at hd
    split at hd <;> [skip; exact absurd hd (by simp)]
    rename_i x y hx hy
    simp only [Option.some.injEq] at hd
    subst hd
    simp only [Data.put, hf]
    unfold Data.get at hy
    split at hy <;> [skip; exact absurd hy (by simp)]
    rename_i v w hv hw
    simp only [Option.some.injEq] at hy
    subst hy
    exact set_same hw
  cases c with
  | copy s t f =>
    simp only [okCmd, Bool.and_eq_true, decide_eq_true_eq] at hc
    cases f
    · simp only [exec, Option.map_eq_some_iff] at he
      obtain ⟨x, -, rfl⟩ := he; rfl
    · simp only [exec, copyData_some (getD_of_lt (show s < d.tr.length by rw [h.2]; exact hc.1))
        (show t < d.tr.length by rw [h.2]; exact hc.2), Option.map_some, Option.some.injEq] at he
      subst he; rfl
  | combine c t f =>
    simp only [okCmd, Bool.and_eq_true, decide_eq_true_eq] at hc
    cases f
    · simp only [exec, Option.map_eq_some_iff] at he
      obtain ⟨x, -, rfl⟩ := he; rfl
    · simp only [exec, linearCombine_dot c t d.tr hc.1 (by rw [h.2]; exact hc.2), Option.map_some,
        Option.some.injEq] at he
      subst he; rfl
  | hExp a u dt =>
    simp only [exec] at he
    split_ifs at he
    exact dynTr (fun _ _ => rfl) he
  | vExp a u dt => exact dynTr (fun _ _ => rfl) he
  | vImp a u dt => exact dynTr (fun _ _ => rfl) he
  | hImp a u dt => exact dynTr (fun _ _ => rfl) he
  | vImpExp a u dt => exact dynTr (fun _ _ => rfl) he
  | post u f =>
    cases f
    · simp only [exec, Option.map_eq_some_iff] at he
      obtain ⟨x, -, rfl⟩ := he; rfl
    · simp only [exec, Option.map_eq_some_iff] at he
      obtain ⟨x, hx, rfl⟩ := he
      exact set_same hx
  | filter u =>
    simp only [exec, Option.map_eq_some_iff] at he
    obtain ⟨x, hx, rfl⟩ := he
    exact set_same hx
  | after a u w dt =>
    simp only [okCmd, Bool.and_eq_true, decide_eq_true_eq, bne_iff_ne, ne_eq] at hc
    obtain ⟨⟨⟨⟨h1, h2⟩, h3⟩, h4⟩, h5⟩ := hc
    have g : ∀ i < n, ∃ x, d.st[i]? = some x ∧ d.get i = some (x, (d.tr[i]?).getD 0) := by
      intro i hi
      refine ⟨d.st[i]'(by rw [h.1]; exact hi), List.getElem?_eq_getElem _, ?_⟩
      unfold Data.get
      rw [List.getElem?_eq_getElem (by rw [h.1]; exact hi), List.getElem?_eq_getElem (by rw [h.2]; exact hi)]
      rfl
    obtain ⟨xa, -, ha⟩ := g a h3
    obtain ⟨xu, -, hu⟩ := g u h4
    obtain ⟨xw, -, hw⟩ := g w h5
    simp only [exec] at he
    rw [if_neg (by simp [h1, h2])] at he
    simp only [ha, hu, hw, Option.some.injEq] at he
    subst he
    simp only [Data.put, idleT, idle]
    exact set_same (by rw [List.getElem?_set_ne h2]; exact getD_of_lt (by rw [h.2]; exact h5))
  | expCombine => simp [plain] at hp
  | impCombine => simp [plain] at hp
  | afterCombine => simp [plain] at hp

theorem idleRun_tr {n : Nat} {p : List (Cmd K)} (hc : p.all (okCmd n) = true) (hp : p.all plain = true)
    {d : Data K K} (h : HasSlots n d) :
    ∃ e, run (modOps K) (modOps K) (idle K K K) p d = some e ∧ HasSlots n e ∧
      e.tr = p.foldl (fun l c => idleT c l) d.tr := by
  induction p generalizing d with
  | nil => exact ⟨d, rfl, h, rfl⟩
  | cons c p ih =>
    rw [List.all_cons, Bool.and_eq_true] at hc hp
    obtain ⟨e, he, ht⟩ := idle_tr hc.1 hp.1 h
    obtain ⟨e', he', hs⟩ := exec_ok (modOps K) (modOps K) (idle K K K) hc.1 h
    rw [he] at he'
    cases he'
    obtain ⟨e2, h2, h3, h4⟩ := ih hc.2 hp.2 hs
    exact ⟨e2, by simp only [run, he, Option.bind_some, h2], h3, by rw [h4, ht]; rfl⟩

/-- If slot 0 of the tracers ends different for two scratch contents, the scheme is affected. -/
theorem stale_of {n : Nat} {p : List (Cmd K)} (hc : p.all (okCmd (n + 1)) = true) (hp : p.all plain = true)
    (l l' : List K) (hl : l.length = n) (hl' : l'.length = n) (x y : K)
    (h1 : (p.foldl (fun l c => idleT c l) (0 :: l))[0]? = some x)
    (h2 : (p.foldl (fun l c => idleT c l) (0 :: l'))[0]? = some y) (hne : x ≠ y) : StaleTracers p (n + 1) := by
  obtain ⟨e, he, hs, ht⟩ := idleRun_tr (d := ⟨List.replicate (n + 1) 0, 0 :: l⟩) hc hp ⟨by simp, by simp [hl]⟩
  obtain ⟨e', he', hs', ht'⟩ := idleRun_tr (d := ⟨List.replicate (n + 1) 0, 0 :: l'⟩) hc hp ⟨by simp, by simp [hl']⟩
  obtain ⟨v, hv⟩ := get_ok hs (Nat.succ_pos n)
  obtain ⟨v', hv'⟩ := get_ok hs' (Nat.succ_pos n)
  have g : ∀ {e : Data K K} {v : K × K}, e.get 0 = some v → e.tr[0]? = some v.2 := by
    intro e v hv
    unfold Data.get at hv
    split at hv <;> [skip; exact absurd hv (by simp)]
    rename_i a b ha hb
    simp only [Option.some.injEq] at hv
    subst hv; exact hb
  refine ⟨_, _, (0, 0), e, e', v, v', ⟨by simp, by simp [hl], by simp [Data.get]⟩,
    ⟨by simp, by simp [hl'], by simp [Data.get]⟩, he, he', hv, hv', ?_⟩
  have a := g hv
  have b := g hv'
  rw [ht] at a
  rw [ht'] at b
  simp only at a b
  rw [h1, Option.some.injEq] at a
  rw [h2, Option.some.injEq] at b
  rw [← a, ← b]
  exact hne

local macro "flatten" : tactic => `(tactic| (
  simp only [Steps.ars222, Steps.ssp3332, Steps.gark2, Steps.ark232, ark232Sub,
    copy2, copySS, comb2, post2, expH, expHV, expV, impV, List.cons_append, List.nil_append, List.append_assoc,
    List.append_nil]))

local macro "trEval" : tactic => `(tactic| (flatten; simp [idleT]))
local macro "plainEval" : tactic => `(tactic| (flatten; simp [plain]))

/-- C43 is false for ARS(2,2,2) with tracers: stage two copies the state twice (TimestepSchemeARS222.cpp:87-88). -/
theorem C43_false_ars222 (γ δ dt : K) (h : γ ≠ 0) (h1 : γ ≠ 1) : StaleTracers (ars222 γ δ dt) 4 := by
  refine stale_of (n := 3) (ok_all (.ars222 γ δ) dt) (by plainEval) [0, 0, 0] [0, 1, 0] rfl rfl 0 ((1 - γ) / γ)
    (by trEval) (by trEval) ?_
  exact (div_ne_zero (sub_ne_zero.mpr (Ne.symm h1)) h).symm

/-- The step constants of ARS(2,2,2) meet the hypotheses. -/
example : StaleTracers (ars222 (1 / 4 : ℚ) (-1) 1) 4 := C43_false_ars222 _ _ _ (by norm_num) (by norm_num)

/-- C43 is false for GARK2 with tracers (TimestepSchemeGARK2.cpp:105-106). -/
theorem C43_false_gark2 (γ α dt : K) (h : γ ≠ 0) (h1 : γ ≠ 1) : StaleTracers (gark2 γ α dt) 5 := by
  refine stale_of (n := 4) (ok_all (.gark2 γ α) dt) (by plainEval) [0, 0, 0, 0] [0, 1, 0, 0] rfl rfl 0 ((1 - γ) / γ)
    (by trEval) (by trEval) ?_
  exact (div_ne_zero (sub_ne_zero.mpr (Ne.symm h1)) h).symm

example : StaleTracers (gark2 (1 / 4 : ℚ) (1 / 2) 1) 5 := C43_false_gark2 _ _ _ (by norm_num) (by norm_num)

/-- C43 is false for SSP3(3,3,2) with tracers (TimestepSchemeSSP3332.cpp:110-111, 132-133, 153-154). -/
theorem C43_false_ssp3332 [CharZero K] (γ dt : K) (h : γ ≠ 0) : StaleTracers (ssp3332 γ dt) 9 := by
  refine stale_of (n := 8) (ok_all (.ssp3332 γ) dt) (by plainEval) [0, 0, 0, 0, 0, 0, 0, 0] [0, 0, 0, 0, 0, 1, 0, 0]
    rfl rfl 0 (2 / 3 / γ) (by trEval) (by trEval) ?_
  exact (div_ne_zero (by norm_num) h).symm

example : StaleTracers (ssp3332 (1 / 4 : ℚ) 1) 9 := C43_false_ssp3332 _ _ (by norm_num)

/-- C43 is false for ARS(4,4,3) with tracers (TimestepSchemeARS443.cpp:119-120, 140-141, 161-162). -/
theorem C43_false_ars443 [CharZero K] (dt : K) : StaleTracers (ars443 dt) 10 := by
  refine stale_of (n := 9) (ok_all .ars443 dt) (by delta ars443; plainEval) [0, 0, 0, 0, 0, 0, 0, 0, 0]
    [0, 0, 0, 0, 0, 1, 0, 0, 0] rfl rfl 0 1 (by delta ars443; trEval) (by delta ars443; trEval) ?_
  exact zero_ne_one

/-- C43 is false for ARK(2,3,2) with tracers (TimestepSchemeARK232.cpp:118-119, 139-140). -/
theorem C43_false_ark232 (γ δ α dt : K) (h : γ ≠ 0) : StaleTracers (ark232 γ δ α dt) 8 := by
  refine stale_of (n := 7) (ok_all (.ark232 γ δ α) dt) (by plainEval) [0, 0, 0, 0, 0, 0, 0] [0, 0, 0, 0, 1, 0, 0]
    rfl rfl 0 1 (by trEval) (by trEval; exact h) ?_
  exact zero_ne_one

example : StaleTracers (ark232 (1 / 4 : ℚ) 1 1 1) 8 := C43_false_ark232 _ _ _ _ (by norm_num)

/-- ARK4 never copies tracers, so the tracers never change during a step when the dynamics are idle, but the
tracers its stages see are left-over ones: with a tendency of the state equal to the tracer of the argument, the
state after the step depends on them (TimestepSchemeARK4.cpp:279-440). -/
def tracerDriven : Dyn ℚ ℚ ℚ := { idle ℚ ℚ ℚ with hExp := fun c x y => (y.1 + c * x.2, y.2) }

/-- C43 is false for ARK4 with tracers. -/
theorem C43_false_ark4 : ∃ (d d' : Data ℚ ℚ) (u : ℚ × ℚ) (e e' : Data ℚ ℚ) (v v' : ℚ × ℚ),
    Current 14 d u ∧ Current 14 d' u ∧ run (modOps ℚ) (modOps ℚ) tracerDriven (ark4 1) d = some e ∧
    run (modOps ℚ) (modOps ℚ) tracerDriven (ark4 1) d' = some e' ∧
    e.get 0 = some v ∧ e'.get 0 = some v' ∧ v.1 ≠ v'.1 := by
  have h : ∀ l : List ℚ, l.length = 14 →
      ∃ e, run (modOps ℚ) (modOps ℚ) tracerDriven (ark4 1) ⟨List.replicate 14 0, l⟩ = some e := by
    intro l hl
    obtain ⟨e, he, _⟩ := C65_step_succeeds (modOps ℚ) (modOps ℚ) tracerDriven .ark4 1 ⟨List.replicate 14 0, l⟩
      (by simp [Scheme.slots]) hl
    exact ⟨e, he⟩
  obtain ⟨e, he⟩ := h (List.replicate 14 0) (by simp)
  obtain ⟨e', he'⟩ := h (0 :: List.replicate 13 1) (by simp)
  have c1 : (run (modOps ℚ) (modOps ℚ) tracerDriven (ark4 1) ⟨List.replicate 14 0, List.replicate 14 0⟩).bind
      (·.get 0) = some (0, 0) := by decide +kernel
  have c2 : ((run (modOps ℚ) (modOps ℚ) tracerDriven (ark4 1) ⟨List.replicate 14 0, 0 :: List.replicate 13 1⟩).bind
      (·.get 0)).map (fun v => decide (v.1 = 0)) = some false := by decide +kernel
  rw [he, Option.bind_some] at c1
  rw [he', Option.bind_some] at c2
  obtain ⟨v', hv', hn⟩ := Option.map_eq_some_iff.mp c2
  exact ⟨⟨List.replicate 14 0, List.replicate 14 0⟩, ⟨List.replicate 14 0, 0 :: List.replicate 13 1⟩, (0, 0), e, e',
    (0, 0), v', ⟨by simp, by simp, rfl⟩, ⟨by simp, by simp, rfl⟩, he, he', c1, hv', fun h => by simp [← h] at hn⟩

end

end Verif.Steps
