/-
C47 and C48: steady states and conserved linear functionals.
-/
import Verif.Steps.WeightEval
import Verif.Steps.PropsConst
import Mathlib.LinearAlgebra.Prod

namespace Verif.Steps

/-- `u` is a steady state of the dynamics: no explicit call of either kind changes it, an implicit call from `u`
returns `u`, and neither post-processing, the positivity filter nor diffusion changes it. -/
structure Steady {K V W : Type*} (Dy : Dyn K V W) (u : V × W) : Prop where
  hExp : ∀ c, Dy.hExp c u u = u
  vExp : ∀ c, Dy.vExp c u u = u
  vImp : ∀ c, Dy.vImp c u u = u
  hImp : ∀ c, Dy.hImp c u u = u
  vImpExp : ∀ c, Dy.vImpExp c u u = u
  postS : Dy.postS u.1 = u.1
  postT : Dy.postT u.2 = u.2
  filt : Dy.filt u.2 = u.2
  hyper : ∀ c, Dy.hyper c u = u

/-- The quantity `ℓ` is conserved by every sub-step: each call that changes a field from `y` leaves its `ℓ` as it
was. -/
structure Conserves {K V W M : Type*} [Semiring K] [AddCommMonoid V] [Module K V] [AddCommMonoid W] [Module K W]
    [AddCommMonoid M] [Module K M] (Dy : Dyn K V W) (ℓ : V × W →ₗ[K] M) : Prop where
  hExp : ∀ c x y, ℓ (Dy.hExp c x y) = ℓ y
  vExp : ∀ c x y, ℓ (Dy.vExp c x y) = ℓ y
  vImp : ∀ c x y, ℓ (Dy.vImp c x y) = ℓ y
  hImp : ∀ c x y, ℓ (Dy.hImp c x y) = ℓ y
  vImpExp : ∀ c x y, ℓ (Dy.vImpExp c x y) = ℓ y
  post : ∀ x : V × W, ℓ (Dy.postS x.1, Dy.postT x.2) = ℓ x
  filt : ∀ x : V × W, ℓ (x.1, Dy.filt x.2) = ℓ x
  hyper : ∀ c x, ℓ (Dy.hyper c x) = ℓ x

section
variable {K V W : Type*} [Field K] [DecidableEq K] [AddCommGroup V] [Module K V] [AddCommGroup W] [Module K W]
  {Dy : Dyn K V W} {ex : Nat → Nat → K → List (Cmd K)} {ef : K → V × W → V × W → V × W} {Q : K → V × W → Prop}
  {u : V × W} {d : Data V W}

theorem wStep_length (m : Pc K) (S S' : Wt K) (h : wStep m S = some S') : S'.slots.length = S.slots.length := by
  cases m with
  | mac m =>
    cases m <;> simp only [wStep, Wt.copy, Wt.comb, Wt.dyn, Wt.expC, Wt.impC] at h <;> (repeat' split at h) <;>
      first | (simp at h; done) | (simp only [Option.some.injEq] at h; subst h; simp)
  | _ =>
    simp only [wStep, Wt.copy, Wt.comb, Wt.dyn, Wt.diffuse] at h <;> (repeat' split at h) <;>
      first | (simp at h; done) | (simp only [Option.some.injEq] at h; subst h; simp)

theorem wRun_length (p : List (Pc K)) (S S' : Wt K) (h : wRun p S = some S') : S'.slots.length = S.slots.length := by
  induction p generalizing S with
  | nil => simp only [wRun, Option.some.injEq] at h; subst h; rfl
  | cons m p ih =>
    simp only [wRun, Option.bind_eq_some_iff] at h
    obtain ⟨S1, h1, h2⟩ := h
    rw [ih S1 h2, wStep_length m S S1 h1]

/-- From weights to the fields. -/
theorem keep_list (hQ : Keeps Dy ef Q) (hex : IsEx Dy ex ef) {fin : List (Option K) → Prop} {p : List (Pc K)}
    {l : List (Option K)} (hp : wOK fin p ⟨l, True⟩) (hm : ∀ m ∈ p, pcOk W (ef = exH Dy) m) {xs : List (V × W)}
    (h : RepW Q l xs) :
    ∃ ys l', run (modOps K) (modOps K) Dy (expandPc ex p) (ofPairs xs) = some (ofPairs ys) ∧ RepW Q l' ys ∧ fin l' ∧
      ys.length = l.length := by
  unfold wOK at hp
  split at hp <;> [skip; exact hp.elim]
  rename_i S' hS
  obtain ⟨-, ys, hr, hw⟩ := wRun_sound hQ hex p (S := ⟨l, True⟩) h hm hS hp.1
  exact ⟨ys, _, hr, hw, hp.2, by rw [hw.1, wRun_length p _ _ hS]⟩

theorem keep_step (hQ : Keeps Dy ef Q) (hex : IsEx Dy ex ef) {n : Nat} {p : List (Pc K)} (hp : wOK one0 p (wInit n))
    (hm : ∀ m ∈ p, pcOk W (ef = exH Dy) m) (hd : Current (n + 1) d u) (hu : Q 1 u) :
    ∃ v, StepsTo Dy (expandPc ex p) d v ∧ Q 1 v := by
  obtain ⟨l, hl, rfl⟩ := exists_ofPairs d (n + 1) hd.1 hd.2.1
  cases l with
  | nil => simp at hl
  | cons x xs =>
    have hx : x = u := by simpa [get_ofPairs] using hd.2.2
    subst hx
    obtain ⟨ys, l', hr, hw, hf, hlen⟩ := keep_list hQ hex hp hm (repW_init hu n xs (by simpa using hl))
    obtain ⟨v, hv, hq⟩ := hw.2 0 1 hf
    exact ⟨v, ⟨_, hr, by rw [get_ofPairs, hv]⟩, hq⟩

/-- What the split-explicit scheme needs: the property is kept with the horizontal and with the vertical calls. -/
structure KeepsAll (Dy : Dyn K V W) (Q : K → V × W → Prop) : Prop where
  h : Keeps Dy (exH Dy) Q
  v : Keeps Dy (exV Dy) Q
  hv : Keeps Dy (exHV Dy) Q

/-- The schemes for which the weights add up: all but SSPRK53, each taking a whole step. -/
def Scheme.Balanced : Scheme K → Prop
  | .erk m => m ≠ .rungeKuttaSSPRK53
  | .strang m _ first _ => m ≠ .rungeKuttaSSPRK53 ∧ first = true
  | _ => True

theorem one_of' {p : List (Pc K)} {S : Wt K} (h : wOK one0' p S) : wOK one0 p S := by
  unfold wOK at h ⊢
  split at h <;> [exact ⟨h.1, h.2.1⟩; exact h]

variable [CharZero K]

theorem split_keep (hQ : KeepsAll Dy Q) (ns : Nat) (dt : K) (is : List Nat) {xs : List (V × W)}
    (h : RepW Q [some 1, none, none, none, none, none] xs) :
    ∃ ys, run (modOps K) (modOps K) Dy (is.flatMap fun n => splitSmall (n + 1 == ns) (ns : K) dt) (ofPairs xs)
      = some (ofPairs ys) ∧ RepW Q [some 1, none, none, none, none, none] ys := by
  induction is generalizing xs with
  | nil => exact ⟨xs, rfl, h⟩
  | cons i is ih =>
    obtain ⟨ys, l', hr, hw, hf, hlen⟩ := keep_list hQ.v (isEx_V Dy) (w_small (i + 1 == ns) (ns : K) dt)
      (by cases (i + 1 == ns) <;> simp [smallP, pcOk]) h
    obtain ⟨v, hv, hq⟩ := hw.2 0 1 hf
    cases ys with
    | nil => simp at hlen
    | cons y ys =>
      simp only [List.getElem?_cons_zero, Option.some.injEq] at hv
      subst hv
      obtain ⟨zs, hz, hw'⟩ := ih (repW_init hq 5 ys (by simpa using hlen))
      refine ⟨zs, ?_, hw'⟩
      rw [List.flatMap_cons, run_append, small_eq, hr, Option.bind_some, hz]

theorem keep_scheme (hQ : KeepsAll Dy Q) (S : Scheme K) (hS : S.Balanced) (hT : S.CopiesTracers ∨ Subsingleton W)
    (dt : K) (hd : Current S.slots d u) (hu : Q 1 u) : ∃ v, StepsTo Dy (S.prog dt) d v ∧ Q 1 v := by
  cases S with
  | erk m =>
    rw [pieces_eq _ (by simp)]
    exact keep_step hQ.h (isEx_H Dy) (w_erk m hS dt) (by
      cases m <;> simp [Scheme.pieces, pcs, pcA, Erk.macs, eulerM, rk4M, ssp3M, kgu35M, ssprk53M, pcOk]) hd hu
  | strang m oc f l =>
    obtain ⟨hm, rfl⟩ := hS
    rw [pieces_eq _ (by simp)]
    refine keep_step hQ.hv (isEx_HV Dy) ?_ ?_ hd hu
    · cases l
      · exact one_of' (w_strang_true_false m hm oc dt)
      · exact w_strang_true_true m hm oc dt
    · cases m <;> cases l <;>
        simp [Scheme.pieces, strangP, pcs, pcA, Erk.macs, eulerM, rk4M, ssp3M, kgu35M, ssprk53M, pcOk]
  | ars222 γ δ =>
    have : Subsingleton W := hT.resolve_left id
    rw [pieces_eq _ (by simp)]
    exact keep_step hQ.hv (isEx_HV Dy) (w_222 γ δ dt) (by simp [Scheme.pieces, pcs, pcB, ars222M, pcOk, this]) hd hu
  | ars232 γ δ =>
    rw [pieces_eq _ (by simp)]
    exact keep_step hQ.hv (isEx_HV Dy) (w_232 γ δ dt) (by simp [Scheme.pieces, pcs, pcB, ars232M, pcOk]) hd hu
  | ars343 T =>
    rw [pieces_eq _ (by simp)]
    exact keep_step hQ.hv (isEx_HV Dy) (w_343 T dt) (by simp [Scheme.pieces, pcs, pcA, ars343M, pcOk]) hd hu
  | ars343b T =>
    rw [pieces_eq _ (by simp)]
    exact keep_step hQ.h (isEx_H Dy) (w_343b T dt) (by simp [Scheme.pieces, pcs, ars343bM, pcOk]) hd hu
  | ars443 =>
    have : Subsingleton W := hT.resolve_left id
    rw [pieces_eq _ (by simp)]
    exact keep_step hQ.hv (isEx_HV Dy) (w_443 dt) (by simp [Scheme.pieces, pcs, pcB, ars443M, pcOk, this]) hd hu
  | ssp3332 γ =>
    have : Subsingleton W := hT.resolve_left id
    rw [pieces_eq _ (by simp)]
    exact keep_step hQ.hv (isEx_HV Dy) (w_3332 γ dt) (by simp [Scheme.pieces, pcs, pcB, ssp3332M, pcOk, this]) hd hu
  | gark2 γ α =>
    have : Subsingleton W := hT.resolve_left id
    rw [pieces_eq _ (by simp)]
    exact keep_step hQ.hv (isEx_HV Dy) (w_gark2 γ α dt) (by simp [Scheme.pieces, pcs, pcB, gark2M, pcOk, this]) hd hu
  | ark232 γ δ α =>
    have : Subsingleton W := hT.resolve_left id
    rw [pieces_eq _ (by simp)]
    exact keep_step hQ.hv (isEx_HV Dy) (w_ark232 γ δ α dt) (by simp [Scheme.pieces, ark232P, pcOk, this]) hd hu
  | ark4 =>
    have : Subsingleton W := hT.resolve_left id
    rw [pieces_eq _ (by simp)]
    refine keep_step hQ.hv (isEx_HV Dy) (w_ark4 dt) ?_ hd hu
    intro m hm
    cases m with
    | mac m => cases m <;> first | trivial | exact this | (simp [Scheme.pieces, ark4P] at hm; done)
    | _ => first | trivial | exact this
  | splitExp ns =>
    obtain ⟨l, hl, rfl⟩ := exists_ofPairs d 6 hd.1 hd.2.1
    cases l with
    | nil => simp at hl
    | cons x xs =>
      have hx : x = u := by simpa [get_ofPairs] using hd.2.2
      subst hx
      obtain ⟨ys, l', hr, hw, hf, hlen⟩ := keep_list hQ.h (isEx_H Dy) (w_large dt) (by simp [pcs, kgu35M, pcOk])
        (repW_init hu 5 xs (by simpa using hl))
      obtain ⟨v, hv, hq⟩ := hw.2 0 1 hf
      cases ys with
      | nil => simp at hlen
      | cons y ys =>
        simp only [List.getElem?_cons_zero, Option.some.injEq] at hv
        subst hv
        obtain ⟨zs, hz, hw'⟩ := split_keep hQ ns dt (List.range ns) (repW_init hq 5 ys (by simpa using hlen))
        obtain ⟨v, hv, hq'⟩ := hw'.2 0 1 rfl
        refine ⟨v, ⟨ofPairs zs, ?_, by rw [get_ofPairs, hv]⟩, hq'⟩
        rw [expandPc_append, expandPc_pcs, ← kgu35_eq] at hr
        rw [Scheme.prog, splitExp, run_append]
        erw [hr]
        rw [Option.bind_some, hz]

omit [CharZero K] [DecidableEq K] in
theorem repW_two {l' : List (Option K)} {ys : List (V × W)} (hw : RepW Q l' ys) (hf : one0' l') (hlen : ys.length = 5) :
    RepW Q [some 1, some 0, none, none, none] ys := by
  refine ⟨hlen, fun i w hi => ?_⟩
  match i with
  | 0 =>
    simp only [wAt, List.getElem?_cons_zero, Option.getD_some, Option.some.injEq] at hi
    subst hi; exact hw.2 0 _ hf.1
  | 1 =>
    simp only [wAt, List.getElem?_cons_succ, List.getElem?_cons_zero, Option.getD_some, Option.some.injEq] at hi
    subst hi; exact hw.2 1 _ hf.2
  | 2 => simp [wAt] at hi
  | 3 => simp [wAt] at hi
  | 4 => simp [wAt] at hi
  | n + 5 => simp [wAt] at hi

omit [CharZero K] [DecidableEq K] in
theorem steady_keeps (h : Steady Dy u) : KeepsAll Dy (fun (w : K) x => x = w • u) := by
  have p : (Dy.postS u.1, Dy.postT u.2) = u := by rw [h.postS, h.postT]
  have base : ∀ ef : K → V × W → V × W → V × W, (∀ c, ef c u u = u) → Keeps Dy ef (fun (w : K) x => x = w • u) := by
    intro ef hef
    refine ⟨by simp, ?_, ?_, ?_, ?_, ?_, ?_, ?_, ?_, ?_⟩
    · rintro a b _ _ rfl rfl; rw [add_smul]
    · rintro c a _ rfl; rw [mul_smul]
    · rintro c _ _ rfl rfl; simp only [one_smul, hef, p]
    · rintro _ rfl; simp only [one_smul, p]
    · rintro c _ _ rfl rfl; simp only [one_smul, h.vImp]
    · rintro c _ _ rfl rfl; simp only [one_smul, h.hImp]
    · rintro c _ _ rfl rfl; simp only [one_smul, h.vImpExp]
    · rintro _ rfl; simp only [one_smul, h.filt]
    · rintro c _ rfl; simp only [one_smul, h.hyper]
  exact ⟨base _ h.hExp, base _ h.vExp, base _ fun c => by simp only [exHV, h.hExp, h.vExp]⟩

omit [CharZero K] [DecidableEq K] in
theorem conserves_keeps {M : Type*} [AddCommGroup M] [Module K M] {ℓ : V × W →ₗ[K] M} (h : Conserves Dy ℓ) (u : V × W) :
    KeepsAll Dy (fun (w : K) x => ℓ x = w • ℓ u) := by
  have base : ∀ ef : K → V × W → V × W → V × W, (∀ c x y, ℓ (ef c x y) = ℓ y) →
      Keeps Dy ef (fun (w : K) x => ℓ x = w • ℓ u) := by
    intro ef hef
    refine ⟨by simp, ?_, ?_, ?_, ?_, ?_, ?_, ?_, ?_, ?_⟩
    · intro a b x y hx hy; rw [map_add, hx, hy, add_smul]
    · intro c a x hx; rw [map_smul, hx, mul_smul]
    · intro c x y hx hy; rw [h.post, hef, hy]
    · intro x hx; rw [h.post, hx]
    · intro c x y hx hy; rw [h.vImp, hy]
    · intro c x y hx hy; rw [h.hImp, hy]
    · intro c x y hx hy; rw [h.vImpExp, hy]
    · intro x hx; rw [h.filt, hx]
    · intro c x hx; rw [h.hyper, hx]
  exact ⟨base _ h.hExp, base _ h.vExp, base _ fun c x y => by simp only [exHV, h.hExp, h.vExp]⟩

omit [CharZero K] [DecidableEq K] in
theorem strangP_ok (oc : K) (m : Erk) (f l : Bool) (dt : K) (isH : Prop) : ∀ p ∈ strangP oc m f l dt, pcOk W isH p := by
  cases m <;> cases f <;> cases l <;> simp [strangP, pcs, Erk.macs, eulerM, rk4M, ssp3M, kgu35M, ssprk53M, pcOk]

omit [CharZero K] [DecidableEq K] in
theorem strangStep_eq (oc : K) (m : Erk) (f l : Bool) (dt : K) :
    strangStep oc m.block f l dt = expandPc expHV (strangP oc m f l dt) :=
  pieces_eq (.strang m oc f l) (by simp) dt

/-- The schemes' carried-over increment and state over a whole Strang run. -/
theorem keep_strangRun (hQ : KeepsAll Dy Q) (m : Erk) (hm : m ≠ .rungeKuttaSSPRK53) (oc : K) (dts : List K) (dt : K)
    {xs : List (V × W)} (h : RepW Q [some 1, some 0, none, none, none] xs) :
    ∃ ys v, run (modOps K) (modOps K) Dy (strangRun oc m false (dt :: dts)) (ofPairs xs) = some (ofPairs ys) ∧
      ys[0]? = some v ∧ Q 1 v := by
  induction dts generalizing dt xs with
  | nil =>
    obtain ⟨ys, l', hr, hw, hf, hlen⟩ := keep_list hQ.hv (isEx_HV Dy) (w_strang_false_true m hm oc dt) (strangP_ok oc m false true dt _) h
    obtain ⟨v, hv, hq⟩ := hw.2 0 1 hf
    exact ⟨ys, v, by rw [strangRun, strangStep_eq, hr], hv, hq⟩
  | cons dt' dts ih =>
    obtain ⟨ys, l', hr, hw, hf, hlen⟩ := keep_list hQ.hv (isEx_HV Dy) (w_strang_false_false m hm oc dt)
      (strangP_ok oc m false false dt _) h
    obtain ⟨zs, v, hz, hv, hq⟩ := ih dt' (repW_two hw hf hlen)
    exact ⟨zs, v, by rw [strangRun, run_append, strangStep_eq, hr, Option.bind_some, hz], hv, hq⟩

theorem keep_strang (hQ : KeepsAll Dy Q) (m : Erk) (hm : m ≠ .rungeKuttaSSPRK53) (oc : K) (dts : List K) (dt : K)
    (hd : Current 5 d u) (hu : Q 1 u) : ∃ v, StepsTo Dy (strangRun oc m true (dt :: dts)) d v ∧ Q 1 v := by
  cases dts with
  | nil => exact keep_scheme hQ (.strang m oc true true) ⟨hm, rfl⟩ (.inl rfl) dt hd hu
  | cons dt' dts =>
    obtain ⟨l, hl, rfl⟩ := exists_ofPairs d 5 hd.1 hd.2.1
    cases l with
    | nil => simp at hl
    | cons x xs =>
      have hx : x = u := by simpa [get_ofPairs] using hd.2.2
      subst hx
      obtain ⟨ys, l', hr, hw, hf, hlen⟩ := keep_list hQ.hv (isEx_HV Dy) (w_strang_true_false m hm oc dt)
        (strangP_ok oc m true false dt _)
        (repW_init hu 4 xs (by simpa using hl))
      obtain ⟨zs, v, hz, hv, hq⟩ := keep_strangRun hQ m hm oc dts dt' (repW_two hw hf hlen)
      refine ⟨v, ⟨ofPairs zs, ?_, by rw [get_ofPairs, hv]⟩, hq⟩
      rw [strangRun, run_append, strangStep_eq, hr, Option.bind_some, hz]

/-! ### C47 -/

/-- C47: whatever the step length and the scratch contents, a step from a steady state ends in the same state.
(Missing: SSPRK53, for which it is false, `C47_false_ssprk53`; the schemes that leave the tracers of some scratch
slots untouched, when there are tracers.) -/
theorem C47_step_partial (S : Scheme K) (hS : S.Balanced) (hT : S.CopiesTracers ∨ Subsingleton W) (dt : K)
    (h : Steady Dy u) (hd : Current S.slots d u) : StepsTo Dy (S.prog dt) d u := by
  obtain ⟨v, hv, hq⟩ := keep_scheme (steady_keeps h) S hS hT dt hd (one_smul K u).symm
  rw [one_smul] at hq
  rwa [hq] at hv

/-- C47 for a whole run of the Strang scheme, whose steps hand an increment to the next. -/
theorem C47_strang_run (m : Erk) (hm : m ≠ .rungeKuttaSSPRK53) (oc dt : K) (dts : List K) (h : Steady Dy u)
    (hd : Current 5 d u) : StepsTo Dy (strangRun oc m true (dt :: dts)) d u := by
  obtain ⟨v, hv, hq⟩ := keep_strang (steady_keeps h) m hm oc dts dt hd (one_smul K u).symm
  rw [one_smul] at hq
  rwa [hq] at hv

/-! ### C48 -/

/-- C48: a linear functional conserved by every sub-step is conserved by a whole step.  (Missing as in C47.) -/
theorem C48_step_partial {M : Type*} [AddCommGroup M] [Module K M] (ℓ : V × W →ₗ[K] M) (S : Scheme K)
    (hS : S.Balanced) (hT : S.CopiesTracers ∨ Subsingleton W) (dt : K) (h : Conserves Dy ℓ) (hd : Current S.slots d u) :
    ∃ v, StepsTo Dy (S.prog dt) d v ∧ ℓ v = ℓ u := by
  obtain ⟨v, hv, hq⟩ := keep_scheme (conserves_keeps h u) S hS hT dt hd (one_smul K (ℓ u)).symm
  exact ⟨v, hv, by rw [hq, one_smul]⟩

/-- C48 for a whole run of the Strang scheme. -/
theorem C48_strang_run {M : Type*} [AddCommGroup M] [Module K M] (ℓ : V × W →ₗ[K] M) (m : Erk)
    (hm : m ≠ .rungeKuttaSSPRK53) (oc dt : K) (dts : List K) (h : Conserves Dy ℓ) (hd : Current 5 d u) :
    ∃ v, StepsTo Dy (strangRun oc m true (dt :: dts)) d v ∧ ℓ v = ℓ u := by
  obtain ⟨v, hv, hq⟩ := keep_strang (conserves_keeps h u) m hm oc dts dt hd (one_smul K (ℓ u)).symm
  exact ⟨v, hv, by rw [hq, one_smul]⟩

end

/-- Two reservoirs exchanging mass at a rate proportional to their difference: the total is conserved and equal
contents are steady. -/
def exchange : Dyn ℚ (ℚ × ℚ) Unit where
  hExp c x y := ((y.1.1 + c * (x.1.2 - x.1.1), y.1.2 - c * (x.1.2 - x.1.1)), ())
  vExp _ _ y := y
  vImp _ _ y := y
  hImp _ _ y := y
  vImpExp _ _ y := y
  postS x := x
  postT x := x
  filt x := x
  hyper _ x := x
  work _ z := z

example : Conserves exchange
    ((LinearMap.fst ℚ ℚ ℚ + LinearMap.snd ℚ ℚ ℚ).comp (LinearMap.fst ℚ (ℚ × ℚ) Unit)) := by
  constructor <;> intros <;> simp [exchange]

example : Steady exchange ((5, 5), ()) ∧ ¬ Steady exchange ((5, 6), ()) := by
  refine ⟨⟨fun c => by simp [exchange], fun _ => rfl, fun _ => rfl, fun _ => rfl, fun _ => rfl, rfl, rfl, rfl,
    fun _ => rfl⟩, fun h => ?_⟩
  have := h.hExp 1
  simp [exchange] at this

/-- C47 is false for SSPRK53. -/
theorem C47_false_ssprk53 (dt : ℝ) {d : Data ℝ ℝ} (hd : Current 5 d (1, 0)) :
    Steady (steady 0 0 0) ((1 : ℝ), (0 : ℝ)) ∧
    ∃ e v, run (modOps ℝ) (modOps ℝ) (steady 0 0 0) (erkStep (Erk.block .rungeKuttaSSPRK53) dt) d = some e ∧
      e.st[0]? = some v ∧ 1 < v :=
  ⟨by constructor <;> intros <;> simp [steady], C45_false_ssprk53 (1, 0) (by norm_num) dt hd⟩

end Verif.Steps
