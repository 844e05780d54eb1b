/-
C45, C46 and C49: what the schemes do with constant tendencies.
-/
import Verif.Steps.ClockEval
import Verif.Steps.PropsFlow
import Verif.Steps.PropsMethod

namespace Verif.Steps

section
variable {K V W : Type*} [Field K] [DecidableEq K] [AddCommGroup V] [Module K V] [AddCommGroup W] [Module K W]

/-! ### C45 -/

/-- The tendencies a scheme applies: the horizontal explicit ones; the vertical explicit ones unless the scheme
calls only the horizontal dynamics; the implicit ones unless it is explicit. -/
def Scheme.total {D : Type*} [Add D] : Scheme K → D → D → D → D
  | .erk _, fh, _, _ => fh
  | .ars343b _, fh, _, g => fh + g
  | .splitExp _, fh, fv, _ => fh + fv
  | _, fh, fv, g => fh + fv + g

/-- The schemes and constants for which C45 holds. -/
def Scheme.Consistent : Scheme K → Prop
  | .erk m => m ≠ .rungeKuttaSSPRK53
  | .ars222 γ _ => γ ≠ 0
  | .ars232 γ δ => γ ≠ 0 ∧ 1 - δ ≠ 0
  | .ars343 T => T.γ ≠ 0 ∧ T.a32 ≠ 0 ∧ T.a43 ≠ 0 ∧ T.b1 + T.b2 + T.γ = 1
  | .ars343b T => T.γ ≠ 0 ∧ T.a32 ≠ 0 ∧ T.a43 ≠ 0 ∧ T.b1 + T.b2 + T.γ = 1
  | .ars443 => True
  | .ssp3332 γ => γ ≠ 0
  | .gark2 γ _ => γ ≠ 0
  | .splitExp ns => 1 ≤ ns
  | .strang .. => False
  | .ark232 .. => False
  | .ark4 => False

theorem split_loop [CharZero K] (ns : Nat) (dt : K) (tr : Bool) (is : List Nat) (l : List (Option (Clk K)))
    (hl : l.length = 6) (k : Clk K) (hk : clkAt l 0 = some k)
    (mono : ∀ (p : List (Cmd K)) (l l' : List (Option (Clk K))), Weaker l' l → Weaker (clkRun tr p l') (clkRun tr p l)) :
    clkAt (clkRun tr (is.flatMap fun n => splitSmall (n + 1 == ns) (ns : K) dt) l) 0
      = some ⟨k.w, k.h, k.v + is.length * (dt / ns), k.i⟩ := by
  induction is generalizing l k with
  | nil => simp [clkRun, hk]
  | cons i is ih =>
    rw [List.flatMap_cons, clkRun_append]
    have h1 := split_small (i + 1 == ns) tr (ns : K) dt k
    have h2 := (mono (splitSmall (i + 1 == ns) (ns : K) dt) l (one k) (weaker_one hl hk)).2 0 _ h1
    rw [ih _ (by rw [clk_length, hl]) _ h2]
    simp only [List.length_cons, Nat.cast_add, Nat.cast_one, Option.some.injEq, Clk.mk.injEq, true_and, and_true]
    ring

end

section Mono
variable {K : Type*} [Field K] [DecidableEq K]

omit [Field K] [DecidableEq K] in
theorem weaker_set {l l' : List (Option (Clk K))} (h : Weaker l' l) (t : Nat) {o o' : Option (Clk K)}
    (ho : ∀ k, o' = some k → o = some k) : Weaker (l'.set t o') (l.set t o) := by
  refine ⟨by simp [h.1], fun i k hk => ?_⟩
  unfold clkAt at hk ⊢
  by_cases hit : t = i
  · subst hit
    by_cases hl : t < l'.length
    · rw [List.getElem?_set_self hl, Option.getD_some] at hk
      rw [List.getElem?_set_self (by rw [← h.1]; exact hl), Option.getD_some]
      exact ho k hk
    · rw [List.getElem?_eq_none (by simp; omega)] at hk; simp at hk
  · rw [List.getElem?_set_ne hit] at hk ⊢
    exact h.2 i k hk

theorem weaker_dot (c : List K) {l l' : List (Option (Clk K))} (h : Weaker l' l) (k : Clk K)
    (hk : clkDot c l' = some k) : ∃ k', clkDot c l = some k' ∧ (clkDot c l = some k) := by
  suffices clkDot c l = some k from ⟨k, this, this⟩
  induction c generalizing l l' k with
  | nil => simpa [clkDot] using hk
  | cons a c ih =>
    cases l' with
    | nil =>
      have : l = [] := List.length_eq_zero_iff.mp h.1.symm
      subst this; exact hk
    | cons o' l' =>
      cases l with
      | nil => simpa using h.1
      | cons o l =>
        have ht : Weaker l' l := ⟨by simpa using h.1, fun i k hi => by
          have := h.2 (i + 1) k (by simpa [clkAt] using hi)
          simpa [clkAt] using this⟩
        cases o' with
        | some v =>
          have ho : o = some v := by simpa [clkAt] using h.2 0 v (by simp [clkAt])
          subst ho
          simp only [clkDot, Option.map_eq_some_iff] at hk ⊢
          obtain ⟨b, hb, rfl⟩ := hk
          exact ⟨b, ih ht b hb, rfl⟩
        | none =>
          simp only [clkDot] at hk
          split_ifs at hk with ha
          have := ih ht k hk
          cases o with
          | none => simp only [clkDot, if_pos ha, this]
          | some v =>
            simp only [clkDot, this, Option.map_some, Clk.axpy, ha, zero_mul, zero_add]

theorem weaker_pick {l l' : List (Option (Clk K))} (h : Weaker l' l) (is : List Nat) :
    Weaker (is.map (clkAt l')) (is.map (clkAt l)) := by
  refine ⟨by simp, fun i k hk => ?_⟩
  simp only [clkAt, List.getElem?_map] at hk ⊢
  cases hi : is[i]? with
  | none => rw [hi] at hk; simp at hk
  | some j =>
    rw [hi] at hk
    simp only [Option.map_some, Option.getD_some] at hk ⊢
    exact h.2 j k hk

theorem clk_mono (tr : Bool) (c : Cmd K) {l l' : List (Option (Clk K))} (h : Weaker l' l) :
    Weaker (clk tr c l') (clk tr c l) := by
  have hm : ∀ (t : Nat) (f : Clk K → Clk K) (k : Clk K), (clkAt l' t).map f = some k → (clkAt l t).map f = some k := by
    intro t f k hk
    simp only [Option.map_eq_some_iff] at hk ⊢
    obtain ⟨a, ha, rfl⟩ := hk
    exact ⟨a, h.2 t a ha, rfl⟩
  have hd : ∀ (cs : List K) (is : List Nat) (f : Clk K → Clk K) (k : Clk K),
      (clkDot cs (is.map (clkAt l'))).map f = some k → (clkDot cs (is.map (clkAt l))).map f = some k := by
    intro cs is f k hk
    simp only [Option.map_eq_some_iff] at hk ⊢
    obtain ⟨a, ha, rfl⟩ := hk
    obtain ⟨_, _, h2⟩ := weaker_dot cs (weaker_pick h is) a ha
    exact ⟨a, h2, rfl⟩
  have hdot : ∀ (cs : List K) (k : Clk K), clkDot cs l' = some k → clkDot cs l = some k := fun cs k hk =>
    (weaker_dot cs h k hk).choose_spec.2
  cases c with
  | copy s t f =>
    cases f <;> cases tr <;> simp only [clk, if_true, if_false, Bool.false_eq_true] <;>
      first | exact h | exact weaker_set h t (fun k hk => h.2 s k hk)
  | combine c t f =>
    cases f <;> cases tr <;> simp only [clk, if_true, if_false, Bool.false_eq_true] <;>
      first | exact h | exact weaker_set h t (hdot c)
  | hExp a t c => exact weaker_set h t (hm t _)
  | vExp a t c => exact weaker_set h t (hm t _)
  | vImp a t c => exact weaker_set h t (hm t _)
  | vImpExp a t c => exact weaker_set h t (hm t _)
  | hImp a t c => exact h
  | post t f => exact h
  | filter t => exact h
  | after a t w c => exact weaker_set (weaker_set h t (fun k hk => h.2 a k hk)) w (by simp)
  | expCombine is cs a t c => exact weaker_set h t (hd cs is _)
  | impCombine is cs a t c => exact weaker_set h t (hd cs is _)
  | afterCombine t w c => exact weaker_set h w (by simp)

theorem clkRun_mono (tr : Bool) (p : List (Cmd K)) (l l' : List (Option (Clk K))) (h : Weaker l' l) :
    Weaker (clkRun tr p l') (clkRun tr p l) := by
  induction p generalizing l l' with
  | nil => exact h
  | cons c p ih => exact ih _ _ (clk_mono tr c h)

theorem shows_split [CharZero K] (ns : Nat) (dt : K) (tr : Bool) :
    Shows (.splitExp ns) 5 dt tr ⟨1, dt, ns * (dt / ns), 0⟩ := by
  unfold Shows
  simp only [Scheme.prog, splitExp]
  rw [clkRun_append]
  have h1 := split_large (K := K) tr dt ⟨1, 0, 0, 0⟩
  have h2 := split_loop ns dt tr (List.range ns) (clkRun tr (kgu35 expH dt ++ copy2 4 0) (one ⟨1, 0, 0, 0⟩))
    (by rw [clk_length]; rfl) _ h1 (clkRun_mono tr)
  have e : (clkInit 5 : List (Option (Clk K))) = one ⟨1, 0, 0, 0⟩ := rfl
  rw [e, h2]
  simp

end Mono

section
variable {K V W : Type*} [Field K] [DecidableEq K] [CharZero K] [AddCommGroup V] [Module K V] [AddCommGroup W]
  [Module K W]

/-- The clock of a consistent scheme. -/
theorem shows_total (S : Scheme K) (hS : S.Consistent) (dt : K) (tr : Bool) (htr : tr = true → S.CopiesTracers) :
    ∃ k, Shows S (S.slots - 1) dt tr k ∧ ∀ {D : Type _} [AddCommGroup D] [Module K D] (u fh fv g : D),
      k.val u fh fv g = u + dt • S.total fh fv g := by
  have no : ∀ {S : Scheme K}, ¬ S.CopiesTracers → (tr = true → S.CopiesTracers) → tr = false := by
    intro S h1 h2
    cases tr
    · rfl
    · exact absurd (h2 rfl) h1
  cases S with
  | erk m => exact ⟨_, shows_erk m hS dt tr, fun u fh fv g => by simp [Clk.val, Scheme.total]⟩
  | strang => exact hS.elim
  | ars222 γ δ =>
    obtain rfl := no id htr
    exact ⟨_, shows_222 hS δ dt, fun u fh fv g => by simp [Clk.val, Scheme.total, smul_add, add_assoc]⟩
  | ars232 γ δ =>
    exact ⟨_, shows_232 hS.1 hS.2 dt tr, fun u fh fv g => by simp [Clk.val, Scheme.total, smul_add, add_assoc]⟩
  | ars343 T =>
    exact ⟨_, shows_343 T hS.1 hS.2.1 hS.2.2.1 dt tr, fun u fh fv g => by
      rw [hS.2.2.2]; simp [Clk.val, Scheme.total, smul_add, add_assoc]⟩
  | ars343b T =>
    exact ⟨_, shows_343b T hS.1 hS.2.1 hS.2.2.1 dt tr, fun u fh fv g => by
      rw [hS.2.2.2]; simp [Clk.val, Scheme.total, smul_add]⟩
  | ars443 =>
    obtain rfl := no id htr
    exact ⟨_, shows_443 dt, fun u fh fv g => by simp [Clk.val, Scheme.total, smul_add, add_assoc]⟩
  | ssp3332 γ =>
    obtain rfl := no id htr
    exact ⟨_, shows_3332 hS dt, fun u fh fv g => by simp [Clk.val, Scheme.total, smul_add, add_assoc]⟩
  | gark2 γ α =>
    obtain rfl := no id htr
    exact ⟨_, shows_gark2 hS α dt, fun u fh fv g => by simp [Clk.val, Scheme.total, smul_add, add_assoc]⟩
  | ark232 => exact hS.elim
  | ark4 => exact hS.elim
  | splitExp ns =>
    have h : (ns : K) ≠ 0 := Nat.cast_ne_zero.mpr (by have : 1 ≤ ns := hS; omega)
    exact ⟨_, shows_split ns dt tr, fun u fh fv g => by
      rw [mul_div_cancel₀ _ h]; simp [Clk.val, Scheme.total, smul_add]⟩

variable {Dy : Dyn K V W} {u fh fv g : V × W} {d : Data V W}

theorem scheme_clk (hC : Constant Dy fh fv g) (S : Scheme K) (dt : K) (hd : Current S.slots d u) :
    ∃ e, run (modOps K) (modOps K) Dy (S.prog dt) d = some e ∧ HasSlots S.slots e ∧
      RepD u fh fv g (clkRun false (S.prog dt) (clkInit (S.slots - 1))) (clkRun true (S.prog dt) (clkInit (S.slots - 1))) e := by
  have hp := ok_all S dt
  have e := slots_pos S
  rw [e] at hd hp ⊢
  exact clk_step hC hp hd

/-- C45: for constant tendencies one step moves the state by exactly `dt` times their sum, whatever the scratch
contents and for every scheme but those below.  (Missing: SSPRK53, ARK232 and ARK4, for which it is false, see
`C45_false_…`; Strang, see C46.) -/
theorem C45_state_partial (hC : Constant Dy fh fv g) (S : Scheme K) (hS : S.Consistent) (dt : K)
    (hd : Current S.slots d u) :
    ∃ e, run (modOps K) (modOps K) Dy (S.prog dt) d = some e ∧
      e.st[0]? = some (u.1 + dt • S.total fh.1 fv.1 g.1) := by
  obtain ⟨e, he, -, hr⟩ := scheme_clk hC S dt hd
  obtain ⟨k, hk, hv⟩ := shows_total S hS dt false (by simp)
  exact ⟨e, he, by rw [hr.1.2 0 k hk, hv]⟩

/-- C45 for the tracers, for the schemes that carry them through all stages. -/
theorem C45_tracers_partial (hC : Constant Dy fh fv g) (S : Scheme K) (hS : S.Consistent) (hT : S.CopiesTracers)
    (dt : K) (hd : Current S.slots d u) :
    ∃ e, run (modOps K) (modOps K) Dy (S.prog dt) d = some e ∧
      e.tr[0]? = some (u.2 + dt • S.total fh.2 fv.2 g.2) := by
  obtain ⟨e, he, -, hr⟩ := scheme_clk hC S dt hd
  obtain ⟨k, hk, hv⟩ := shows_total S hS dt true (fun _ => hT)
  exact ⟨e, he, by rw [hr.2.2 0 k hk, hv]⟩

end

/-- Constant tendencies: one state variable and one tracer. -/
def steady (fh fv g : ℝ × ℝ) : Dyn ℝ ℝ ℝ where
  hExp c _ y := y + c • fh
  vExp c _ y := y + c • fv
  vImp c _ y := y + c • g
  hImp _ _ y := y
  vImpExp c _ y := y + c • g
  postS x := x
  postT x := x
  filt x := x
  hyper _ x := x
  work _ z := z

theorem steady_constant (fh fv g : ℝ × ℝ) : Constant (steady fh fv g) fh fv g :=
  ⟨fun _ _ _ => rfl, fun _ _ _ => rfl, fun _ _ _ => rfl, fun _ _ _ => rfl, fun _ _ _ => rfl, fun _ => rfl,
   fun _ => rfl, fun _ => rfl, fun _ _ => rfl⟩

/-- The source's constants are consistent ones. -/
example : (Scheme.ars222 γ222 δ222).Consistent ∧ (Scheme.ars232 γ232 δ232).Consistent ∧
    (Scheme.ars343 (tab343 (K := ℝ))).Consistent ∧ (Scheme.ssp3332 γ232).Consistent ∧
    (Scheme.gark2 γ222 (1 / 2)).Consistent := by
  refine ⟨γ222_ne, ⟨γ232_ne, ?_⟩, ?_, γ232_ne, γ222_ne⟩
  · unfold δ232; nlinarith [sq2_pos]
  · simp only [Scheme.Consistent, tab343]; norm_num

example : ∃ e, run (modOps ℝ) (modOps ℝ) (steady (1, 2) (3, 4) (5, 6)) (ars443 2)
      ⟨[7, 1, 1, 1, 1, 1, 1, 1, 1, 1], [8, 1, 1, 1, 1, 1, 1, 1, 1, 1]⟩ = some e ∧
    e.st[0]? = some ((7 : ℝ) + (2 : ℝ) • (1 + 3 + 5 : ℝ)) :=
  C45_state_partial (steady_constant _ _ _) .ars443 trivial 2 (u := (7, 8)) ⟨rfl, rfl, rfl⟩

/-- The constants of TimestepSchemeARK232.cpp:26-29. -/
noncomputable def δark : ℝ := 1 / (2 * √2)
noncomputable def αark : ℝ := 1 / 6 * (3 + 2 * √2)

/-- C45 is false for ARK232: one step applies the explicit tendencies for about `1.116 dt`. -/
theorem C45_false_ark232 (fh fv g u : ℝ × ℝ) (dt : ℝ) (hdt : 0 < dt) {d : Data ℝ ℝ}
    (hd : Current 8 d u) (hf : 0 < fh.1 + fv.1) :
    ∃ e v, run (modOps ℝ) (modOps ℝ) (steady fh fv g) (ark232 γ232 δark αark dt) d = some e ∧
      e.st[0]? = some v ∧ u.1 + dt * (fh.1 + fv.1 + g.1) + 11 / 100 * dt * (fh.1 + fv.1) < v := by
  obtain ⟨e, he, -, hr⟩ := scheme_clk (steady_constant fh fv g) (.ark232 γ232 δark αark) dt hd
  have ha : αark ≠ 0 := by unfold αark; nlinarith [sq2_pos]
  have := hr.1.2 0 _ (shows_ark232 γ232_ne ha δark dt)
  refine ⟨e, _, he, this, ?_⟩
  have hδ : δark = √2 / 4 := by
    have := sq2_pos.ne'
    unfold δark; field_simp; nlinarith [sq2]
  simp only [Clk.val, γ232_eq, hδ, smul_eq_mul]
  have h1 : (2 * (1 - √2 / 2) + 3 / 2 * (√2 / 4)) = 2 - 5 / 8 * √2 := by ring
  have h2 : (1 - √2 / 2 + 2 * (√2 / 4)) = 1 := by ring
  rw [h1, h2]
  have h3 : √2 < 71 / 50 := by nlinarith [sq2, sq2_pos]
  have h4 : 0 < dt * (fh.1 + fv.1) := mul_pos hdt hf
  nlinarith

example : Current 8 (⟨[1, 0, 0, 0, 0, 0, 0, 0], [1, 0, 0, 0, 0, 0, 0, 0]⟩ : Data ℝ ℝ) (1, 1) := ⟨rfl, rfl, rfl⟩

/-- C45 is false for ARK4: with `dt = 1` and a unit horizontal tendency the state moves backwards by a third. -/
theorem C45_false_ark4 (Dy : Dyn ℚ ℚ Unit) (hC : Constant Dy (1, ()) 0 0) {d : Data ℚ Unit} (hd : Current 14 d (0, ())) :
    ∃ e, run (modOps ℚ) (modOps ℚ) Dy (ark4 1) d = some e ∧ e.st[0]? = some (-1 / 3 : ℚ) := by
  obtain ⟨e, he, -, hr⟩ := scheme_clk hC .ark4 1 hd
  refine ⟨e, he, ?_⟩
  rw [hr.1.2 0 _ shows_ark4]
  norm_num [Clk.val]

/-- C45 and C47 are false for SSPRK53: even without tendencies the state is multiplied by a number above one, because
two decimals of the source (TimestepSchemeERK.cpp:62-64) add up to more than one. -/
theorem C45_false_ssprk53 (u : ℝ × ℝ) (hu : 0 < u.1) (dt : ℝ) {d : Data ℝ ℝ} (hd : Current 5 d u) :
    ∃ e v, run (modOps ℝ) (modOps ℝ) (steady 0 0 0) (erkStep (Erk.block .rungeKuttaSSPRK53) dt) d = some e ∧
      e.st[0]? = some v ∧ u.1 < v := by
  obtain ⟨e, he, -, hr⟩ := scheme_clk (steady_constant 0 0 0) (.erk .rungeKuttaSSPRK53) dt hd
  obtain ⟨h, hs⟩ := shows_ssprk53 dt false
  refine ⟨e, _, he, hr.1.2 0 _ hs, ?_⟩
  simp only [Clk.val, Prod.fst_zero, smul_eq_mul]
  nlinarith

/-! ### C49 -/

section
variable {K V W : Type*} [Field K] [DecidableEq K] [CharZero K] [AddCommGroup V] [Module K V] [AddCommGroup W]
  [Module K W] {Dy : Dyn K V W} {u fh fv g : V × W} {d : Data V W}

/-- C49: with at least one small step the split-explicit scheme applies the horizontal and the vertical terms for
`dt` each.  (Missing: no small steps, for which it is false, `C49_false`.) -/
theorem C49_partial (hC : Constant Dy fh fv g) (ns : Nat) (hn : 1 ≤ ns) (dt : K) (hd : Current 6 d u) :
    StepsTo Dy (splitExp ns dt) d (u + dt • (fh + fv)) := by
  obtain ⟨e, he, hsl, hr⟩ := scheme_clk hC (.splitExp ns) dt hd
  have h : (ns : K) ≠ 0 := Nat.cast_ne_zero.mpr (by omega)
  refine ⟨e, he, ?_⟩
  have h1 := hr.1.2 0 _ (shows_split ns dt false)
  have h2 := hr.2.2 0 _ (shows_split ns dt true)
  rw [mul_div_cancel₀ _ h] at h1 h2
  unfold Data.get
  rw [h1, h2]
  simp [Clk.val, Prod.ext_iff]

/-- C49 is false without small steps: the vertical terms are not applied at all. -/
theorem C49_false (hC : Constant Dy fh fv g) (dt : K) (hd : Current 6 d u) :
    StepsTo Dy (splitExp 0 dt) d (u + dt • fh) := by
  obtain ⟨e, he, hsl, hr⟩ := scheme_clk hC (.splitExp 0) dt hd
  refine ⟨e, he, ?_⟩
  have h1 := hr.1.2 0 _ (shows_split 0 dt false)
  have h2 := hr.2.2 0 _ (shows_split 0 dt true)
  unfold Data.get
  rw [h1, h2]
  simp [Clk.val, Prod.ext_iff]

end

/-- The number of small steps, `static_cast<int>(2 dt / dtSmall)` with `dtSmall = (zTop / levels) / 350`
(TimestepSchemeSplitExp.cpp:85-90), over the reals. -/
noncomputable def smallSteps (dt zTop : ℝ) (levels : Nat) : Nat := ⌊2 * dt / (zTop / levels / 350)⌋₊

/-- There is no small step exactly when twice the step is shorter than the small step. -/
theorem C49_small_steps (dt zTop : ℝ) (levels : Nat) (hz : 0 < zTop) (hl : 0 < levels) :
    1 ≤ smallSteps dt zTop levels ↔ zTop / levels / 350 ≤ 2 * dt := by
  have h : 0 < zTop / levels / 350 := by positivity
  rw [smallSteps, Nat.one_le_floor_iff, le_div_iff₀ h, one_mul]

/-- A step of a tenth of a second with levels 300 m apart: no small step. -/
example : smallSteps (1 / 10) 30000 100 = 0 := by
  have := (C49_small_steps (1 / 10) 30000 100 (by norm_num) (by norm_num)).not.mpr (by norm_num)
  omega

/-! ### C46 -/

section
variable {K V W : Type*} [Field K] [DecidableEq K] [CharZero K] [AddCommGroup V] [Module K V] [AddCommGroup W]
  [Module K W] {Dy : Dyn K V W} {u fh fv g : V × W} {d : Data V W}

theorem strang_rest (m : Erk) (hm : m ≠ .rungeKuttaSSPRK53) (oc : K) (tr : Bool) (dts : List K) (dt : K)
    (l : List (Option (Clk K))) (hl : l.length = 5) (k : Clk K) (c : K) (h0 : clkAt l 0 = some k)
    (h1 : clkAt l 1 = some ⟨0, 0, 0, c⟩) :
    clkAt (clkRun tr (strangRun oc m false (dt :: dts)) l) 0 =
      some ⟨k.w, k.h + (dt :: dts).sum, k.v + (dt :: dts).sum,
        k.i + c + kappa oc * ((dt :: dts).sum + (dt :: dts).dropLast.sum)⟩ := by
  induction dts generalizing dt l k c with
  | nil =>
    have := (clkRun_mono tr (strangStep oc m.block false true dt) l _ (weaker_two hl h0 (k1 := some ⟨0, 0, 0, c⟩)
      (fun k hk => by rw [h1, hk]))).2 0 _ (strang_next m hm oc dt c true tr k)
    rw [strangRun, this]
    simp
  | cons dt' dts ih =>
    have w := clkRun_mono tr (strangStep oc m.block false false dt) l _ (weaker_two hl h0 (k1 := some ⟨0, 0, 0, c⟩)
      (fun k hk => by rw [h1, hk]))
    have a := w.2 0 _ (strang_next m hm oc dt c false tr k)
    have b := w.2 1 _ (strang_next_carry m hm oc dt c tr k)
    rw [strangRun, clkRun_append, ih dt' _ (by rw [clk_length, hl]) _ _ a b]
    simp only [List.sum_cons, List.dropLast_cons₂, Option.some.injEq, Clk.mk.injEq, true_and]
    refine ⟨by ring, by ring, by ring⟩

theorem strang_whole (m : Erk) (hm : m ≠ .rungeKuttaSSPRK53) (oc : K) (tr : Bool) (dts : List K) (dt : K) :
    clkAt (clkRun tr (strangRun oc m true (dt :: dts)) (clkInit 4)) 0 =
      some ⟨1, (dt :: dts).sum, (dt :: dts).sum,
        dt / 2 + kappa oc * ((dt :: dts).sum + (dt :: dts).dropLast.sum)⟩ := by
  have e : (clkInit 4 : List (Option (Clk K))) = two ⟨1, 0, 0, 0⟩ none := rfl
  rw [e]
  cases dts with
  | nil =>
    rw [strangRun, strang_first m hm oc dt true tr]
    simp
  | cons dt' dts =>
    rw [strangRun, clkRun_append, strang_rest m hm oc tr dts dt' _ (by rw [clk_length]; rfl) _ _
      (strang_first m hm oc dt false tr _) (strang_first_carry m hm oc dt tr _)]
    simp only [List.sum_cons, List.dropLast_cons₂, Option.some.injEq, Clk.mk.injEq, true_and]
    refine ⟨by ring, by ring, by ring⟩

omit [DecidableEq K] [CharZero K] in
theorem ok_strangRun (oc : K) (m : Erk) (f : Bool) (dts : List K) : (strangRun oc m f dts).all (okCmd 5) = true := by
  match f, dts with
  | _, [] => rfl
  | f, [dt] => exact ok_all (.strang m oc f true) dt
  | f, dt :: dt' :: dts =>
    rw [strangRun, List.all_append, Bool.and_eq_true]
    exact ⟨ok_all (.strang m oc f false) dt, ok_strangRun oc m false (dt' :: dts)⟩

/-- A run of the Strang scheme with constant tendencies, for any step lengths `dt :: dts` and any off-centering:
the explicit terms are applied for the length of the run, the implicit ones for
`dt/2 + κ (Σ dt_i + Σ_{i < last} dt_i)` with `κ = (2 - oc)(1 + oc)/4`.  (C46 asks for the length of the run, see
`C46_run_partial` and `C46_false_…`.) -/
theorem C46_total (hC : Constant Dy fh fv g) (m : Erk) (hm : m ≠ .rungeKuttaSSPRK53) (oc : K) (dt : K) (dts : List K)
    (hd : Current 5 d u) :
    StepsTo Dy (strangRun oc m true (dt :: dts)) d
      (u + (dt :: dts).sum • (fh + fv) +
        (dt / 2 + (2 - oc) * (1 + oc) / 4 * ((dt :: dts).sum + (dt :: dts).dropLast.sum)) • g) := by
  obtain ⟨e, he, hsl, hr⟩ := clk_step (n := 4) hC (ok_strangRun oc m true (dt :: dts)) hd
  refine ⟨e, he, ?_⟩
  have h1 := hr.1.2 0 _ (strang_whole m hm oc false dts dt)
  have h2 := hr.2.2 0 _ (strang_whole m hm oc true dts dt)
  unfold Data.get
  rw [h1, h2]
  simp [Clk.val, kappa, Prod.ext_iff, add_assoc]

/-- C46 for off-centering zero or one and equal first and last step: explicit and implicit terms are both applied for
exactly the length of the run.  (Missing: other off-centerings and a shorter last step, for which it is false.) -/
theorem C46_run_partial (hC : Constant Dy fh fv g) (m : Erk) (hm : m ≠ .rungeKuttaSSPRK53) (oc : K)
    (hoc : oc = 0 ∨ oc = 1) (dt : K) (dts : List K) (hlast : (dt :: dts).getLast? = some dt) (hd : Current 5 d u) :
    StepsTo Dy (strangRun oc m true (dt :: dts)) d (u + (dt :: dts).sum • (fh + fv + g)) := by
  have h := C46_total hC m hm oc dt dts hd
  have hk : (2 - oc) * (1 + oc) / 4 = 1 / 2 := by rcases hoc with rfl | rfl <;> norm_num
  have hs : (dt :: dts).sum = (dt :: dts).dropLast.sum + dt := by
    conv_lhs => rw [← List.dropLast_append_getLast? _ hlast, List.sum_append, List.sum_singleton]
  rw [hk] at h
  have e : dt / 2 + 1 / 2 * ((dt :: dts).sum + (dt :: dts).dropLast.sum) = (dt :: dts).sum := by
    rw [hs]; ring
  rw [e] at h
  rw [smul_add _ (fh + fv) g, ← add_assoc]
  exact h

end

example : ∃ e, run (modOps ℝ) (modOps ℝ) (steady (1, 2) (3, 4) (5, 6)) (strangRun 0 .rungeKutta4 true [2, 3, 2])
      ⟨[7, 1, 1, 1, 1], [8, 1, 1, 1, 1]⟩ = some e ∧
    e.get 0 = some (((7 : ℝ), (8 : ℝ)) + ([2, 3, 2] : List ℝ).sum • ((1, 2) + (3, 4) + (5, 6))) :=
  C46_run_partial (steady_constant _ _ _) .rungeKutta4 (by simp) 0 (.inl rfl) 2 [3, 2] rfl ⟨rfl, rfl, rfl⟩

/-- C46 is false for off-centering 1/2: one step of length one applies a unit implicit tendency for 17/16. -/
theorem C46_false_offcentering {d : Data ℝ ℝ} (hd : Current 5 d (0, 0)) :
    StepsTo (steady 0 0 (1, 0)) (strangRun (1 / 2) .rungeKutta4 true [1]) d (17 / 16, 0) := by
  obtain ⟨e, he, h⟩ := C46_total (steady_constant 0 0 (1, 0)) .rungeKutta4 (by simp) (1 / 2) 1 [] hd
  exact ⟨e, he, by rw [h]; norm_num⟩

/-- C46 is false when the last step is shorter: steps of one and one half apply a unit implicit tendency for 7/4
instead of 3/2. -/
theorem C46_false_short_last {d : Data ℝ ℝ} (hd : Current 5 d (0, 0)) :
    StepsTo (steady 0 0 (1, 0)) (strangRun 0 .rungeKutta4 true [1, 1 / 2]) d (7 / 4, 0) := by
  obtain ⟨e, he, h⟩ := C46_total (steady_constant 0 0 (1, 0)) .rungeKutta4 (by simp) 0 1 [1 / 2] hd
  exact ⟨e, he, by rw [h]; norm_num⟩

end Verif.Steps
