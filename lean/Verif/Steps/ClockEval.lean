/-
The clocks of all schemes.
-/
import Verif.Steps.Clock
import Verif.Steps.Schemes
import Mathlib.Tactic.FieldSimp
import Mathlib.Tactic.Ring

namespace Verif.Steps

section
variable {K : Type*} [Field K] [DecidableEq K]

local macro "flatten" : tactic => `(tactic| (
  simp only [Scheme.prog, Erk.block, erkStep, Steps.forwardEuler, Steps.rk4, Steps.ssp3, Steps.kgu35, Steps.ssprk53,
    Steps.ars222, Steps.ars232, Steps.ars343, Steps.ars343b, Steps.ssp3332, Steps.gark2, Steps.ark232, ark232Sub,
    copy2, copySS, comb2, post2, expH, expHV, expV, impV, List.cons_append, List.nil_append, List.append_assoc,
    List.append_nil, u2c, u3c, u4c]))

local macro "clkEval" : tactic => `(tactic| (
  simp [clkRun, clk, clkAt, clkDot, clkInit, List.replicate, Clk.addH, Clk.addV, Clk.addI, Clk.axpy]))

/-- Slot 0 has the clock `k` after a step of the scheme. -/
def Shows (S : Scheme K) (n : Nat) (dt : K) (tr : Bool) (k : Clk K) : Prop :=
  clkAt (clkRun tr (S.prog dt) (clkInit n)) 0 = some k

theorem shows_erk [CharZero K] (m : Erk) (hm : m ≠ .rungeKuttaSSPRK53) (dt : K) (tr : Bool) :
    Shows (.erk m) 4 dt tr ⟨1, dt, 0, 0⟩ := by
  unfold Shows
  cases m with
  | rungeKuttaSSPRK53 => exact absurd rfl hm
  | _ => cases tr <;> flatten <;> clkEval <;> try (field_simp; norm_num) <;> try ring_nf

theorem shows_222 {γ : K} (h : γ ≠ 0) (δ dt : K) : Shows (.ars222 γ δ) 3 dt false ⟨1, dt, dt, dt⟩ := by
  unfold Shows; flatten; clkEval; field_simp; ring_nf; simp
theorem shows_232 {γ δ : K} (h : γ ≠ 0) (hδ : 1 - δ ≠ 0) (dt : K) (tr : Bool) :
    Shows (.ars232 γ δ) 6 dt tr ⟨1, dt, dt, dt⟩ := by
  unfold Shows; cases tr <;> flatten <;> clkEval <;> field_simp <;> ring_nf <;> simp
theorem shows_343 [CharZero K] (T : Tab343 K) (h : T.γ ≠ 0) (h2 : T.a32 ≠ 0) (h3 : T.a43 ≠ 0) (dt : K) (tr : Bool) :
    Shows (.ars343 T) 6 dt tr ⟨1, (T.b1 + T.b2 + T.γ) * dt, (T.b1 + T.b2 + T.γ) * dt, (T.b1 + T.b2 + T.γ) * dt⟩ := by
  unfold Shows; cases tr <;> flatten <;> clkEval <;> field_simp <;> ring_nf <;> simp
theorem shows_343b [CharZero K] (T : Tab343 K) (h : T.γ ≠ 0) (h2 : T.a32 ≠ 0) (h3 : T.a43 ≠ 0) (dt : K) (tr : Bool) :
    Shows (.ars343b T) 6 dt tr ⟨1, (T.b1 + T.b2 + T.γ) * dt, 0, (T.b1 + T.b2 + T.γ) * dt⟩ := by
  unfold Shows; cases tr <;> flatten <;> clkEval <;> field_simp <;> ring_nf <;> simp
theorem shows_443 [CharZero K] (dt : K) : Shows .ars443 9 dt false ⟨1, dt, dt, dt⟩ := by
  unfold Shows; simp only [Scheme.prog]; delta Steps.ars443; flatten; clkEval; field_simp; norm_num; ring_nf; simp
theorem shows_3332 [CharZero K] {γ : K} (h : γ ≠ 0) (dt : K) : Shows (.ssp3332 γ) 8 dt false ⟨1, dt, dt, dt⟩ := by
  unfold Shows; flatten; clkEval; field_simp; ring_nf; simp
theorem shows_gark2 {γ : K} (h : γ ≠ 0) (α dt : K) : Shows (.gark2 γ α) 4 dt false ⟨1, dt, dt, dt⟩ := by
  unfold Shows; flatten; clkEval; field_simp; ring_nf; simp
theorem shows_ark232 [CharZero K] {γ α : K} (h : γ ≠ 0) (hα : α ≠ 0) (δ dt : K) :
    Shows (.ark232 γ δ α) 7 dt false
      ⟨1, (2 * γ + 3 / 2 * δ) * dt, (2 * γ + 3 / 2 * δ) * dt, (γ + 2 * δ) * dt⟩ := by
  unfold Shows; flatten; clkEval; field_simp; ring_nf; simp
set_option maxRecDepth 4000 in
theorem shows_ssprk53 [CharZero K] (dt : K) (tr : Bool) : ∃ h,
    Shows (.erk .rungeKuttaSSPRK53) 4 dt tr ⟨1 + 481891172932857455450580025953 / 10 ^ 45, h, 0, 0⟩ := by
  unfold Shows; cases tr <;> flatten <;> clkEval <;> norm_num

/-! ### Forgetting -/

/-- `l'` knows no more than `l`. -/
def Weaker (l' l : List (Option (Clk K))) : Prop :=
  l'.length = l.length ∧ ∀ i k, clkAt l' i = some k → clkAt l i = some k

omit [DecidableEq K] in
theorem repC_weaken {D : Type*} [AddCommGroup D] [Module K D] {u fh fv g : D} {l l' : List (Option (Clk K))}
    {xs : List D} (h : RepC u fh fv g l xs) (hw : Weaker l' l) : RepC u fh fv g l' xs :=
  ⟨by rw [h.1, hw.1], fun i k hk => h.2 i k (hw.2 i k hk)⟩

/-! ### Strang -/

/-- Five slots of which the first two are known. -/
def two (k0 : Clk K) (k1 : Option (Clk K)) : List (Option (Clk K)) := [some k0, k1, none, none, none]

omit [Field K] [DecidableEq K] in
theorem weaker_two {l : List (Option (Clk K))} {k0 : Clk K} {k1 : Option (Clk K)} (hl : l.length = 5)
    (h0 : clkAt l 0 = some k0) (h1 : ∀ k, k1 = some k → clkAt l 1 = some k) : Weaker (two k0 k1) l := by
  refine ⟨by simp [two, hl], fun i k hk => ?_⟩
  match i with
  | 0 => simp [clkAt, two] at hk; rw [h0, hk]
  | 1 => exact h1 k (by simpa [clkAt, two] using hk)
  | 2 => simp [clkAt, two] at hk
  | 3 => simp [clkAt, two] at hk
  | 4 => simp [clkAt, two] at hk
  | n + 5 => simp [clkAt, two] at hk

omit [Field K] [DecidableEq K] in
theorem clk_length [Field K] [DecidableEq K] (tr : Bool) (p : List (Cmd K)) (l : List (Option (Clk K))) :
    (clkRun tr p l).length = l.length := by
  induction p generalizing l with
  | nil => rfl
  | cons c p ih =>
    rw [clkRun, List.foldl_cons, ← clkRun, ih]
    cases c <;> try rename_i f <;> cases f
    all_goals first | (cases tr <;> simp [clk]; done) | simp [clk]

/-- `κ = (2 - oc)(1 + oc) / 4`: the part of the step for which the implicit terms are applied at its end. -/
def kappa (oc : K) : K := (2 - oc) * (1 + oc) / 4

local macro "strEval" : tactic => `(tactic| (
  simp only [strangStep, strangStart, Erk.block, Steps.forwardEuler, Steps.rk4, Steps.ssp3, Steps.kgu35,
    copy2, copySS, comb2, post2, expH, expHV, expV, impV, List.cons_append, List.nil_append, List.append_assoc,
    List.append_nil, if_true, if_false, Bool.false_eq_true, two, kappa];
  simp [clkRun, clk, clkAt, clkDot, Clk.addH, Clk.addV, Clk.addI, Clk.axpy]))

theorem strang_first [CharZero K] (m : Erk) (hm : m ≠ .rungeKuttaSSPRK53) (oc dt : K) (last tr : Bool) (k : Clk K) :
    clkAt (clkRun tr (strangStep oc m.block true last dt) (two k none)) 0
      = some ⟨k.w, k.h + dt, k.v + dt, k.i + dt / 2 + kappa oc * dt⟩ := by
  cases m with
  | rungeKuttaSSPRK53 => exact absurd rfl hm
  | _ => cases tr <;> cases last <;> strEval <;> field_simp <;> ring_nf <;> simp

/-- The carried-over increment. -/
theorem strang_first_carry [CharZero K] (m : Erk) (hm : m ≠ .rungeKuttaSSPRK53) (oc dt : K) (tr : Bool) (k : Clk K) :
    clkAt (clkRun tr (strangStep oc m.block true false dt) (two k none)) 1 = some ⟨0, 0, 0, kappa oc * dt⟩ := by
  cases m with
  | rungeKuttaSSPRK53 => exact absurd rfl hm
  | _ => cases tr <;> strEval <;> field_simp <;> ring_nf <;> simp

theorem strang_next [CharZero K] (m : Erk) (hm : m ≠ .rungeKuttaSSPRK53) (oc dt c : K) (last tr : Bool) (k : Clk K) :
    clkAt (clkRun tr (strangStep oc m.block false last dt) (two k (some ⟨0, 0, 0, c⟩))) 0
      = some ⟨k.w, k.h + dt, k.v + dt, k.i + c + kappa oc * dt⟩ := by
  cases m with
  | rungeKuttaSSPRK53 => exact absurd rfl hm
  | _ => cases tr <;> cases last <;> strEval <;> field_simp <;> ring_nf <;> simp

theorem strang_next_carry [CharZero K] (m : Erk) (hm : m ≠ .rungeKuttaSSPRK53) (oc dt c : K) (tr : Bool) (k : Clk K) :
    clkAt (clkRun tr (strangStep oc m.block false false dt) (two k (some ⟨0, 0, 0, c⟩))) 1
      = some ⟨0, 0, 0, kappa oc * dt⟩ := by
  cases m with
  | rungeKuttaSSPRK53 => exact absurd rfl hm
  | _ => cases tr <;> strEval <;> field_simp <;> ring_nf <;> simp

/-! ### Split-explicit -/

/-- Six slots of which the first is known. -/
def one (k : Clk K) : List (Option (Clk K)) := [some k, none, none, none, none, none]

omit [Field K] [DecidableEq K] in
theorem weaker_one {l : List (Option (Clk K))} {k : Clk K} (hl : l.length = 6)
    (h0 : clkAt l 0 = some k) : Weaker (one k) l := by
  refine ⟨by simp [one, hl], fun i k' hk => ?_⟩
  match i with
  | 0 => simp [clkAt, one] at hk; rw [h0, hk]
  | 1 => simp [clkAt, one] at hk
  | 2 => simp [clkAt, one] at hk
  | 3 => simp [clkAt, one] at hk
  | 4 => simp [clkAt, one] at hk
  | 5 => simp [clkAt, one] at hk
  | n + 6 => simp [clkAt, one] at hk

theorem split_small [CharZero K] (last tr : Bool) (n dt : K) (k : Clk K) :
    clkAt (clkRun tr (splitSmall last n dt) (one k)) 0 = some ⟨k.w, k.h, k.v + dt / n, k.i⟩ := by
  cases tr <;> cases last <;>
    (simp only [splitSmall, one, copy2, comb2, post2, expV, List.cons_append, List.nil_append, List.append_assoc,
      List.append_nil, if_true, if_false, Bool.false_eq_true];
     simp [clkRun, clk, clkAt, clkDot, Clk.addH, Clk.addV, Clk.addI, Clk.axpy]) <;>
    field_simp <;> ring_nf <;> simp

theorem split_large [CharZero K] (tr : Bool) (dt : K) (k : Clk K) :
    clkAt (clkRun tr (kgu35 expH dt ++ copy2 4 0) (one k)) 0 = some ⟨k.w, k.h + dt, k.v, k.i⟩ := by
  cases tr <;>
    (simp only [kgu35, one, copy2, comb2, post2, expH, List.cons_append, List.nil_append, List.append_assoc,
      List.append_nil];
     simp [clkRun, clk, clkAt, clkDot, Clk.addH, Clk.addV, Clk.addI, Clk.axpy]) <;>
    field_simp <;> ring_nf <;> simp

/-! ### ARK4 -/

set_option maxRecDepth 8000 in
set_option maxHeartbeats 4000000 in
theorem shows_ark4 : Shows (.ark4 : Scheme ℚ) 13 1 false ⟨1, -1 / 3, -1 / 3, 11 / 30⟩ := by
  unfold Shows; simp only [Scheme.prog]; delta Steps.ark4
  simp only [copy2, comb2, post2, expHV, List.cons_append, List.nil_append, List.append_assoc, List.append_nil,
    ark4U, ark4Known, ark4Kh, ark4K, ark4Minus, ark4I, ark4E, ent, List.range, List.range.loop, List.flatMap_cons,
    List.flatMap_nil, List.getD_cons_zero, List.getD_cons_succ]
  clkEval
  norm_num

end

end Verif.Steps
