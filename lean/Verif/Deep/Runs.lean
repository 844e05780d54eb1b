import Verif.Deep.Nodes
import Verif.Deep.Agree
import Verif.Whole.Runs

/-!
# What every step of a whole nonhydrostatic model keeps
-/

namespace Verif.Deep

variable (A : Atmos)

theorem Atmos.total_zero (c : Nat) : A.total c 0 = 0 := by simp [Atmos.total]

theorem Atmos.total_add (c : Nat) (v w : A.W.Field) : A.total c (v + w) = A.total c v + A.total c w := by
  simp only [Atmos.total, ← Finset.sum_add_distrib, Pi.add_apply, mul_add]

theorem Atmos.total_smul (c : Nat) (r : ℝ) (v : A.W.Field) : A.total c (r • v) = r * A.total c v := by
  simp only [Atmos.total, Finset.mul_sum, Pi.smul_apply, smul_eq_mul]
  refine Finset.sum_congr rfl fun _ _ => Finset.sum_congr rfl fun _ _ => Finset.sum_congr rfl fun _ _ =>
    Finset.sum_congr rfl fun _ _ => Finset.sum_congr rfl fun _ _ => Finset.sum_congr rfl fun _ _ => ?_
  ring

theorem Atmos.joined_zero : A.Joined 0 := fun _ _ _ _ _ _ _ _ => rfl

theorem Atmos.joined_add (v w : A.W.Field) (hv : A.Joined v) (hw : A.Joined w) : A.Joined (v + w) := by
  intro i iA iB hI c hc k hk
  simp only [Pi.add_apply]
  rw [hv i iA iB hI c hc k hk, hw i iA iB hI c hc k hk]

theorem Atmos.joined_smul (r : ℝ) (v : A.W.Field) (hv : A.Joined v) : A.Joined (r • v) := by
  intro i iA iB hI c hc k hk
  simp only [Pi.smul_apply]
  rw [hv i iA iB hI c hc k hk]

/-- The dynamics of a model without tracers: as `Atmos.dyn`, where the loops over tracers run zero times. -/
noncomputable def Atmos.dry : Steps.Dyn ℝ A.W.Field PUnit.{1} where
  hExp dt x y := ((A.stepExplicit dt (x.1, fun _ _ _ _ _ => 0) (y.1, fun _ _ _ _ _ => 0)).1, ⟨⟩)
  vExp dt x y := ((A.stepVertical dt (x.1, fun _ _ _ _ _ => 0) (y.1, fun _ _ _ _ _ => 0)).1, ⟨⟩)
  vImp dt x y := ((A.stepImplicit dt (x.1, fun _ _ _ _ _ => 0) (y.1, fun _ _ _ _ _ => 0)).1, ⟨⟩)
  hImp _ _ y := y
  vImpExp dt x y := ((A.stepTerms dt (x.1, fun _ _ _ _ _ => 0) (y.1, fun _ _ _ _ _ => 0)).1, ⟨⟩)
  postS := A.dssState
  postT w := w
  filt w := w
  hyper dt x := ((A.afterSubCycle dt (x.1, fun _ _ _ _ _ => 0)).1, ⟨⟩)
  work x z := ((A.working (x.1, fun _ _ _ _ _ => 0) (z.1, fun _ _ _ _ _ => 0)).1, ⟨⟩)

variable {c : Nat} (hk : A.Kept c) (hW : A.W.Tiled) (hQ : A.W.Quadrature) (hP : A.Primitive) {a b : ℝ}
  {density : Nat → Int → Int → ℝ} (hM : A.Measured a b density) {node edge sNode sEdge : Nat → ℝ}
  {gauss lob : List ℝ × List ℝ} (hC : A.Columnar node edge sNode sEdge gauss lob)

include hk hW hQ hP hM hC

theorem Atmos.keeps (m : ℝ) :
    Steps.KeepsAll A.dyn (fun r (x : A.W.Field × A.W.Field) => A.total c x.1 = r * m ∧ A.Joined x.1) := by
  have base : ∀ (ef : ℝ → A.W.Field × A.W.Field → A.W.Field × A.W.Field → A.W.Field × A.W.Field),
      (∀ s x y, A.total c (ef s x y).1 = A.total c y.1) →
      Steps.Keeps A.dyn ef (fun r (x : A.W.Field × A.W.Field) => A.total c x.1 = r * m ∧ A.Joined x.1) := by
    intro ef hef
    constructor
    · exact ⟨by rw [Prod.fst_zero, A.total_zero, zero_mul], A.joined_zero⟩
    · intro r s x y hx hy
      exact ⟨by rw [Prod.fst_add, A.total_add, hx.1, hy.1]; ring, A.joined_add _ _ hx.2 hy.2⟩
    · intro r s x hx
      exact ⟨by rw [Prod.smul_fst, A.total_smul, hx.1]; ring, A.joined_smul _ _ hx.2⟩
    · intro s x y hx hy
      exact ⟨(A.dss_mass hk hW hQ hP hM _).trans ((hef s x y).trans hy.1), A.dss_joined hW hP _⟩
    · intro x hx
      exact ⟨(A.dss_mass hk hW hQ hP hM _).trans hx.1, A.dss_joined hW hP _⟩
    · intro s x y hx hy
      exact ⟨A.implicit_mass hk hW hC hM s x y hx.2 _ hx.1 hy.1, A.implicit_joined hW hC s x y hy.2⟩
    · intro s x y hx hy; exact hy
    · intro s x y hx hy
      exact ⟨(A.terms_conserve hk hW hC hM s x y).trans hy.1, A.terms_joined hW hC s x y hx.2 hy.2⟩
    · intro x hx; exact hx
    · intro s x hx
      exact ⟨(A.after_mass hk hW hQ hP hM s x).trans hx.1, A.after_joined hW hP s x hx.2⟩
  refine ⟨base _ fun s x y => A.explicit_mass hk hW hQ hM hC s x y, base _ fun s x y => A.vertical_mass hk hW hC hM s x y,
    base _ fun s x y => ?_⟩
  exact (A.vertical_mass hk hW hC hM s _ _).trans (A.explicit_mass hk hW hQ hM hC s x y)

theorem Atmos.dry_keeps (m : ℝ) :
    Steps.KeepsAll A.dry (fun r (x : A.W.Field × PUnit.{1}) => A.total c x.1 = r * m ∧ A.Joined x.1) := by
  have h := A.keeps hk hW hQ hP hM hC m
  have base : ∀ (eg : ℝ → A.W.Field × PUnit.{1} → A.W.Field × PUnit.{1} → A.W.Field × PUnit.{1}),
      (∀ s x y, A.total c (eg s x y).1 = A.total c y.1) →
      Steps.Keeps A.dry eg (fun r (x : A.W.Field × PUnit.{1}) => A.total c x.1 = r * m ∧ A.Joined x.1) := by
    intro eg he
    constructor
    · exact h.h.zero
    · intro r s x y hx hy
      exact h.h.add r s (x.1, 0) (y.1, 0) hx hy
    · intro r s x hx
      exact h.h.smul r s (x.1, 0) hx
    · intro s x y hx hy
      exact ⟨(A.dss_mass hk hW hQ hP hM _).trans ((he s x y).trans hy.1), A.dss_joined hW hP _⟩
    · intro x hx
      exact ⟨(A.dss_mass hk hW hQ hP hM _).trans hx.1, A.dss_joined hW hP _⟩
    · intro s x y hx hy
      exact h.h.vImp s (x.1, fun _ _ _ _ _ => 0) (y.1, fun _ _ _ _ _ => 0) hx hy
    · intro s x y hx hy; exact hy
    · intro s x y hx hy
      exact h.h.vImpExp s (x.1, fun _ _ _ _ _ => 0) (y.1, fun _ _ _ _ _ => 0) hx hy
    · intro x hx; exact hx
    · intro s x hx
      exact h.h.hyper s (x.1, fun _ _ _ _ _ => 0) hx
  refine ⟨base _ fun s x y => A.explicit_mass hk hW hQ hM hC s _ _,
    base _ fun s x y => A.vertical_mass hk hW hC hM s _ _, base _ fun s x y => ?_⟩
  exact (A.vertical_mass hk hW hC hM s _ _).trans (A.explicit_mass hk hW hQ hM hC s _ _)

end Verif.Deep
