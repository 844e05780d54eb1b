import Verif.Deep.Runs

/-!
# C107: a whole nonhydrostatic run

Any number of patches, any scheme, any number of steps of any lengths, any contents of the other slots, any settings of
the viscosity, explicit and implicit vertical dynamics.  (Missing: volume elements that jump over the element edges of a
column, where the claim is false of a step (`C90_conserved_false`); horizontal order four with the tables of the code, for
which `Quadrature.paired` fails; SSPRK53, which is false by `C47_false_ssprk53`; what a column leaves in the memory of the
vertical dynamics for the next call; floating point.)
-/

namespace Verif.Deep

open Steps (Scheme Erk Data Current StepsTo strangRun)

variable (A : Atmos) (hW : A.W.Tiled) (hQ : A.W.Quadrature) (hP : A.Primitive) (a b : ℝ)
  (density : Nat → Int → Int → ℝ) (hM : A.Measured a b density)

section
include hW hQ hP hM

/-- Averaging the copies of each node over the whole grid changes the mass of air by nothing. -/
theorem C107_summation_partial (v : A.W.Field) : A.total 4 (A.dssState v) = A.total 4 v :=
  A.dss_mass ⟨rfl, .inl rfl⟩ hW hQ hP hM v
end

section
include hW hP

/-- Averaging the copies of each node over the whole grid leaves the same state in columns at the same place of a patch. -/
theorem C107_joined (v : A.W.Field) : A.Joined (A.dssState v) := A.dss_joined hW hP v
end

variable (node edge sNode sEdge : Nat → ℝ) (gauss lob : List ℝ × List ℝ)
  (hC : A.Columnar node edge sNode sEdge gauss lob)

include hW hQ hP hM hC

/-- A run with any of the schemes, from a state in which columns at the same place agree, ends with the mass of air it
began with, and columns at the same place agree. -/
theorem C107_mass_partial (S : Scheme ℝ) (hB : S.Balanced) (hT : S.CopiesTracers) (dts : List ℝ)
    (d : Data A.W.Field A.W.Field) (u : A.W.Field × A.W.Field) (hd : Current S.slots d u) (hu : A.Joined u.1) :
    ∃ v, StepsTo A.dyn (dts.flatMap S.prog) d v ∧ A.total 4 v.1 = A.total 4 u.1 ∧ A.Joined v.1 := by
  obtain ⟨v, hv, hq⟩ := Steps.keep_steps (A.keeps (c := 4) ⟨rfl, .inl rfl⟩ hW hQ hP hM hC (A.total 4 u.1)) S hB
    (.inl hT) dts hd ⟨(one_mul _).symm, hu⟩
  exact ⟨v, hv, by rw [hq.1, one_mul], hq.2⟩

/-- The same for a model without tracers, for the schemes that leave the tracers of scratch slots alone as well. -/
theorem C107_mass_dry_partial (S : Scheme ℝ) (hB : S.Balanced) (dts : List ℝ)
    (d : Data A.W.Field PUnit.{1}) (u : A.W.Field × PUnit.{1}) (hd : Current S.slots d u) (hu : A.Joined u.1) :
    ∃ v, StepsTo A.dry (dts.flatMap S.prog) d v ∧ A.total 4 v.1 = A.total 4 u.1 ∧ A.Joined v.1 := by
  obtain ⟨v, hv, hq⟩ := Steps.keep_steps (A.dry_keeps (c := 4) ⟨rfl, .inl rfl⟩ hW hQ hP hM hC (A.total 4 u.1)) S hB
    (.inr inferInstance) dts hd ⟨(one_mul _).symm, hu⟩
  exact ⟨v, hv, by rw [hq.1, one_mul], hq.2⟩

/-- The same for a run of the Strang scheme, whose steps hand an increment to the next. -/
theorem C107_mass_strang_partial (m : Erk) (hm : m ≠ .rungeKuttaSSPRK53) (oc dt : ℝ) (dts : List ℝ)
    (d : Data A.W.Field A.W.Field) (u : A.W.Field × A.W.Field) (hd : Current 5 d u) (hu : A.Joined u.1) :
    ∃ v, StepsTo A.dyn (strangRun oc m true (dt :: dts)) d v ∧ A.total 4 v.1 = A.total 4 u.1 ∧ A.Joined v.1 := by
  obtain ⟨v, hv, hq⟩ := Steps.keep_strang (A.keeps (c := 4) ⟨rfl, .inl rfl⟩ hW hQ hP hM hC (A.total 4 u.1)) m hm oc dts dt
    hd ⟨(one_mul _).symm, hu⟩
  exact ⟨v, hv, by rw [hq.1, one_mul], hq.2⟩

section
variable (hU : A.column.uniform = false)
include hU

/-- Without uniform diffusion of the column, the integral of density times potential temperature is kept as well. -/
theorem C107_theta_partial (S : Scheme ℝ) (hB : S.Balanced) (hT : S.CopiesTracers) (dts : List ℝ)
    (d : Data A.W.Field A.W.Field) (u : A.W.Field × A.W.Field) (hd : Current S.slots d u) (hu : A.Joined u.1) :
    ∃ v, StepsTo A.dyn (dts.flatMap S.prog) d v ∧ A.total 2 v.1 = A.total 2 u.1 ∧ A.Joined v.1 := by
  have hk : A.Kept 2 := ⟨by rw [A.edge_iff hC]; rfl, .inr ⟨rfl, hU⟩⟩
  obtain ⟨v, hv, hq⟩ := Steps.keep_steps (A.keeps hk hW hQ hP hM hC (A.total 2 u.1)) S hB
    (.inl hT) dts hd ⟨(one_mul _).symm, hu⟩
  exact ⟨v, hv, by rw [hq.1, one_mul], hq.2⟩

/-- The same without tracers. -/
theorem C107_theta_dry_partial (S : Scheme ℝ) (hB : S.Balanced) (dts : List ℝ)
    (d : Data A.W.Field PUnit.{1}) (u : A.W.Field × PUnit.{1}) (hd : Current S.slots d u) (hu : A.Joined u.1) :
    ∃ v, StepsTo A.dry (dts.flatMap S.prog) d v ∧ A.total 2 v.1 = A.total 2 u.1 ∧ A.Joined v.1 := by
  have hk : A.Kept 2 := ⟨by rw [A.edge_iff hC]; rfl, .inr ⟨rfl, hU⟩⟩
  obtain ⟨v, hv, hq⟩ := Steps.keep_steps (A.dry_keeps hk hW hQ hP hM hC (A.total 2 u.1)) S hB
    (.inr inferInstance) dts hd ⟨(one_mul _).symm, hu⟩
  exact ⟨v, hv, by rw [hq.1, one_mul], hq.2⟩

/-- The same with the Strang scheme. -/
theorem C107_theta_strang_partial (m : Erk) (hm : m ≠ .rungeKuttaSSPRK53) (oc dt : ℝ) (dts : List ℝ)
    (d : Data A.W.Field A.W.Field) (u : A.W.Field × A.W.Field) (hd : Current 5 d u) (hu : A.Joined u.1) :
    ∃ v, StepsTo A.dyn (strangRun oc m true (dt :: dts)) d v ∧ A.total 2 v.1 = A.total 2 u.1 ∧ A.Joined v.1 := by
  have hk : A.Kept 2 := ⟨by rw [A.edge_iff hC]; rfl, .inr ⟨rfl, hU⟩⟩
  obtain ⟨v, hv, hq⟩ := Steps.keep_strang (A.keeps hk hW hQ hP hM hC (A.total 2 u.1)) m hm oc dts dt
    hd ⟨(one_mul _).symm, hu⟩
  exact ⟨v, hv, by rw [hq.1, one_mul], hq.2⟩
end

end Verif.Deep
