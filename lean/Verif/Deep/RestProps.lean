import Verif.Deep.RestRuns

/-!
# C108: an atmosphere at rest stays at rest

Any number of patches, any scheme, any number of steps of any lengths, any contents of the other slots, any settings of
the viscosity, explicit and implicit vertical dynamics, any profile in hydrostatic balance.  (Missing: uniform diffusion,
which moves the profile towards the reference state; horizontal order four with the tables of the code, for which
`Quadrature.paired` fails; SSPRK53, which is false by `C47_false_ssprk53`; what a column leaves in the memory of the
vertical dynamics for the next call; floating point.)
-/

namespace Verif.Deep

open Steps (Scheme Erk Data Current StepsTo strangRun)

variable (A : Atmos) (node edge sNode sEdge : Nat → ℝ) (gauss lob : List ℝ × List ℝ) (hW : A.W.Tiled)
  (hQ : A.W.Quadrature) (hP : A.Primitive) (hC : A.Columnar node edge sNode sEdge gauss lob) (hT : A.W.TurnsRest)
  (hu : A.W.uniform = false) (hv : A.column.uniform = false) (hG : A.LevelGround) (P R : Nat → ℝ)
  (hH : A.Hydrostatic P R)

include hW hQ hP hC hT hu hv hG hH

/-- A run with any of the schemes from an atmosphere at rest in hydrostatic balance over level ground ends in the same
state: nothing moves, and density and density times potential temperature are what they were on every level. -/
theorem C108_still_partial (S : Scheme ℝ) (hB : S.Balanced) (hT : S.CopiesTracers) (dts : List ℝ)
    (d : Data A.W.Field A.W.Field) (u : A.W.Field × A.W.Field) (hd : Current S.slots d u) (h : A.Still P R u.1) :
    ∃ v, StepsTo A.dyn (dts.flatMap S.prog) d v ∧ A.Still P R v.1 := by
  obtain ⟨v, hs, hq⟩ := Steps.keep_steps (A.still_keeps hW hQ hP hC ‹_› hu hv hG hH) S hB (.inl hT) dts hd
    ((A.still_one _).2 h)
  exact ⟨v, hs, (A.still_one _).1 hq⟩

/-- The same for a model without tracers, for the schemes that leave the tracers of scratch slots alone as well. -/
theorem C108_still_dry_partial (S : Scheme ℝ) (hB : S.Balanced) (dts : List ℝ) (d : Data A.W.Field PUnit.{1})
    (u : A.W.Field × PUnit.{1}) (hd : Current S.slots d u) (h : A.Still P R u.1) :
    ∃ v, StepsTo A.dry (dts.flatMap S.prog) d v ∧ A.Still P R v.1 := by
  obtain ⟨v, hs, hq⟩ := Steps.keep_steps (A.still_dry hW hQ hP hC hT hu hv hG hH) S hB (.inr inferInstance) dts hd
    ((A.still_one _).2 h)
  exact ⟨v, hs, (A.still_one _).1 hq⟩

/-- The same for a run of the Strang scheme, whose steps hand an increment to the next. -/
theorem C108_still_strang_partial (m : Erk) (hm : m ≠ .rungeKuttaSSPRK53) (oc dt : ℝ) (dts : List ℝ)
    (d : Data A.W.Field A.W.Field) (u : A.W.Field × A.W.Field) (hd : Current 5 d u) (h : A.Still P R u.1) :
    ∃ v, StepsTo A.dyn (strangRun oc m true (dt :: dts)) d v ∧ A.Still P R v.1 := by
  obtain ⟨v, hs, hq⟩ := Steps.keep_strang (A.still_keeps hW hQ hP hC hT hu hv hG hH) m hm oc dts dt hd
    ((A.still_one _).2 h)
  exact ⟨v, hs, (A.still_one _).1 hq⟩

end Verif.Deep
