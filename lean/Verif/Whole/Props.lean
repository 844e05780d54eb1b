import Verif.Whole.Runs

/-!
# C104: a whole shallow water run

Any number of patches, any scheme, any number of steps of any lengths, any contents of the other slots, any settings of
the viscosity.  (Missing: horizontal order four with the tables of the code, which do not belong together to the last
digit (`C74_mass_four`), so that `Quadrature.paired` fails for them; SSPRK53, which is false by `C47_false_ssprk53`;
floating point.)
-/

namespace Verif.Whole

open Steps (Scheme Erk Data Current StepsTo strangRun)

variable (W : World) (hW : W.Tiled) (hS : W.ShallowWater) (hQ : W.Quadrature)

include hW hS hQ

section
variable (a b : ℝ) (density : Int → Int → ℝ) (hD : W.Measured a b density)

include hD

/-- Averaging the copies of each node over the whole cubed sphere changes the mass of no component but the velocities. -/
theorem C104_summation_sphere_partial (hk : W.kind = .sphere) (hE : W.Equiangular density) (v : W.Field) (c : Nat)
    (h2 : 2 ≤ c) (hc : c < W.components) : W.mass c (W.dssState v) = W.mass c v :=
  W.dss_mass hW hS hQ a b density hD ⟨fun _ => hE, fun h => (by rw [hk] at h; cases h)⟩ c h2 hc v

/-- The same on the doubly periodic plane. -/
theorem C104_summation_plane_partial (hk : W.kind = .plane) (hE : W.Periodic density) (v : W.Field) (c : Nat)
    (h2 : 2 ≤ c) (hc : c < W.components) : W.mass c (W.dssState v) = W.mass c v :=
  W.dss_mass hW hS hQ a b density hD ⟨fun h => (by rw [hk] at h; cases h), fun _ => hE⟩ c h2 hc v

omit hS in
/-- The same for tracers, all of which are averaged. -/
theorem C104_summation_tracers_partial (hE : W.Shared density) (v : W.Field) (c : Nat) (hc : c < W.tracers) :
    W.mass c (W.dssTracers v) = W.mass c v :=
  W.average_mass hW hQ a b density hD hE v _ W.tracers c hc fun _ => rfl

/-- A run with any of the schemes ends with the mass of fluid it began with. -/
theorem C104_mass_partial (hE : W.Shared density) (S : Scheme ℝ) (hB : S.Balanced) (hC : S.CopiesTracers)
    (dts : List ℝ) (d : Data W.Field W.Field) (u : W.Field × W.Field) (hd : Current S.slots d u) :
    ∃ v, StepsTo W.dyn (dts.flatMap S.prog) d v ∧ W.mass 2 v.1 = W.mass 2 u.1 := by
  obtain ⟨v, hv, hq⟩ := Steps.keep_steps (Steps.conserves_keeps (W.conserves hW hS hQ a b density hD hE) u) S hB
    (.inl hC) dts hd (one_smul ℝ (W.massOf 2 u)).symm
  exact ⟨v, hv, by rw [one_smul] at hq; exact hq⟩

/-- The same for a model without tracers, for the schemes that leave the tracers of scratch slots alone as well. -/
theorem C104_mass_dry_partial (hE : W.Shared density) (S : Scheme ℝ) (hB : S.Balanced) (dts : List ℝ)
    (d : Data W.Field PUnit.{1}) (u : W.Field × PUnit.{1}) (hd : Current S.slots d u) :
    ∃ v, StepsTo W.dry (dts.flatMap S.prog) d v ∧ W.mass 2 v.1 = W.mass 2 u.1 := by
  obtain ⟨v, hv, hq⟩ := Steps.keep_steps (Steps.conserves_keeps (W.dry_conserves hW hS hQ a b density hD hE) u) S hB
    (.inr inferInstance) dts hd (one_smul ℝ (W.dryMass 2 u)).symm
  exact ⟨v, hv, by rw [one_smul] at hq; exact hq⟩

/-- The same for a run of the Strang scheme, whose steps hand an increment to the next. -/
theorem C104_mass_strang_partial (hE : W.Shared density) (m : Erk) (hm : m ≠ .rungeKuttaSSPRK53) (oc dt : ℝ)
    (dts : List ℝ) (d : Data W.Field W.Field) (u : W.Field × W.Field) (hd : Current 5 d u) :
    ∃ v, StepsTo W.dyn (strangRun oc m true (dt :: dts)) d v ∧ W.mass 2 v.1 = W.mass 2 u.1 := by
  obtain ⟨v, hv, hq⟩ := Steps.C48_strang_run (W.massOf 2) m hm oc dt dts
    (W.conserves hW hS hQ a b density hD hE) hd
  exact ⟨v, hv, hq⟩
end

section
variable (hT : W.TurnsRest)
  (hr : W.uniform = true → ∀ n iA iB k, (W.tile n).M.ref ⟨.state 0, iA, iB, k⟩ = 0 ∧
    (W.tile n).M.ref ⟨.state 1, iA, iB, k⟩ = 0)

include hT hr

/-- A lake at rest, over any topography, stays at rest to the end of the run. -/
theorem C104_lake_partial (S : Scheme ℝ) (hB : S.Balanced) (hC : S.CopiesTracers) (dts : List ℝ)
    (d : Data W.Field W.Field) (u : W.Field × W.Field) (hd : Current S.slots d u) (H : ℝ) (hu : W.AtRest H u.1) :
    ∃ v, StepsTo W.dyn (dts.flatMap S.prog) d v ∧ W.AtRest H v.1 := by
  obtain ⟨v, hv, hq⟩ := Steps.keep_steps (W.rest_keeps hW hS hQ hT hr H) S hB (.inl hC) dts hd (by rwa [one_mul])
  exact ⟨v, hv, by rwa [one_mul] at hq⟩

/-- The same without tracers. -/
theorem C104_lake_dry_partial (S : Scheme ℝ) (hB : S.Balanced) (dts : List ℝ) (d : Data W.Field PUnit.{1})
    (u : W.Field × PUnit.{1}) (hd : Current S.slots d u) (H : ℝ) (hu : W.AtRest H u.1) :
    ∃ v, StepsTo W.dry (dts.flatMap S.prog) d v ∧ W.AtRest H v.1 := by
  obtain ⟨v, hv, hq⟩ := Steps.keep_steps (W.dry_keeps hW hS hQ hT hr H) S hB (.inr inferInstance) dts hd
    (by rwa [one_mul])
  exact ⟨v, hv, by rwa [one_mul] at hq⟩

/-- The same with the Strang scheme. -/
theorem C104_lake_strang_partial (m : Erk) (hm : m ≠ .rungeKuttaSSPRK53) (oc dt : ℝ) (dts : List ℝ)
    (d : Data W.Field W.Field) (u : W.Field × W.Field) (hd : Current 5 d u) (H : ℝ) (hu : W.AtRest H u.1) :
    ∃ v, StepsTo W.dyn (strangRun oc m true (dt :: dts)) d v ∧ W.AtRest H v.1 := by
  obtain ⟨v, hv, hq⟩ := Steps.keep_strang (W.rest_keeps hW hS hQ hT hr H) m hm oc dts dt hd (by rwa [one_mul])
  exact ⟨v, hv, by rwa [one_mul] at hq⟩
end

end Verif.Whole
