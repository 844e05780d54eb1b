import Verif.Whole.Rest
import Verif.Steps.PropsKeep

/-!
# Runs of several steps

A run of any number of steps, of any lengths, keeps what each step keeps; and the dynamics of a model without tracers.
-/

namespace Verif.Steps

variable {K V W : Type*}

theorem length_copyData {s t : Int} {x y : List V} (h : copyData s t x = some y) : y.length = x.length := by
  unfold copyData at h
  split at h
  · cases h
  · split at h
    · cases h; simp
    · cases h

theorem length_linearCombine [Zero K] [DecidableEq K] {o : Ops K V} {c : List K} {t : Int} {x y : List V}
    (h : linearCombine o c t x = some y) : y.length = x.length := by
  unfold linearCombine at h
  split at h
  · cases h
  · split at h
    · split at h
      · cases h
      · cases h; simp
    · cases h

/-- The number of slots. -/
def Data.Sized (n : Nat) (d : Data V W) : Prop := d.st.length = n ∧ d.tr.length = n

theorem sized_put {n : Nat} {d : Data V W} (h : d.Sized n) (i : Nat) (x : V × W) : (d.put i x).Sized n := by
  simpa [Data.Sized, Data.put] using h

theorem sized_dynCall {n : Nat} {d e : Data V W} (h : d.Sized n) {f : V × W → V × W → V × W} {a u : Nat}
    (he : dynCall f a u d = some e) : e.Sized n := by
  unfold dynCall at he
  split at he
  · cases he; exact sized_put h _ _
  · cases he

theorem sized_combineCall {n : Nat} {d e : Data V W} (h : d.Sized n) {oV : Ops K V} {oW : Ops K W}
    {f : V × W → V × W → V × W} {is : List Nat} {cs : List K} {a u : Nat}
    (he : combineCall oV oW f is cs a u d = some e) : e.Sized n := by
  unfold combineCall at he
  split at he
  · cases he
  · split at he
    · split at he
      · cases he; exact sized_put h _ _
      · cases he
    · cases he

theorem sized_exec [Zero K] [DecidableEq K] {oV : Ops K V} {oW : Ops K W} {D : Dyn K V W} {c : Cmd K} {n : Nat}
    {d e : Data V W} (h : d.Sized n) (he : exec oV oW D c d = some e) : e.Sized n := by
  obtain ⟨h1, h2⟩ := h
  cases c with
  | copy s t f =>
    cases f <;> simp only [exec, Option.map_eq_some_iff] at he <;> obtain ⟨x, hx, rfl⟩ := he
    · exact ⟨(length_copyData hx).trans h1, h2⟩
    · exact ⟨h1, (length_copyData hx).trans h2⟩
  | combine c t f =>
    cases f <;> simp only [exec, Option.map_eq_some_iff] at he <;> obtain ⟨x, hx, rfl⟩ := he
    · exact ⟨(length_linearCombine hx).trans h1, h2⟩
    · exact ⟨h1, (length_linearCombine hx).trans h2⟩
  | hExp a u dt =>
    simp only [exec] at he
    split at he
    · cases he
    · exact sized_dynCall ⟨h1, h2⟩ he
  | vExp a u dt => exact sized_dynCall ⟨h1, h2⟩ he
  | vImp a u dt => exact sized_dynCall ⟨h1, h2⟩ he
  | hImp a u dt => exact sized_dynCall ⟨h1, h2⟩ he
  | vImpExp a u dt => exact sized_dynCall ⟨h1, h2⟩ he
  | post u f =>
    cases f <;> simp only [exec, Option.map_eq_some_iff] at he <;> obtain ⟨x, hx, rfl⟩ := he
    · exact ⟨by simpa using h1, h2⟩
    · exact ⟨h1, by simpa using h2⟩
  | filter u =>
    simp only [exec, Option.map_eq_some_iff] at he
    obtain ⟨x, hx, rfl⟩ := he
    exact ⟨h1, by simpa using h2⟩
  | after a u w dt =>
    simp only [exec] at he
    split at he
    · cases he
    · split at he
      · cases he; exact sized_put (sized_put ⟨h1, h2⟩ _ _) _ _
      · cases he
  | expCombine is cs a u dt => exact sized_combineCall ⟨h1, h2⟩ he
  | impCombine is cs a u dt => exact sized_combineCall ⟨h1, h2⟩ he
  | afterCombine u w dt =>
    simp only [exec] at he
    split at he
    · cases he
    · split at he
      · cases he; exact sized_put (sized_put ⟨h1, h2⟩ _ _) _ _
      · cases he

theorem sized_run [Zero K] [DecidableEq K] {oV : Ops K V} {oW : Ops K W} {D : Dyn K V W} {n : Nat} (p : List (Cmd K))
    {d e : Data V W} (h : d.Sized n) (he : run oV oW D p d = some e) : e.Sized n := by
  induction p generalizing d with
  | nil => cases he; exact h
  | cons c cs ih =>
    rw [run, Option.bind_eq_some_iff] at he
    obtain ⟨f, hf, he⟩ := he
    exact ih (sized_exec h hf) he

section
variable [Field K] [DecidableEq K] [CharZero K] [AddCommGroup V] [Module K V] [AddCommGroup W] [Module K W]
variable {Dy : Dyn K V W} {Q : K → V × W → Prop} {d : Data V W} {u : V × W}

/-- What every step keeps, a run of any number of steps keeps. -/
theorem keep_steps (hQ : KeepsAll Dy Q) (S : Scheme K) (hS : S.Balanced) (hT : S.CopiesTracers ∨ Subsingleton W)
    (dts : List K) (hd : Current S.slots d u) (hu : Q 1 u) : ∃ v, StepsTo Dy (dts.flatMap S.prog) d v ∧ Q 1 v := by
  induction dts generalizing d u with
  | nil => exact ⟨u, ⟨d, rfl, hd.2.2⟩, hu⟩
  | cons dt dts ih =>
    obtain ⟨v, ⟨e, he, h0⟩, hq⟩ := keep_scheme hQ S hS hT dt hd hu
    have hs := sized_run _ ⟨hd.1, hd.2.1⟩ he
    obtain ⟨w, ⟨f, hf, h1⟩, hq'⟩ := ih ⟨hs.1, hs.2, h0⟩ hq
    refine ⟨w, ⟨f, ?_, h1⟩, hq'⟩
    rw [List.flatMap_cons, run_append, he, Option.bind_some, hf]
end

end Verif.Steps

namespace Verif.Whole

variable (W : World)

/-- The dynamics of a model without tracers: as `World.dyn`, where the loops over tracers run zero times
(`GetTracerDataInstances` is not called, src/atm/GridPatch.cpp:355-370). -/
noncomputable def World.dry : Steps.Dyn ℝ W.Field PUnit.{1} where
  hExp dt x y := ((W.stepExplicit dt (x.1, fun _ _ _ _ _ => 0) (y.1, fun _ _ _ _ _ => 0)).1, ⟨⟩)
  vExp _ _ y := y
  vImp _ _ y := y
  hImp _ _ y := y
  vImpExp _ _ y := y
  postS := W.dssState
  postT w := w
  filt w := w
  hyper dt x := ((W.afterSubCycle dt (x.1, fun _ _ _ _ _ => 0)).1, ⟨⟩)
  work x z := ((W.working (x.1, fun _ _ _ _ _ => 0) (z.1, fun _ _ _ _ _ => 0)).1, ⟨⟩)

/-- The mass as a linear function of the state of a model without tracers. -/
noncomputable def World.dryMass (c : Nat) : W.Field × PUnit.{1} →ₗ[ℝ] ℝ where
  toFun x := W.mass c x.1
  map_add' x y := (W.massOf c).map_add (x.1, 0) (y.1, 0)
  map_smul' r x := (W.massOf c).map_smul r (x.1, 0)

section
variable (hW : W.Tiled) (hS : W.ShallowWater) (hQ : W.Quadrature)

include hW hS hQ in
theorem World.dry_conserves (p q : ℝ) (density : Int → Int → ℝ) (hD : W.Measured p q density)
    (hE : W.Shared density) : Steps.Conserves W.dry (W.dryMass 2) := by
  have h := W.conserves hW hS hQ p q density hD hE
  constructor
  · intro c x y
    exact h.hExp c (x.1, _) (y.1, _)
  · intro c x y; rfl
  · intro c x y; rfl
  · intro c x y; rfl
  · intro c x y; rfl
  · intro x
    exact h.post (x.1, fun _ _ _ _ _ => 0)
  · intro x; rfl
  · intro c x
    exact h.hyper c (x.1, _)

include hW hS hQ in
theorem World.dry_keeps (hT : W.TurnsRest)
    (hr : W.uniform = true → ∀ n iA iB k, (W.tile n).M.ref ⟨.state 0, iA, iB, k⟩ = 0 ∧
      (W.tile n).M.ref ⟨.state 1, iA, iB, k⟩ = 0) (H : ℝ) :
    Steps.KeepsAll W.dry (fun r (x : W.Field × PUnit.{1}) => W.AtRest (r * H) x.1) := by
  have h := W.rest_keeps hW hS hQ hT hr H
  have base : ∀ (ef : ℝ → W.Field × W.Field → W.Field × W.Field → W.Field × W.Field)
      (eg : ℝ → W.Field × PUnit.{1} → W.Field × PUnit.{1} → W.Field × PUnit.{1}),
      (∀ c x y, (eg c x y).1 = (ef c (x.1, fun _ _ _ _ _ => 0) (y.1, fun _ _ _ _ _ => 0)).1) →
      Steps.Keeps W.dyn ef (fun r (x : W.Field × W.Field) => W.AtRest (r * H) x.1) →
      Steps.Keeps W.dry eg (fun r (x : W.Field × PUnit.{1}) => W.AtRest (r * H) x.1) := by
    intro ef eg he k
    constructor
    · exact k.zero
    · intro a b x y hx hy
      exact k.add a b (x.1, 0) (y.1, 0) hx hy
    · intro c a x hx
      exact k.smul c a (x.1, 0) hx
    · intro c x y hx hy
      show W.AtRest _ (W.dssState (eg c x y).1)
      rw [he]
      exact k.ex c (x.1, fun _ _ _ _ _ => 0) (y.1, fun _ _ _ _ _ => 0) hx hy
    · intro x hx
      exact k.post (x.1, 0) hx
    · intro c x y _ hy; exact hy
    · intro c x y _ hy; exact hy
    · intro c x y _ hy; exact hy
    · intro x hx; exact hx
    · intro c x hx
      exact k.hyper c (x.1, fun _ _ _ _ _ => 0) hx
  exact ⟨base _ _ (fun _ _ _ => rfl) h.h, base _ _ (fun _ _ _ => rfl) h.v, base _ _ (fun _ _ _ => rfl) h.hv⟩
end

end Verif.Whole
