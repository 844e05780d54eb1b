import Verif.Whole.PointProps
import Verif.Whole.SingleSpec
import Verif.Steps.Settle
import Verif.Whole.Runs

/-!
# C106: agreement at the end of every step

Whatever the slots hold before (initial data, scratch data, tracers of scratch slots that a scheme forgets to copy),
whatever the scheme (SSPRK53 included), the step length and the viscosity.
-/

namespace Verif.Whole

open Halo (Node Momenta Components coord)
open Steps (Scheme Erk Data Current StepsTo strangRun)

variable (W : World) (hW : W.Tiled) (m : Momenta) (xA xB : Nat → ℝ) (hL : W.Laid m xA xB)

include hW hL

theorem World.single_dss (h2 : 2 ≤ W.components) (v : W.Field) : W.SingleState m xA xB (W.dssState v) := fun k hk =>
  ⟨(C105_agree W hW m xA xB hL v k hk).1, fun hs => (C105_agree W hW m xA xB hL v k hk).2.2 hs h2⟩

theorem World.single_dssTracers (v : W.Field) : W.SingleTracers xA xB (W.dssTracers v) := fun k hk =>
  (C105_agree W hW m xA xB hL v k hk).2.1

omit hW hL

theorem World.holds_add {v v' : W.Field} {c k : Nat} {f f' : Node → ℝ} (h : W.Holds v c k f) (h' : W.Holds v' c k f') :
    W.Holds (v + v') c k (f + f') := fun i iA iB hI => by
  simp only [Pi.add_apply]
  rw [h i iA iB hI, h' i iA iB hI]

theorem World.holds_smul {v : W.Field} {c k : Nat} {f : Node → ℝ} (r : ℝ) (h : W.Holds v c k f) :
    W.Holds (r • v) c k (r • f) := fun i iA iB hI => by
  simp only [Pi.smul_apply]
  rw [h i iA iB hI]

variable {xA xB} in
theorem World.single_add {α : Type} [Add α] {f f' : Node → α} (h : W.Single xA xB f) (h' : W.Single xA xB f') :
    W.Single xA xB (f + f') := fun n hn n' hn' => by
  simp only [Pi.add_apply]
  rw [h n hn n' hn', h' n hn n' hn']

variable {xA xB} in
theorem World.single_smul {α : Type} [SMul ℝ α] {f : Node → α} (r : ℝ) (h : W.Single xA xB f) :
    W.Single xA xB (r • f) := fun n hn n' hn' => by
  simp only [Pi.smul_apply]
  rw [h n hn n' hn']

theorem World.moves_add {v v' : W.Field} {k : Nat} {w w' : Node → Sphere.Vec3} (h : W.Moves m xA v k w)
    (h' : W.Moves m xA v' k w') : W.Moves m xA (v + v') k (w + w') := fun i iA iB hI =>
  Halo.components_combine _ _ _ _ _ _ _ (h i iA iB hI) (h' i iA iB hI)

theorem World.moves_smul {v : W.Field} {k : Nat} {w : Node → Sphere.Vec3} (r : ℝ) (h : W.Moves m xA v k w) :
    W.Moves m xA (r • v) k (r • w) := fun i iA iB hI =>
  Halo.components_scale _ _ _ _ _ r (h i iA iB hI)

theorem World.state_add {v v' : W.Field} (h : W.SingleState m xA xB v) (h' : W.SingleState m xA xB v') :
    W.SingleState m xA xB (v + v') := fun k hk => by
  refine ⟨fun c hc hs => ?_, fun hs => ?_⟩
  · obtain ⟨f, a, b⟩ := (h k hk).1 c hc hs
    obtain ⟨f', a', b'⟩ := (h' k hk).1 c hc hs
    exact ⟨f + f', W.single_add a a', W.holds_add b b'⟩
  · obtain ⟨w, a, b⟩ := (h k hk).2 hs
    obtain ⟨w', a', b'⟩ := (h' k hk).2 hs
    exact ⟨w + w', W.single_add a a', W.moves_add m xA b b'⟩

theorem World.state_smul {v : W.Field} (r : ℝ) (h : W.SingleState m xA xB v) :
    W.SingleState m xA xB (r • v) := fun k hk => by
  refine ⟨fun c hc hs => ?_, fun hs => ?_⟩
  · obtain ⟨f, a, b⟩ := (h k hk).1 c hc hs
    exact ⟨r • f, W.single_smul r a, W.holds_smul r b⟩
  · obtain ⟨w, a, b⟩ := (h k hk).2 hs
    exact ⟨r • w, W.single_smul r a, W.moves_smul m xA r b⟩

theorem World.tracers_add {v v' : W.Field} (h : W.SingleTracers xA xB v) (h' : W.SingleTracers xA xB v') :
    W.SingleTracers xA xB (v + v') := fun k hk c hc => by
  obtain ⟨f, a, b⟩ := h k hk c hc
  obtain ⟨f', a', b'⟩ := h' k hk c hc
  exact ⟨f + f', W.single_add a a', W.holds_add b b'⟩

theorem World.tracers_smul {v : W.Field} (r : ℝ) (h : W.SingleTracers xA xB v) : W.SingleTracers xA xB (r • v) :=
  fun k hk c hc => by
    obtain ⟨f, a, b⟩ := h k hk c hc
    exact ⟨r • f, W.single_smul r a, W.holds_smul r b⟩

include hW hL

theorem World.settles (h2 : 2 ≤ W.components) :
    Steps.Settles W.dyn (W.SingleState m xA xB) (W.SingleTracers xA xB) where
  postS := W.single_dss hW m xA xB hL h2
  postT := W.single_dssTracers hW m xA xB hL
  hyperS := fun c x hx => by
    show W.SingleState m xA xB (W.afterSubCycle c x).1
    unfold World.afterSubCycle
    split_ifs
    · exact hx
    · exact hx
    · exact W.single_dss hW m xA xB hL h2 _
    · exact W.single_dss hW m xA xB hL h2 _
    · exact hx
  hyperT := fun c x hx => by
    show W.SingleTracers xA xB (W.afterSubCycle c x).2
    unfold World.afterSubCycle
    split_ifs
    · exact hx
    · exact hx
    · exact W.single_dssTracers hW m xA xB hL _
    · exact W.single_dssTracers hW m xA xB hL _
    · exact hx
  vImpS := fun _ _ _ _ h => h
  vImpT := fun _ _ _ _ h => h
  hImpS := fun _ _ _ _ h => h
  hImpT := fun _ _ _ _ h => h
  zeroS := by
    have := W.state_smul m xA xB 0 (W.single_dss hW m xA xB hL h2 0)
    rwa [zero_smul] at this
  zeroT := by
    have := W.tracers_smul xA xB 0 (W.single_dssTracers hW m xA xB hL 0)
    rwa [zero_smul] at this
  addS := fun _ _ => W.state_add m xA xB
  addT := fun _ _ => W.tracers_add xA xB
  smulS := fun r _ => W.state_smul m xA xB r
  smulT := fun r _ => W.tracers_smul xA xB r

variable (h2 : 2 ≤ W.components)
include h2

theorem World.settled (p : List (Steps.Cmd ℝ)) (d : Data W.Field W.Field) (v : W.Field × W.Field)
    (h : StepsTo W.dyn p d v)
    (hs : (Steps.learnAll p ⟨fun _ => false, fun _ => false⟩).st 0 = true) :
    W.SingleState m xA xB v.1 ∧
      ((Steps.learnAll p ⟨fun _ => false, fun _ => false⟩).tr 0 = true → W.SingleTracers xA xB v.2) := by
  obtain ⟨d', hr, hg⟩ := h
  obtain ⟨a, b⟩ := Steps.learnAll_true (W.settles hW m xA xB hL h2) p ⟨fun _ => false, fun _ => false⟩ d d'
    (fun _ _ h => by cases h) (fun _ _ h => by cases h) hr
  obtain ⟨g1, g2⟩ := Steps.get_split hg
  exact ⟨a 0 _ hs g1, fun ht => b 0 _ ht g2⟩

/-- **C106 (steps).**  If a step of any scheme ends, then afterwards the nodes at one point agree: on scalars and velocities,
and, for every scheme that steps tracers (all but ARK4), on the tracers. -/
theorem C106_step (S : Scheme ℝ) (dt : ℝ) (d : Data W.Field W.Field) (v : W.Field × W.Field)
    (h : StepsTo W.dyn (S.prog dt) d v) :
    W.SingleState m xA xB v.1 ∧ (S ≠ .ark4 → W.SingleTracers xA xB v.2) := by
  have a := Steps.learn_scheme S dt ⟨fun _ => false, fun _ => false⟩
  have c := W.settled hW m xA xB hL h2 (S.prog dt) d v h a.1
  exact ⟨c.1, fun hS => c.2 (a.2 (Steps.stepsTracers S hS))⟩

/-- **C106 (runs).**  The same at the end of a run of any number of steps, at least one. -/
theorem C106_run (S : Scheme ℝ) (dts : List ℝ) (hn : dts ≠ []) (d : Data W.Field W.Field) (v : W.Field × W.Field)
    (h : StepsTo W.dyn (dts.flatMap S.prog) d v) :
    W.SingleState m xA xB v.1 ∧ (S ≠ .ark4 → W.SingleTracers xA xB v.2) := by
  obtain ⟨d', hr, hg⟩ := h
  rw [← List.dropLast_append_getLast hn, List.flatMap_append, Steps.run_append, Option.bind_eq_some_iff] at hr
  obtain ⟨e, -, he⟩ := hr
  refine C106_step W hW m xA xB hL h2 S (dts.getLast hn) e v ⟨d', ?_, hg⟩
  simpa using he

/-- **C106 (Strang).**  The same at the end of a run of the Strang scheme, whose steps hand an increment to the next. -/
theorem C106_strang (M : Erk) (oc : ℝ) (first : Bool) (dts : List ℝ) (hn : dts ≠ []) (d : Data W.Field W.Field)
    (v : W.Field × W.Field) (h : StepsTo W.dyn (strangRun oc M first dts) d v) :
    W.SingleState m xA xB v.1 ∧ W.SingleTracers xA xB v.2 := by
  induction dts generalizing first d with
  | nil => exact absurd rfl hn
  | cons dt dts ih =>
    cases dts with
    | nil =>
      obtain ⟨a, b⟩ := C106_step W hW m xA xB hL h2 (.strang M oc first true) dt d v h
      exact ⟨a, b (by simp)⟩
    | cons dt' dts =>
      obtain ⟨d', hr, hg⟩ := h
      rw [strangRun, Steps.run_append, Option.bind_eq_some_iff] at hr
      obtain ⟨e, -, he⟩ := hr
      exact ih false (by simp) e ⟨d', he, hg⟩

/-- **C106 (ARK4).**  ARK4, which does not step tracers, keeps the agreement of tracers if they agree before. -/
theorem C106_ark4 (dts : List ℝ) (d : Data W.Field W.Field) (u v : W.Field × W.Field) (hd : Current (Scheme.ark4 (K := ℝ)).slots d u)
    (hu : W.SingleTracers xA xB u.2) (h : StepsTo W.dyn (dts.flatMap (Scheme.ark4).prog) d v) :
    W.SingleTracers xA xB v.2 := by
  induction dts generalizing d u with
  | nil =>
    obtain ⟨d', hr, hg⟩ := h
    cases hr
    rw [hd.2.2] at hg
    cases hg
    exact hu
  | cons dt dts ih =>
    obtain ⟨d', hr, hg⟩ := h
    rw [List.flatMap_cons, Steps.run_append, Option.bind_eq_some_iff] at hr
    obtain ⟨e, he, hr⟩ := hr
    have hz := Steps.sized_run _ ⟨hd.1, hd.2.1⟩ he
    have l1 : 0 < e.st.length ∧ 0 < e.tr.length := by
      rw [hz.1, hz.2]
      exact ⟨by decide, by decide⟩
    obtain ⟨w, hw⟩ : ∃ w, e.get 0 = some w :=
      ⟨(e.st[0], e.tr[0]), by simp [Data.get, List.getElem?_eq_getElem l1.1, List.getElem?_eq_getElem l1.2]⟩
    refine ih e w ⟨hz.1, hz.2, hw⟩ ?_ ⟨d', hr, hg⟩
    obtain ⟨-, b⟩ := Steps.learnAll_true (W.settles hW m xA xB hL h2) _ ⟨fun _ => false, fun i => decide (i = 0)⟩ d e
      (fun _ _ h => by cases h) (fun i y hi hy => by
        have : i = 0 := by simpa using hi
        subst this
        obtain ⟨-, t⟩ := Steps.get_split hd.2.2
        rw [t] at hy
        cases hy
        exact hu) he
    obtain ⟨-, g2⟩ := Steps.get_split hw
    refine b 0 _ ?_ g2
    rw [Steps.learn_ark4]
    rfl

end Verif.Whole
