import Verif.Whole.Layout

/-!
# C109 and C110: neither the division into patches nor other tracers make a difference

For runs of any number of steps of any lengths from any state.  Slots other than the first may hold anything, and other
things in the two models.
-/

namespace Verif.Whole

open Steps (Scheme Erk Data Current StepsTo strangRun modOps Mirrors Pairs)

variable (W W' : World)

theorem World.mirrors (hW : W.Tiled) (hW' : W'.Tiled) (hG : W.SameGrid W') (hS : W.ShallowWater) (hS' : W'.ShallowWater)
    (m : Halo.Momenta) (xA xB : Nat → ℝ) (hL : W.Laid m xA xB) (hL' : W'.Laid m xA xB) (pair : Nat → Nat → Prop) :
    Mirrors (modOps ℝ) (modOps ℝ) W.dyn (modOps ℝ) (modOps ℝ) W'.dyn (W.SameState W') (W.SameTracers W' pair) := by
  have dss : ∀ x x', Pairs (W.SameState W') (W.SameTracers W' pair) x x' →
      Pairs (W.SameState W') (W.SameTracers W' pair) (W.dss x) (W'.dss x') := fun x x' h =>
    ⟨dss_state hW hW' hG hS hL hL' h.1, fun c c' hc hc' hp => dss_tracers hW hW' hG hL hL' hc hc' (h.2 c c' hc hc' hp)⟩
  have diff : ∀ a b c d e s x x' y y', Pairs (W.SameState W') (W.SameTracers W' pair) x x' →
      Pairs (W.SameState W') (W.SameTracers W' pair) y y' →
      Pairs (W.SameState W') (W.SameTracers W' pair) (W.diffuse a b c d e s x y) (W'.diffuse a b c d e s x' y') :=
    fun a b c d e s x x' y y' h h' => ⟨diffuse_state hW hW' hG hS hS' a b c d e s h.1 h'.1, fun k k' hk hk' hp =>
      diffuse_tracers hW hW' hG hS hS' a b c d e s hk hk' (h.2 k k' hk hk' hp) (h'.2 k k' hk hk' hp)⟩
  have lap : ∀ x x', Pairs (W.SameState W') (W.SameTracers W' pair) x x' →
      Pairs (W.SameState W') (W.SameTracers W' pair) (W.laplacian x) (W'.laplacian x') := fun x x' h =>
    dss _ _ (diff _ _ _ _ _ _ _ _ _ _ h ⟨fun _ _ _ _ _ _ _ _ _ _ _ _ _ => rfl,
      fun _ _ _ _ _ _ _ _ _ _ _ _ _ _ _ _ => rfl⟩)
  have fil : ∀ x x', Pairs (W.SameState W') (W.SameTracers W' pair) x x' →
      Pairs (W.SameState W') (W.SameTracers W' pair) (x.1, W.filter x.2) (x'.1, W'.filter x'.2) := fun x x' h =>
    ⟨h.1, fun c c' hc hc' hp => filter_same hW hW' hG hc hc' (h.2 c c' hc hc' hp)⟩
  exact {
    zeroS := fun _ _ _ _ _ _ _ _ _ _ _ _ _ => rfl
    zeroT := fun _ _ _ _ _ _ _ _ _ _ _ _ _ _ _ _ => rfl
    scaleS := fun x y r h c hc i i' iA iB iA' iB' k hI hI' he hk => by
      show r * _ = r * _
      rw [h c hc i i' iA iB iA' iB' k hI hI' he hk]
    scaleT := fun x y r h c c' hc hc' hp i i' iA iB iA' iB' k hI hI' he hk => by
      show r * _ = r * _
      rw [h c c' hc hc' hp i i' iA iB iA' iB' k hI hI' he hk]
    addS := fun a b x y r h h' c hc i i' iA iB iA' iB' k hI hI' he hk => by
      show _ + r * _ = _ + r * _
      rw [h c hc i i' iA iB iA' iB' k hI hI' he hk, h' c hc i i' iA iB iA' iB' k hI hI' he hk]
    addT := fun a b x y r h h' c c' hc hc' hp i i' iA iB iA' iB' k hI hI' he hk => by
      show _ + r * _ = _ + r * _
      rw [h c c' hc hc' hp i i' iA iB iA' iB' k hI hI' he hk, h' c c' hc hc' hp i i' iA iB iA' iB' k hI hI' he hk]
    hExp := fun dt x x' y y' h h' => ⟨explicit_state hW hW' hG hS dt h.1 h'.1, fun c c' hc hc' hp =>
      explicit_tracers hW hW' hG hS dt hc hc' h.1 (h.2 c c' hc hc' hp) (h'.2 c c' hc hc' hp)⟩
    vExp := fun _ _ _ _ _ _ h => h
    vImp := fun _ _ _ _ _ _ h => h
    hImp := fun _ _ _ _ _ _ h => h
    vImpExp := fun _ _ _ _ _ _ h => h
    postS := fun _ _ h => dss_state hW hW' hG hS hL hL' h
    postT := fun _ _ h c c' hc hc' hp => dss_tracers hW hW' hG hL hL' hc hc' (h c c' hc hc' hp)
    filt := fun _ _ h => h
    hyper := fun dt x x' h => by
      show Pairs _ _ (W.afterSubCycle dt x) (W'.afterSubCycle dt x')
      unfold World.afterSubCycle
      rw [hG.nuScalar, hG.nuDiv, hG.nuVort, hG.hyperOrder]
      split_ifs
      · exact h
      · exact h
      · exact dss _ _ (fil _ _ (diff _ _ _ _ _ _ _ _ _ _ h h))
      · exact dss _ _ (fil _ _ (diff _ _ _ _ _ _ _ _ _ _ (lap _ _ h) h))
      · exact h
    work := fun x x' y y' h h' => by
      show Pairs _ _ (W.working x y) (W'.working x' y')
      unfold World.working
      rw [hG.nuScalar, hG.nuDiv, hG.nuVort, hG.hyperOrder]
      split_ifs
      · exact lap _ _ h
      · exact h' }

variable (hW : W.Tiled) (hW' : W'.Tiled) (hG : W.SameGrid W') (hS : W.ShallowWater) (hS' : W'.ShallowWater)
    (m : Halo.Momenta) (xA xB : Nat → ℝ) (hL : W.Laid m xA xB) (hL' : W'.Laid m xA xB)

include hW hW' hG hS hS' hL hL'

/-- **C109 (runs).**  The same grid divided into patches in two ways, the same state and tracers at every node: after a
run the state and the tracers are the same at every node.  For every scheme that copies tracers to its scratch slots. -/
theorem C109_run (S : Scheme ℝ) (hc : S.CopiesTracers) (dts : List ℝ) (d : Data W.Field W.Field)
    (d' : Data W'.Field W'.Field) (u : W.Field × W.Field) (u' : W'.Field × W'.Field) (hd : Current S.slots d u)
    (hd' : Current S.slots d' u') (hs : W.SameState W' u.1 u'.1) (ht : W.SameTracers W' (· = ·) u.2 u'.2) :
    ∃ v v', StepsTo W.dyn (dts.flatMap S.prog) d v ∧ StepsTo W'.dyn (dts.flatMap S.prog) d' v' ∧
      W.SameState W' v.1 v'.1 ∧ W.SameTracers W' (· = ·) v.2 v'.2 := by
  obtain ⟨e, e', v, v', he, he', hv, hv', h1, h2⟩ := Steps.related_run
    (W.mirrors W' hW hW' hG hS hS' m xA xB hL hL' (· = ·)) S (.inl hc) dts hd hd' ⟨hs, ht⟩
  exact ⟨v, v', ⟨e, he, hv⟩, ⟨e', he', hv'⟩, h1, h2⟩

/-- **C109 (Strang).**  The same for the Strang scheme, whose steps hand an increment to the next. -/
theorem C109_strang (M : Erk) (oc : ℝ) (dts : List ℝ) (d : Data W.Field W.Field)
    (d' : Data W'.Field W'.Field) (u : W.Field × W.Field) (u' : W'.Field × W'.Field) (hd : Current 5 d u)
    (hd' : Current 5 d' u') (hs : W.SameState W' u.1 u'.1) (ht : W.SameTracers W' (· = ·) u.2 u'.2) :
    ∃ v v', StepsTo W.dyn (strangRun oc M true dts) d v ∧ StepsTo W'.dyn (strangRun oc M true dts) d' v' ∧
      W.SameState W' v.1 v'.1 ∧ W.SameTracers W' (· = ·) v.2 v'.2 := by
  obtain ⟨e, e', v, v', he, he', hv, hv', h1, h2⟩ := Steps.related_strang
    (W.mirrors W' hW hW' hG hS hS' m xA xB hL hL' (· = ·)) M oc dts hd hd' ⟨hs, ht⟩
  exact ⟨v, v', ⟨e, he, hv⟩, ⟨e', he', hv'⟩, h1, h2⟩

/-- **C109 (all schemes).**  If the scratch slots too hold the same at every node, for example nothing, then the same is
true of every scheme, and of a run of the Strang scheme that continues an earlier one. -/
theorem C109_slots (S : Scheme ℝ) (dts : List ℝ) (d : Data W.Field W.Field) (d' : Data W'.Field W'.Field)
    (h1 : d.st.length = S.slots) (h2 : d.tr.length = S.slots) (hs : List.Forall₂ (W.SameState W') d.st d'.st)
    (ht : List.Forall₂ (W.SameTracers W' (· = ·)) d.tr d'.tr) :
    ∃ v v', StepsTo W.dyn (dts.flatMap S.prog) d v ∧ StepsTo W'.dyn (dts.flatMap S.prog) d' v' ∧
      W.SameState W' v.1 v'.1 ∧ W.SameTracers W' (· = ·) v.2 v'.2 := by
  obtain ⟨e, e', v, v', he, he', hv, hv', a, b⟩ := Steps.related_full (p := dts.flatMap S.prog)
    (W.mirrors W' hW hW' hG hS hS' m xA xB hL hL' (· = ·)) (show 0 < S.slots by rw [Steps.slots_pos]; omega)
    (by rw [List.all_flatMap]; exact List.all_eq_true.2 fun dt _ => Steps.ok_all S dt) ⟨h1, h2⟩ hs ht
  exact ⟨v, v', ⟨e, he, hv⟩, ⟨e', he', hv'⟩, a, b⟩

/-- **C110 (flow).**  Velocities and height at the end of a run do not depend on the tracers, neither on their values nor
on how many there are; also not for the schemes that do not copy tracers to their scratch slots (nor on the division into
patches). -/
theorem C110_flow (S : Scheme ℝ) (hf : S.Fresh) (dts : List ℝ) (d : Data W.Field W.Field)
    (d' : Data W'.Field W'.Field) (u : W.Field × W.Field) (u' : W'.Field × W'.Field) (hd : Current S.slots d u)
    (hd' : Current S.slots d' u') (hs : W.SameState W' u.1 u'.1) :
    ∃ v v', StepsTo W.dyn (dts.flatMap S.prog) d v ∧ StepsTo W'.dyn (dts.flatMap S.prog) d' v' ∧
      W.SameState W' v.1 v'.1 := by
  obtain ⟨e, e', v, v', he, he', hv, hv', h1, -⟩ := Steps.related_run
    (W.mirrors W' hW hW' hG hS hS' m xA xB hL hL' fun _ _ => False) S (.inr ⟨hf, fun _ _ _ _ _ _ h => h.elim⟩) dts hd hd'
    ⟨hs, fun _ _ _ _ h => h.elim⟩
  exact ⟨v, v', ⟨e, he, hv⟩, ⟨e', he', hv'⟩, h1⟩

/-- **C110 (one tracer).**  A tracer at the end of a run depends on the state and on itself only: not on the other
tracers, nor on its own number. -/
theorem C110_tracer (S : Scheme ℝ) (hc : S.CopiesTracers) (dts : List ℝ) (d : Data W.Field W.Field)
    (d' : Data W'.Field W'.Field) (u : W.Field × W.Field) (u' : W'.Field × W'.Field) (hd : Current S.slots d u)
    (hd' : Current S.slots d' u') (c c' : Nat) (h : c < W.tracers) (h' : c' < W'.tracers)
    (hs : W.SameState W' u.1 u'.1) (ht : W.SameField W' c c' u.2 u'.2) :
    ∃ v v', StepsTo W.dyn (dts.flatMap S.prog) d v ∧ StepsTo W'.dyn (dts.flatMap S.prog) d' v' ∧
      W.SameState W' v.1 v'.1 ∧ W.SameField W' c c' v.2 v'.2 := by
  obtain ⟨e, e', v, v', he, he', hv, hv', h1, h2⟩ := Steps.related_run
    (W.mirrors W' hW hW' hG hS hS' m xA xB hL hL' fun a b => a = c ∧ b = c') S (.inl hc) dts hd hd'
    ⟨hs, fun a b _ _ e => by rw [e.1, e.2]; exact ht⟩
  exact ⟨v, v', ⟨e, he, hv⟩, ⟨e', he', hv'⟩, h1, h2 c c' h h' ⟨rfl, rfl⟩⟩

/-- **C110 (Strang).**  Both for the Strang scheme. -/
theorem C110_strang (M : Erk) (oc : ℝ) (dts : List ℝ) (d : Data W.Field W.Field)
    (d' : Data W'.Field W'.Field) (u : W.Field × W.Field) (u' : W'.Field × W'.Field) (hd : Current 5 d u)
    (hd' : Current 5 d' u') (hs : W.SameState W' u.1 u'.1) :
    ∃ v v', StepsTo W.dyn (strangRun oc M true dts) d v ∧ StepsTo W'.dyn (strangRun oc M true dts) d' v' ∧
      W.SameState W' v.1 v'.1 ∧ ∀ c c', c < W.tracers → c' < W'.tracers → W.SameField W' c c' u.2 u'.2 →
        W.SameField W' c c' v.2 v'.2 := by
  obtain ⟨e, e', v, v', he, he', hv, hv', h1, h2⟩ := Steps.related_strang
    (W.mirrors W' hW hW' hG hS hS' m xA xB hL hL' fun a b => W.SameField W' a b u.2 u'.2) M oc dts hd hd'
    ⟨hs, fun a b _ _ e => e⟩
  exact ⟨v, v', ⟨e, he, hv⟩, ⟨e', he', hv'⟩, h1, fun c c' hc hc' h => h2 c c' hc hc' h⟩

end Verif.Whole
