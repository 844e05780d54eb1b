import Verif.Whole.Exist

/-!
# C105: averaging over the whole grid

Any number of patches that tile the cubed sphere or the doubly periodic plane, of any sizes, with any number of
components, tracers and levels.
-/

namespace Verif.Whole

open Halo (Node Momenta Components coord copies meanVector)

variable (W : World) (hW : W.Tiled) (m : Momenta) (xA xB : Nat → ℝ) (hL : W.Laid m xA xB)

include hW hL

/-- **C105 (scalars).**  Averaging the state gives each node of each patch, for each component that is not a velocity of
the sphere and at each level, the mean over all nodes at the same point, on whatever patches and panels they are. -/
theorem C105_state (v : W.Field) (c k : Nat) (hc : c < W.components) (hk : k < W.levels) (hs : W.Scalar c) (f : Node → ℝ)
    (hf : W.Holds v c k f) : W.Holds (W.dssState v) c k fun n => meanOver (W.sharing xA xB n) f :=
  W.average_holds xA xB hW hL.alpha hL.beta v _ W.components c k hc hk (fun i => W.turn_scalar xA xB m hL c hs i _) f hf

/-- **C105 (tracers).**  The same for every tracer. -/
theorem C105_tracers (v : W.Field) (c k : Nat) (hc : c < W.tracers) (hk : k < W.levels) (f : Node → ℝ)
    (hf : W.Holds v c k f) : W.Holds (W.dssTracers v) c k fun n => meanOver (W.sharing xA xB n) f :=
  W.average_holds xA xB hW hL.alpha hL.beta v _ W.tracers c k hc hk (fun _ => rfl) f hf

/-- **C105 (velocities).**  On the sphere, averaging gives each node the components, in its own panel, of the mean of the
vectors of all nodes at the same point. -/
theorem C105_velocity (hs : W.kind = .sphere) (h2 : 2 ≤ W.components) (v : W.Field) (k : Nat) (hk : k < W.levels)
    (w : Node → Sphere.Vec3) (hw : W.Moves m xA v k w) :
    W.Moves m xA (W.dssState v) k (meanVector W.order W.elemA xA w) :=
  W.velocity hW hs m xA hL.alpha (hL.sphere hs) h2 v k hk w hw

omit hL in
/-- Every state holds some function of the nodes, and on the sphere some vectors: the theorems above speak of any state. -/
theorem C105_any (v : W.Field) (k : Nat) : (∀ c, ∃ f, W.Holds v c k f) ∧
    (W.kind = .sphere → ∃ w, W.Moves m xA v k w) :=
  ⟨fun c => ⟨_, W.holds_field hW v c k⟩, fun hs => W.moves_exist hW hs m xA v k⟩

theorem mean_single {f : Node → ℝ} : W.Single xA xB fun n => meanOver (W.sharing xA xB n) f := by
  intro n hn n' hn'
  simp only
  rw [W.sharing_eq xA xB hW hL.alpha hL.beta n n' hn hn']

/-- **C105 (agreement).**  Afterwards all nodes at one point hold the same value of each such component, of each tracer,
and, on the sphere, components of the same velocity. -/
theorem C105_agree (v : W.Field) (k : Nat) (hk : k < W.levels) :
    (∀ c, c < W.components → W.Scalar c → ∃ f, W.Single xA xB f ∧ W.Holds (W.dssState v) c k f) ∧
    (∀ c, c < W.tracers → ∃ f, W.Single xA xB f ∧ W.Holds (W.dssTracers v) c k f) ∧
    (W.kind = .sphere → 2 ≤ W.components → ∃ w, W.Single xA xB w ∧ W.Moves m xA (W.dssState v) k w) := by
  refine ⟨fun c hc hs => ⟨_, mean_single W hW m xA xB hL, C105_state W hW m xA xB hL v c k hc hk hs _ (W.holds_field hW v c k)⟩,
    fun c hc => ⟨_, mean_single W hW m xA xB hL, C105_tracers W hW m xA xB hL v c k hc hk _ (W.holds_field hW v c k)⟩,
    fun hs h2 => ?_⟩
  obtain ⟨w, hw⟩ := W.moves_exist hW hs m xA v k
  refine ⟨_, fun n hn n' hn' => ?_, C105_velocity W hW m xA xB hL hs h2 v k hk w hw⟩
  have := W.sharing_eq xA xB hW hL.alpha hL.beta n n' hn hn'
  unfold World.sharing at this
  rw [hs] at this
  simp only at this
  unfold meanVector
  rw [this]

/-- **C105 (single-valued fields).**  What is single-valued already is not changed. -/
theorem C105_kept (v : W.Field) (k : Nat) (hk : k < W.levels) :
    (∀ c f, c < W.components → W.Scalar c → W.Single xA xB f → W.Holds v c k f → W.Holds (W.dssState v) c k f) ∧
    (∀ c f, c < W.tracers → W.Single xA xB f → W.Holds v c k f → W.Holds (W.dssTracers v) c k f) ∧
    (∀ w, W.kind = .sphere → 2 ≤ W.components → W.Single xA xB w → W.Moves m xA v k w →
      W.Moves m xA (W.dssState v) k w) := by
  have mean : ∀ f : Node → ℝ, W.Single xA xB f → ∀ n ∈ W.nodes, meanOver (W.sharing xA xB n) f = f n :=
    fun f hf n hn => meanOver_const _ ⟨n, W.self_sharing xA xB n hW hn⟩ f _ (hf n hn)
  refine ⟨fun c f hc hs hf h i iA iB hI => ?_, fun c f hc hf h i iA iB hI => ?_, fun w hs h2 hw h i iA iB hI => ?_⟩
  · rw [C105_state W hW m xA xB hL v c k hc hk hs f h i iA iB hI]
    exact mean f hf _ (W.at_mem hW i iA iB hI)
  · rw [C105_tracers W hW m xA xB hL v c k hc hk f h i iA iB hI]
    exact mean f hf _ (W.at_mem hW i iA iB hI)
  · have := C105_velocity W hW m xA xB hL hs h2 v k hk w h i iA iB hI
    have hn := W.at_mem hW i iA iB hI
    have e : meanVector W.order W.elemA xA w (W.at_ i iA iB) = w (W.at_ i iA iB) := by
      have h1 := hw _ hn
      have h2 := W.self_sharing xA xB _ hW hn
      unfold World.sharing at h1 h2
      rw [hs] at h1 h2
      simp only at h1 h2
      unfold meanVector
      rw [Finset.sum_congr rfl h1, Finset.sum_const]
      have : ((copies W.order W.elemA xA (W.at_ i iA iB)).card : ℝ) ≠ 0 := by
        exact_mod_cast (Finset.card_pos.mpr ⟨_, h2⟩).ne'
      rw [← Nat.cast_smul_eq_nsmul ℝ, smul_smul, one_div, inv_mul_cancel₀ this, one_smul]
    rw [e] at this
    exact this

/-- **C105 (once is enough).**  Averaging again changes no component of the state and no tracer at any node of any
patch. -/
theorem C105_again (h2 : 2 ≤ W.components) (v : W.Field) (i : Fin W.count) (iA iB k : Nat)
    (hI : Horiz.Interior (W.tile i).M.G.S iA iB) (hk : k < W.levels) :
    (∀ c, c < W.components → W.dssState (W.dssState v) i c iA iB k = W.dssState v i c iA iB k) ∧
    (∀ c, c < W.tracers → W.dssTracers (W.dssTracers v) i c iA iB k = W.dssTracers v i c iA iB k) := by
  obtain ⟨a1, a2, a3⟩ := C105_agree W hW m xA xB hL v k hk
  constructor
  · intro c hc
    by_cases hs : W.Scalar c
    · obtain ⟨f, h1, h2⟩ := a1 c hc hs
      rw [(C105_kept W hW m xA xB hL _ k hk).1 c f hc hs h1 h2 i iA iB hI, h2 i iA iB hI]
    · unfold World.Scalar at hs
      push Not at hs
      obtain ⟨hs, hc2⟩ := hs
      obtain ⟨w, h1, hm⟩ := a3 hs h2
      have e1 := (C105_kept W hW m xA xB hL _ k hk).2.2 w hs h2 h1 hm i iA iB hI
      have e2 := hm i iA iB hI
      have hp : Panel.IsPanel (W.tile i).panel := (W.placed_ok hW hs i).panel
      have e := Halo.components_unique _ hp _ _ _ _ _ e1 e2
      have : c = 0 ∨ c = 1 := by omega
      rcases this with rfl | rfl
      · exact congrArg Prod.fst e
      · exact congrArg Prod.snd e
  · intro c hc
    obtain ⟨f, h1, h2⟩ := a2 c hc
    rw [(C105_kept W hW m xA xB hL _ k hk).2.1 c f hc h1 h2 i iA iB hI, h2 i iA iB hI]

/-- **C105 (bounds).**  Averaging makes no value larger than the largest or smaller than the smallest that the nodes at
the point held. -/
theorem C105_bounds (v : W.Field) (k : Nat) (hk : k < W.levels) (lo hi : ℝ) (n : Node) (f : Node → ℝ)
    (hb : ∀ n' ∈ W.sharing xA xB n, lo ≤ f n' ∧ f n' ≤ hi) (i : Fin W.count) (iA iB : Nat)
    (hI : Horiz.Interior (W.tile i).M.G.S iA iB) (hn : W.at_ i iA iB = n) :
    (∀ c, c < W.components → W.Scalar c → W.Holds v c k f →
      lo ≤ W.dssState v i c iA iB k ∧ W.dssState v i c iA iB k ≤ hi) ∧
    (∀ c, c < W.tracers → W.Holds v c k f → lo ≤ W.dssTracers v i c iA iB k ∧ W.dssTracers v i c iA iB k ≤ hi) := by
  subst hn
  have ne : (W.sharing xA xB (W.at_ i iA iB)).Nonempty := ⟨_, W.self_sharing xA xB _ hW (W.at_mem hW i iA iB hI)⟩
  constructor
  · intro c hc hs hf
    rw [C105_state W hW m xA xB hL v c k hc hk hs f hf i iA iB hI]
    exact meanOver_bounds _ ne f lo hi hb
  · intro c hc hf
    rw [C105_tracers W hW m xA xB hL v c k hc hk f hf i iA iB hI]
    exact meanOver_bounds _ ne f lo hi hb

omit hW hL in
/-- **C105 (nothing else).**  Components, tracers and levels beyond those that exist are left as the exchange and the
transform of the halo leave them; the nodes of the patch are not touched at all there. -/
theorem C105_beyond (v : W.Field) (i : Fin W.count) (c iA iB k : Nat) (h : ¬ (c < W.tracers ∧ k < W.levels))
    (hI : Horiz.Interior (W.tile i).M.G.S iA iB) : W.dssTracers v i c iA iB k = v i c iA iB k := by
  unfold World.dssTracers World.averageAll World.exchange
  rw [if_neg h]
  simp only
  unfold Horiz.Interior at hI
  rw [if_pos hI]

end Verif.Whole
