import Mathlib.Analysis.Calculus.Deriv.Basic
import Mathlib.Topology.Order.OrderClosed
import Verif.Cases.Sponge

/-!
# What the sponge layers, mountains and perturbations of the test cases are (C118, C119)
-/

namespace Verif.Cases

open Real

/-! ### Vocabulary -/

/-- What a user expects of the strength of friction in layers at the top and at the two sides of a box, over height and
`x`: it is not negative and at most the given strength, nothing away from the layers, full at the sides, no smaller the
nearer a point is to the top or to a side, and without jumps. -/
structure Damping (nu : ℝ → ℝ → ℝ) (L : Layers) (b : Box) : Prop where
  nonneg : ∀ z x, 0 ≤ nu z x
  le : ∀ z x, nu z x ≤ L.strength
  clear : ∀ z x, L.depth ≤ b.z1 - z → L.width ≤ x - b.x0 → L.width ≤ b.x1 - x → nu z x = 0
  left : ∀ z ≤ b.z1, nu z b.x0 = L.strength
  right : ∀ z ≤ b.z1, nu z b.x1 = L.strength
  upward : ∀ x z z', z ≤ z' → z' ≤ b.z1 → nu z x ≤ nu z' x
  outward : ∀ z x x', b.x0 ≤ x' → x' ≤ b.x1 → min (x' - b.x0) (b.x1 - x') ≤ min (x - b.x0) (b.x1 - x) → nu z x ≤ nu z x'
  smooth : ContinuousOn (fun p : ℝ × ℝ => nu p.1 p.2) {p | p.1 ≤ b.z1 ∧ b.x0 ≤ p.2 ∧ p.2 ≤ b.x1}

/-- The same for a layer at the top only. -/
structure TopDamping (nu : ℝ → ℝ) (strength bottom top : ℝ) : Prop where
  nonneg : ∀ z, 0 ≤ nu z
  le : ∀ z, nu z ≤ strength
  clear : ∀ z ≤ bottom, nu z = 0
  full : nu top = strength
  upward : ∀ z z', z ≤ z' → z' ≤ top → nu z ≤ nu z'
  smooth : Continuous nu

/-! ### The layers -/

theorem ramp_nonneg {s n : ℝ} (hs : 0 ≤ s) : 0 ≤ ramp s n := by
  have := neg_one_le_cos (π * n)
  unfold ramp
  have h : 0 ≤ 1 + cos (π * n) := by linarith
  positivity

theorem ramp_le {s n : ℝ} (hs : 0 ≤ s) : ramp s n ≤ s := by
  have := cos_le_one (π * n)
  unfold ramp
  nlinarith

theorem ramp_zero (s : ℝ) : ramp s 0 = s := by
  unfold ramp
  rw [mul_zero, cos_zero]
  ring

theorem ramp_one (s : ℝ) : ramp s 1 = 0 := by
  unfold ramp
  rw [mul_one, cos_pi]
  ring

theorem ramp_anti {s n m : ℝ} (hs : 0 ≤ s) (hn : 0 ≤ n) (hnm : n ≤ m) (hm : m ≤ 1) : ramp s m ≤ ramp s n := by
  have : cos (π * m) ≤ cos (π * n) :=
    cos_le_cos_of_nonneg_of_le_pi (by positivity) (by nlinarith [pi_pos]) (by nlinarith [pi_pos])
  unfold ramp
  nlinarith

/-- A layer of width `w` over the distance from its outer edge. -/
noncomputable def away (s w d : ℝ) : ℝ := if d < w then ramp s (d / w) else 0

theorem away_nonneg {s w d : ℝ} (hs : 0 ≤ s) : 0 ≤ away s w d := by
  unfold away
  split
  · exact ramp_nonneg hs
  · exact le_rfl

theorem away_le {s w d : ℝ} (hs : 0 ≤ s) : away s w d ≤ s := by
  unfold away
  split
  · exact ramp_le hs
  · exact hs

theorem away_anti {s w d e : ℝ} (hs : 0 ≤ s) (hd : 0 ≤ d) (hde : d ≤ e) : away s w e ≤ away s w d := by
  unfold away
  split
  · rename_i h
    have hw : 0 < w := lt_of_le_of_lt (hd.trans hde) h
    rw [if_pos (lt_of_le_of_lt hde h)]
    exact ramp_anti hs (by positivity) (by gcongr) ((div_le_one hw).2 h.le)
  · split
    · exact ramp_nonneg hs
    · exact le_rfl

theorem away_zero {s w : ℝ} (hw : 0 < w) : away s w 0 = s := by
  unfold away
  rw [if_pos hw, zero_div, ramp_zero]

theorem away_far {s w d : ℝ} (h : w ≤ d) : away s w d = 0 := by
  unfold away
  rw [if_neg (not_lt.2 h)]

theorem away_continuous {s w : ℝ} (hw : 0 < w) : Continuous (away s w) := by
  have e : away s w = fun d => if w ≤ d then (0 : ℝ) else ramp s (d / w) := by
    funext d
    unfold away
    by_cases h : d < w
    · rw [if_pos h, if_neg (not_le.2 h)]
    · rw [if_neg h, if_pos (not_lt.1 h)]
  rw [e]
  refine Continuous.if_le continuous_const ?_ continuous_const continuous_id ?_
  · unfold ramp
    fun_prop
  · intro d hd
    rw [← hd, div_self hw.ne', ramp_one]

theorem capLayer_eq (L : Layers) (top z : ℝ) : capLayer L top z = away L.strength L.depth (top - z) := by
  unfold capLayer away
  by_cases h : z > top - L.depth
  · rw [if_pos h, if_pos (by linarith)]
  · rw [if_neg h, if_neg (by linarith)]

theorem rightLayer_eq (L : Layers) (b : Box) (x : ℝ) : rightLayer L b x = away L.strength L.width (b.x1 - x) := by
  unfold rightLayer away
  by_cases h : x > b.x1 - L.width
  · rw [if_pos h, if_pos (by linarith)]
  · rw [if_neg h, if_neg (by linarith)]

theorem leftLayer_eq (L : Layers) (b : Box) (x : ℝ) : leftLayer L b x = away L.strength L.width (x - b.x0) := by
  unfold leftLayer away
  by_cases h : x < b.x0 + L.width
  · rw [if_pos h, if_pos (by linarith)]
  · rw [if_neg h, if_neg (by linarith)]

theorem strongest_eq (d r l : ℝ) : strongest d r l = max d (max r l) := by
  unfold strongest
  split
  · rename_i h
    rw [max_eq_left (max_le h.1 h.2)]
  · rename_i h
    have h' : d ≤ max r l := by
      by_contra hc
      exact h ⟨(le_max_left r l).trans (not_le.1 hc).le, (le_max_right r l).trans (not_le.1 hc).le⟩
    rw [max_eq_right h']
    split
    · rename_i hr
      rw [max_eq_left hr]
    · rename_i hr
      rw [max_eq_right (not_le.1 hr).le]

theorem boxSponge_eq (L : Layers) (b : Box) (z x : ℝ) : boxSponge L b z x =
    max (away L.strength L.depth (b.z1 - z))
      (max (away L.strength L.width (b.x1 - x)) (away L.strength L.width (x - b.x0))) := by
  unfold boxSponge
  rw [strongest_eq, capLayer_eq, rightLayer_eq, leftLayer_eq]

/-- C118: the sponge layers of the tests in a box (density current, ridge, inertia-gravity wave, mountain waves, jet) are
what a user expects, for layers of any strength that is not negative, of any depth that is not negative and any positive
width, in any box. -/
theorem C118_box (L : Layers) (b : Box) (hs : 0 ≤ L.strength) (hd : 0 ≤ L.depth) (hw : 0 < L.width) :
    Damping (boxSponge L b) L b where
  nonneg z x := by
    rw [boxSponge_eq]
    exact le_max_of_le_left (away_nonneg hs)
  le z x := by
    rw [boxSponge_eq]
    exact max_le (away_le hs) (max_le (away_le hs) (away_le hs))
  clear z x h1 h2 h3 := by
    rw [boxSponge_eq, away_far h1, away_far h2, away_far h3]
    simp
  left z hz := by
    rw [boxSponge_eq, sub_self, away_zero hw]
    exact le_antisymm (max_le (away_le hs) (max_le (away_le hs) le_rfl)) (le_max_of_le_right (le_max_right _ _))
  right z hz := by
    rw [boxSponge_eq, sub_self, away_zero hw]
    exact le_antisymm (max_le (away_le hs) (max_le le_rfl (away_le hs))) (le_max_of_le_right (le_max_left _ _))
  upward x z z' h h' := by
    rw [boxSponge_eq, boxSponge_eq]
    exact max_le_max_right _ (away_anti hs (by linarith) (by linarith))
  outward z x x' h0 h1 h := by
    rw [boxSponge_eq, boxSponge_eq]
    refine max_le_max_left _ ?_
    have k : ∀ d, min (x' - b.x0) (b.x1 - x') ≤ d → away L.strength L.width d ≤
        max (away L.strength L.width (b.x1 - x')) (away L.strength L.width (x' - b.x0)) := by
      intro d hk
      rcases le_total (x' - b.x0) (b.x1 - x') with c | c
      · rw [min_eq_left c] at hk
        exact le_max_of_le_right (away_anti hs (by linarith) hk)
      · rw [min_eq_right c] at hk
        exact le_max_of_le_left (away_anti hs (by linarith) hk)
    exact max_le (k _ (h.trans (min_le_right _ _))) (k _ (h.trans (min_le_left _ _)))
  smooth := by
    have e : (fun p : ℝ × ℝ => boxSponge L b p.1 p.2) = fun p : ℝ × ℝ => max (away L.strength L.depth (b.z1 - p.1))
      (max (away L.strength L.width (b.x1 - p.2)) (away L.strength L.width (p.2 - b.x0))) :=
      funext fun p => boxSponge_eq L b p.1 p.2
    rw [e]
    have c := away_continuous (s := L.strength) hw
    have side : Continuous fun p : ℝ × ℝ =>
        max (away L.strength L.width (b.x1 - p.2)) (away L.strength L.width (p.2 - b.x0)) := by fun_prop
    refine ContinuousOn.sup ?_ side.continuousOn
    rcases hd.eq_or_lt with h | h
    · refine (continuousOn_const (c := (0 : ℝ))).congr ?_
      intro p hp
      have hp' : p.1 ≤ b.z1 := hp.1
      show away L.strength L.depth (b.z1 - p.1) = 0
      exact away_far (by linarith)
    · have c := away_continuous (s := L.strength) h
      have : Continuous fun p : ℝ × ℝ => away L.strength L.depth (b.z1 - p.1) := by fun_prop
      exact this.continuousOn

/-- C118: where the layer at the top has a depth, its strength is full at the top. -/
theorem C118_box_top (L : Layers) (b : Box) (hs : 0 ≤ L.strength) (hd : 0 < L.depth) (x : ℝ) :
    boxSponge L b b.z1 x = L.strength := by
  rw [boxSponge_eq, sub_self, away_zero hd]
  exact max_eq_left (max_le (away_le hs) (away_le hs))

/-- C118: the six tests that share this text; their constants are those of the code. -/
theorem C118_tests : ∀ t ∈ [densityLayers, ridgeLayers, inertialLayers, nonhydroLayers, scharLayers, shearLayers],
    Damping (boxSponge t.1 t.2) t.1 t.2 ∧ t.2.x0 + 2 * t.1.width < t.2.x1 ∧ t.2.z0 + t.1.depth < t.2.z1 := by
  intro t ht
  simp only [List.mem_cons, List.not_mem_nil, or_false] at ht
  refine ⟨C118_box _ _ ?_ ?_ ?_, ?_, ?_⟩ <;> rcases ht with rfl | rfl | rfl | rfl | rfl | rfl <;>
    norm_num [densityLayers, ridgeLayers, inertialLayers, nonhydroLayers, scharLayers, shearLayers]

/-- C118: the layer at the top of the tests on the sphere. -/
theorem C118_cap (L : Layers) (top : ℝ) (hs : 0 ≤ L.strength) (hd : 0 < L.depth) :
    TopDamping (capLayer L top) L.strength (top - L.depth) top where
  nonneg z := by
    rw [capLayer_eq]
    exact away_nonneg hs
  le z := by
    rw [capLayer_eq]
    exact away_le hs
  clear z hz := by
    rw [capLayer_eq]
    exact away_far (by linarith)
  full := by rw [capLayer_eq, sub_self, away_zero hd]
  upward z z' h h' := by
    rw [capLayer_eq, capLayer_eq]
    exact away_anti hs (by linarith) (by linarith)
  smooth := by
    have e : capLayer L top = fun z => away L.strength L.depth (top - z) := funext fun z => capLayer_eq L top z
    rw [e]
    have c := away_continuous (s := L.strength) hd
    fun_prop

/-- The three tests on the sphere with that layer. -/
example (top : ℝ) : ∀ L ∈ [umjsLayer, rossbyLayer, waveLayer],
    TopDamping (capLayer L top) L.strength (top - L.depth) top := by
  intro L hL
  simp only [List.mem_cons, List.not_mem_nil, or_false] at hL
  refine C118_cap _ _ ?_ ?_ <;> rcases hL with rfl | rfl | rfl <;> norm_num [umjsLayer, rossbyLayer, waveLayer]

theorem sine_eq (zh top z : ℝ) (h : zh < top) :
    (if z > zh then sin (π / 2 * ((z - zh) / (top - zh))) * sin (π / 2 * ((z - zh) / (top - zh))) else 0) =
      sin (π / 2 * (max (z - zh) 0 / (top - zh))) ^ 2 := by
  by_cases c : z > zh
  · rw [if_pos c, max_eq_left (by linarith)]
    ring
  · rw [if_neg c, max_eq_right (by linarith)]
    simp

/-- C118: the layer of the Schär mountain on the sphere, of strength one over the time scale. -/
theorem C118_sine (zh top tau : ℝ) (h : zh < top) (ht : 0 < tau) : TopDamping (sineSponge zh top tau) (1 / tau) zh top where
  nonneg z := by
    unfold sineSponge
    rw [sine_eq zh top z h]
    positivity
  le z := by
    unfold sineSponge
    rw [sine_eq zh top z h]
    gcongr
    exact sin_sq_le_one _
  clear z hz := by
    unfold sineSponge
    rw [if_neg (not_lt.2 hz), zero_div]
  full := by
    unfold sineSponge
    rw [if_pos h, div_self (by linarith : top - zh ≠ 0), mul_one, sin_pi_div_two, mul_one]
  upward z z' hz hz' := by
    unfold sineSponge
    rw [sine_eq zh top z h, sine_eq zh top z' h]
    have p : 0 < top - zh := by linarith
    have m : max (z - zh) 0 ≤ max (z' - zh) 0 := max_le_max_right _ (by linarith)
    have m' : max (z' - zh) 0 ≤ top - zh := max_le (by linarith) p.le
    have q : max (z' - zh) 0 / (top - zh) ≤ 1 := (div_le_one p).2 m'
    have r : max (z - zh) 0 / (top - zh) ≤ max (z' - zh) 0 / (top - zh) := by gcongr
    have r0 : 0 ≤ max (z - zh) 0 / (top - zh) := div_nonneg (le_max_right _ _) p.le
    have hp := pi_pos
    have s1 : sin (π / 2 * (max (z - zh) 0 / (top - zh))) ≤ sin (π / 2 * (max (z' - zh) 0 / (top - zh))) :=
      sin_le_sin_of_le_of_le_pi_div_two (by nlinarith) (by nlinarith) (by nlinarith)
    have s0 : 0 ≤ sin (π / 2 * (max (z - zh) 0 / (top - zh))) :=
      sin_nonneg_of_nonneg_of_le_pi (by positivity) (by nlinarith)
    gcongr
  smooth := by
    have e : sineSponge zh top tau = fun z => sin (π / 2 * (max (z - zh) 0 / (top - zh))) ^ 2 / tau := by
      funext z
      unfold sineSponge
      rw [sine_eq zh top z h]
    rw [e]
    fun_prop

example : TopDamping (sineSponge 20000 30000 25) (1 / 25) 20000 30000 := C118_sine _ _ _ (by norm_num) (by norm_num)

/-- C118, where it fails: the Held-Suarez test announces friction (HeldSuarezTest.cpp:297-299) with a layer above a given
height and a time scale, and has none at any height. -/
theorem C118_held_suarez_false (zh top tau z : ℝ) : heldSuarezSponge zh top tau z = 0 := by
  unfold heldSuarezSponge
  rw [zero_mul, zero_div]

/-- C118, what holds of the hydrostatic mountain: bounds, nothing away from the layers, and full strength at the right
side and at the top. -/
theorem C118_hydrostatic_partial (L : Layers) (b : Box) (hs : 0 ≤ L.strength) (hd : 0 < L.depth) (hw : 0 < L.width)
    (z x : ℝ) :
    0 ≤ hydrostaticSponge L b z x ∧ hydrostaticSponge L b z x ≤ L.strength ∧
      (L.depth ≤ b.z1 - z → L.width ≤ x - b.x0 → L.width ≤ b.x1 - x → hydrostaticSponge L b z x = 0) ∧
      hydrostaticSponge L b z b.x1 = L.strength ∧ hydrostaticSponge L b b.z1 x = L.strength := by
  have n : ∀ x, 0 ≤ leftTurned L b x ∧ leftTurned L b x ≤ L.strength := by
    intro x
    unfold leftTurned
    split
    · exact ⟨ramp_nonneg hs, ramp_le hs⟩
    · exact ⟨le_rfl, hs⟩
  simp only [hydrostaticSponge, strongest_eq, capLayer_eq, rightLayer_eq]
  refine ⟨le_max_of_le_left (away_nonneg hs), max_le (away_le hs) (max_le (away_le hs) (n x).2), ?_, ?_, ?_⟩
  · intro h1 h2 h3
    rw [away_far h1, away_far h3]
    unfold leftTurned
    rw [if_neg (by linarith)]
    simp
  · rw [sub_self, away_zero hw]
    exact le_antisymm (max_le (away_le hs) (max_le le_rfl (n _).2)) (le_max_of_le_right (le_max_left _ _))
  · rw [sub_self, away_zero hd]
    exact max_eq_left (max_le (away_le hs) (n x).2)

/-- C118, where it fails: at the ground the layer at the left side of the hydrostatic mountain is turned around.  There is
no friction at the boundary, and the friction grows inwards to at least half of its strength where the layer ends, behind
which there is none. -/
theorem C118_hydrostatic_false :
    hydrostaticSponge hydrostaticLayers.1 hydrostaticLayers.2 0 0 = 0 ∧
    (∀ x, 10000 ≤ x → x < 20000 →
      4e-3 ≤ hydrostaticSponge hydrostaticLayers.1 hydrostaticLayers.2 0 x) ∧
    hydrostaticSponge hydrostaticLayers.1 hydrostaticLayers.2 0 20000 = 0 ∧
    ¬Damping (hydrostaticSponge hydrostaticLayers.1 hydrostaticLayers.2) hydrostaticLayers.1 hydrostaticLayers.2 := by
  have h0 : hydrostaticSponge hydrostaticLayers.1 hydrostaticLayers.2 0 0 = 0 := by
    simp only [hydrostaticSponge, strongest_eq, capLayer_eq, rightLayer_eq]
    have e : leftTurned hydrostaticLayers.1 hydrostaticLayers.2 0 = 0 := by
      unfold leftTurned
      rw [if_pos (by norm_num [hydrostaticLayers]), show (1 - (0 - hydrostaticLayers.2.x0) / hydrostaticLayers.1.width) = 1
        by norm_num [hydrostaticLayers], ramp_one]
    rw [e, away_far (by norm_num [hydrostaticLayers]), away_far (by norm_num [hydrostaticLayers])]
    simp
  refine ⟨h0, ?_, ?_, ?_⟩
  · intro x h1 h2
    simp only [hydrostaticSponge, strongest_eq]
    refine le_max_of_le_right (le_max_of_le_right ?_)
    unfold leftTurned
    rw [if_pos (by norm_num [hydrostaticLayers]; linarith)]
    show 4e-3 ≤ ramp 8e-3 (1 - (x - 0) / 20000)
    have c : 0 ≤ cos (π * (1 - (x - 0) / 20000)) :=
      cos_nonneg_of_neg_pi_div_two_le_of_le (by nlinarith [pi_pos]) (by nlinarith [pi_pos])
    unfold ramp
    norm_num at c ⊢
    linarith
  · simp only [hydrostaticSponge, strongest_eq, capLayer_eq, rightLayer_eq]
    unfold leftTurned
    rw [away_far (by norm_num [hydrostaticLayers]), away_far (by norm_num [hydrostaticLayers]),
      if_neg (by norm_num [hydrostaticLayers])]
    simp
  · intro h
    have := h.left 0 (by norm_num [hydrostaticLayers])
    rw [show hydrostaticLayers.2.x0 = 0 by norm_num [hydrostaticLayers], h0] at this
    norm_num [hydrostaticLayers] at this

/-- C118, what holds of the baroclinic wave in a channel: bounds, and full strength at the top. -/
theorem C118_channel_partial (L : Layers) (b : Box) (hs : 0 ≤ L.strength) (hd : 0 < L.depth) (z x y : ℝ) :
    0 ≤ channelSponge L b z x y ∧ channelSponge L b z x y ≤ L.strength ∧ channelSponge L b b.z1 x y = L.strength := by
  have n : ∀ (p : Prop) [Decidable p] (m : ℝ), (if p then ramp L.strength m else 0) ≤ L.strength := by
    intro p _ m
    split
    · exact ramp_le hs
    · exact hs
  simp only [channelSponge, strongest_eq, capLayer_eq]
  refine ⟨le_max_of_le_left (away_nonneg hs), max_le (away_le hs) (max_le (n _ _) (n _ _)), ?_⟩
  rw [sub_self, away_zero hd]
  exact max_eq_left (max_le (n _ _) (n _ _))

/-- C118, where it fails: the layers of that test are wider than the channel and compare the coordinate `x` with the
bounds of `y`, so that friction of at least half of the strength is at work in the whole channel. -/
theorem C118_channel_false (z x y : ℝ) (hx : 0 ≤ x) (hy : 0 ≤ y) (hy' : y ≤ 6000000) :
    2.5e-3 ≤ channelSponge channelLayers.1 channelLayers.2 z x y := by
  simp only [channelSponge, strongest_eq]
  refine le_max_of_le_right (le_max_of_le_left ?_)
  rw [if_pos (by norm_num [channelLayers]; linarith)]
  show 2.5e-3 ≤ ramp 5e-3 ((6000000 - y) / 5e7)
  have c : 0 ≤ cos (π * ((6000000 - y) / 5e7)) := by
    norm_num
    exact cos_nonneg_of_neg_pi_div_two_le_of_le (by nlinarith [pi_pos]) (by nlinarith [pi_pos])
  unfold ramp
  norm_num at c ⊢
  linarith

/-- A point in the middle of that channel, far from every wall. -/
example : (2.5e-3 : ℝ) ≤ channelSponge channelLayers.1 channelLayers.2 0 15000000 3000000 :=
  C118_channel_false _ _ _ (by norm_num) (by norm_num) (by norm_num)

end Verif.Cases
