import Verif.Whole.Points

/-!
# C106: states that agree wherever patches and elements meet
-/

namespace Verif.Whole

open Halo (Momenta)

variable (W : World)

/-- All nodes at one point hold the same value of each component that is not a velocity of the sphere, and on the sphere
components of the same velocity. -/
def World.SingleState (m : Momenta) (xA xB : Nat → ℝ) (v : W.Field) : Prop := ∀ k, k < W.levels →
  (∀ c, c < W.components → W.Scalar c → ∃ f, W.Single xA xB f ∧ W.Holds v c k f) ∧
  (W.kind = .sphere → ∃ w, W.Single xA xB w ∧ W.Moves m xA v k w)

/-- All nodes at one point hold the same value of each tracer. -/
def World.SingleTracers (xA xB : Nat → ℝ) (v : W.Field) : Prop := ∀ k, k < W.levels →
  ∀ c, c < W.tracers → ∃ f, W.Single xA xB f ∧ W.Holds v c k f

end Verif.Whole
