import Verif.Whole.Points

/-!
# C109 and C110: one grid, two divisions into patches, two lists of tracers

Two models of the same grid and the same fluid.  They may differ in the number of patches, their sizes and places, the
width of the halo and the number of tracers.
-/

namespace Verif.Whole

variable (W W' : World)

/-- At the same node of the grid the patches of both models hold the same metric, rotation, topography and reference
velocity. -/
def World.SameAt (i : Fin W.count) (i' : Fin W'.count) (iA iB iA' iB' : Nat) : Prop :=
  let M := (W.tile i).M
  let M' := (W'.tile i').M
  M'.G.jac iA' iB' = M.G.jac iA iB ∧ M'.G.coriolis iA' iB' = M.G.coriolis iA iB ∧ M'.G.topo iA' iB' = M.G.topo iA iB ∧
  (∀ d, d < 2 → M'.G.metA iA' iB' d = M.G.metA iA iB d ∧ M'.G.metB iA' iB' d = M.G.metB iA iB d) ∧
  ∀ k, k < W.levels → M'.jacNode iA' iB' k = M.jacNode iA iB k ∧
    ∀ c, c < 2 → M'.ref ⟨.state c, iA', iB', k⟩ = M.ref ⟨.state c, iA, iB, k⟩

/-- The same grid of elements, the same fluid and the same settings. -/
structure World.SameGrid : Prop where
  kind : W'.kind = W.kind
  order : W'.order = W.order
  elemA : W'.elemA = W.elemA
  elemB : W'.elemB = W.elemB
  levels : W'.levels = W.levels
  components : W'.components = W.components
  weight : W'.weight = W.weight
  level : W'.level = W.level
  xz : W'.xz = W.xz
  uniform : W'.uniform = W.uniform
  nuUniform : W'.nuUniform = W.nuUniform
  hyperOrder : W'.hyperOrder = W.hyperOrder
  nuScalar : W'.nuScalar = W.nuScalar
  nuDiv : W'.nuDiv = W.nuDiv
  nuVort : W'.nuVort = W.nuVort
  patches : ∀ i i', (W'.tile i').M.B = (W.tile i).M.B ∧ (W'.tile i').M.G.deltaA = (W.tile i).M.G.deltaA ∧
    (W'.tile i').M.G.deltaB = (W.tile i).M.G.deltaB ∧ (W'.tile i').M.G.g = (W.tile i).M.G.g ∧
    (W'.tile i').M.refLength = (W.tile i).M.refLength
  nodes : ∀ i i' iA iB iA' iB', Horiz.Interior (W.tile i).M.G.S iA iB → Horiz.Interior (W'.tile i').M.G.S iA' iB' →
    W'.at_ i' iA' iB' = W.at_ i iA iB → W.SameAt W' i i' iA iB iA' iB'

/-- Component `c` of the one is component `c'` of the other: the same value at the same node and level. -/
def World.SameField (c c' : Nat) (v : W.Field) (v' : W'.Field) : Prop :=
  ∀ i i' iA iB iA' iB' k, Horiz.Interior (W.tile i).M.G.S iA iB → Horiz.Interior (W'.tile i').M.G.S iA' iB' →
    W'.at_ i' iA' iB' = W.at_ i iA iB → k < W.levels → v' i' c' iA' iB' k = v i c iA iB k

/-- The same state: velocities, height and whatever else there is. -/
def World.SameState (v : W.Field) (v' : W'.Field) : Prop := ∀ c, c < W.components → W.SameField W' c c v v'

/-- The tracers that `pair` says are the same are the same. -/
def World.SameTracers (pair : Nat → Nat → Prop) (w : W.Field) (w' : W'.Field) : Prop :=
  ∀ c c', c < W.tracers → c' < W'.tracers → pair c c' → W.SameField W' c c' w w'

end Verif.Whole
