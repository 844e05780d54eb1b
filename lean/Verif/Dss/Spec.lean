import Mathlib.Data.Real.Basic

/-!
# What averaging shared nodes means

Spectral elements with `p` nodes each, laid out one after another along a line,
number their nodes `… , e*p, e*p + 1, …, e*p + (p-1), …`.  The last node of an
element and the first node of the next sit at the same place: they are two
copies of one shared node.
-/

namespace Verif.Dss

/-- The other copy of node `g`: the previous number for the first node of an
element, the next number for the last node, and `g` itself for a node inside an
element. -/
def twin (p g : Int) : Int :=
  if g % p = 0 then g - 1 else if g % p = p - 1 then g + 1 else g

/-- The average, over all copies of the point `(g, k)` in two dimensions, of the
values `U` attached to them: four copies at an element corner; on an element
edge each of the two copies is counted twice; inside an element the point itself
is counted four times. -/
noncomputable def sharedMean (p : Int) (U : Int → Int → ℝ) (g k : Int) : ℝ :=
  (U g k + U (twin p g) k + U g (twin p k) + U (twin p g) (twin p k)) / 4

end Verif.Dss
