/-
Specification vocabulary for panel crossings: nodes just inside and just outside an edge of an `N` by `N` panel.
-/
import Verif.Panel.Model

namespace Verif.Panel

open Verif.Exchange (Dir)

/-- The node at depth `k` (0 = next to the edge) outside edge `d`, at position `t` along it. -/
def outside (N : Int) (d : Dir) (k t : Int) : Int × Int :=
  match d with
  | .right => (N + k, t)
  | .top => (t, N + k)
  | .left => (-1 - k, t)
  | .bottom => (t, -1 - k)
  | _ => (0, 0)

/-- The node at depth `k` inside edge `d`, at position `t` along it. -/
def inside (N : Int) (d : Dir) (k t : Int) : Int × Int :=
  match d with
  | .right => (N - 1 - k, t)
  | .top => (t, N - 1 - k)
  | .left => (k, t)
  | .bottom => (t, k)
  | _ => (0, 0)

/-- Edge direction. -/
def IsEdge (d : Dir) : Prop := d = .right ∨ d = .top ∨ d = .left ∨ d = .bottom

/-- One of the six panels. -/
def IsPanel (p : Int) : Prop := 0 ≤ p ∧ p ≤ 5

/-- Node of a panel. -/
def OnPanel (N : Int) (n : Int × Int) : Prop := 0 ≤ n.1 ∧ n.1 < N ∧ 0 ≤ n.2 ∧ n.2 < N

/-- Node of a panel or of one of the four `N` by `N` squares beyond its edges. -/
def Reach (N : Int) (n : Int × Int) : Prop :=
  (-N ≤ n.1 ∧ n.1 < 2 * N ∧ 0 ≤ n.2 ∧ n.2 < N) ∨ (0 ≤ n.1 ∧ n.1 < N ∧ -N ≤ n.2 ∧ n.2 < 2 * N)

/-- Edges on which the outward normal is the positive coordinate direction. -/
def positive (d : Dir) : Bool := d = .right || d = .top

/-- Edges whose outward normal is along alpha. -/
def alongAlpha (d : Dir) : Bool := d = .right || d = .left

/-- Panel and node of a crossing result. -/
def place (r : Rel) : Int × Int × Int := (r.panel, r.ix, r.jx)

end Verif.Panel
