/-
The published Runge-Kutta tableaux the drivers implement.  `F` is evaluated at the explicit stages and `G` at the
implicit ones; trailing zeros of a row are left out.
-/
import Verif.Steps.Spec

namespace Verif.Steps

variable {K : Type*} [Field K]

/-- Forward Euler. -/
def eulerA : List (List K) := [[]]
def eulerB : List K := [1]

/-- The classical fourth-order method. -/
def rk4A : List (List K) := [[], [1 / 2], [0, 1 / 2], [0, 0, 1]]
def rk4B : List K := [1 / 6, 1 / 3, 1 / 3, 1 / 6]

/-- Shu-Osher SSP(3,3). -/
def ssp3A : List (List K) := [[], [1], [1 / 4, 1 / 4]]
def ssp3B : List K := [1 / 6, 1 / 6, 2 / 3]

/-- Kinnmark-Gray-Ullrich five-stage third-order method. -/
def kgu35A : List (List K) := [[], [1 / 5], [0, 1 / 5], [0, 0, 1 / 3], [0, 0, 0, 2 / 3]]
def kgu35B : List K := [1 / 4, 0, 0, 0, 3 / 4]

/-- Ascher, Ruuth and Spiteri (2,2,2): explicit stages at the start and after the first solve. -/
def tab222 (γ δ : K) : Tableau K where
  EE := [[], [γ]]
  EI := [[], [γ]]
  IE := [[γ], [δ, 1 - δ]]
  II := [[γ], [1 - γ, γ]]
  bE := [δ, 1 - δ]
  bI := [1 - γ, γ]

/-- Ascher, Ruuth and Spiteri (2,3,2). -/
def tab232 (γ δ : K) : Tableau K where
  EE := [[], [γ], [δ, 1 - δ]]
  EI := [[], [γ], [1 - γ, γ]]
  IE := [[γ], [δ, 1 - δ]]
  II := [[γ], [1 - γ, γ]]
  bE := [0, 1 - γ, γ]
  bI := [1 - γ, γ]

/-- Ascher, Ruuth and Spiteri (3,4,3). -/
def tableau343 (T : Tab343 K) : Tableau K where
  EE := [[], [T.γ], [T.a31, T.a32], [T.a41, T.a42, T.a43]]
  EI := [[], [T.γ], [(1 - T.γ) / 2, T.γ], [T.b1, T.b2, T.γ]]
  IE := [[T.γ], [T.a31, T.a32], [T.a41, T.a42, T.a43]]
  II := [[T.γ], [(1 - T.γ) / 2, T.γ], [T.b1, T.b2, T.γ]]
  bE := [0, T.b1, T.b2, T.γ]
  bI := [T.b1, T.b2, T.γ]

/-- Ascher, Ruuth and Spiteri (4,4,3). -/
def tab443 : Tableau K where
  EE := [[], [1 / 2], [11 / 18, 1 / 18], [5 / 6, -5 / 6, 1 / 2]]
  EI := [[], [1 / 2], [1 / 6, 1 / 2], [-1 / 2, 1 / 2, 1 / 2]]
  IE := [[1 / 2], [11 / 18, 1 / 18], [5 / 6, -5 / 6, 1 / 2], [1 / 4, 7 / 4, 3 / 4, -7 / 4]]
  II := [[1 / 2], [1 / 6, 1 / 2], [-1 / 2, 1 / 2, 1 / 2], [3 / 2, -3 / 2, 1 / 2, 1 / 2]]
  bE := [1 / 4, 7 / 4, 3 / 4, -7 / 4]
  bI := [3 / 2, -3 / 2, 1 / 2, 1 / 2]

/-- Pareschi and Russo SSP3(3,3,2). -/
def tab3332 (γ : K) : Tableau K where
  EE := [[], [1], [1 / 4, 1 / 4]]
  EI := [[γ], [1 - 2 * γ, γ], [1 / 2 - γ, 0, γ]]
  IE := [[], [1], [1 / 4, 1 / 4]]
  II := [[γ], [1 - 2 * γ, γ], [1 / 2 - γ, 0, γ]]
  bE := [1 / 6, 1 / 6, 2 / 3]
  bI := [1 / 6, 1 / 6, 2 / 3]

/-- Sandu and Günther, second-order IMEX GARK. -/
def tabGark2 (γ α : K) : Tableau K where
  EE := [[], [1]]
  EI := [[], [1]]
  IE := [[γ], [α, 1 - α]]
  II := [[γ], [1 - γ, γ]]
  bE := [α, 1 - α]
  bI := [1 - γ, γ]

end Verif.Steps
