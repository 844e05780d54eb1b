import Verif.Interp.Model

/-!
# Derivative and stiffness coefficients of an element

Models the part of `GridGLL::Initialize` that fills `m_dDxBasis1D` and `m_dStiffness1D`
(src/atm/GridGLL.cpp:100-186).  `double` is the real numbers, but the decimal literals of the table for order four are
read as the doubles they stand for (each is the exact decimal expansion of a double cut after thirty digits; the
distance between the two is bounded in `table_literals`).
-/

namespace Verif.Horiz

open Verif.Interp

/-- `m_dDxBasis1D` and `m_dStiffness1D`, src/atm/GridGLL.h GetDxBasis1D, GetStiffness1D. -/
structure Basis where
  dx : Nat → Nat → ℝ
  stiff : Nat → Nat → ℝ

/-- The double written `1.61803398874989490252573887119E0`. -/
def lit1618 : ℚ := 910872158600853 / 562949953421312
/-- The double written `2.23606797749978980505147774238E0`. -/
def lit2236 : ℚ := 629397181890197 / 281474976710656
/-- The double written `6.18033988749894902525738871191E-1`. -/
def lit0618 : ℚ := 347922205179541 / 562949953421312
/-- The double written `8.09016994374947451262869435595E0`. -/
def lit8090 : ℚ := 4554360793004265 / 562949953421312
/-- The double written `3.09016994374947451262869435595E0`. -/
def lit3090 : ℚ := 1739611025897705 / 562949953421312

/-- The assignments to `m_dDxBasis1D` for order four, src/atm/GridGLL.cpp:121-139. -/
def dxTable : Nat → Nat → ℚ
  | 0, 0 => -6
  | 1, 0 => lit8090
  | 2, 0 => -lit3090
  | 3, 0 => 1
  | 0, 1 => -lit1618
  | 1, 1 => 0
  | 2, 1 => lit2236
  | 3, 1 => -lit0618
  | 0, 2 => lit0618
  | 1, 2 => -lit2236
  | 2, 2 => 0
  | 3, 2 => lit1618
  | 0, 3 => -1
  | 1, 3 => lit3090
  | 2, 3 => -lit8090
  | 3, 3 => 6
  | _, _ => 0

/-- The assignments to `m_dStiffness1D` for order four, src/atm/GridGLL.cpp:141-159. -/
def stiffTable : Nat → Nat → ℚ
  | 0, 0 => -6
  | 1, 0 => lit1618
  | 2, 0 => -lit0618
  | 3, 0 => 1
  | 0, 1 => -lit8090
  | 1, 1 => 0
  | 2, 1 => lit2236
  | 3, 1 => -lit3090
  | 0, 2 => lit3090
  | 1, 2 => -lit2236
  | 2, 2 => 0
  | 3, 2 => lit8090
  | 0, 3 => -1
  | 1, 3 => lit0618
  | 2, 3 => -lit1618
  | 3, 3 => 6
  | _, _ => 0

/-- The coefficients of `GridGLL::Initialize`, src/atm/GridGLL.cpp:103-182, from the points and weights
`GaussLobattoQuadrature::GetPoints` returns for `[0, 1]` (modelled in `Verif.Quad`). -/
noncomputable def basisOf (n : Nat) (x w : Nat → ℝ) : Basis :=
  if n = 4 then ⟨fun m i => dxTable m i, fun m i => stiffTable m i⟩
  else ⟨fun m i => diffCoeff n x (x i) m, fun m i => diffCoeff n x (x i) m * w i / w m⟩

end Verif.Horiz
