/-
Model of the quadrature points and weights (src/base/GaussQuadrature.cpp, src/base/GaussLobattoQuadrature.cpp).

Simplifications: `double` is the real numbers and a decimal literal is that decimal fraction.  The arrays written are
lists.  The iterations of `LegendrePolynomial::AllRoots` and `AllDerivativeRoots` are parameters: lists of what they
write for a degree.  An exception is `none`.
-/
import Verif.Legendre.Model
import Mathlib.Data.Real.Basic

namespace Verif.Quad

open Verif.Legendre

/-- The tables of `GaussQuadrature::GetPoints`, GaussQuadrature.cpp:38-182. -/
def gaussTable : Nat → Option (List ℚ × List ℚ)
  | 1 => some ([0.0],
      [2.0])
  | 2 => some ([-0.5773502691896257, 0.5773502691896257],
      [1.0, 1.0])
  | 3 => some ([-0.7745966692414834, 0.0, 0.7745966692414834],
      [0.5555555555555556, 0.8888888888888888, 0.5555555555555556])
  | 4 => some ([-0.8611363115940526, -0.3399810435848563, 0.3399810435848563, 0.8611363115940526],
      [0.3478548451374538, 0.6521451548625461, 0.6521451548625461, 0.3478548451374538])
  | 5 => some ([-0.9061798459386640, -0.5384693101056831, 0.0, 0.5384693101056831, 0.9061798459386640],
      [0.2369268850561891, 0.4786286704993665, 0.5688888888888889, 0.4786286704993665, 0.2369268850561891])
  | 6 => some ([-0.9324695142031521, -0.6612093864662645, -0.2386191860831969, 0.2386191860831969,
        0.6612093864662645, 0.9324695142031521],
      [0.1713244923791704, 0.3607615730481386, 0.4679139345726910, 0.4679139345726910, 0.3607615730481386,
        0.1713244923791704])
  | 7 => some ([-0.9491079123427585, -0.7415311855993945, -0.4058451513773972, 0.0, 0.4058451513773972,
        0.7415311855993945, 0.9491079123427585],
      [0.1294849661688697, 0.2797053914892766, 0.3818300505051189, 0.4179591836734694, 0.3818300505051189,
        0.2797053914892766, 0.1294849661688697])
  | 8 => some ([-0.9602898564975363, -0.7966664774136267, -0.5255324099163290, -0.1834346424956498,
        0.1834346424956498, 0.5255324099163290, 0.7966664774136267, 0.9602898564975363],
      [0.1012285362903763, 0.2223810344533745, 0.3137066458778873, 0.3626837833783620, 0.3626837833783620,
        0.3137066458778873, 0.2223810344533745, 0.1012285362903763])
  | 9 => some ([-1.0, -0.899757995411460, -0.677186279510738, -0.363117463826178, 0.0, 0.363117463826178,
        0.677186279510738, 0.899757995411460, 1.0],
      [0.0812743883615744, 0.1806481606948574, 0.2606106964029354, 0.3123470770400029, 0.3302393550012598,
        0.3123470770400029, 0.2606106964029354, 0.1806481606948574, 0.0812743883615744])
  | 10 => some ([-0.9739065285171717, -0.8650633666889845, -0.6794095682990244, -0.4333953941292472,
        -0.1488743389816312, 0.1488743389816312, 0.4333953941292472, 0.6794095682990244, 0.8650633666889845,
        0.9739065285171717],
      [0.0666713443086881, 0.1494513491505806, 0.2190863625159820, 0.2692667193099963, 0.2955242247147529,
        0.2955242247147529, 0.2692667193099963, 0.2190863625159820, 0.1494513491505806, 0.0666713443086881])
  | _ => none

/-- The tables of `GaussLobattoQuadrature::GetPoints`, GaussLobattoQuadrature.cpp:40-181. -/
def lobattoTable : Nat → Option (List ℚ × List ℚ)
  | 2 => some ([-1.0, 1.0],
      [1.0, 1.0])
  | 3 => some ([-1.0, 0.0, 1.0],
      [0.333333333333333, 1.333333333333334, 0.333333333333333])
  | 4 => some ([-1.0, -0.447213595499958, 0.447213595499958, 1.0],
      [0.166666666666667, 0.833333333333333, 0.833333333333333, 0.166666666666667])
  | 5 => some ([-1.0, -0.654653670707977, 0.0, 0.654653670707977, 1.0],
      [0.100000000000000, 0.544444444444445, 0.711111111111110, 0.544444444444445, 0.100000000000000])
  | 6 => some ([-1.0, -0.765055323929465, -0.285231516480645, 0.285231516480645, 0.765055323929465, 1.0],
      [0.066666666666667, 0.378474956297847, 0.554858377035486, 0.554858377035486, 0.378474956297847,
        0.066666666666667])
  | 7 => some ([-1.0, -0.830223896278567, -0.468848793470714, 0.0, 0.468848793470714, 0.830223896278567, 1.0],
      [0.047619047619048, 0.276826047361566, 0.431745381209862, 0.487619047619048, 0.431745381209862,
        0.276826047361566, 0.047619047619048])
  | 8 => some ([-1.0, -0.871740148509607, -0.591700181433142, -0.209299217902479, 0.209299217902479,
        0.591700181433142, 0.871740148509607, 1.0],
      [0.035714285714286, 0.210704227143506, 0.341122692483505, 0.412458794658703, 0.412458794658703,
        0.341122692483505, 0.210704227143506, 0.035714285714286])
  | 9 => some ([-1.0, -0.899757995411460, -0.677186279510738, -0.363117463826178, 0.0, 0.363117463826178,
        0.677186279510738, 0.899757995411460, 1.0],
      [0.027777777777778, 0.165495361560806, 0.274538712500162, 0.346428510973046, 0.371519274376417,
        0.346428510973046, 0.274538712500162, 0.165495361560806, 0.027777777777778])
  | 10 => some ([-1.0, -0.919533908166459, -0.738773865105505, -0.477924949810444, -0.165278957666387,
        0.165278957666387, 0.477924949810444, 0.738773865105505, 0.919533908166459, 1.0],
      [0.022222222222222, 0.133305990851070, 0.224889342063126, 0.292042683679684, 0.327539761183897,
        0.327539761183897, 0.292042683679684, 0.224889342063126, 0.133305990851070, 0.022222222222222])
  | _ => none

/-- `LegendrePolynomial::EvaluateDerivative`, LegendrePolynomial.cpp:133-145, and `Evaluate`, 119-129: the parts of the
pair.  The degrees used here are above 9, where both exist. -/
noncomputable def evalDerivative (n : Nat) (x : ℝ) : ℝ := ((evaluate n x).map Prod.snd).getD 0

/-- See `evalDerivative`. -/
noncomputable def evalValue (n : Nat) (x : ℝ) : ℝ := ((evaluate n x).map Prod.fst).getD 0

/-- `GaussQuadrature::GetPoints`, GaussQuadrature.cpp:23-198.  `allRoots` is what `AllRoots` writes. -/
noncomputable def gaussPoints (allRoots : Nat → List ℝ) (nCount : Int) : Option (List ℝ × List ℝ) :=
  if nCount < 1 then none
  else
    let n := nCount.toNat
    match gaussTable n with
    | some (g, w) => some (g.map (↑), w.map (↑))
    | none =>
      let g := allRoots n
      some (g, g.map fun x => 2 / ((1 - x * x) * evalDerivative n x * evalDerivative n x))

/-- `GaussLobattoQuadrature::GetPoints`, GaussLobattoQuadrature.cpp:25-202.  `allDerivativeRoots` is what
`AllDerivativeRoots` writes; `nCount - 2` of them are copied. -/
noncomputable def lobattoPoints (allDerivativeRoots : Nat → List ℝ) (nCount : Int) : Option (List ℝ × List ℝ) :=
  if nCount < 2 then none
  else
    let n := nCount.toNat
    match lobattoTable n with
    | some (g, w) => some (g.map (↑), w.map (↑))
    | none =>
      let g := -1 :: (allDerivativeRoots (n - 1)).take (n - 2) ++ [1]
      let degree : ℝ := n
      some (g, g.map fun x => 2 / (degree * (degree - 1) * evalValue (n - 1) x * evalValue (n - 1) x))

/-- The rescaling of points and weights to an interval, GaussQuadrature.cpp:202-217 and
GaussLobattoQuadrature.cpp:206-221. -/
noncomputable def rescale (xi0 xi1 : ℝ) (r : List ℝ × List ℝ) : List ℝ × List ℝ :=
  (r.1.map fun g => xi0 + 0.5 * (xi1 - xi0) * (g + 1), r.2.map fun w => 0.5 * (xi1 - xi0) * w)

end Verif.Quad
