import Verif.Init.Model
import Verif.Halo.Spec
import Verif.Metric.Spec
import Verif.Sphere.Spec

/-!
# What a test case prescribes

A test case names, at a height and position, the velocities to the east and north (along the two coordinates on a
Cartesian grid), the potential temperature, the vertical velocity and the density of the air.
-/

namespace Verif.Init

open Verif.Sphere
open Verif.Halo (Momenta)

/-- Air at a point. -/
structure Air where
  u : ℝ
  v : ℝ
  theta : ℝ
  w : ℝ
  rho : ℝ

/-- Five numbers of a test case as air. -/
def Air.of (q : Nat → ℝ) : Air := ⟨q 0, q 1, q 2, q 3, q 4⟩

/-- The quantity that carries heat: potential temperature, its product with density, or the pressure that the gas has
for that product. -/
def heat (f : Formulation) (pressure : ℝ → ℝ) (a : Air) : ℝ :=
  match f with
  | .pressure => pressure (a.rho * a.theta)
  | .theta => a.theta
  | .rhoTheta => a.rho * a.theta

/-- A velocity, or the momentum that belongs to it. -/
def motion (m : Momenta) (rho x : ℝ) : ℝ :=
  match m with
  | .covariant => x
  | .contravariant => rho * x

/-- Three of the five components do not depend on the geometry. -/
structure HoldsScalars (f : Formulation) (m : Momenta) (pressure : ℝ → ℝ) (a : Air) (s : Nat → ℝ) : Prop where
  heat : s 2 = heat f pressure a
  vertical : s 3 = motion m a.rho a.w
  density : s 4 = a.rho

/-- On a Cartesian grid the other two are velocities or momenta. -/
structure PlaneHolds (f : Formulation) (m : Momenta) (pressure : ℝ → ℝ) (a : Air) (s : Nat → ℝ) : Prop
    extends HoldsScalars f m pressure a s where
  first : s 0 = motion m a.rho a.u
  second : s 1 = motion m a.rho a.v

/-- On a sphere of radius `R` the two numbers are the components of the wind `u` to the east and `v` to the north at
longitude `lon` and latitude `lat`, in the coordinates of panel `p` at the point `(X, Y)`: the covariant components of
the wind, or the contravariant components of the momentum of air of density `rho`. -/
def SphereWind (m : Momenta) (R : ℝ) (p : Int) (X Y lon lat rho u v : ℝ) (s : ℝ × ℝ) : Prop :=
  match m with
  | .covariant => Halo.Covariant p X Y s (R • wind lon lat u v)
  | .contravariant => Halo.Contravariant p X Y s ((rho / R) • wind lon lat u v)

/-- The two numbers a test case puts into a buffer for `n` components are those of `f`, whatever the buffer held. -/
def Fills (n : Nat) (F : ℝ → ℝ → ℝ → Buffers → Buffers) (f : ℝ → ℝ → ℝ → Nat → ℝ) : Prop :=
  ∀ z lon lat b, ∀ c < n, (F z lon lat b).state c = f z lon lat c

/-- Each of `n` tracers is either set to the number of `g`, or never written, when `g` is zero. -/
def FillsTracers (n : Nat) (F : ℝ → ℝ → ℝ → Buffers → Buffers) (g : ℝ → ℝ → ℝ → Nat → ℝ) : Prop :=
  ∀ c < n, (∀ z lon lat b, (F z lon lat b).tracers c = g z lon lat c) ∨
    ((∀ z lon lat b, (F z lon lat b).tracers c = b.tracers c) ∧ ∀ z lon lat, g z lon lat c = 0)

/-- The test case has a reference state `f` that it gives without tracers. -/
def Reference5 (n : Nat) (T : Test) (f : ℝ → ℝ → ℝ → Nat → ℝ) : Prop :=
  ∃ F, T.reference5 = some F ∧ ∀ z lon lat b, ∀ c < n, F z lon lat b c = f z lon lat c

/-- The test case has a reference state `f` with tracers `g`: given together, or without tracers, which are then
zero. -/
def Reference6 (n m : Nat) (T : Test) (f g : ℝ → ℝ → ℝ → Nat → ℝ) : Prop :=
  (∃ F, T.reference6 = some F ∧ Fills n F f ∧ FillsTracers m F g) ∨
    (T.reference6 = none ∧ Reference5 n T f ∧ ∀ z lon lat, ∀ c < m, g z lon lat c = 0)

/-- A position on the sphere at which the program's formulas for winds are meant to be used: not next to a pole, and on
a polar panel not within rounding of the meridian `X = 0` without being on it. -/
def Regular (p : Int) (X Y : ℝ) : Prop :=
  ¬ (p > 3 ∧ |X| < 1 / 10 ^ 13 ∧ |Y| < 1 / 10 ^ 13) ∧ (p = 4 ∨ p = 5 → X = 0 ∨ 1 / 2 ^ 52 < |X|)

/-- Air to which a disturbance is added. -/
def Air.add (a d : Air) : Air := ⟨a.u + d.u, a.v + d.v, a.theta + d.theta, a.w + d.w, a.rho + d.rho⟩

/-- A test case disturbs `n` components of a state by `d` and `m` tracers by `e`: each number is either set, or never
written, when the disturbance is zero; a test case without a disturbance has none. -/
def Perturbs (n m : Nat) (T : Test) (d e : ℝ → ℝ → ℝ → Nat → ℝ) : Prop :=
  match T.perturbation with
  | none => (∀ z lon lat, ∀ c < n, d z lon lat c = 0) ∧ ∀ z lon lat, ∀ c < m, e z lon lat c = 0
  | some F =>
    (∀ c < n, (∀ z lon lat b, (F z lon lat b).state c = d z lon lat c) ∨
      ((∀ z lon lat b, (F z lon lat b).state c = b.state c) ∧ ∀ z lon lat, d z lon lat c = 0)) ∧
    FillsTracers m F e

end Verif.Init
