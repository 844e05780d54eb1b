/-
Time-stepping drivers (src/atm/TimestepScheme*.cpp) as programs over numbered data slots.

Every grid patch keeps several instances ("slots") of the prognostic state and of the tracers
(GridPatch.cpp:334-370).  A driver's `Step` is a fixed sequence of calls that copy and combine slots and call
the dynamics.  Here a slot holds an element of `V` (state) and one of `W` (tracers), which stand for the whole
field over all patches, nodes and edges; the dynamics are arbitrary functions.

Simplifications: the calls act on the whole grid at once; the node and edge arrays of the state are one value;
`double` is replaced by a field `K` and the array operations by an arbitrary structure `Ops` (no algebraic law
is assumed of it in this file, so it also covers rounded arithmetic); the `time` argument, which is the same in
all calls of one step, is part of the dynamics.
-/
import Mathlib.Algebra.Field.Defs

namespace Verif.Steps

/-- The array operations `Zero`, `Scale` and `AddProduct` (DataArray4D.h:376-440). -/
structure Ops (K V : Type*) where
  zero : V
  scale : V → K → V
  addProduct : V → V → K → V

variable {K V W : Type*}

/-- The loop of `LinearCombineData`, GridPatch.cpp:1467-1479: slot `m` onwards. -/
def combineFrom [Zero K] [DecidableEq K] (o : Ops K V) (dest : Nat) (slots : List V) : Nat → List K → V → V
  | _, [], acc => acc
  | m, c :: cs, acc =>
    combineFrom o dest slots (m + 1) cs
      (if m = dest then acc else if c = 0 then acc else
        match slots[m]? with
        | some y => o.addProduct acc y c
        | none => acc)

/-- `GridPatch::LinearCombineData` for one data type, GridPatch.cpp:1438-1480 and 1483-1515; `none` is an
exception.  (Tracers that do not exist are left alone, 1492-1494; here they are a trivial `W`.) -/
def linearCombine [Zero K] [DecidableEq K] (o : Ops K V) (coeffs : List K) (dest : Int) (slots : List V) :
    Option (List V) :=
  if dest < 0 then none
  else match coeffs[dest.toNat]?, slots[dest.toNat]? with
    | some cd, some x =>
      if slots.length < coeffs.length then none
      else some (slots.set dest.toNat
        (combineFrom o dest.toNat slots 0 coeffs (if cd = 0 then o.zero else o.scale x cd)))
    | _, _ => none

/-- `GridPatch::CopyData` for one data type, GridPatch.cpp:1402-1434. -/
def copyData (src dest : Int) (slots : List V) : Option (List V) :=
  if src < 0 ∨ dest < 0 then none
  else match slots[src.toNat]?, slots[dest.toNat]? with
    | some x, some _ => some (slots.set dest.toNat x)
    | _, _ => none

/-- `GridPatch::ZeroData` for one data type, GridPatch.cpp:1524-1553. -/
def zeroData (o : Ops K V) (dest : Int) (slots : List V) : Option (List V) :=
  if dest < 0 then none
  else match slots[dest.toNat]? with
    | some _ => some (slots.set dest.toNat o.zero)
    | none => none

/-- The dynamics called by the drivers, as functions of the argument slot and the update slot giving the new
update slot: `HorizontalDynamics::StepExplicit`, `VerticalDynamics::StepExplicit`, `StepImplicit` of both,
`VerticalDynamics::StepImplicitTermsExplicitly`, `Grid::PostProcessSubstage` for state and tracers,
`FilterNegativeTracers`, and `StepAfterSubCycle`, which first copies the argument to the update slot
(HorizontalDynamicsFEM.cpp:2660-2662) and then diffuses; `work` is what it leaves in the working slot. -/
structure Dyn (K V W : Type*) where
  hExp : K → V × W → V × W → V × W
  vExp : K → V × W → V × W → V × W
  vImp : K → V × W → V × W → V × W
  hImp : K → V × W → V × W → V × W
  vImpExp : K → V × W → V × W → V × W
  postS : V → V
  postT : W → W
  filt : W → W
  hyper : K → V × W → V × W
  work : V × W → V × W → V × W

/-- The slots of state and tracers. -/
structure Data (V W : Type*) where
  st : List V
  tr : List W

/-- Data type argument. -/
inductive Fld
  | state
  | tracers

/-- The calls made by the drivers. -/
inductive Cmd (K : Type*)
  | copy (src dest : Nat) (f : Fld)
  | combine (coeffs : List K) (dest : Nat) (f : Fld)
  | hExp (arg upd : Nat) (dt : K)
  | vExp (arg upd : Nat) (dt : K)
  | vImp (arg upd : Nat) (dt : K)
  | hImp (arg upd : Nat) (dt : K)
  | vImpExp (arg upd : Nat) (dt : K)
  | post (upd : Nat) (f : Fld)
  | filter (upd : Nat)
  | after (arg upd work : Nat) (dt : K)
  | expCombine (inst : List Nat) (coeffs : List K) (arg upd : Nat) (dt : K)
  | impCombine (inst : List Nat) (coeffs : List K) (arg upd : Nat) (dt : K)
  | afterCombine (upd work : Nat) (dt : K)

/-- State and tracers of a slot. -/
def Data.get (d : Data V W) (i : Nat) : Option (V × W) :=
  match d.st[i]?, d.tr[i]? with
  | some v, some w => some (v, w)
  | _, _ => none

def Data.put (d : Data V W) (i : Nat) (x : V × W) : Data V W := ⟨d.st.set i x.1, d.tr.set i x.2⟩

/-- A call of the dynamics with an argument and an update slot. -/
def dynCall (f : V × W → V × W → V × W) (a u : Nat) (d : Data V W) : Option (Data V W) :=
  match d.get a, d.get u with
  | some x, some y => some (d.put u (f x y))
  | _, _ => none

/-- One further term of the sum, HighSpeedDynamics.cpp:672-684. -/
def addInst (o : Ops K V) (slots : List V) (acc : Option V) (p : Nat × K) : Option V :=
  match acc, slots[p.1]? with
  | some a, some y => some (o.addProduct a y p.2)
  | _, _ => none

/-- `sum_s coeff[s] * slot[inst[s]]`, HighSpeedDynamics.cpp:662-684: the first term is assigned, the others
added. -/
def combineInst (o : Ops K V) (slots : List V) : List Nat → List K → Option V
  | i :: is, c :: cs =>
    match slots[i]? with
    | none => none
    | some x => (is.zip cs).foldl (addInst o slots) (some (o.scale x c))
  | _, _ => none

/-- The update slot of a combining call: refused when the lists differ in length, are empty, or the update
slot occurs other than first (HighSpeedDynamics.cpp:372-386, 1016-1030).  Simplified: the tracers are combined as the state
is; `HighSpeedDynamics`, the only dynamics with these calls, neither combines nor reads them: see `Verif.Acoustic`, where
whole steps of ARS343b with it are modelled as they are (`C125_step`). -/
def combineCall (oV : Ops K V) (oW : Ops K W) (f : V × W → V × W → V × W) (inst : List Nat) (coeffs : List K)
    (a u : Nat) (d : Data V W) : Option (Data V W) :=
  if inst.length ≠ coeffs.length ∨ inst = [] ∨ u ∈ inst.tail then none
  else match combineInst oV d.st inst coeffs, combineInst oW d.tr inst coeffs, d.get a with
    | some v, some w, some x => if u < d.st.length ∧ u < d.tr.length then some (d.put u (f x (v, w))) else none
    | _, _, _ => none

/-- One call; `none` is an exception.  `StepExplicit` refuses equal slots (HorizontalDynamicsFEM.cpp:1793-1796),
`StepAfterSubCycle` a working slot equal to another one (2648-2655, HighSpeedDynamics.cpp:2335-2338). -/
def exec [Zero K] [DecidableEq K] (oV : Ops K V) (oW : Ops K W) (D : Dyn K V W) :
    Cmd K → Data V W → Option (Data V W)
  | .copy s t .state, d => (copyData s t d.st).map fun x => ⟨x, d.tr⟩
  | .copy s t .tracers, d => (copyData s t d.tr).map fun x => ⟨d.st, x⟩
  | .combine c t .state, d => (linearCombine oV c t d.st).map fun x => ⟨x, d.tr⟩
  | .combine c t .tracers, d => (linearCombine oW c t d.tr).map fun x => ⟨d.st, x⟩
  | .hExp a u dt, d => if a = u then none else dynCall (D.hExp dt) a u d
  | .vExp a u dt, d => dynCall (D.vExp dt) a u d
  | .vImp a u dt, d => dynCall (D.vImp dt) a u d
  | .hImp a u dt, d => dynCall (D.hImp dt) a u d
  | .vImpExp a u dt, d => dynCall (D.vImpExp dt) a u d
  | .post u .state, d => d.st[u]?.map fun x => ⟨d.st.set u (D.postS x), d.tr⟩
  | .post u .tracers, d => d.tr[u]?.map fun x => ⟨d.st, d.tr.set u (D.postT x)⟩
  | .filter u, d => d.tr[u]?.map fun x => ⟨d.st, d.tr.set u (D.filt x)⟩
  | .after a u w dt, d =>
    if a = w ∨ u = w then none
    else match d.get a, d.get u, d.get w with
      | some x, some _, some z => some ((d.put u (D.hyper dt x)).put w (D.work x z))
      | _, _, _ => none
  | .expCombine is cs a u dt, d => combineCall oV oW (D.hExp dt) is cs a u d
  | .impCombine is cs a u dt, d => combineCall oV oW (D.vImp dt) is cs a u d
  | .afterCombine u w dt, d =>
    if u = w then none
    else match d.get u, d.get w with
      | some x, some z => some ((d.put u (D.hyper dt x)).put w (D.work x z))
      | _, _ => none

/-- A sequence of calls. -/
def run [Zero K] [DecidableEq K] (oV : Ops K V) (oW : Ops K W) (D : Dyn K V W) :
    List (Cmd K) → Data V W → Option (Data V W)
  | [], d => some d
  | c :: cs, d => (exec oV oW D c d).bind (run oV oW D cs)

/-- `CopyData` of state and tracers. -/
def copy2 (s t : Nat) : List (Cmd K) := [.copy s t .state, .copy s t .tracers]
/-- The same call made twice for the state, as several drivers do where the tracers were meant. -/
def copySS (s t : Nat) : List (Cmd K) := [.copy s t .state, .copy s t .state]
/-- `LinearCombineData` of state and tracers. -/
def comb2 (c : List K) (t : Nat) : List (Cmd K) := [.combine c t .state, .combine c t .tracers]
/-- `PostProcessSubstage` of state and tracers. -/
def post2 (u : Nat) : List (Cmd K) := [.post u .state, .post u .tracers]
/-- Horizontal explicit step and post-processing. -/
def expH (a u : Nat) (dt : K) : List (Cmd K) := .hExp a u dt :: post2 u
/-- Horizontal and vertical explicit step and post-processing. -/
def expHV (a u : Nat) (dt : K) : List (Cmd K) := .hExp a u dt :: .vExp a u dt :: post2 u
/-- Vertical explicit step and post-processing. -/
def expV (a u : Nat) (dt : K) : List (Cmd K) := .vExp a u dt :: post2 u
/-- Vertical implicit step and post-processing. -/
def impV (u : Nat) (dt : K) : List (Cmd K) := .vImp u u dt :: post2 u

variable [Field K]

/-! ### Explicit Runge-Kutta, TimestepSchemeERK.cpp:31-80, 146-304

`ex` is the explicit sub-step: `expH` in `TimestepSchemeERK`, `expHV` in `TimestepSchemeStrang`, which contains
the same five blocks (TimestepSchemeStrang.cpp:66-117, 484-640).  Each block ends with its result in slot 4. -/

/-- ForwardEuler, 163-169. -/
def forwardEuler (ex : Nat → Nat → K → List (Cmd K)) (dt : K) : List (Cmd K) := copy2 0 4 ++ ex 0 4 dt

/-- RungeKutta4, 172-198; combination 31-36 (the fifth entry is left at the zero of `Allocate`). -/
def rk4 (ex : Nat → Nat → K → List (Cmd K)) (dt : K) : List (Cmd K) :=
  copy2 0 1 ++ ex 0 1 (1 / 2 * dt) ++
  copy2 0 2 ++ ex 1 2 (1 / 2 * dt) ++
  copy2 0 3 ++ ex 2 3 dt ++
  comb2 [-1 / 3, 1 / 3, 2 / 3, 1 / 3, 0] 4 ++ ex 3 4 (dt / 6)

/-- RungeKuttaSSP3, 201-219; combinations 38-50. -/
def ssp3 (ex : Nat → Nat → K → List (Cmd K)) (dt : K) : List (Cmd K) :=
  copy2 0 1 ++ ex 0 1 dt ++
  comb2 [3 / 4, 1 / 4, 0] 2 ++ ex 1 2 (1 / 4 * dt) ++
  comb2 [1 / 3, 0, 2 / 3, 0, 0] 4 ++ ex 2 4 (2 / 3 * dt)

/-- KinnmarkGrayUllrich35, 222-256; combination 52-58. -/
def kgu35 (ex : Nat → Nat → K → List (Cmd K)) (dt : K) : List (Cmd K) :=
  copy2 0 1 ++ ex 0 1 (dt / 5) ++
  copy2 0 2 ++ ex 1 2 (dt / 5) ++
  copy2 0 3 ++ ex 2 3 (dt / 3) ++
  copy2 0 2 ++ ex 3 2 (2 * dt / 3) ++
  comb2 [-1 / 4, 5 / 4, 0, 0, 0] 4 ++ ex 2 4 (3 * dt / 4)

/-- RungeKuttaSSPRK53, 259-294; combinations 60-80. -/
def ssprk53 (ex : Nat → Nat → K → List (Cmd K)) (dt : K) : List (Cmd K) :=
  copy2 0 1 ++ ex 0 1 (377268915331368 / 10 ^ 15 * dt) ++
  copy2 1 2 ++ ex 1 2 (377268915331368 / 10 ^ 15 * dt) ++
  comb2 [355909775063327 / 10 ^ 15, 0, 644090224936674 / 10 ^ 15, 0] 3 ++
  ex 2 3 (242995220537396 / 10 ^ 15 * dt) ++
  comb2 [367933791638137 / 10 ^ 15, 0, 0, 632066208361863 / 10 ^ 15] 0 ++
  ex 3 0 (238458932846290 / 10 ^ 15 * dt) ++
  comb2 [762406163401431 / 10 ^ 15, 0, 237593836598569 / 10 ^ 15, 0, 0] 4 ++
  ex 0 4 (287632146308408 / 10 ^ 15 * dt)

/-- `TimestepSchemeERK::Step` with one of the blocks, TimestepSchemeERK.cpp:146-304. -/
def erkStep (block : (Nat → Nat → K → List (Cmd K)) → K → List (Cmd K)) (dt : K) : List (Cmd K) :=
  block expH dt ++ copy2 4 0 ++ [.after 4 0 2 dt]

/-! ### IMEX drivers -/

/-- `TimestepSchemeARS222::Step`, TimestepSchemeARS222.cpp:25-40, 51-117, with `γ = m_dgamma`, `δ = m_ddelta`. -/
def ars222 (γ δ dt : K) : List (Cmd K) :=
  copy2 0 1 ++ expHV 0 1 (γ * dt) ++
  copySS 1 2 ++ impV 2 (γ * dt) ++
  comb2 [1 - δ / γ, δ / γ - (1 - γ) / γ, (1 - γ) / γ, 0] 3 ++ expHV 2 3 ((1 - δ) * dt) ++
  impV 3 (γ * dt) ++
  copy2 3 2 ++ [.after 2 1 3 dt] ++ copy2 1 0

/-- `TimestepSchemeARS232::Step`, TimestepSchemeARS232.cpp:25-40, 52-150. -/
def ars232 (γ δ dt : K) : List (Cmd K) :=
  copy2 0 1 ++ expHV 0 1 (γ * dt) ++
  copy2 1 2 ++ [.vImp 2 2 (γ * dt)] ++
  comb2 [1 - δ / γ, δ / γ - (1 - γ) / γ, (1 - γ) / γ, 0, 0, 0] 5 ++
  copy2 5 3 ++ expHV 2 3 ((1 - δ) * dt) ++
  copy2 3 4 ++ [.vImp 4 4 (γ * dt)] ++
  comb2 [1 - 0 / γ, 0 / γ - (1 - γ) / γ, (1 - γ) / γ, (1 - γ) / (1 - δ) - γ / γ, γ / γ,
    -(1 - γ) / (1 - δ), 0] 6 ++ expHV 4 6 (γ * dt) ++
  copy2 6 2 ++ [.after 2 1 6 dt] ++ copy2 1 0

/-- The tableau of ARS(3,4,3), TimestepSchemeARS343.cpp:40-75. -/
structure Tab343 (K : Type*) where
  γ : K
  b1 : K
  b2 : K
  a31 : K
  a32 : K
  a41 : K
  a42 : K
  a43 : K

/-- TimestepSchemeARS343.cpp:40-62. -/
def tab343 : Tab343 K :=
  let γ : K := 4358665215084590 / 10 ^ 16
  let a42 : K := 5529291480359398 / 10 ^ 16
  let a43 : K := 5529291480359398 / 10 ^ 16
  { γ := γ, b1 := -(3 / 2) * γ * γ + 4 * γ - 1 / 4, b2 := 3 / 2 * γ * γ - 5 * γ + 5 / 4, a42 := a42, a43 := a43,
    a31 := (1 - 9 / 2 * γ + 3 / 2 * γ * γ) * a42 + (11 / 4 - 21 / 2 * γ + 15 / 4 * γ * γ) * a43
      - 7 / 2 + 13 * γ - 9 / 2 * γ * γ,
    a32 := (-1 + 9 / 2 * γ - 3 / 2 * γ * γ) * a42 + (-(11 / 4) + 21 / 2 * γ - 15 / 4 * γ * γ) * a43
      + 4 - 25 / 2 * γ + 9 / 2 * γ * γ,
    a41 := 1 - a42 - a43 }

/-- `m_dU2fCombo`, TimestepSchemeARS343.cpp:91-98 (first three entries). -/
def u2c (T : Tab343 K) : List K :=
  [1 - T.a31 / T.γ, T.a31 / T.γ - (1 / 2 * (1 - T.γ)) / T.γ, (1 / 2 * (1 - T.γ)) / T.γ]

/-- `m_dU3fCombo` after the recombination, TimestepSchemeARS343.cpp:101-112, 127-130 (first five entries). -/
def u3c (T : Tab343 K) : List K :=
  let c7 := -T.a42 / T.a32
  [1 - T.a41 / T.γ + c7 * (1 - T.a31 / T.γ),
   T.a41 / T.γ - T.b1 / T.γ + c7 * (T.a31 / T.γ - (1 / 2 * (1 - T.γ)) / T.γ),
   T.b1 / T.γ + c7 * ((1 / 2 * (1 - T.γ)) / T.γ),
   T.a42 / T.a32 - T.b2 / T.γ,
   T.b2 / T.γ]

/-- `m_dU4fCombo` after the recombination, TimestepSchemeARS343.cpp:115-125, 131-142. -/
def u4c (T : Tab343 K) : List K :=
  let c7 := -T.b1 / T.a32
  let c8 := -T.b2 / T.a43
  let d7 := -T.a42 / T.a32
  [1 - 0 / T.γ + (c7 * (1 - T.a31 / T.γ) + c8 * (1 - T.a41 / T.γ + d7 * (1 - T.a31 / T.γ))),
   0 / T.γ - T.b1 / T.γ + (c7 * (T.a31 / T.γ - (1 / 2 * (1 - T.γ)) / T.γ)
     + c8 * (T.a41 / T.γ - T.b1 / T.γ + d7 * (T.a31 / T.γ - (1 / 2 * (1 - T.γ)) / T.γ))),
   T.b1 / T.γ + (c7 * ((1 / 2 * (1 - T.γ)) / T.γ) + c8 * (T.b1 / T.γ + d7 * ((1 / 2 * (1 - T.γ)) / T.γ))),
   T.b1 / T.a32 - T.b2 / T.γ + c8 * (T.a42 / T.a32 - T.b2 / T.γ),
   T.b2 / T.γ + c8 * (T.b2 / T.γ),
   T.b2 / T.a43 - T.γ / T.γ,
   T.γ / T.γ]

/-- `TimestepSchemeARS343::Step`, TimestepSchemeARS343.cpp:146-235. -/
def ars343 (T : Tab343 K) (dt : K) : List (Cmd K) :=
  copy2 0 1 ++ expHV 0 1 (T.γ * dt) ++
  copy2 1 2 ++ [.vImp 2 2 (T.γ * dt), .hImp 2 2 (T.γ * dt)] ++
  comb2 (u2c T ++ [0, 0, 0, 0]) 3 ++ expHV 2 3 (T.a32 * dt) ++
  copy2 3 4 ++ [.vImp 4 4 (T.γ * dt), .hImp 4 4 (T.γ * dt)] ++
  comb2 (u3c T ++ [0, 0]) 5 ++ expHV 4 5 (T.a43 * dt) ++
  copy2 5 6 ++ [.vImp 6 6 (T.γ * dt), .hImp 6 6 (T.γ * dt)] ++
  comb2 (u4c T) 1 ++ expHV 6 1 (T.γ * dt) ++
  copy2 1 0 ++ [.after 1 0 2 dt]

/-- `TimestepSchemeARS343b::Step`, TimestepSchemeARS343b.cpp:172-239. -/
def ars343b (T : Tab343 K) (dt : K) : List (Cmd K) :=
  [.expCombine [0] [1] 0 1 (T.γ * dt)] ++ post2 1 ++
  [.impCombine [1] [1] 1 2 (T.γ * dt)] ++
  [.expCombine [0, 1, 2] (u2c T) 2 3 (T.a32 * dt)] ++ post2 3 ++
  [.impCombine [3] [1] 3 4 (T.γ * dt)] ++
  [.expCombine [0, 1, 2, 3, 4] (u3c T) 4 5 (T.a43 * dt)] ++ post2 5 ++
  [.impCombine [5] [1] 5 6 (T.γ * dt)] ++
  [.expCombine [0, 1, 2, 3, 4, 5, 6] (u4c T) 6 0 (T.γ * dt)] ++ post2 0 ++
  [.afterCombine 0 1 dt]

/-- `TimestepSchemeARS443::Step`, TimestepSchemeARS443.cpp:28-39, 53-191, with the quotients of tableau entries
written out as the code forms them. -/
def ars443 (dt : K) : List (Cmd K) :=
  copy2 0 1 ++ expHV 0 1 (1 / 2 * dt) ++
  copySS 1 2 ++ impV 2 (1 / 2 * dt) ++
  comb2 [1 - (11 / 18) / (1 / 2), (11 / 18) / (1 / 2) - (1 / 6) / (1 / 2), (1 / 6) / (1 / 2), 0, 0, 0, 0, 0] 7 ++
  copy2 7 3 ++ expHV 2 3 (1 / 18 * dt) ++
  copySS 3 4 ++ impV 4 (1 / 2 * dt) ++
  comb2 [1 - (5 / 6) / (1 / 2), (5 / 6) / (1 / 2) - (-1 / 2) / (1 / 2), (-1 / 2) / (1 / 2),
    (-5 / 6) / (1 / 18) - (1 / 2) / (1 / 2), (1 / 2) / (1 / 2), 0, 0, -(-5 / 6) / (1 / 18), 0] 8 ++
  copy2 8 5 ++ expHV 4 5 (1 / 2 * dt) ++
  copySS 5 6 ++ impV 6 (1 / 2 * dt) ++
  comb2 [1 - (1 / 4) / (1 / 2), (1 / 4) / (1 / 2) - (3 / 2) / (1 / 2), (3 / 2) / (1 / 2),
    (7 / 4) / (1 / 18) - (-3 / 2) / (1 / 2), (-3 / 2) / (1 / 2), (3 / 4) / (1 / 2) - (1 / 2) / (1 / 2),
    (1 / 2) / (1 / 2), -(7 / 4) / (1 / 18), -(3 / 4) / (1 / 2), 0] 9 ++
  expHV 6 9 (-7 / 4 * dt) ++ impV 9 (1 / 2 * dt) ++
  copy2 9 2 ++ [.after 2 1 9 dt] ++ copy2 1 0

/-- `TimestepSchemeSSP3332::Step`, TimestepSchemeSSP3332.cpp:27-40, 54-179. -/
def ssp3332 (γ dt : K) : List (Cmd K) :=
  copySS 0 2 ++ impV 2 (γ * dt) ++
  comb2 [1 - (1 - 2 * γ) / γ, 0, (1 - 2 * γ) / γ, 0, 0, 0, 0, 0] 7 ++
  copy2 7 3 ++ expHV 2 3 (1 * dt) ++
  copySS 3 4 ++ impV 4 (γ * dt) ++
  comb2 [1 + (1 - 2 * γ) / γ * (1 / 4) / 1 - (1 / 4) / 1 - (1 / 2 - γ) / γ, 0,
    (1 / 2 - γ) / γ - (1 - 2 * γ) / γ * (1 / 4) / 1, (1 / 4) / 1, 0, 0, 0, 0, 0] 8 ++
  copy2 8 5 ++ expHV 4 5 (1 / 4 * dt) ++
  copySS 5 6 ++ impV 6 (γ * dt) ++
  comb2 [1 - (1 / 6) / γ, 0, (1 / 6) / γ, (1 / 6) / 1 - (1 / 6) / γ, (1 / 6) / γ,
    (1 / 6) / (1 / 4) - (2 / 3) / γ, (2 / 3) / γ, -(1 / 6) / 1, -(1 / 6) / (1 / 4)] 1 ++
  expHV 6 1 (2 / 3 * dt) ++
  copy2 1 2 ++ [.after 2 1 3 dt] ++ copy2 1 0

/-- `TimestepSchemeGARK2::Step`, TimestepSchemeGARK2.cpp:27-48, 61-139, with `α = m_dalpha`. -/
def gark2 (γ α dt : K) : List (Cmd K) :=
  copy2 0 1 ++ expHV 0 1 (γ * dt) ++
  copySS 1 2 ++ impV 2 (γ * dt) ++
  comb2 [1 - 1 / γ, 1 / γ - 1 / γ, 1 / γ, 0] 3 ++
  comb2 [1 - α / γ, α / γ - (1 - γ) / γ, (1 - γ) / γ, 0, 0] 4 ++
  expHV 3 4 ((1 - α) * dt) ++ impV 4 (γ * dt) ++
  copy2 4 2 ++ [.after 2 1 4 dt] ++ copy2 1 0

/-- `SubcycleStageExplicit` with two sub-steps from slot 0 to slot 1, TimestepSchemeARK232.cpp:167-195. -/
def ark232Sub (c dt : K) : List (Cmd K) :=
  copy2 0 1 ++ expHV 0 1 (c * dt / 2) ++ copy2 1 0 ++
  copy2 0 1 ++ expHV 0 1 (c * dt / 2)

/-- `TimestepSchemeARK232::Step`, TimestepSchemeARK232.cpp:26-42, 55-163; `SubcycleStageImplicitExplicitly` with
one sub-step, 199-228. -/
def ark232 (γ δ α dt : K) : List (Cmd K) :=
  ark232Sub (2 * γ) dt ++
  copy2 1 2 ++ [.vImpExp 1 2 (γ * dt / 1)] ++ post2 2 ++
  copySS 2 3 ++ impV 3 (γ * dt) ++
  comb2 [1 - (1 - α) / (2 * γ), (1 - α) / (2 * γ) - δ / γ, δ / γ - δ / γ, δ / γ, 0, 0, 0] 6 ++
  copy2 6 4 ++ expHV 3 4 (α * dt) ++
  copySS 4 5 ++ impV 5 (γ * dt) ++
  comb2 [1 - δ / (2 * γ), δ / (2 * γ) - δ / γ, δ / γ - δ / γ, δ / γ, δ / α - γ / γ, γ / γ, -δ / α, 0] 7 ++
  expHV 5 7 (γ * dt) ++
  copy2 7 2 ++ [.after 7 1 3 dt] ++ copy2 1 0

/-! ### Strang splitting -/

/-- The first part of `TimestepSchemeStrang::Step`, 466-481: half an implicit step, or the carried-over
increment. -/
def strangStart (first : Bool) (dt : K) : List (Cmd K) :=
  if first then [.vImp 0 0 (1 / 2 * dt), .hImp 0 0 (1 / 2 * dt)]
  else comb2 [1, 1] 0 ++ [.filter 0]

/-- `TimestepSchemeStrang::Step`, TimestepSchemeStrang.cpp:51-64, 450-657, for off-centering `oc`. -/
def strangStep (oc : K) (block : (Nat → Nat → K → List (Cmd K)) → K → List (Cmd K)) (first last : Bool) (dt : K) :
    List (Cmd K) :=
  strangStart first dt ++ block expHV dt ++
  copy2 4 1 ++ [.after 4 1 2 dt] ++ copy2 1 0 ++
  [.vImp 0 0 (1 / 2 * (1 + oc) * dt), .hImp 0 0 (1 / 2 * (1 + oc) * dt)] ++
  comb2 [(2 - oc) / 2, oc / 2] 0 ++
  (if last then [] else comb2 [1, -1] 1)

/-! ### Split-explicit -/

/-- One vertical small step, TimestepSchemeSplitExp.cpp:150-153, 185-217. -/
def splitSmall (lastSub : Bool) (n dt : K) : List (Cmd K) :=
  copy2 0 1 ++ expV 0 1 (dt / n) ++
  comb2 [3 / 4, 1 / 4, 0] 2 ++ expV 1 2 (1 / 4 * dt / n) ++
  comb2 [1 / 3, 0, 2 / 3, 0, 0] 4 ++ expV 2 4 (2 / 3 * dt / n) ++
  (if lastSub then copy2 4 1 ++ [.after 4 1 2 dt] ++ copy2 1 0 else copy2 4 0)

/-- `TimestepSchemeSplitExp::Step` with `ns` small steps, TimestepSchemeSplitExp.cpp:84-220. -/
def splitExp (ns : Nat) (dt : K) : List (Cmd K) :=
  kgu35 expH dt ++ copy2 4 0 ++
  (List.range ns).flatMap fun n => splitSmall (n + 1 == ns) (ns : K) dt


/-! ### ARK4 -/

/-- `m_dImpCf`, TimestepSchemeARK4.cpp:32-39. -/
def ark4I : List (List K) :=
  [[1 / 10, 0, 0, 0, 0, 0, 0], [-1 / 6, 1 / 2, 0, 0, 0, 0, 0], [1 / 6, -1 / 3, 1 / 2, 0, 0, 0, 0],
   [3 / 8, -3 / 8, 0, 1 / 2, 0, 0, 0], [1 / 8, 0, 3 / 8, -1 / 2, 1 / 2, 0, 0],
   [-1 / 2, 0, 3, -2, 0, 1 / 2, 0], [1 / 6, 0, 0, 0, 2 / 3, -1 / 2, 2 / 3]]

/-- `m_dExpCf`, TimestepSchemeARK4.cpp:42-49. -/
def ark4E : List (List K) :=
  [[0, 0, 0, 0, 0, 0, 0], [1 / 3, 0, 0, 0, 0, 0, 0], [1 / 6, 1 / 6, 0, 0, 0, 0, 0],
   [1 / 8, 0, 3 / 8, 0, 0, 0, 0], [1 / 8, 0, 3 / 8, 1, 0, 0, 0], [1 / 2, 0, -3 / 2, 1, 1, 0, 0],
   [1 / 6, 0, 0, 0, 2 / 3, 1 / 6, 0]]

/-- Entry of a tableau. -/
def ent (t : List (List K)) (i j : Nat) : K := ((t.getD i []).getD j 0)

/-- The entries `3 ..` of the `n`-th `ufCombo`: `dt * I[n][0], dt * E[n][0], .., dt * I[n][n-1]`, 98-277. -/
def ark4Known (n : Nat) (dt : K) : List K :=
  (List.range n).flatMap fun j =>
    if j + 1 = n then [dt * ent ark4I n j] else [dt * ent ark4I n j, dt * ent ark4E n j]

/-- `m_du<n>fCombo`. -/
def ark4U (n : Nat) (dt : K) : List K := [1, 0, 0] ++ ark4Known n dt

/-- The tail `- I[n][j] / p, - E[n][j] / p, ..` of the combinations that recover an evaluation. -/
def ark4Minus (n : Nat) (m : Nat) (p : K) : List K :=
  (List.range m).flatMap fun j => [-ent ark4I n j / p, -ent ark4E n j / p]

/-- `m_dKh<n>Combo` for `n ≥ 2`. -/
def ark4Kh (n : Nat) (dt : K) : List K :=
  [-1 / (dt * ent ark4E n (n - 1)), 1 / (dt * ent ark4E n (n - 1)), 0] ++
    ark4Minus n (n - 1) (ent ark4E n (n - 1)) ++ [-ent ark4I n (n - 1) / ent ark4E n (n - 1), 0]

/-- `m_dK<n>Combo` for `n ≥ 3`. -/
def ark4K (n : Nat) (dt : K) : List K :=
  [-1 / (dt * ent ark4I n n), 0, 1 / (dt * ent ark4I n n)] ++ ark4Minus n n (ent ark4I n n) ++ [0]


/-- `TimestepSchemeARK4::Step`, TimestepSchemeARK4.cpp:279-440.  The third sub-stage uses the step length left
over from the second (`dtSub2`, 346), and the last implicit one uses `dtSub6` (431). -/
def ark4 (dt : K) : List (Cmd K) :=
  [.copy 0 1 .state, .hImp 0 1 (ent ark4I 0 0 * dt), .vImp 0 1 (ent ark4I 0 0 * dt)] ++ post2 1 ++
  [.combine [-1 / (dt * ent ark4I 0 0), 1 / (dt * ent ark4I 0 0), 0, 0] 3 .state,
   .combine (ark4U 1 dt) 1 .state] ++ expHV 0 1 (ent ark4E 1 0 * dt) ++
  [.combine [-1 / (dt * ent ark4E 1 0), 1 / (dt * ent ark4E 1 0), 0, -ent ark4I 0 0 / ent ark4E 1 0, 0] 4 .state,
   .copy 1 2 .state, .vImp 1 2 (ent ark4I 1 1 * dt)] ++ post2 2 ++
  [.combine [-1 / (dt * ent ark4I 1 1), 0, 1 / (dt * ent ark4I 1 1), -ent ark4I 0 0 / ent ark4I 1 1,
     -ent ark4E 1 0 / ent ark4I 1 1, 0] 5 .state,
   .combine (ark4U 2 dt) 1 .state] ++ expHV 2 1 (ent ark4E 2 1 * dt) ++
  [.combine (ark4Kh 2 dt) 6 .state,
   .copy 1 2 .state, .vImp 1 2 (ent ark4I 2 2 * dt)] ++ post2 2 ++
  [.combine [-1 / (dt * ent ark4I 2 2), 0, 1 / (dt * ent ark4I 2 2), -ent ark4I 1 0 / ent ark4I 2 2,
     -ent ark4E 2 0 / ent ark4I 2 2, -ent ark4I 2 1 / ent ark4I 2 2, -ent ark4E 2 1 / ent ark4I 2 2, 0] 7 .state,
   .combine (ark4U 3 dt) 1 .state] ++ expHV 2 1 (ent ark4I 2 2 * dt) ++
  [.combine (ark4Kh 3 dt) 8 .state,
   .copy 1 2 .state, .vImp 1 2 (ent ark4I 3 3 * dt)] ++ post2 2 ++
  [.combine (ark4K 3 dt) 9 .state,
   .combine (ark4U 4 dt) 1 .state] ++ expHV 2 1 (ent ark4E 4 3 * dt) ++
  [.combine (ark4Kh 4 dt) 10 .state,
   .combine (ark4U 4 dt) 2 .state, .vImp 2 2 (ent ark4I 4 4 * dt)] ++ post2 2 ++
  [.combine (ark4K 4 dt) 11 .state,
   .combine (ark4U 5 dt) 1 .state] ++ expHV 2 1 (ent ark4E 5 4 * dt) ++
  [.combine (ark4Kh 5 dt) 12 .state,
   .copy 1 2 .state, .vImp 1 2 (ent ark4I 5 5 * dt)] ++ post2 2 ++
  [.combine (ark4K 5 dt) 13 .state,
   .combine (ark4U 6 dt) 1 .state] ++ expHV 2 1 (ent ark4E 6 5 * dt) ++
  [.copy 1 2 .state, .vImp 1 2 (ent ark4E 6 5 * dt)] ++ post2 2 ++
  [.copy 2 1 .state, .after 2 1 3 dt, .copy 1 0 .state]

end Verif.Steps
