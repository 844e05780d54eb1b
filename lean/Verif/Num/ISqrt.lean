/-
Model of `ISqrt` (src/base/MathHelper.h:65-81).  An `unsigned int` is a natural number below 2^32; every
arithmetic operation is taken modulo 2^32 as in C++.
-/

namespace Verif.Num

/-- 2^32. -/
def word : Nat := 4294967296

/-- Loop state of `ISqrt`. -/
structure SqrtState where
  a : Nat
  irem : Nat
  iroot : Nat

/-- One iteration of the loop, MathHelper.h:68-78. -/
def sqrtStep (s : SqrtState) : SqrtState :=
  let iroot := (s.iroot <<< 1) % word
  let irem := ((s.irem <<< 2) % word + (s.a >>> 30)) % word
  let a := (s.a <<< 2) % word
  let iroot := (iroot + 1) % word
  if iroot ≤ irem then ⟨a, (irem + (word - iroot)) % word, (iroot + 1) % word⟩
  else ⟨a, irem, (iroot + (word - 1)) % word⟩

/-- `n` iterations. -/
def sqrtLoop : Nat → SqrtState → SqrtState
  | 0, s => s
  | n + 1, s => sqrtLoop n (sqrtStep s)

/-- `ISqrt`, MathHelper.h:65-81. -/
def isqrt (a : Nat) : Nat := (sqrtLoop 16 ⟨a, 0, 0⟩).iroot >>> 1

/-- The same loop on unbounded naturals: no operation is reduced, and the subtractions are exact; used to state
that no intermediate result overflows. -/
def sqrtStepExact (s : SqrtState) : SqrtState :=
  let iroot := s.iroot * 2 + 1
  let irem := s.irem * 4 + s.a / 1073741824
  if iroot ≤ irem then ⟨(s.a * 4) % word, irem - iroot, iroot + 1⟩
  else ⟨(s.a * 4) % word, irem, iroot - 1⟩

end Verif.Num
