/-
Specification vocabulary for the exchange buffer registry.
-/
import Verif.Registry.Model

namespace Verif.Registry

/-- Every entry has a target processor and a message size that is a positive multiple of a double. -/
def WellFormed (es : List Entry) : Prop :=
  ∀ e ∈ es, e.proc ≠ -1 ∧ 0 < e.size ∧ e.size % 8 = 0

/-- The send regions of the entries `es` as laid out by `A`: entry `m` owns bytes `[off, off + size)` of the
message buffer of processor number `p`. -/
structure SendLayout (es : List Entry) (A : Alloc) : Prop where
  /-- the processors are listed once each, in increasing order -/
  procs_sorted : A.procs.Pairwise (· < ·)
  /-- they are exactly the target processors of the entries -/
  procs_mem : ∀ q, q ∈ A.procs ↔ ∃ e ∈ es, e.proc = q
  sizes_len : A.sizes.length = A.procs.length
  place_len : A.place.length = es.length
  /-- every entry has a region inside the buffer of its own target processor -/
  inside : ∀ (m : Nat) (e : Entry), es[m]? = some e → ∃ p off cap, A.place[m]? = some (p, off) ∧
    A.procs[p]? = some e.proc ∧ A.sizes[p]? = some cap ∧ off + e.size ≤ cap
  /-- regions in the same buffer do not overlap -/
  disjoint : ∀ (m m' : Nat) (e e' : Entry) (p off off' : Nat), m ≠ m' → es[m]? = some e → es[m']? = some e' →
    A.place[m]? = some (p, off) → A.place[m']? = some (p, off') → off + e.size ≤ off' ∨ off' + e'.size ≤ off
  /-- every byte of every buffer belongs to a region -/
  full : ∀ (p cap b : Nat), A.sizes[p]? = some cap → b < cap →
    ∃ (m : Nat) (e : Entry) (off : Nat), es[m]? = some e ∧ A.place[m]? = some (p, off) ∧ off ≤ b ∧ b < off + e.size
  /-- the list kept for a processor holds exactly the entries that exchange with it, in registration order -/
  byProc : ∀ (p : Nat) (q : Int), A.procs[p]? = some q → ∃ l, A.byProc[p]? = some l ∧ l.Pairwise (· < ·) ∧
    ∀ m : Nat, m ∈ l ↔ ∃ e, es[m]? = some e ∧ e.proc = q

/-- The two ends of the communication between rank `a` (entries `esA`) and rank `b` (entries `esB`) agree:
every message one end expects is one the other end sends, with the same size, and headers identify messages. -/
structure Matched (a b : Int) (esA esB : List Entry) : Prop where
  expected : ∀ (m : Nat) (e : Entry), esA[m]? = some e → e.proc = b →
    ∃ (m' : Nat) (e' : Entry), esB[m']? = some e' ∧ e'.proc = a ∧ e'.sendHdr = e.recvHdr ∧ e'.size = e.size
  sent : ∀ (m' : Nat) (e' : Entry), esB[m']? = some e' → e'.proc = a →
    ∃ (m : Nat) (e : Entry), esA[m]? = some e ∧ e.proc = b ∧ e'.sendHdr = e.recvHdr ∧ e'.size = e.size
  recv_inj : ∀ (m₁ m₂ : Nat) (e₁ e₂ : Entry), esA[m₁]? = some e₁ → esA[m₂]? = some e₂ → e₁.proc = b → e₂.proc = b →
    e₁.recvHdr = e₂.recvHdr → m₁ = m₂
  send_inj : ∀ (m₁ m₂ : Nat) (e₁ e₂ : Entry), esB[m₁]? = some e₁ → esB[m₂]? = some e₂ → e₁.proc = a → e₂.proc = a →
    e₁.sendHdr = e₂.sendHdr → m₁ = m₂

/-- The network eventually delivers every one of the `n` messages: from some poll on, each is visible. -/
def EventuallyArrive (ready : Nat → Nat → Bool) (n : Nat) : Prop :=
  ∀ p, p < n → ∃ K, ∀ k, K ≤ k → ready k p = true

end Verif.Registry
