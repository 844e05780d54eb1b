/-
Specification vocabulary for output consolidation, without reference to keys, maps or counters.
-/

namespace Verif.Consol

/-- A data location of a message: node, A edge, B edge or R edge. -/
def ValidLocation (l : Int) : Prop := 0 ≤ l ∧ l < 4

/-- Every location in a list of requested (type, location) pairs is one of the four. -/
def ValidRequest (req : List (Int × Int)) : Prop := ∀ q ∈ req, ValidLocation q.2

/-- Every location in a list of messages (patch, type, location) is one of the four. -/
def ValidMessages (msgs : List (Int × Int × Int)) : Prop := ∀ q ∈ msgs, ValidLocation q.2.2

/-- Everything requested has arrived from every patch. -/
def Complete (patches : Nat) (req : List (Int × Int)) (msgs : List (Int × Int × Int)) : Prop :=
  ∀ i : Nat, i < patches → ∀ q ∈ req, ((i : Int), q.1, q.2) ∈ msgs

end Verif.Consol
