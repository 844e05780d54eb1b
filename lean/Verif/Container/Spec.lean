/-
Vocabulary for the statements about containers.
-/
import Verif.Container.Model

namespace Verif.Container

/-- Bytes taken by the first `k` chunks. -/
def before (s : St) (k : Nat) : Nat := ((s.chunks.take k).map s.size).sum

end Verif.Container
