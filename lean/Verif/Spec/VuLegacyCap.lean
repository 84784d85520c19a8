import Verif.Model.VuLegacyCap
import Verif.Spec.VuLegacy
/-!
# What the older activity parser does past the end of its input
-/

namespace Tacho.Spec

/-- Somewhere in this list of counted lists, with records of these sizes, the announced records end beyond the input and
the `spare` bytes after it, and all lists before are complete. -/
def ListOverruns (spare : Nat) : List Nat → Bytes → Prop
  | n :: ns, k :: rest => rest.length + spare < k.toNat * n ∨ (k.toNat * n ≤ rest.length ∧ ListOverruns spare ns (rest.drop (k.toNat * n)))
  | _, _ => False

end Tacho.Spec
