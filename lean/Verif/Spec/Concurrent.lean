import Verif.Model.Concurrent
import Verif.Spec.Verification
/-!
# Specification: verifications at the same time
-/

namespace Tacho.Spec

/-- A certificate that has no half of a key that could be taken for a whole one: it has a key, or it has no exponent.
`UnmarshalRsaCertificate` gives neither modulus nor exponent. -/
def NoHalfKey (c : RsaCert) : Prop := HasKey c ∨ c.exponent = []

/-- What verifying the card alone, with a resolver that gives out fresh copies of the certificates `h0`, leaves of it and
returns. -/
def alone [Crypto] (r : KeptResolver) (h0 : CertCells) (c : DriverCard) : Option DriverCard × Res Unit :=
  ((verifyDriverCard (some (r.copies h0)) (some c) ()).msg, (verifyDriverCard (some (r.copies h0)) (some c) ()).result)

/-- The goroutine with number `i` has returned: the card as it is left, and the result. -/
def Returned (s : Verifiers) (i : Nat) (c' : DriverCard) (res : Res Unit) : Prop := ∃ c, s.threads[i]? = some (c, .done c' res)

end Tacho.Spec
