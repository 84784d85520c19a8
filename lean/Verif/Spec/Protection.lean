import Verif.Spec.DriverCard
/-!
# Specification: what a verification rests on
-/

namespace Tacho.Spec

/-- What a card holds of the two certificates that are verified: `none` for an application that is absent, `some none` for one
that lacks the certificate. -/
def verifiedCertificates (c : DriverCard) : Option (Option RsaCert) × Option (Option EccCert) :=
  (c.tachograph.map (·.cardCertificate), c.tachographG2.map (·.cardSignCertificate))

/-- What a card holds of the certificates of the authorities. -/
def authorityCertificates (c : DriverCard) : Option (Option RsaCert) × Option (Option EccCert) :=
  (c.tachograph.map (·.caCertificate), c.tachographG2.map (·.caCertificate))

/-- The card with the two certificates that are verified replaced, in the applications it has, and nothing else. -/
def withCertificates (c : DriverCard) (rsa : Option RsaCert) (ecc : Option EccCert) : DriverCard :=
  { c with
    tachograph := c.tachograph.map fun t => { t with cardCertificate := rsa }
    tachographG2 := c.tachographG2.map fun t => { t with cardSignCertificate := ecc } }

/-- The Gen1 card certificate, if there is one. -/
def rsaOf (c : DriverCard) : Option RsaCert := c.tachograph.bind (·.cardCertificate)

/-- The Gen2 card certificate for signatures, if there is one. -/
def eccOf (c : DriverCard) : Option EccCert := c.tachographG2.bind (·.cardSignCertificate)

/-- The applications of the first card are among those of the second. -/
def ApplicationsWithin (c c' : DriverCard) : Prop :=
  (c.tachograph.isSome → c'.tachograph.isSome) ∧ (c.tachographG2.isSome → c'.tachographG2.isSome)

end Tacho.Spec
