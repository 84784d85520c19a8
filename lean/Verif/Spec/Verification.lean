import Verif.Model.Verify
import Verif.Spec.Certificates
/-!
# Specification: what a successful verification of a driver card means
-/

namespace Tacho.Spec

variable [Crypto]

/-- The RSA certificate `c` was signed with the key (`modulus`, `exponent`) of the authority called `name`;
`c'` is the certificate with the recovered content filled in and marked valid. -/
def RsaSignedBy (modulus exponent name : Bytes) (c c' : RsaCert) : Prop :=
  modulus ≠ [] ∧ exponent ≠ [] ∧ ∃ content car f, Iso9796 (beNat modulus) (beNat exponent) c.raw content car ∧
    IsDecimal name (beNat car) ∧ Content.Layout f content ∧
    c' = { c with valid := true, chr := decimal (beNat f.chr), car := decimal (beNat f.car),
                  endOfValidity := some ⟨beNat f.eov, 0⟩, modulus := f.modulus, exponent := f.exponent }

/-- The ECC certificate `c` was signed with the key of `ca`; `c'` is `c` marked valid. -/
def EccSignedBy (ca c c' : EccCert) : Prop :=
  204 ≤ c.raw.length ∧ c.raw.length ≤ 341 ∧ ∃ key curve body sig,
    ca.publicKey = some key ∧ key.x ≠ [] ∧ key.y ≠ [] ∧ NamesCurve key.oid curve ∧
    SignedPart c.raw body ∧ c.signature = some sig ∧
    Crypto.ecdsaVerify curve (beNat key.x) (beNat key.y) (digest curve body) (beNat sig.r) (beNat sig.s) = some true ∧
    c' = { c with valid := true }

omit [Crypto] in
/-- The certificate has a public key. -/
def HasKey (c : RsaCert) : Prop := c.modulus ≠ [] ∧ c.exponent ≠ []

/-- Asked in world `s` for the authority named `name`, the resolver leads to `ca` and world `s'`: it returns a
certificate with a key, or one without a key that the root it then returns has signed. -/
def Gen1Authority {σ : Type} (r : Resolver σ) (name : Bytes) (s : σ) (ca : RsaCert) (s' : σ) : Prop :=
  (HasKey ca ∧ r.rsa name s = (.ok (some ca), s')) ∨
  ∃ ca0 s1 root, r.rsa name s = (.ok (some ca0), s1) ∧ ¬ HasKey ca0 ∧ r.root s1 = (.ok (some root), s') ∧
    RsaSignedBy root.modulus root.exponent root.keyId ca0 ca

/-- The Gen1 application is verified: it has a card certificate, and the authority the certificate names
has signed it. -/
def Gen1Verified {σ : Type} (r : Resolver σ) (t t' : Tachograph) (s s' : σ) : Prop :=
  ∃ cert ca cert', t.cardCertificate = some cert ∧ Gen1Authority r cert.car s ca s' ∧
    RsaSignedBy ca.modulus ca.exponent ca.chr cert cert' ∧ t' = { t with cardCertificate := some cert' }

/-- The Gen2 application is verified: it has a signing certificate, and the certificate the resolver returns
for the authority it names has signed it. -/
def Gen2Verified {σ : Type} (r : Resolver σ) (t t' : TachographG2) (s s' : σ) : Prop :=
  ∃ cert ca cert', t.cardSignCertificate = some cert ∧ r.ecc cert.car s = (.ok (some ca), s') ∧
    EccSignedBy ca cert cert' ∧ t' = { t with cardSignCertificate := some cert' }

omit [Crypto] in
/-- A step for an application that may be missing. -/
def IfPresent {α σ : Type} (step : α → α → σ → σ → Prop) (t t' : Option α) (s s' : σ) : Prop :=
  (t = none ∧ t' = none ∧ s' = s) ∨ ∃ x x', t = some x ∧ t' = some x' ∧ step x x' s s'

end Tacho.Spec
