import Verif.Spec.Verification
import Mathlib.Data.Nat.Prime.Defs
import Mathlib.Data.Nat.ModEq
/-!
# How certificates are issued

Transcribed from docs/regulation/chapters/16-common-security-mechanisms.md: the certificates of the first
generation from sections 3.2 and 3.3 (CSM_014 to CSM_018, lines 266-341), those of the second from section 9.3
(CSM_134 to CSM_150, lines 1109-1192) and Table 1 (line 681). Independent of the parsers and of the verification.
-/

namespace Tacho.Spec

/-! ## First generation -/

/-- `n`, `e` and `d` are modulus, public and private exponent of an RSA key pair. -/
def KeyPair (n e d : Nat) : Prop :=
  ∃ p q, p.Prime ∧ q.Prime ∧ p ≠ q ∧ n = p * q ∧ e * d ≡ 1 [MOD Nat.lcm (p - 1) (q - 1)]

/-- CSM_014 (line 266): the modulus has 1024 bits. -/
def Size1024 (n : Nat) : Prop := 2 ^ 1023 ≤ n ∧ n < 2 ^ 1024

/-- The message that is signed, CSM_018 (line 339): '6A' ‖ Cr ‖ Hash(Cc) ‖ 'BC', with Cr the first 106 bytes of the
content. -/
def signedMessage [Crypto] (content : Bytes) : Nat :=
  beNat ([0x6A] ++ content.take 106 ++ Crypto.sha1 content ++ [0xBC])

/-- `raw` is the certificate with the content `f` issued with the private key (`n`, `d`), CSM_018 (line 339):
X.C = X.CA.SK['6A' ‖ Cr ‖ Hash(Cc) ‖ 'BC'] ‖ Cn ‖ X.CAR. -/
def Issued [Crypto] (n d : Nat) (f : Content) (raw : Bytes) : Prop :=
  ∃ content sign, f.Layout content ∧ raw = sign ++ content.drop 106 ++ f.car ∧ sign.length = 128 ∧
    beNat sign = signedMessage content ^ d % n

/-- The message the library reports for an accepted certificate with content `f`. -/
def Unwrapped (f : Content) (c : RsaCert) : Prop :=
  IsDecimal c.chr (beNat f.chr) ∧ IsDecimal c.car (beNat f.car) ∧ c.endOfValidity = some ⟨beNat f.eov, 0⟩ ∧
  c.modulus = f.modulus ∧ c.exponent = f.exponent ∧ c.valid = true

/-! ## Second generation -/

/-- Bytes of a coordinate or of half a signature on each curve, Table 1 (lines 681-688): the size in bits over
eight, rounded up. -/
def coordinateLength : Curve → Nat
  | .p256 => 32 | .brainpoolP256r1 => 32 | .p384 => 48 | .brainpoolP384r1 => 48 | .brainpoolP512r1 => 64
  | .p521 => 66

/-- The DER octets of the object identifiers, RFC 5480 and RFC 5639. -/
def oidOctets : Curve → Bytes
  | .p256 => [0x2A, 0x86, 0x48, 0xCE, 0x3D, 0x03, 0x01, 0x07]
  | .brainpoolP256r1 => [0x2B, 0x24, 0x03, 0x03, 0x02, 0x08, 0x01, 0x01, 0x07]
  | .p384 => [0x2B, 0x81, 0x04, 0x00, 0x22]
  | .brainpoolP384r1 => [0x2B, 0x24, 0x03, 0x03, 0x02, 0x08, 0x01, 0x01, 0x0B]
  | .brainpoolP512r1 => [0x2B, 0x24, 0x03, 0x03, 0x02, 0x08, 0x01, 0x01, 0x0D]
  | .p521 => [0x2B, 0x81, 0x04, 0x00, 0x23]

/-- The length in one, two or three octets, the minimum number (note to CSM_135, line 1116). -/
def lengthOctets (n : Nat) : Bytes :=
  if n < 128 then [UInt8.ofNat n]
  else if n < 256 then [0x81, UInt8.ofNat n]
  else [0x82, UInt8.ofNat (n / 256), UInt8.ofNat n]

/-- One data object: tag, length, value. -/
def dataObject (tag value : Bytes) : Bytes := tag ++ lengthOctets value.length ++ value

/-- The fields of a second generation certificate for a key on `curve`. -/
structure Content2 where
  car : Bytes
  cha : Bytes
  curve : Curve
  x : Bytes
  y : Bytes
  chr : Bytes
  effective : Bytes
  expiration : Bytes

/-- Their sizes, Table 4 (lines 1126-1142) and Table 1. -/
def Content2.Sized (f : Content2) : Prop :=
  f.car.length = 8 ∧ f.cha.length = 7 ∧ f.x.length = coordinateLength f.curve ∧
  f.y.length = coordinateLength f.curve ∧ f.chr.length = 8 ∧ f.effective.length = 4 ∧ f.expiration.length = 4

/-- The certificate body with its tag and length, Table 4 (lines 1126-1141). The public point is uncompressed: '04'
and the two coordinates (CSM_143). The profile identifier is '00' (CSM_137). -/
def Content2.body (f : Content2) : Bytes :=
  dataObject [0x7F, 0x4E]
    (dataObject [0x5F, 0x29] [0x00] ++ dataObject [0x42] f.car ++ dataObject [0x5F, 0x4C] f.cha ++
     dataObject [0x7F, 0x49] (dataObject [0x06] (oidOctets f.curve) ++ dataObject [0x86] (0x04 :: f.x ++ f.y)) ++
     dataObject [0x5F, 0x20] f.chr ++ dataObject [0x5F, 0x25] f.effective ++ dataObject [0x5F, 0x24] f.expiration)

/-- The certificate: body and signature, Table 4 (lines 1128, 1129, 1142). The signature is plain: the two numbers one
after the other (CSM_150). -/
def Content2.certificate (f : Content2) (r s : Bytes) : Bytes :=
  dataObject [0x7F, 0x21] (f.body ++ dataObject [0x5F, 0x37] (r ++ s))

/-- `raw` is the certificate with content `f` that the holder of the key certified by `ca` issued: the signature, in the
size of the authority's curve, is one ECDSA accepts for the body with the authority's point and the digest that goes
with its curve (CSM_150). -/
def Issued2 [Crypto] (ca f : Content2) (raw : Bytes) : Prop :=
  ∃ r s, r.length = coordinateLength ca.curve ∧ s.length = coordinateLength ca.curve ∧ raw = f.certificate r s ∧
    Crypto.ecdsaVerify ca.curve (beNat ca.x) (beNat ca.y) (digest ca.curve f.body) (beNat r) (beNat s) = some true

/-- The message the library reports for a certificate with content `f`. -/
def Reported2 (f : Content2) (c : EccCert) : Prop :=
  c.profile = 0 ∧ IsDecimal c.car (beNat f.car) ∧ c.cha = f.cha ∧
  (∃ ids oid, (ids, f.curve) ∈ curves ∧ IsDotted oid ids ∧ c.publicKey = some ⟨oid, f.x, f.y⟩) ∧
  IsDecimal c.chr (beNat f.chr) ∧ c.effective = some ⟨beNat f.effective, 0⟩ ∧
  c.expiration = some ⟨beNat f.expiration, 0⟩

/-! ## Cards whose certificates were issued like that -/

variable [Crypto]

/-- The bytes `rawC` are a first generation certificate that a member state authority issued, whose own certificate was
issued by the root, each with a key pair of 1024 bits and each certificate naming its issuer. The resolver, asked in world
`s` for the name of the authority, returns the authority's certificate as it is read from its bytes, and then the root as
it is read from its file; the world is `u` afterwards. -/
def Genuine1 {σ : Type} (r : Resolver σ) (rawC : Bytes) (s u : σ) : Prop :=
  ∃ (n0 e0 d0 n1 e1 d1 : Nat) (root : RootCert) (fa fc : Content) (rawA : Bytes) (ca : RsaCert) (t : σ) (name : Bytes),
    KeyPair n0 e0 d0 ∧ Size1024 n0 ∧ e0 < 256 ^ 8 ∧ KeyPair n1 e1 d1 ∧ Size1024 n1 ∧
    unmarshalRoot (fa.car ++ beBytes 128 n0 ++ beBytes 8 e0) = .ok root ∧
    Issued n0 d0 fa rawA ∧ beNat fa.modulus = n1 ∧ beNat fa.exponent = e1 ∧
    Issued n1 d1 fc rawC ∧ fc.car = fa.chr ∧
    unmarshalRsa rawA = .ok ca ∧
    IsDecimal name (beNat fa.chr) ∧ r.rsa name s = (.ok (some ca), t) ∧ r.root t = (.ok (some root), u)

/-- The bytes `raw` are a second generation certificate issued by the authority it names, and the resolver returns the
authority's certificate as it is read from its bytes. -/
def Genuine2 {σ : Type} (r : Resolver σ) (raw : Bytes) (s u : σ) : Prop :=
  ∃ (ca f : Content2) (k : Curve) (rca sca : Bytes) (cca : EccCert) (name : Bytes),
    ca.Sized ∧ f.Sized ∧ Issued2 ca f raw ∧ f.car = ca.chr ∧
    rca.length = coordinateLength k ∧ sca.length = coordinateLength k ∧
    unmarshalEcc (ca.certificate rca sca) = .ok cca ∧
    IsDecimal name (beNat ca.chr) ∧ r.ecc name s = (.ok (some cca), u)

/-- The application's certificate is one of these, as it is read from its bytes. -/
def GenuineGen1 {σ : Type} (r : Resolver σ) (app : Tachograph) (s u : σ) : Prop :=
  ∃ raw cert, Genuine1 r raw s u ∧ unmarshalRsa raw = .ok cert ∧ app.cardCertificate = some cert

/-- The application's signing certificate is one of these, as it is read from its bytes. -/
def GenuineGen2 {σ : Type} (r : Resolver σ) (app : TachographG2) (s u : σ) : Prop :=
  ∃ raw cert, Genuine2 r raw s u ∧ unmarshalEcc raw = .ok cert ∧ app.cardSignCertificate = some cert

end Tacho.Spec
