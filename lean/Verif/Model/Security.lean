import Verif.Model.Prim
/-!
# Certificates: parsing and signature verification

Models `internal/security`. Go strings are the lists of their bytes. The hash functions and ECDSA are
parameters (`Crypto`); every theorem holds for all of them. `encoding/asn1` is a dependency whose
source is not in /repo: `base128`, `tagAndLength`, `asn1Raw`, `asn1Oid` model the part of it the code
calls (Go 1.25), with read offsets represented by the bytes still to be read.
-/

namespace Tacho

/-- A Go string literal of ASCII characters as bytes. -/
def ascii (s : String) : Bytes := s.toList.map fun c => UInt8.ofNat c.toNat

/-- `fmt.Sprintf("%d", n)` for an unsigned integer (internal/security/rsa_certificate.go:55-56 and the
other reference conversions): decimal digits, no leading zeros. -/
def decimal (n : Nat) : Bytes :=
  if n < 10 then [UInt8.ofNat (48 + n)] else decimal (n / 10) ++ [UInt8.ofNat (48 + n % 10)]
termination_by n
decreasing_by omega

/-! ## RSA certificates -/

/-- `securityv1.RsaCertificate`; the Go zero value of each field is its default here. -/
structure RsaCert where
  chr : Bytes := []
  car : Bytes := []
  endOfValidity : Option Timestamp := none
  modulus : Bytes := []
  exponent : Bytes := []
  raw : Bytes := []
  valid : Bool := false
  deriving Repr, DecidableEq

/-- `securityv1.RootCertificate`. -/
structure RootCert where
  keyId : Bytes := []
  modulus : Bytes := []
  exponent : Bytes := []
  deriving Repr, DecidableEq

/-- `UnmarshalRsaCertificate`, internal/security/rsa_certificate.go:43-67. -/
def unmarshalRsa (data : Bytes) : Res RsaCert := do
  if data.length ≠ 194 then .err "invalid data length for RsaCertificate"
  let car ← sl? data 186 194
  pure { car := decimal (beNat car), raw := data }

/-- `AppendRsaCertificate`, internal/security/rsa_certificate.go:77-96; `none` is a nil certificate. -/
def appendRsa (dst : Bytes) (cert : Option RsaCert) : Res Bytes :=
  match cert with
  | none => .err "RsaCertificate cannot be nil"
  | some c =>
    if c.raw.length > 0 then
      if c.raw.length ≠ 194 then .err "invalid raw_data length for RsaCertificate"
      else .ok (dst ++ c.raw)
    else .err "cannot marshal RsaCertificate without raw_data"

/-- `UnmarshalRootCertificate`, internal/security/root_certificate.go:25-54. -/
def unmarshalRoot (data : Bytes) : Res RootCert := do
  if data.length ≠ 144 then .err "invalid ERCA root certificate size"
  let key ← sl? data 0 8
  let modulus ← sl? data 8 136
  let exponent ← sl? data 136 144
  pure { keyId := decimal (beNat key), modulus := modulus, exponent := exponent }

/-- `unmarshalTimeReal`, internal/security/timereal.go:12-20. Unlike the one of internal/dd, zero is
the epoch and not "no time". -/
def secTimeReal (data : Bytes) : Res Timestamp :=
  if data.length ≠ 4 then .err "invalid TimeReal length" else .ok ⟨beNat data, 0⟩

/-! ## The cryptographic primitives -/

/-- The curves `parseCurveOID` knows (internal/security/ecc_verify.go:140-181). -/
inductive Curve where
  | brainpoolP256r1 | brainpoolP384r1 | brainpoolP512r1 | p256 | p384 | p521
  deriving Repr, DecidableEq

/-- `crypto/sha1`, `crypto/sha256`, `crypto/sha512` and `crypto/ecdsa`, about which nothing is assumed
except the size of a SHA-1 digest (`[20]byte`). `ecdsa.Verify` may panic: for curves outside
crypto/elliptic it does so for points off the curve; `none` stands for a panic. -/
class Crypto where
  sha1 : Bytes → Bytes
  sha1_length : ∀ d, (sha1 d).length = 20
  sha256 : Bytes → Bytes
  sha384 : Bytes → Bytes
  sha512 : Bytes → Bytes
  ecdsaVerify : Curve → (x y : Nat) → (hash : Bytes) → (r s : Nat) → Option Bool

/-- `big.Int.Exp(x, y, m)` for non-negative arguments: `m = 0` means no reduction. -/
def expMod (x y m : Nat) : Nat := if m = 0 then x ^ y else x ^ y % m

/-- The outcome of a verification that mutates its argument: the certificate afterwards and the
returned error (`.ok ()` is nil). -/
abbrev Verdict (α : Type) := α × Res Unit

/-- The part of `verifyRsaCertificate` after signature recovery: checks on the 128 byte message and
extraction of the fields, internal/security/rsa_verify.go:149-233. The length test of `cPrime`
(line 175) cannot fail and is left out. -/
def rsaRecovered [Crypto] (cert : RsaCert) (sr : Bytes) : Verdict RsaCert :=
  if sr.getD 0 0 ≠ 0x6A then ({ cert with valid := false }, .err "invalid recovered message header")
  else if sr.getD 127 0 ≠ 0xBC then
    ({ cert with valid := false }, .err "invalid recovered message trailer")
  else
    let crPrime := sl sr 1 107
    let hPrime := sl sr 107 127
    let cPrime := crPrime ++ sl cert.raw 128 186
    if hPrime ≠ Crypto.sha1 cPrime then
      ({ cert with valid := false }, .err "certificate content hash mismatch")
    else
      ({ cert with
          valid := true
          chr := decimal (beNat (sl cPrime 20 28))
          car := decimal (beNat (sl cPrime 1 9))
          endOfValidity := some ⟨beNat (sl cPrime 16 20), 0⟩
          modulus := sl cPrime 28 156
          exponent := sl cPrime 156 164 }, .ok ())

/-- `verifyRsaCertificate`, internal/security/rsa_verify.go:90-233, for a non-nil certificate.
`recovered.Bytes()` shorter than 128 bytes is padded, longer is an error: that is `beBytes 128` below
256^128. -/
def verifyRsaCore [Crypto] (cert : RsaCert) (caModulus caExponent caCHR : Bytes) : Verdict RsaCert :=
  if cert.raw.length ≠ 194 then (cert, .err "invalid certificate length")
  else if caModulus.length = 0 ∨ caExponent.length = 0 then (cert, .err "CA public key missing")
  else if decimal (beNat (sl cert.raw 186 194)) ≠ caCHR then
    ({ cert with valid := false }, .err "CAR mismatch")
  else
    let recovered := expMod (beNat (sl cert.raw 0 128)) (beNat caExponent) (beNat caModulus)
    if recovered < 256 ^ 128 then rsaRecovered cert (beBytes 128 recovered)
    else ({ cert with valid := false }, .err "invalid recovered message length")

/-- `VerifyRsaCertificateWithCA`, internal/security/rsa_verify.go:20-30; `none` is nil. -/
def verifyRsaWithCA [Crypto] (cert ca : Option RsaCert) : Verdict (Option RsaCert) :=
  match ca with
  | none => (cert, .err "CA certificate cannot be nil")
  | some ca =>
    match cert with
    | none => (none, .err "certificate cannot be nil")
    | some c => let v := verifyRsaCore c ca.modulus ca.exponent ca.chr; (some v.1, v.2)

/-- `VerifyRsaCertificateWithRoot`, internal/security/rsa_verify.go:40-50. -/
def verifyRsaWithRoot [Crypto] (cert : Option RsaCert) (root : Option RootCert) :
    Verdict (Option RsaCert) :=
  match root with
  | none => (cert, .err "root certificate cannot be nil")
  | some root =>
    match cert with
    | none => (none, .err "certificate cannot be nil")
    | some c => let v := verifyRsaCore c root.modulus root.exponent root.keyId; (some v.1, v.2)

/-! ## ASN.1 -/

/-- `asn1.parseBase128Int`: the loop with `shifted` and the accumulator. -/
def base128 : (shifted acc : Nat) → Bytes → Res (Nat × Bytes)
  | _, _, [] => .err "truncated base 128 integer"
  | shifted, acc, b :: rest =>
    if shifted = 5 then .err "base 128 integer too large"
    else if shifted = 0 ∧ b = 0x80 then .err "integer is not minimally encoded"
    else
      let v := acc * 128 + b.toNat % 128
      if b.toNat < 128 then
        if v > 2147483647 then .err "base 128 integer too large" else .ok (v, rest)
      else base128 (shifted + 1) v rest

/-- The long-form length loop of `asn1.parseTagAndLength`. -/
def longLength : (numBytes acc : Nat) → Bytes → Res (Nat × Bytes)
  | 0, acc, rest => .ok (acc, rest)
  | _ + 1, _, [] => .err "truncated tag or length"
  | n + 1, acc, b :: rest =>
    if acc ≥ 2 ^ 23 then .err "length too large"
    else
      let v := acc * 256 + b.toNat
      if v = 0 then .err "superfluous leading zeros in length" else longLength n v rest

/-- The length part of `asn1.parseTagAndLength`. -/
def derLength : Bytes → Res (Nat × Bytes)
  | [] => .err "truncated tag or length"
  | b :: rest =>
    if b.toNat < 128 then .ok (b.toNat, rest)
    else if b.toNat % 128 = 0 then .err "indefinite length found (not DER)"
    else do
      let (len, rest) ← longLength (b.toNat % 128) 0 rest
      if len < 128 then .err "non-minimal length"
      pure (len, rest)

/-- `asn1.tagAndLength`. -/
structure TagLen where
  cls : Nat
  compound : Bool
  tag : Nat
  length : Nat
  deriving Repr, DecidableEq

/-- The tag number part of `asn1.parseTagAndLength`: identifier byte `b`, then `rest`. -/
def derTag (b : UInt8) (rest : Bytes) : Res (Nat × Bytes) :=
  if b.toNat % 32 = 31 then do
    let (t, rest) ← base128 0 0 rest
    if t < 31 then .err "non-minimal tag"
    pure (t, rest)
  else .ok (b.toNat % 32, rest)

/-- `asn1.parseTagAndLength`; the empty input is the "sequence truncated" error of `parseField`. -/
def tagAndLength : Bytes → Res (TagLen × Bytes)
  | [] => .err "sequence truncated"
  | b :: rest => do
    let (tag, rest) ← derTag b rest
    let (len, rest) ← derLength rest
    pure (⟨b.toNat / 64, b.toNat / 32 % 2 == 1, tag, len⟩, rest)

/-- `asn1.RawValue`, the two fields the code reads. -/
structure RawValue where
  bytes : Bytes
  full : Bytes
  deriving Repr, DecidableEq

/-- `asn1.Unmarshal(data, &rawValue)`: any class and tag; the value and the rest. -/
def asn1Raw (data : Bytes) : Res (RawValue × Bytes) := do
  let (t, rest) ← tagAndLength data
  if t.length > rest.length then .err "data truncated"
  pure (⟨rest.take t.length, data.take (data.length - rest.length + t.length)⟩, rest.drop t.length)

/-- What a successful `base128` leaves is shorter; used for termination below. -/
theorem base128_shorter {sh acc v : Nat} {d r : Bytes} (h : base128 sh acc d = .ok (v, r)) :
    r.length < d.length := by
  induction d generalizing sh acc with
  | nil => simp [base128] at h
  | cons b t ih =>
    rw [base128] at h
    split at h
    · simp at h
    split at h
    · simp at h
    dsimp only at h
    split at h
    · split at h
      · simp at h
      · simp only [Res.ok.injEq, Prod.mk.injEq] at h
        rw [← h.2]; simp
    · have := ih h; simp; omega

/-- The loop of `asn1.parseObjectIdentifier` over the remaining sub-identifiers. -/
def oidRest (d : Bytes) : Res (List Nat) :=
  match d with
  | [] => .ok []
  | b :: t =>
    match h : base128 0 0 (b :: t) with
    | .ok (v, r) => do
      let vs ← oidRest r
      pure (v :: vs)
    | .err m => .err m
    | .panic => .panic
termination_by d.length
decreasing_by exact base128_shorter h

/-- `asn1.parseObjectIdentifier`. -/
def parseOid (d : Bytes) : Res (List Nat) := do
  if d.length = 0 then .err "zero length OBJECT IDENTIFIER"
  let (v, rest) ← base128 0 0 d
  let vs ← oidRest rest
  pure (if v < 80 then v / 40 :: v % 40 :: vs else 2 :: (v - 80) :: vs)

/-- `asn1.UnmarshalWithParams(data, &oid, ...)` with expected class and tag: universal 6 by default,
context-specific 6 for "tag:6". -/
def asn1Oid (cls : Nat) (data : Bytes) : Res (List Nat × Bytes) := do
  let (t, rest) ← tagAndLength data
  if ¬ (t.cls = cls ∧ t.tag = 6 ∧ t.compound = false) then .err "tags don't match"
  if t.length > rest.length then .err "data truncated"
  let oid ← parseOid (rest.take t.length)
  pure (oid, rest.drop t.length)

/-- `asn1.ObjectIdentifier.String()`: decimals joined by dots. -/
def oidString : List Nat → Bytes
  | [] => []
  | [a] => decimal a
  | a :: rest => decimal a ++ 0x2E :: oidString rest

/-! ## ECC certificates -/

/-- `securityv1.EccCertificate_PublicKey`; the OID as its dotted string. -/
structure EccKey where
  oid : Bytes := []
  x : Bytes := []
  y : Bytes := []
  deriving Repr, DecidableEq

/-- `securityv1.EccCertificate_EccSignature`. -/
structure EccSig where
  r : Bytes := []
  s : Bytes := []
  deriving Repr, DecidableEq

/-- `securityv1.EccCertificate`. -/
structure EccCert where
  profile : Int := 0
  car : Bytes := []
  cha : Bytes := []
  publicKey : Option EccKey := none
  chr : Bytes := []
  effective : Option Timestamp := none
  expiration : Option Timestamp := none
  signature : Option EccSig := none
  raw : Bytes := []
  valid : Bool := false
  deriving Repr, DecidableEq

/-- One `asn1.Unmarshal` into a RawValue followed by the test of its content length, as
`UnmarshalEccCertificate` does for CPI, CAR, CHA, CHR, CEfD and CExD. -/
def rawOf (n : Nat) (data : Bytes) : Res (Bytes × Bytes) := do
  let (v, rest) ← asn1Raw data
  if v.bytes.length ≠ n then .err "invalid field length"
  pure (v.bytes, rest)

/-- The public key part of `UnmarshalEccCertificate`, internal/security/ecc_certificate.go:104-133. -/
def eccKey (pk : Bytes) : Res EccKey := do
  let (oid, rest) ← asn1Oid 0 pk
  let (pp, _) ← asn1Raw rest
  if pp.bytes.length < 1 ∨ pp.bytes.head? ≠ some 0x04 then .err "invalid public point format"
  let coordLen := (pp.bytes.length - 1) / 2
  if pp.bytes.length ≠ 1 + 2 * coordLen then .err "invalid public point length"
  let x ← sl? pp.bytes 1 (1 + coordLen)
  let y ← from? pp.bytes (1 + coordLen)
  pure { oid := oidString oid, x := x, y := y }

/-- The signature part, internal/security/ecc_certificate.go:178-194. -/
def eccSignature (rest : Bytes) : Res EccSig := do
  let (sig, _) ← asn1Raw rest
  if sig.bytes.length % 2 ≠ 0 then .err "invalid signature length"
  let n := sig.bytes.length / 2
  let r ← sl? sig.bytes 0 n
  let s ← from? sig.bytes n
  pure { r := r, s := s }

/-- `UnmarshalEccCertificate`, internal/security/ecc_certificate.go:35-202. -/
def unmarshalEcc (data : Bytes) : Res EccCert := do
  if data.length < 204 ∨ data.length > 341 then .err "invalid data length for EccCertificate"
  let (outer, _) ← asn1Raw data
  let (body, afterBody) ← asn1Raw outer.bytes
  let (cpi, rest) ← rawOf 1 body.bytes
  let cpi ← at? cpi 0
  let (car, rest) ← rawOf 8 rest
  let (cha, rest) ← rawOf 7 rest
  let (pk, rest) ← asn1Raw rest
  let key ← eccKey pk.bytes
  let (chr, rest) ← rawOf 8 rest
  let (cefd, rest) ← rawOf 4 rest
  let cefd ← secTimeReal cefd
  let (cexd, _) ← rawOf 4 rest
  let cexd ← secTimeReal cexd
  let sig ← eccSignature afterBody
  pure { profile := cpi.toNat, car := decimal (beNat car), cha := cha, publicKey := some key,
         chr := decimal (beNat chr), effective := some cefd, expiration := some cexd,
         signature := some sig, raw := data }

/-- `AppendEccCertificate`, internal/security/ecc_certificate.go:214-236. -/
def appendEcc (dst : Bytes) (cert : Option EccCert) : Res Bytes :=
  match cert with
  | none => .err "EccCertificate cannot be nil"
  | some c =>
    if c.raw.length > 0 then
      if c.raw.length < 204 ∨ c.raw.length > 341 then .err "invalid raw_data length for EccCertificate"
      else .ok (dst ++ c.raw)
    else .err "cannot marshal EccCertificate without raw_data"

/-- The dotted table of `parseCurveOID`, internal/security/ecc_verify.go:146-161. -/
def curveByString : List (Bytes × Curve) :=
  [ (ascii "1.3.36.3.3.2.8.1.1.7", .brainpoolP256r1),
    (ascii "1.3.36.3.3.2.8.1.1.11", .brainpoolP384r1),
    (ascii "1.3.36.3.3.2.8.1.1.13", .brainpoolP512r1),
    (ascii "1.2.840.10045.3.1.7", .p256),
    (ascii "1.3.132.0.34", .p384),
    (ascii "1.3.132.0.35", .p521) ]

/-- The identifier table of `parseCurveOID`, internal/security/ecc_verify.go:165-180. -/
def curveByOid : List (List Nat × Curve) :=
  [ ([1, 3, 36, 3, 3, 2, 8, 1, 1, 7], .brainpoolP256r1),
    ([1, 3, 36, 3, 3, 2, 8, 1, 1, 11], .brainpoolP384r1),
    ([1, 3, 36, 3, 3, 2, 8, 1, 1, 13], .brainpoolP512r1),
    ([1, 2, 840, 10045, 3, 1, 7], .p256),
    ([1, 3, 132, 0, 34], .p384),
    ([1, 3, 132, 0, 35], .p521) ]

/-- `parseCurveOID`, internal/security/ecc_verify.go:140-181. The hash size is `hashBits` below. -/
def parseCurveOID (oid : Bytes) : Res Curve :=
  match asn1Oid 2 oid with
  | .ok (ids, _) =>
    match curveByOid.lookup ids with
    | some c => .ok c
    | none => .err "unknown elliptic curve OID"
  | .err _ =>
    match curveByString.lookup oid with
    | some c => .ok c
    | none => .err "unknown elliptic curve OID"
  | .panic => .panic

/-- The hash size `parseCurveOID` returns with each curve. -/
def hashBits : Curve → Nat
  | .brainpoolP256r1 | .p256 => 256
  | .brainpoolP384r1 | .p384 => 384
  | .brainpoolP512r1 | .p521 => 512

/-- The hash switch of `VerifyEccCertificateWithCA`, internal/security/ecc_verify.go:87-100. -/
def eccHash [Crypto] (bits : Nat) (d : Bytes) : Bytes :=
  if bits = 256 then Crypto.sha256 d else if bits = 384 then Crypto.sha384 d else Crypto.sha512 d

/-- The re-parse in `VerifyEccCertificateWithCA` (ecc_verify.go:70-84): the body with its header. -/
def eccBody (raw : Bytes) : Res Bytes := do
  let (outer, _) ← asn1Raw raw
  let (body, _) ← asn1Raw outer.bytes
  pure body.full

/-- `VerifyEccCertificateWithCA`, internal/security/ecc_verify.go:37-132. -/
def verifyEcc [Crypto] (cert ca : Option EccCert) : Verdict (Option EccCert) :=
  match cert, ca with
  | none, _ => (none, .err "certificate cannot be nil")
  | some c, none => (some c, .err "CA certificate cannot be nil")
  | some c, some ca =>
    if c.raw.length < 204 ∨ c.raw.length > 341 then (some c, .err "invalid certificate length")
    else match ca.publicKey with
    | none => (some c, .err "CA certificate has no public key")
    | some key =>
      if key.x.length = 0 ∨ key.y.length = 0 then
        (some c, .err "CA certificate public key is incomplete")
      else match parseCurveOID key.oid with
      | .err m => (some c, .err m)
      | .panic => (some c, .panic)
      | .ok curve =>
        match eccBody c.raw with
        | .err m => (some c, .err m)
        | .panic => (some c, .panic)
        | .ok body =>
          match c.signature with
          | none => (some { c with valid := false }, .err "certificate has no signature")
          | some sig =>
            match Crypto.ecdsaVerify curve (beNat key.x) (beNat key.y) (eccHash (hashBits curve) body)
                (beNat sig.r) (beNat sig.s) with
            | none => (some c, .panic)
            | some true => (some { c with valid := true }, .ok ())
            | some false => (some { c with valid := false }, .err "ECDSA signature verification failed")

end Tacho
