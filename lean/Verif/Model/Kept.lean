import Verif.Model.Verify
/-!
# Verification with a resolver that keeps its certificates

`cert.Resolver` (internal/cert/resolver.go:10-19) returns pointers. A resolver that returns the same pointer for
every request of a name - a cache, or a table filled at the start - shares the certificate with the verifications it
serves, and `verifyGen1Certificates` writes to it: if it has no key yet, `VerifyRsaCertificateWithRoot` fills it in or
marks it as invalid. Here the certificates the resolver keeps are memory cells, and what is written to them is seen by
the next verification. ECC and root certificates are only read, so they stay values.

Simplifications: the references, the root certificate and the answers that are errors do not change over time; the
certificate of a card is none of the kept ones; verifications run one after the other.
-/

namespace Tacho

/-- The RSA certificates a resolver keeps, by reference. -/
abbrev CertCells := Nat → RsaCert

/-- Writing to a certificate. -/
def CertCells.set (h : CertCells) (a : Nat) (c : RsaCert) : CertCells := fun b => if b = a then c else h b

/-- A `cert.Resolver` (internal/cert/resolver.go:10-19) that keeps its certificates; `none` is a nil pointer. -/
structure KeptResolver where
  root : Res (Option RootCert)
  rsa : Bytes → Res (Option Nat)
  ecc : Bytes → Res (Option EccCert)

/-- Lines 1089-1112 of internal/card/driver_card_file.go for a pointer that is not nil: the certificate, and the cells
afterwards. `verifyRsaWithRoot` gives the certificate as it is left also when it fails. -/
def keptKey [Crypto] (root : Res (Option RootCert)) (a : Nat) (h : CertCells) : Res (Option RsaCert) × CertCells :=
  if (h a).modulus.length = 0 ∨ (h a).exponent.length = 0 then
    match root with
    | .err m => (.err m, h)
    | .panic => (.panic, h)
    | .ok root =>
      match verifyRsaWithRoot (some (h a)) root with
      | (ca, .ok ()) => (.ok ca, h.set a (ca.getD (h a)))
      | (ca, .err m) => (.err m, h.set a (ca.getD (h a)))
      | (ca, .panic) => (.panic, h.set a (ca.getD (h a)))
  else (.ok (some (h a)), h)

/-- Lines 1089-1112 of internal/card/driver_card_file.go. A nil certificate has no key, and the check with the root
refuses it. -/
def keptAuthority [Crypto] (r : KeptResolver) (car : Bytes) (h : CertCells) : Res (Option RsaCert) × CertCells :=
  match r.rsa car with
  | .err m => (.err m, h)
  | .panic => (.panic, h)
  | .ok (some a) => keptKey r.root a h
  | .ok none =>
    match r.root with
    | .err m => (.err m, h)
    | .panic => (.panic, h)
    | .ok root =>
      match verifyRsaWithRoot none root with
      | (ca, .ok ()) => (.ok ca, h)
      | (_, .err m) => (.err m, h)
      | (_, .panic) => (.panic, h)

/-- `verifyGen1Certificates`, internal/card/driver_card_file.go:1079-1126, with such a resolver. -/
def keptGen1 [Crypto] (r : KeptResolver) (t : Tachograph) (h : CertCells) : Verified Tachograph CertCells :=
  match t.cardCertificate with
  | none => ⟨t, .err "card certificate is missing", h⟩
  | some cert =>
    match keptAuthority r cert.car h with
    | (.err m, h') => ⟨t, .err m, h'⟩
    | (.panic, h') => ⟨t, .panic, h'⟩
    | (.ok ca, h') =>
      let v := verifyRsaWithCA (some cert) ca
      ⟨{ t with cardCertificate := v.1 }, v.2, h'⟩

/-- The same resolver giving out copies of the certificates as they are in `h0`. -/
def KeptResolver.copies (r : KeptResolver) (h0 : CertCells) {σ : Type} : Resolver σ where
  root s := (r.root, s)
  rsa n s := (match r.rsa n with | .ok a => .ok (a.map h0) | .err m => .err m | .panic => .panic, s)
  ecc n s := (r.ecc n, s)

/-- `VerifyDriverCardFile`, internal/card/driver_card_file.go:1054-1074, with such a resolver, for a file that is not
nil. The Gen2 step only reads the certificate the resolver returns, so it is the one of `verifyCard`. -/
def keptCard [Crypto] (r : KeptResolver) (c : DriverCard) (h : CertCells) : Verified DriverCard CertCells :=
  match c.tachograph with
  | none => verifyCardGen2 (some (r.copies h)) c h
  | some t =>
    let v := keptGen1 r t h
    let c' := { c with tachograph := some v.msg }
    match v.result with
    | .ok () => verifyCardGen2 (some (r.copies h)) c' v.world
    | .err m => ⟨c', .err m, v.world⟩
    | .panic => ⟨c', .panic, v.world⟩

/-- Verifying one card after the other: what each verification leaves of its card and returns, and the cells at the
end. -/
def keptRun [Crypto] (r : KeptResolver) : List DriverCard → CertCells → List (DriverCard × Res Unit) × CertCells
  | [], h => ([], h)
  | c :: cs, h =>
    let v := keptCard r c h
    let rest := keptRun r cs v.world
    ((v.msg, v.result) :: rest.1, rest.2)

end Tacho
