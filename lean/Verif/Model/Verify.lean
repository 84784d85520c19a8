import Verif.Model.DriverCard
import Verif.Model.Cert
/-!
# Certificate verification of driver cards

Models the `VerifyOptions` methods of internal/card/driver_card_file.go. Verification changes the message
(the `signature_valid` marks and the RSA fields filled in from the recovered content) and may change the
world (resolver calls), so an outcome is the message afterwards, the returned error and the world afterwards.

Simplification: messages are values. A certificate a resolver returns is a copy; in Go it is a pointer, and a
resolver that keeps it would see the marks written to it here (Verif.Model.Kept).
-/

namespace Tacho

/-- What a verification leaves: the message, the returned error (`.ok ()` is nil), the world. -/
structure Verified (α σ : Type) where
  msg : α
  result : Res Unit
  world : σ

/-- Lines 1089-1112 of internal/card/driver_card_file.go: the authority certificate for a Gen1 card
certificate, asked from the resolver, and checked with the root if it has no key yet. `len(...)` of a nil
certificate's fields is 0. -/
def gen1Authority [Crypto] {σ : Type} (r : Resolver σ) (car : Bytes) : Call σ (Option RsaCert) := fun s =>
  match r.rsa car s with
  | (.err m, s1) => (.err m, s1)
  | (.panic, s1) => (.panic, s1)
  | (.ok ca, s1) =>
    if (ca.getD {}).modulus.length = 0 ∨ (ca.getD {}).exponent.length = 0 then
      match r.root s1 with
      | (.err m, s2) => (.err m, s2)
      | (.panic, s2) => (.panic, s2)
      | (.ok root, s2) =>
        match verifyRsaWithRoot ca root with
        | (ca', .ok ()) => (.ok ca', s2)
        | (_, .err m) => (.err m, s2)
        | (_, .panic) => (.panic, s2)
    else (.ok ca, s1)

/-- `verifyGen1Certificates`, internal/card/driver_card_file.go:1079-1126; `none` is a nil resolver. -/
def verifyGen1 [Crypto] {σ : Type} (res : Option (Resolver σ)) (t : Tachograph) (s : σ) : Verified Tachograph σ :=
  match t.cardCertificate with
  | none => ⟨t, .err "card certificate is missing", s⟩
  | some cert =>
    let ca : Res (Option RsaCert) × σ :=
      match res with
      | some r => gen1Authority r cert.car s
      | none =>
        match t.caCertificate with
        | none => (.err "CA certificate is missing from card file", s)
        | some ca => (.ok (some ca), s)
    match ca with
    | (.err m, s') => ⟨t, .err m, s'⟩
    | (.panic, s') => ⟨t, .panic, s'⟩
    | (.ok ca, s') =>
      let v := verifyRsaWithCA (some cert) ca
      ⟨{ t with cardCertificate := v.1 }, v.2, s'⟩

/-- `verifyGen2Certificates`, internal/card/driver_card_file.go:1131-1162. -/
def verifyGen2 [Crypto] {σ : Type} (res : Option (Resolver σ)) (t : TachographG2) (s : σ) : Verified TachographG2 σ :=
  match t.cardSignCertificate with
  | none => ⟨t, .err "card sign certificate is missing", s⟩
  | some cert =>
    let ca : Res (Option EccCert) × σ :=
      match res with
      | some r => r.ecc cert.car s
      | none =>
        match t.caCertificate with
        | none => (.err "CA certificate is missing from card file", s)
        | some ca => (.ok (some ca), s)
    match ca with
    | (.err m, s') => ⟨t, .err m, s'⟩
    | (.panic, s') => ⟨t, .panic, s'⟩
    | (.ok ca, s') =>
      let v := verifyEcc (some cert) ca
      ⟨{ t with cardSignCertificate := v.1 }, v.2, s'⟩

/-- The Gen2 step of `VerifyDriverCardFile`, internal/card/driver_card_file.go:1067-1073. -/
def verifyCardGen2 [Crypto] {σ : Type} (res : Option (Resolver σ)) (c : DriverCard) (s : σ) : Verified DriverCard σ :=
  match c.tachographG2 with
  | none => ⟨c, .ok (), s⟩
  | some t => let v := verifyGen2 res t s; ⟨{ c with tachographG2 := some v.msg }, v.result, v.world⟩

/-- `VerifyDriverCardFile`, internal/card/driver_card_file.go:1054-1074, for a file that is not nil. -/
def verifyCard [Crypto] {σ : Type} (res : Option (Resolver σ)) (c : DriverCard) (s : σ) : Verified DriverCard σ :=
  match c.tachograph with
  | none => verifyCardGen2 res c s
  | some t =>
    let v := verifyGen1 res t s
    let c' := { c with tachograph := some v.msg }
    match v.result with
    | .ok () => verifyCardGen2 res c' v.world
    | .err m => ⟨c', .err m, v.world⟩
    | .panic => ⟨c', .panic, v.world⟩

/-- `VerifyDriverCardFile`, internal/card/driver_card_file.go:1054-1074. -/
def verifyDriverCard [Crypto] {σ : Type} (res : Option (Resolver σ)) (c : Option DriverCard) (s : σ) : Verified (Option DriverCard) σ :=
  match c with
  | none => ⟨none, .err "driver card file cannot be nil", s⟩
  | some c => let v := verifyCard res c s; ⟨some v.msg, v.result, v.world⟩

end Tacho
