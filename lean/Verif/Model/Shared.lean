import Verif.Model.Verify
/-!
# Verification of messages that share certificates

The certificate fields of a message are pointers, and so is what a `cert.Resolver` returns. Here certificates are cells
of a heap, and any two pointers may be equal: two fields of a message, fields of two messages, a field and what the
resolver returns. What a verification writes to a cell is seen through every pointer to it. Verif.Model.Verify takes
all of them to be separate copies.

Simplification: a resolver does not write to the certificates itself; it may keep a state and may answer differently
at every call.
-/

namespace Tacho

/-- The certificates there are, by reference. -/
structure CertHeap where
  rsa : Nat → RsaCert
  ecc : Nat → EccCert

/-- Writing to an RSA certificate. -/
def CertHeap.setRsa (h : CertHeap) (a : Nat) (c : RsaCert) : CertHeap := { h with rsa := fun b => if b = a then c else h.rsa b }

/-- Writing to an ECC certificate. -/
def CertHeap.setEcc (h : CertHeap) (a : Nat) (c : EccCert) : CertHeap := { h with ecc := fun b => if b = a then c else h.ecc b }

/-- The certificate pointers of one application of a card that verification looks at: the card (sign) certificate and
the authority's certificate; `none` is nil. -/
structure GenRefs where
  cert : Option Nat
  ca : Option Nat
  deriving DecidableEq

/-- The pointers of a card; `none` is a nil application. -/
structure CardRefs where
  gen1 : Option GenRefs
  gen2 : Option GenRefs
  deriving DecidableEq

/-- A `cert.Resolver` (internal/cert/resolver.go:10-19) that returns pointers. -/
structure SharedResolver (σ : Type) where
  root : σ → Res (Option RootCert) × σ
  rsa : Bytes → σ → Res (Option Nat) × σ
  ecc : Bytes → σ → Res (Option Nat) × σ

/-- What a verification leaves: the returned error, the certificates and the resolver's state. -/
structure SharedOutcome (σ : Type) where
  result : Res Unit
  heap : CertHeap
  world : σ

/-- Lines 1089-1112 of internal/card/driver_card_file.go. -/
def sharedAuthority [Crypto] {σ : Type} (r : SharedResolver σ) (car : Bytes) (h : CertHeap) (s : σ) : Res (Option Nat) × CertHeap × σ :=
  match r.rsa car s with
  | (.err m, s1) => (.err m, h, s1)
  | (.panic, s1) => (.panic, h, s1)
  | (.ok none, s1) =>
    match r.root s1 with
    | (.err m, s2) => (.err m, h, s2)
    | (.panic, s2) => (.panic, h, s2)
    | (.ok root, s2) =>
      match (verifyRsaWithRoot none root).2 with
      | .ok () => (.ok none, h, s2)
      | .err m => (.err m, h, s2)
      | .panic => (.panic, h, s2)
  | (.ok (some a), s1) =>
    if (h.rsa a).modulus.length = 0 ∨ (h.rsa a).exponent.length = 0 then
      match r.root s1 with
      | (.err m, s2) => (.err m, h, s2)
      | (.panic, s2) => (.panic, h, s2)
      | (.ok root, s2) =>
        let v := verifyRsaWithRoot (some (h.rsa a)) root
        let h' := h.setRsa a (v.1.getD (h.rsa a))
        match v.2 with
        | .ok () => (.ok (some a), h', s2)
        | .err m => (.err m, h', s2)
        | .panic => (.panic, h', s2)
    else (.ok (some a), h, s1)

/-- `verifyGen1Certificates`, internal/card/driver_card_file.go:1079-1126. `VerifyRsaCertificateWithCA` reads the
authority's key and name before it writes to the certificate (internal/security/rsa_verify.go:25-29). -/
def sharedGen1 [Crypto] {σ : Type} (res : Option (SharedResolver σ)) (t : GenRefs) (h : CertHeap) (s : σ) : SharedOutcome σ :=
  match t.cert with
  | none => ⟨.err "card certificate is missing", h, s⟩
  | some c =>
    let ca : Res (Option Nat) × CertHeap × σ :=
      match res with
      | some r => sharedAuthority r (h.rsa c).car h s
      | none =>
        match t.ca with
        | none => (.err "CA certificate is missing from card file", h, s)
        | some a => (.ok (some a), h, s)
    match ca with
    | (.err m, h', s') => ⟨.err m, h', s'⟩
    | (.panic, h', s') => ⟨.panic, h', s'⟩
    | (.ok a, h', s') =>
      let v := verifyRsaWithCA (some (h'.rsa c)) (a.map h'.rsa)
      ⟨v.2, h'.setRsa c (v.1.getD (h'.rsa c)), s'⟩

/-- `verifyGen2Certificates`, internal/card/driver_card_file.go:1131-1162. `VerifyEccCertificateWithCA` only writes the
`signature_valid` mark, after all reading. -/
def sharedGen2 [Crypto] {σ : Type} (res : Option (SharedResolver σ)) (t : GenRefs) (h : CertHeap) (s : σ) : SharedOutcome σ :=
  match t.cert with
  | none => ⟨.err "card sign certificate is missing", h, s⟩
  | some c =>
    let ca : Res (Option Nat) × σ :=
      match res with
      | some r => r.ecc (h.ecc c).car s
      | none =>
        match t.ca with
        | none => (.err "CA certificate is missing from card file", s)
        | some a => (.ok (some a), s)
    match ca with
    | (.err m, s') => ⟨.err m, h, s'⟩
    | (.panic, s') => ⟨.panic, h, s'⟩
    | (.ok a, s') =>
      let v := verifyEcc (some (h.ecc c)) (a.map h.ecc)
      ⟨v.2, h.setEcc c (v.1.getD (h.ecc c)), s'⟩

/-- The Gen2 step of `VerifyDriverCardFile`, internal/card/driver_card_file.go:1067-1073. -/
def sharedCardGen2 [Crypto] {σ : Type} (res : Option (SharedResolver σ)) (c : CardRefs) (h : CertHeap) (s : σ) : SharedOutcome σ :=
  match c.gen2 with
  | none => ⟨.ok (), h, s⟩
  | some t => sharedGen2 res t h s

/-- `VerifyDriverCardFile`, internal/card/driver_card_file.go:1054-1074, for a file that is not nil. -/
def sharedCard [Crypto] {σ : Type} (res : Option (SharedResolver σ)) (c : CardRefs) (h : CertHeap) (s : σ) : SharedOutcome σ :=
  match c.gen1 with
  | none => sharedCardGen2 res c h s
  | some t =>
    let v := sharedGen1 res t h s
    match v.result with
    | .ok () => sharedCardGen2 res c v.heap v.world
    | .err m => ⟨.err m, v.heap, v.world⟩
    | .panic => ⟨.panic, v.heap, v.world⟩

/-- One verification after the other, of cards that may share certificates: what is returned, and the certificates and
the resolver's state at the end. -/
def sharedRun [Crypto] {σ : Type} (res : Option (SharedResolver σ)) : List CardRefs → CertHeap → σ → List (Res Unit) × CertHeap × σ
  | [], h, s => ([], h, s)
  | c :: cs, h, s =>
    let v := sharedCard res c h s
    let rest := sharedRun res cs v.heap v.world
    (v.result :: rest.1, rest.2)

end Tacho
