import Verif.Model.Kept
/-!
# Verifications that run at the same time

A program may verify several driver cards in goroutines that share one `cert.Resolver`. If the resolver gives every
goroutine the same pointer for a name (see `KeptResolver`), the goroutines read and write the same certificate without
a lock. Here each access to a field of such a certificate is one step, and the steps of the goroutines interleave in
any way.

Simplifications: the accesses of one goroutine take effect one at a time and in the order of the program
(sequential consistency). The Go memory model promises this only for programs without data races, and this one has
them: `stepWith` takes the order in which the writes become visible as an argument, to say what depends on it. Each
goroutine has a card of its own. The answers of the resolver are as in `KeptResolver`.
-/

namespace Tacho

/-- A write to one field of a `securityv1.RsaCertificate`: the setters `verifyRsaCertificate` calls. -/
inductive CertWrite where
  | valid (b : Bool)
  | chr (s : Bytes)
  | car (s : Bytes)
  | endOfValidity (t : Timestamp)
  | modulus (b : Bytes)
  | exponent (b : Bytes)
  deriving Repr, DecidableEq

/-- The certificate after a write. -/
def CertWrite.on (c : RsaCert) : CertWrite → RsaCert
  | .valid b => { c with valid := b }
  | .chr s => { c with chr := s }
  | .car s => { c with car := s }
  | .endOfValidity t => { c with endOfValidity := some t }
  | .modulus b => { c with modulus := b }
  | .exponent b => { c with exponent := b }

/-- The writes of `verifyRsaCertificate` after signature recovery, in order, and what it returns,
internal/security/rsa_verify.go:149-233. -/
def recoveredWrites [Crypto] (raw sr : Bytes) : List CertWrite × Res Unit :=
  if sr.getD 0 0 ≠ 0x6A then ([.valid false], .err "invalid recovered message header")
  else if sr.getD 127 0 ≠ 0xBC then ([.valid false], .err "invalid recovered message trailer")
  else
    let crPrime := sl sr 1 107
    let hPrime := sl sr 107 127
    let cPrime := crPrime ++ sl raw 128 186
    if hPrime ≠ Crypto.sha1 cPrime then ([.valid false], .err "certificate content hash mismatch")
    else
      ([.valid true, .chr (decimal (beNat (sl cPrime 20 28))), .car (decimal (beNat (sl cPrime 1 9))),
        .endOfValidity ⟨beNat (sl cPrime 16 20), 0⟩, .modulus (sl cPrime 28 156), .exponent (sl cPrime 156 164)], .ok ())

/-- The writes of `verifyRsaCertificate`, internal/security/rsa_verify.go:90-233, for a certificate with the given raw
data: the only field it reads. -/
def rsaWrites [Crypto] (raw caModulus caExponent caCHR : Bytes) : List CertWrite × Res Unit :=
  if raw.length ≠ 194 then ([], .err "invalid certificate length")
  else if caModulus.length = 0 ∨ caExponent.length = 0 then ([], .err "CA public key missing")
  else if decimal (beNat (sl raw 186 194)) ≠ caCHR then ([.valid false], .err "CAR mismatch")
  else
    let recovered := expMod (beNat (sl raw 0 128)) (beNat caExponent) (beNat caModulus)
    if recovered < 256 ^ 128 then recoveredWrites raw (beBytes 128 recovered)
    else ([.valid false], .err "invalid recovered message length")

/-- The writes of `VerifyRsaCertificateWithRoot`, internal/security/rsa_verify.go:40-50. -/
def rootWrites [Crypto] (raw : Bytes) : Option RootCert → List CertWrite × Res Unit
  | none => ([], .err "root certificate cannot be nil")
  | some root => rsaWrites raw root.modulus root.exponent root.keyId

/-- Where a goroutine in `VerifyDriverCardFile` is. The number is the certificate the resolver returned. -/
inductive Phase where
  /-- At the beginning. -/
  | start
  /-- Before `caCert.GetRsaModulus()`, internal/card/driver_card_file.go:1100. -/
  | checkModulus (a : Nat)
  /-- Before `caCert.GetRsaExponent()`, line 1100. -/
  | checkExponent (a : Nat)
  /-- Before lines 1101-1110. -/
  | needKey (a : Nat)
  /-- In `VerifyRsaCertificateWithRoot`, with these writes to do and this value to return. -/
  | writing (a : Nat) (writes : List CertWrite) (result : Res Unit)
  /-- Before the reads of `VerifyRsaCertificateWithCA`, internal/security/rsa_verify.go:25-27. -/
  | loadModulus (a : Nat)
  | loadExponent (a : Nat) (modulus : Bytes)
  | loadName (a : Nat) (modulus exponent : Bytes)
  /-- Returned: the card as it is left, and the result. -/
  | done (card : DriverCard) (result : Res Unit)

/-- The rest of `VerifyDriverCardFile` after the Gen1 step left the card `c` and returned `result`,
internal/card/driver_card_file.go:1060-1073. The ECC certificates are not written to by anyone. -/
def finishCard [Crypto] (r : KeptResolver) (c : DriverCard) : Res Unit → Phase
  | .ok () =>
    let v := verifyCardGen2 (some (r.copies (σ := Unit) fun _ => {})) c ()
    .done v.msg v.result
  | .err m => .done c (.err m)
  | .panic => .done c .panic

/-- The end of `verifyGen1Certificates` with the authority's key and name in hand,
internal/card/driver_card_file.go:1121-1125. -/
def finishGen1 [Crypto] (r : KeptResolver) (c : DriverCard) (modulus exponent name : Bytes) : Phase :=
  match c.tachograph with
  | none => finishCard r c (.ok ())
  | some t =>
    match t.cardCertificate with
    | none => finishCard r c (.err "card certificate is missing")
    | some cert =>
      let v := verifyRsaCore cert modulus exponent name
      finishCard r { c with tachograph := some { t with cardCertificate := some v.1 } } v.2

/-- A goroutine that has just begun: `VerifyDriverCardFile` up to the answer of the resolver,
internal/card/driver_card_file.go:1054-1095. A nil certificate has no key, and the check with the root (lines
1100-1111) refuses it. -/
def beginCard [Crypto] (r : KeptResolver) (c : DriverCard) : Phase :=
  match c.tachograph with
  | none => finishCard r c (.ok ())
  | some t =>
    match t.cardCertificate with
    | none => finishCard r c (.err "card certificate is missing")
    | some cert =>
      match r.rsa cert.car with
      | .err m => finishCard r c (.err m)
      | .panic => finishCard r c .panic
      | .ok (some a) => .checkModulus a
      | .ok none =>
        match r.root with
        | .err m => finishCard r c (.err m)
        | .panic => finishCard r c .panic
        | .ok none => finishCard r c (.err "root certificate cannot be nil")
        | .ok (some _) => finishCard r c (.err "certificate cannot be nil")

/-- One step of a goroutine that verifies the card `c`; `order` is the order in which the writes of
`VerifyRsaCertificateWithRoot` become visible. -/
def Phase.stepWith [Crypto] (order : List CertWrite → List CertWrite) (r : KeptResolver) (c : DriverCard) (h : CertCells) :
    Phase → Phase × CertCells
  | .start => (beginCard r c, h)
  | .checkModulus a => (if (h a).modulus.length = 0 then .needKey a else .checkExponent a, h)
  | .checkExponent a => (if (h a).exponent.length = 0 then .needKey a else .loadModulus a, h)
  | .needKey a =>
    match r.root with
    | .err m => (finishCard r c (.err m), h)
    | .panic => (finishCard r c .panic, h)
    | .ok root => (.writing a (order (rootWrites (h a).raw root).1) (rootWrites (h a).raw root).2, h)
  | .writing a (w :: ws) result => (.writing a ws result, h.set a (w.on (h a)))
  | .writing a [] result =>
    match result with
    | .ok () => (.loadModulus a, h)
    | .err m => (finishCard r c (.err m), h)
    | .panic => (finishCard r c .panic, h)
  | .loadModulus a => (.loadExponent a (h a).modulus, h)
  | .loadExponent a m => (.loadName a m (h a).exponent, h)
  | .loadName a m e => (finishGen1 r c m e (h a).chr, h)
  | .done c' result => (.done c' result, h)

/-- Goroutines that verify cards, and the certificates they share. -/
structure Verifiers where
  threads : List (DriverCard × Phase)
  cells : CertCells

/-- The goroutines at the beginning. -/
def Verifiers.start (cards : List DriverCard) (h : CertCells) : Verifiers := ⟨cards.map fun c => (c, .start), h⟩

/-- The goroutine with number `i` takes a step, if there is one. -/
def Verifiers.stepWith [Crypto] (order : List CertWrite → List CertWrite) (r : KeptResolver) (s : Verifiers) (i : Nat) : Verifiers :=
  match s.threads[i]? with
  | none => s
  | some (c, p) => ⟨s.threads.set i (c, (p.stepWith order r c s.cells).1), (p.stepWith order r c s.cells).2⟩

/-- The goroutines take steps in the order of the schedule. -/
def Verifiers.runWith [Crypto] (order : List CertWrite → List CertWrite) (r : KeptResolver) (s : Verifiers) (schedule : List Nat) : Verifiers :=
  schedule.foldl (Verifiers.stepWith order r) s

/-- The program as it is written: the writes become visible in the order of the program. -/
def Verifiers.run [Crypto] (r : KeptResolver) (cards : List DriverCard) (h : CertCells) (schedule : List Nat) : Verifiers :=
  (Verifiers.start cards h).runWith id r schedule

end Tacho
