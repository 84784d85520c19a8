import Verif.Model.Shared
/-!
# Messages that share certificates, seen as separate copies
-/

namespace Tacho.Spec
open Tacho

/-- The message holds copies of the certificates its pointers lead to. (Nothing is said about its other parts.) -/
def ShowsCopies (h : CertHeap) (refs : CardRefs) (card : DriverCard) : Prop :=
  card.tachograph.map (fun t => (t.cardCertificate, t.caCertificate)) = refs.gen1.map (fun g => (g.cert.map h.rsa, g.ca.map h.rsa)) ∧
  card.tachographG2.map (fun t => (t.cardSignCertificate, t.caCertificate)) = refs.gen2.map (fun g => (g.cert.map h.ecc, g.ca.map h.ecc))

/-- A resolver that gives out copies of the certificates as they are in `h`. -/
def copiesOf (h : CertHeap) {σ : Type} (r : SharedResolver σ) : Resolver σ where
  root := r.root
  rsa n s := (match (r.rsa n s).1 with | .ok a => .ok (a.map h.rsa) | .err m => .err m | .panic => .panic, (r.rsa n s).2)
  ecc n s := (match (r.ecc n s).1 with | .ok a => .ok (a.map h.ecc) | .err m => .err m | .panic => .panic, (r.ecc n s).2)

/-- The same certificate but for its `signature_valid` mark. -/
def SameButMark (c c' : EccCert) : Prop := { c with valid := false } = { c' with valid := false }

end Tacho.Spec
