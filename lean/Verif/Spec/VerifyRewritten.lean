import Verif.Spec.Protection
/-!
# Specification: which parts of a card are still there after writing it
-/

namespace Tacho.Spec

/-- The second generation application holds a file that is written. The other eight (identification, licence, events, faults,
activities, current usage, control and download) are not. -/
def WrittenGen2 (t : TachographG2) : Prop :=
  t.applicationIdentification ≠ none ∨ t.vehiclesUsed ≠ none ∨ t.places ≠ none ∨ t.specificConditions ≠ none ∨
  t.vehicleUnitsUsed ≠ none ∨ t.gnssPlaces ≠ none ∨ t.applicationIdentificationV2 ≠ none ∨
  t.cardSignCertificate ≠ none ∨ t.caCertificate ≠ none ∨ t.linkCertificate ≠ none

instance (t : TachographG2) : Decidable (WrittenGen2 t) := by unfold WrittenGen2; infer_instance

/-- The applications that are still there after the card was written. -/
def withoutUnwritten (c : DriverCard) : DriverCard :=
  { c with tachographG2 := c.tachographG2.filter fun t => WrittenGen2 t }

end Tacho.Spec
