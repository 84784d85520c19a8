import Verif.Spec.CardReread
import Verif.Props.Retained
/-!
# A driver card file, read, written and read again

What of a parsed card stands in the way of writing it, and of getting the same contents back. A byte the parser has
no name for is reported as "unrecognized" (number 1), without the byte.
-/

namespace Tacho.Spec

/-- The code page of a text was recognised. -/
def TextKnown (s : StringValue) : Prop := s.encoding ≠ 1

/-- The nation was recognised. -/
def NationKnown (n : Int) : Prop := n ≠ 1

/-- The nation and the code page of a registration were recognised. -/
def RegKnown (v : VehicleRegistration) : Prop := NationKnown v.nation ∧ Each TextKnown v.number

/-- A card number as EF_Identification keeps it: the text fits its field again. Text of seven bit characters always
does; a byte that belongs to no character is shown as U+FFFD, which takes three bytes. -/
def NumberFits (c : CardIdent) : Prop :=
  Each (fun d => Each (fun s => s.value.length ≤ 14) d.number) c.driver ∧
  Each (fun o => Each (fun s => s.value.length ≤ 13) o.owner) c.owner

/-- A structure version with tens digits up to fifteen and decimal digits. -/
def VersionDigits (v : CardStructureVersion) : Prop := v.major < 160 ∧ v.minor < 160

/-- A date of four, two and two digits. -/
def DateDigits (d : Date) : Prop := d.year < 10000 ∧ d.month < 100 ∧ d.day < 100

/-- EF_Identification. -/
def IdentificationKnown (m : Identification) : Prop :=
  Each (fun c => NationKnown c.issuingState ∧ Each TextKnown c.authority ∧ NumberFits c) m.card ∧
  Each (fun h => Each TextKnown h.surname ∧ Each TextKnown h.firstNames ∧ Each DateDigits h.birthDate) m.driverHolder

/-- The records of these files are read into a buffer that is never moved under them: the events and faults of the
first generation, and the vehicle units. Files of the sizes in the regulation satisfy this. -/
def Unmoved (raws : List RawRec) : Prop :=
  ∀ r ∈ raws, (r.generation = .gen1 → r.file = .eventsData ∨ r.file = .faultsData → NeverMoved 24 r.value.length) ∧
    (r.file = .vehicleUnitsUsed → r.value.length ≤ 4098)

/-- What must hold of a parsed card to be written and read with the same contents. -/
structure CardKnown (c : DriverCard) : Prop where
  version : EachData (fun m => Each VersionDigits m.structureVersion) (c.tachograph.getD {}).applicationIdentification
  identification : EachData IdentificationKnown (c.tachograph.getD {}).identification
  licence : EachData (fun m => NationKnown m.nation ∧ Each TextKnown m.authority) (c.tachograph.getD {}).drivingLicenceInfo
  events : EachData (fun rs => ∀ r ∈ rs, Each RegKnown r.registration) (c.tachograph.getD {}).eventsData
  faults : EachData (fun rs => ∀ r ∈ rs, Each RegKnown r.registration) (c.tachograph.getD {}).faultsData
  vehicles : EachData (fun m => ∀ r ∈ m.records, Each RegKnown r.registration) (c.tachograph.getD {}).vehiclesUsed
  usage : EachData (fun m => Each RegKnown m.vehicle) (c.tachograph.getD {}).currentUsage
  control : EachData (fun m => Each RegKnown m.registration) (c.tachograph.getD {}).controlActivityData
  versionG2 : EachData (fun m => Each VersionDigits m.structureVersion) (c.tachographG2.getD {}).applicationIdentification
  vehiclesG2 : EachData (fun m => ∀ r ∈ m.records, Each RegKnown r.base.registration) (c.tachographG2.getD {}).vehiclesUsed
  gnss : EachData (fun m => ∀ r ∈ m.2, r.odometerKm ≤ 999999) (c.tachographG2.getD {}).gnssPlaces

/-- What must hold of a parsed card to be written at all: every nation in a file that is written was recognised, and
the odometer values of the positions stay below a million kilometres. -/
structure CardWritable (c : DriverCard) : Prop where
  identification : EachData (fun m => Each (fun c => NationKnown c.issuingState) m.card) (c.tachograph.getD {}).identification
  licence : EachData (fun m => NationKnown m.nation) (c.tachograph.getD {}).drivingLicenceInfo
  events : EachData (fun rs => ∀ r ∈ rs, Each (fun v => NationKnown v.nation) r.registration) (c.tachograph.getD {}).eventsData
  faults : EachData (fun rs => ∀ r ∈ rs, Each (fun v => NationKnown v.nation) r.registration) (c.tachograph.getD {}).faultsData
  vehicles : EachData (fun m => ∀ r ∈ m.records, Each (fun v => NationKnown v.nation) r.registration) (c.tachograph.getD {}).vehiclesUsed
  usage : EachData (fun m => Each (fun v => NationKnown v.nation) m.vehicle) (c.tachograph.getD {}).currentUsage
  control : EachData (fun m => Each (fun v => NationKnown v.nation) m.registration) (c.tachograph.getD {}).controlActivityData
  vehiclesG2 : EachData (fun m => ∀ r ∈ m.records, Each (fun v => NationKnown v.nation) r.base.registration)
    (c.tachographG2.getD {}).vehiclesUsed
  gnss : EachData (fun m => ∀ r ∈ m.2, r.odometerKm ≤ 999999) (c.tachographG2.getD {}).gnssPlaces

end Tacho.Spec
