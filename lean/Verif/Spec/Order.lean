import Verif.Spec.DriverCard
import Verif.Spec.Tlv
/-!
# Specification: order and damage

What may change in a driver card message when one file of the download is replaced, and when two files compete
for one place.
-/

namespace Tacho.Spec

/-- The Gen1 applications agree in all files but `f`. -/
structure SameGen1But (f : EF) (t t' : Tachograph) : Prop where
  applicationIdentification : f ≠ .applicationIdentification → t.applicationIdentification = t'.applicationIdentification
  identification : f ≠ .identification → t.identification = t'.identification
  drivingLicenceInfo : f ≠ .drivingLicenceInfo → t.drivingLicenceInfo = t'.drivingLicenceInfo
  eventsData : f ≠ .eventsData → t.eventsData = t'.eventsData
  faultsData : f ≠ .faultsData → t.faultsData = t'.faultsData
  driverActivityData : f ≠ .driverActivityData → t.driverActivityData = t'.driverActivityData
  vehiclesUsed : f ≠ .vehiclesUsed → t.vehiclesUsed = t'.vehiclesUsed
  places : f ≠ .places → t.places = t'.places
  currentUsage : f ≠ .currentUsage → t.currentUsage = t'.currentUsage
  controlActivityData : f ≠ .controlActivityData → t.controlActivityData = t'.controlActivityData
  specificConditions : f ≠ .specificConditions → t.specificConditions = t'.specificConditions
  cardDownload : f ≠ .cardDownloadDriver → t.cardDownload = t'.cardDownload
  cardCertificate : f ≠ .cardCertificate → t.cardCertificate = t'.cardCertificate
  caCertificate : f ≠ .caCertificate → t.caCertificate = t'.caCertificate

/-- The Gen2 applications agree in all files but `f`. -/
structure SameGen2But (f : EF) (t t' : TachographG2) : Prop where
  applicationIdentification : f ≠ .applicationIdentification → t.applicationIdentification = t'.applicationIdentification
  identification : f ≠ .identification → t.identification = t'.identification
  drivingLicenceInfo : f ≠ .drivingLicenceInfo → t.drivingLicenceInfo = t'.drivingLicenceInfo
  eventsData : f ≠ .eventsData → t.eventsData = t'.eventsData
  faultsData : f ≠ .faultsData → t.faultsData = t'.faultsData
  driverActivityData : f ≠ .driverActivityData → t.driverActivityData = t'.driverActivityData
  vehiclesUsed : f ≠ .vehiclesUsed → t.vehiclesUsed = t'.vehiclesUsed
  places : f ≠ .places → t.places = t'.places
  currentUsage : f ≠ .currentUsage → t.currentUsage = t'.currentUsage
  controlActivityData : f ≠ .controlActivityData → t.controlActivityData = t'.controlActivityData
  specificConditions : f ≠ .specificConditions → t.specificConditions = t'.specificConditions
  cardDownload : f ≠ .cardDownloadDriver → t.cardDownload = t'.cardDownload
  vehicleUnitsUsed : f ≠ .vehicleUnitsUsed → t.vehicleUnitsUsed = t'.vehicleUnitsUsed
  gnssPlaces : f ≠ .gnssPlaces → t.gnssPlaces = t'.gnssPlaces
  applicationIdentificationV2 : f ≠ .applicationIdentificationV2 → t.applicationIdentificationV2 = t'.applicationIdentificationV2
  cardMaCertificate : f ≠ .cardMaCertificate → t.cardMaCertificate = t'.cardMaCertificate
  cardSignCertificate : f ≠ .cardSignCertificate → t.cardSignCertificate = t'.cardSignCertificate
  caCertificate : f ≠ .caCertificate → t.caCertificate = t'.caCertificate
  linkCertificate : f ≠ .linkCertificate → t.linkCertificate = t'.linkCertificate

/-- Both absent, or both present and related. -/
def BothOr {α : Type} (R : α → α → Prop) : Option α → Option α → Prop
  | none, none => True
  | some x, some y => R x y
  | _, _ => False

/-- The messages agree in everything but the place of file `f` of generation `g`. -/
structure SameCardBut (f : EF) (g : Generation) (c c' : DriverCard) : Prop where
  icc : f ≠ .icc → c.icc = c'.icc
  ic : f ≠ .ic → c.ic = c'.ic
  gen1 : if g = .gen1 then BothOr (SameGen1But f) c.tachograph c'.tachograph else c.tachograph = c'.tachograph
  gen2 : if g = .gen2 ∨ f ∈ gen2OnlyFiles then BothOr (SameGen2But f) c.tachographG2 c'.tachographG2
    else c.tachographG2 = c'.tachographG2

/-- A file without its signature. -/
def noSignature {α : Type} (s : Signed α) : Signed α := { s with signature := none }

/-- A card without its signatures. -/
def unsignedCard (c : DriverCard) : DriverCard :=
  { c with
    tachograph := c.tachograph.map fun t => { t with
      applicationIdentification := t.applicationIdentification.map noSignature
      identification := t.identification.map noSignature
      drivingLicenceInfo := t.drivingLicenceInfo.map noSignature
      eventsData := t.eventsData.map noSignature
      faultsData := t.faultsData.map noSignature
      driverActivityData := t.driverActivityData.map noSignature
      vehiclesUsed := t.vehiclesUsed.map noSignature
      places := t.places.map noSignature
      currentUsage := t.currentUsage.map noSignature
      controlActivityData := t.controlActivityData.map noSignature
      specificConditions := t.specificConditions.map noSignature }
    tachographG2 := c.tachographG2.map fun t => { t with
      applicationIdentification := t.applicationIdentification.map noSignature
      identification := t.identification.map noSignature
      drivingLicenceInfo := t.drivingLicenceInfo.map noSignature
      eventsData := t.eventsData.map noSignature
      faultsData := t.faultsData.map noSignature
      driverActivityData := t.driverActivityData.map noSignature
      vehiclesUsed := t.vehiclesUsed.map noSignature
      places := t.places.map noSignature
      currentUsage := t.currentUsage.map noSignature
      controlActivityData := t.controlActivityData.map noSignature
      specificConditions := t.specificConditions.map noSignature
      vehicleUnitsUsed := t.vehicleUnitsUsed.map noSignature
      gnssPlaces := t.gnssPlaces.map noSignature
      applicationIdentificationV2 := t.applicationIdentificationV2.map noSignature } }

/-- A data record and the signature record that follows it, as they stand in the file. -/
structure TlvBlock where
  data : Tlv
  sig : Option Tlv

/-- Its records. -/
def TlvBlock.records (b : TlvBlock) : List Tlv := b.data :: b.sig.toList

/-- The first is data, the second a signature for the same file. -/
def TlvBlock.Good (b : TlvBlock) : Prop :=
  b.data.record.contentType = .data ∧
    ∀ s, b.sig = some s → s.record.contentType = .signature ∧ s.record.file = b.data.record.file

/-- The files that have one place in the message whatever their generation. -/
def anyGeneration : List EF := [.icc, .ic, .vehicleUnitsUsed, .gnssPlaces, .applicationIdentificationV2]

/-- Two records go to the same place. -/
def OnePlace (a b : RawRec) : Prop :=
  a.file = b.file ∧ (a.generation = b.generation ∨ a.file ∈ anyGeneration)

end Tacho.Spec
