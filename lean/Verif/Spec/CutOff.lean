import Verif.Spec.Order
import Verif.Spec.VuFile
/-!
# Specification: a download that was cut off
-/

namespace Tacho.Spec

/-- A value of the complete download, or nothing. -/
def Shown {α : Type} (part whole : Option α) : Prop := part = none ∨ part = whole

/-- A file of the complete download, perhaps without its signature, or nothing. -/
def ShownSigned {α : Type} (part whole : Option (Signed α)) : Prop :=
  part = none ∨ part = whole ∨ part = whole.map noSignature

/-- What a Gen1 application shows of another. -/
structure Gen1Part (t w : Tachograph) : Prop where
  applicationIdentification : ShownSigned t.applicationIdentification w.applicationIdentification
  identification : ShownSigned t.identification w.identification
  drivingLicenceInfo : ShownSigned t.drivingLicenceInfo w.drivingLicenceInfo
  eventsData : ShownSigned t.eventsData w.eventsData
  faultsData : ShownSigned t.faultsData w.faultsData
  driverActivityData : ShownSigned t.driverActivityData w.driverActivityData
  vehiclesUsed : ShownSigned t.vehiclesUsed w.vehiclesUsed
  places : ShownSigned t.places w.places
  currentUsage : ShownSigned t.currentUsage w.currentUsage
  controlActivityData : ShownSigned t.controlActivityData w.controlActivityData
  specificConditions : ShownSigned t.specificConditions w.specificConditions
  cardDownload : Shown t.cardDownload w.cardDownload
  cardCertificate : Shown t.cardCertificate w.cardCertificate
  caCertificate : Shown t.caCertificate w.caCertificate

/-- What a Gen2 application shows of another. -/
structure Gen2Part (t w : TachographG2) : Prop where
  applicationIdentification : ShownSigned t.applicationIdentification w.applicationIdentification
  identification : ShownSigned t.identification w.identification
  drivingLicenceInfo : ShownSigned t.drivingLicenceInfo w.drivingLicenceInfo
  eventsData : ShownSigned t.eventsData w.eventsData
  faultsData : ShownSigned t.faultsData w.faultsData
  driverActivityData : ShownSigned t.driverActivityData w.driverActivityData
  vehiclesUsed : ShownSigned t.vehiclesUsed w.vehiclesUsed
  places : ShownSigned t.places w.places
  currentUsage : ShownSigned t.currentUsage w.currentUsage
  controlActivityData : ShownSigned t.controlActivityData w.controlActivityData
  specificConditions : ShownSigned t.specificConditions w.specificConditions
  vehicleUnitsUsed : ShownSigned t.vehicleUnitsUsed w.vehicleUnitsUsed
  gnssPlaces : ShownSigned t.gnssPlaces w.gnssPlaces
  applicationIdentificationV2 : ShownSigned t.applicationIdentificationV2 w.applicationIdentificationV2
  cardDownload : Shown t.cardDownload w.cardDownload
  cardMaCertificate : Shown t.cardMaCertificate w.cardMaCertificate
  cardSignCertificate : Shown t.cardSignCertificate w.cardSignCertificate
  caCertificate : Shown t.caCertificate w.caCertificate
  linkCertificate : Shown t.linkCertificate w.linkCertificate

/-- One card message shows nothing that the other does not show. -/
structure CardPart (c w : DriverCard) : Prop where
  icc : Shown c.icc w.icc
  ic : Shown c.ic w.ic
  gen1 : ∀ t, c.tachograph = some t → ∃ t', w.tachograph = some t' ∧ Gen1Part t t'
  gen2 : ∀ t, c.tachographG2 = some t → ∃ t', w.tachographG2 = some t' ∧ Gen2Part t t'

/-- One Gen1 vehicle unit message is the beginning of the other: the lists of transfers are. -/
structure Gen1Beginning (g w : VuGen1) : Prop where
  activities : g.activities <+: w.activities
  eventsAndFaults : g.eventsAndFaults <+: w.eventsAndFaults
  detailedSpeed : g.detailedSpeed <+: w.detailedSpeed
  technicalData : g.technicalData <+: w.technicalData

/-- One vehicle unit message is the beginning of the other, in the same generation and version, or the one has
nothing but detailed speed blocks, which are the same in both versions of Gen2, and is taken for the first version.
`one` says that the download has at most one overview; then it is shown or missing. -/
inductive VuBeginning (one : Prop) : VehicleUnitFile → VehicleUnitFile → Prop where
  | gen1 {g w : VuGen1} (h : Gen1Beginning g w) (ho : one → Shown g.overview w.overview) :
    VuBeginning one { generation := .gen1, gen1 := some g } { generation := .gen1, gen1 := some w }
  | v1 {g w : VuGen2} (h : g.detailedSpeed <+: w.detailedSpeed) (ho : one → Shown g.overview w.overview) :
    VuBeginning one { generation := .gen2, version := .v1, gen2V1 := some g } { generation := .gen2, version := .v1, gen2V1 := some w }
  | v2 {g w : VuGen2} (h : g.detailedSpeed <+: w.detailedSpeed) (ho : one → Shown g.overview w.overview) :
    VuBeginning one { generation := .gen2, version := .v2, gen2V2 := some g } { generation := .gen2, version := .v2, gen2V2 := some w }
  | speedOnly {g w : VuGen2} (h : g.detailedSpeed <+: w.detailedSpeed) (ho : g.overview = none) :
    VuBeginning one { generation := .gen2, version := .v1, gen2V1 := some g } { generation := .gen2, version := .v2, gen2V2 := some w }

/-- An overview of any generation. -/
def isOverview (t : Transfer) : Bool := t.type == .overviewGen1 || t.type == .overviewG2V1 || t.type == .overviewG2V2

end Tacho.Spec
