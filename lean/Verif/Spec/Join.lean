import Verif.Spec.Order
import Verif.Spec.VuFile
/-!
# Specification: two downloads, one after the other in one file
-/

namespace Tacho.Spec

/-- What two Gen1 applications say together: for every file the later one, or else the earlier one. -/
def joinGen1 (a b : Tachograph) : Tachograph :=
  { applicationIdentification := b.applicationIdentification.or a.applicationIdentification
    identification := b.identification.or a.identification
    drivingLicenceInfo := b.drivingLicenceInfo.or a.drivingLicenceInfo
    eventsData := b.eventsData.or a.eventsData
    faultsData := b.faultsData.or a.faultsData
    driverActivityData := b.driverActivityData.or a.driverActivityData
    vehiclesUsed := b.vehiclesUsed.or a.vehiclesUsed
    places := b.places.or a.places
    currentUsage := b.currentUsage.or a.currentUsage
    controlActivityData := b.controlActivityData.or a.controlActivityData
    specificConditions := b.specificConditions.or a.specificConditions
    cardDownload := b.cardDownload.or a.cardDownload
    cardCertificate := b.cardCertificate.or a.cardCertificate
    caCertificate := b.caCertificate.or a.caCertificate }

/-- The same for Gen2 applications. -/
def joinGen2 (a b : TachographG2) : TachographG2 :=
  { applicationIdentification := b.applicationIdentification.or a.applicationIdentification
    identification := b.identification.or a.identification
    drivingLicenceInfo := b.drivingLicenceInfo.or a.drivingLicenceInfo
    eventsData := b.eventsData.or a.eventsData
    faultsData := b.faultsData.or a.faultsData
    driverActivityData := b.driverActivityData.or a.driverActivityData
    vehiclesUsed := b.vehiclesUsed.or a.vehiclesUsed
    places := b.places.or a.places
    currentUsage := b.currentUsage.or a.currentUsage
    controlActivityData := b.controlActivityData.or a.controlActivityData
    specificConditions := b.specificConditions.or a.specificConditions
    cardDownload := b.cardDownload.or a.cardDownload
    vehicleUnitsUsed := b.vehicleUnitsUsed.or a.vehicleUnitsUsed
    gnssPlaces := b.gnssPlaces.or a.gnssPlaces
    applicationIdentificationV2 := b.applicationIdentificationV2.or a.applicationIdentificationV2
    cardMaCertificate := b.cardMaCertificate.or a.cardMaCertificate
    cardSignCertificate := b.cardSignCertificate.or a.cardSignCertificate
    caCertificate := b.caCertificate.or a.caCertificate
    linkCertificate := b.linkCertificate.or a.linkCertificate }

/-- Two applications together, one of them or none. -/
def joinIf {α : Type} (join : α → α → α) : Option α → Option α → Option α
  | some a, some b => some (join a b)
  | some a, none => some a
  | none, b => b

/-- What two cards say together. -/
def joinCards (a b : DriverCard) : DriverCard :=
  { icc := b.icc.or a.icc
    ic := b.ic.or a.ic
    tachograph := joinIf joinGen1 a.tachograph b.tachograph
    tachographG2 := joinIf joinGen2 a.tachographG2 b.tachographG2 }

/-- What two Gen1 downloads of a vehicle unit say together: the later overview, and all the rest. -/
def joinVuGen1 (a b : VuGen1) : VuGen1 :=
  { overview := b.overview.or a.overview
    activities := a.activities ++ b.activities
    eventsAndFaults := a.eventsAndFaults ++ b.eventsAndFaults
    detailedSpeed := a.detailedSpeed ++ b.detailedSpeed
    technicalData := a.technicalData ++ b.technicalData }

/-- The same for Gen2. -/
def joinVuGen2 (a b : VuGen2) : VuGen2 :=
  { overview := b.overview.or a.overview
    activities := a.activities ++ b.activities
    eventsAndFaults := a.eventsAndFaults ++ b.eventsAndFaults
    detailedSpeed := a.detailedSpeed ++ b.detailedSpeed
    technicalData := a.technicalData ++ b.technicalData }

/-- `w` is what two vehicle unit downloads say together. -/
inductive JoinedVu : VehicleUnitFile → VehicleUnitFile → VehicleUnitFile → Prop
  | gen1 (a b : VuGen1) : JoinedVu { generation := .gen1, gen1 := some a } { generation := .gen1, gen1 := some b }
      { generation := .gen1, gen1 := some (joinVuGen1 a b) }
  | v1 (a b : VuGen2) : JoinedVu { generation := .gen2, version := .v1, gen2V1 := some a }
      { generation := .gen2, version := .v1, gen2V1 := some b }
      { generation := .gen2, version := .v1, gen2V1 := some (joinVuGen2 a b) }
  | v2 (a b : VuGen2) : JoinedVu { generation := .gen2, version := .v2, gen2V2 := some a }
      { generation := .gen2, version := .v2, gen2V2 := some b }
      { generation := .gen2, version := .v2, gen2V2 := some (joinVuGen2 a b) }
  /-- Detailed speed belongs to both versions: without an overview it is reported in the first. -/
  | v12 (a b : VuGen2) (h : a.overview = none) : JoinedVu { generation := .gen2, version := .v1, gen2V1 := some a }
      { generation := .gen2, version := .v2, gen2V2 := some b }
      { generation := .gen2, version := .v2, gen2V2 := some (joinVuGen2 a b) }
  | v21 (a b : VuGen2) (h : b.overview = none) : JoinedVu { generation := .gen2, version := .v2, gen2V2 := some a }
      { generation := .gen2, version := .v1, gen2V1 := some b }
      { generation := .gen2, version := .v2, gen2V2 := some (joinVuGen2 a b) }

end Tacho.Spec
