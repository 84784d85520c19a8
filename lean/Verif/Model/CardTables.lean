import Verif.Model.Basic
/-!
# Elementary files and card types

Generated from the annotations in `proto/.../card/v1/elementary_file_type.proto` and
`proto/.../card/v1/card_type.proto` by a transcription script.
-/

namespace Tacho

/-- `ElementaryFileType`, proto/.../card/v1/elementary_file_type.proto:9-129.
(The descriptor lookups by number are replaced by constructors.) -/
inductive EF where
  | unspecified
  | icc
  | ic
  | atrInfo
  | extendedLength
  | applicationIdentification
  | eventsData
  | faultsData
  | driverActivityData
  | vehiclesUsed
  | places
  | currentUsage
  | controlActivityData
  | cardDownloadWorkshop
  | calibration
  | sensorInstallationData
  | controllerActivityData
  | companyActivityData
  | cardDownloadDriver
  | identification
  | drivingLicenceInfo
  | specificConditions
  | vehicleUnitsUsed
  | gnssPlaces
  | applicationIdentificationV2
  | placesAuthentication
  | gnssPlacesAuthentication
  | borderCrossings
  | loadUnloadOperations
  | loadTypeEntries
  | calibrationAddData
  | vuConfiguration
  | dir
  | cardCertificate
  | cardMaCertificate
  | cardSignCertificate
  | caCertificate
  | linkCertificate
  | egf
  | vu
  deriving Repr, DecidableEq

/-- Enum values in declaration order with their `file_id` annotation; a value without annotation
has the extension default 0. elementary_file_type.proto:9-129. -/
def efTable : List (EF × Nat) :=
  [(.unspecified, 0),
   (.icc, 0x0002),
   (.ic, 0x0005),
   (.atrInfo, 0x2F01),
   (.extendedLength, 0x0006),
   (.applicationIdentification, 0x0501),
   (.eventsData, 0x0502),
   (.faultsData, 0x0503),
   (.driverActivityData, 0x0504),
   (.vehiclesUsed, 0x0505),
   (.places, 0x0506),
   (.currentUsage, 0x0507),
   (.controlActivityData, 0x0508),
   (.cardDownloadWorkshop, 0x0509),
   (.calibration, 0x050A),
   (.sensorInstallationData, 0x050B),
   (.controllerActivityData, 0x050C),
   (.companyActivityData, 0x050D),
   (.cardDownloadDriver, 0x050E),
   (.identification, 0x0520),
   (.drivingLicenceInfo, 0x0521),
   (.specificConditions, 0x0522),
   (.vehicleUnitsUsed, 0x0523),
   (.gnssPlaces, 0x0524),
   (.applicationIdentificationV2, 0x0525),
   (.placesAuthentication, 0x0526),
   (.gnssPlacesAuthentication, 0x0527),
   (.borderCrossings, 0x0528),
   (.loadUnloadOperations, 0x0529),
   (.loadTypeEntries, 0x0530),
   (.calibrationAddData, 0x0531),
   (.vuConfiguration, 0x0540),
   (.dir, 0x2f00),
   (.cardCertificate, 0xC100),
   (.cardMaCertificate, 0xC100),
   (.cardSignCertificate, 0xC101),
   (.caCertificate, 0xC108),
   (.linkCertificate, 0xC109),
   (.egf, 0x2F2F),
   (.vu, 0x2F30)]

/-- `CardType`, proto/wayplatform/connect/tachograph/card/v1/card_type.proto. -/
inductive CardType where
  | unspecified | driverCard | workshopCard | controlCard | companyCard | gnssSimulatedCard
  deriving Repr, DecidableEq

/-- `getAllElementaryFiles(file_structure)` for each card type in declaration order: the EF
leaves of the annotation, in order of appearance (internal/card/infer.go:66-75 flattens the tree).
card_type.proto:9-710. The value without annotation yields a typed nil descriptor: no files. -/
def cardTypeTable : List (CardType × List EF) :=
  [(.unspecified,
     []),
   (.driverCard,
     [.icc, .ic, .dir, .atrInfo, .extendedLength, .applicationIdentification, .cardCertificate,
      .caCertificate, .identification, .cardDownloadDriver, .drivingLicenceInfo, .eventsData,
      .faultsData, .driverActivityData, .vehiclesUsed, .places, .currentUsage,
      .controlActivityData, .specificConditions, .applicationIdentification, .cardCertificate,
      .cardSignCertificate, .caCertificate, .linkCertificate, .identification,
      .cardDownloadDriver, .drivingLicenceInfo, .eventsData, .faultsData, .driverActivityData,
      .vehiclesUsed, .places, .currentUsage, .controlActivityData, .specificConditions,
      .vehicleUnitsUsed, .companyActivityData, .gnssPlaces, .applicationIdentificationV2,
      .placesAuthentication, .gnssPlacesAuthentication, .borderCrossings, .loadUnloadOperations,
      .loadTypeEntries, .vuConfiguration]),
   (.workshopCard,
     [.icc, .ic, .dir, .atrInfo, .extendedLength, .applicationIdentification, .cardCertificate,
      .caCertificate, .identification, .cardDownloadWorkshop, .calibration,
      .sensorInstallationData, .eventsData, .faultsData, .driverActivityData, .vehiclesUsed,
      .places, .currentUsage, .controlActivityData, .specificConditions,
      .applicationIdentification, .cardCertificate, .cardSignCertificate, .caCertificate,
      .linkCertificate, .identification, .cardDownloadWorkshop, .calibration,
      .sensorInstallationData, .eventsData, .faultsData, .driverActivityData, .vehiclesUsed,
      .places, .currentUsage, .controlActivityData, .specificConditions, .vehicleUnitsUsed,
      .companyActivityData, .gnssPlaces, .applicationIdentificationV2, .placesAuthentication,
      .gnssPlacesAuthentication, .borderCrossings, .loadUnloadOperations, .loadTypeEntries,
      .calibrationAddData, .vuConfiguration]),
   (.controlCard,
     [.icc, .ic, .dir, .atrInfo, .extendedLength, .applicationIdentification, .cardCertificate,
      .caCertificate, .identification, .controllerActivityData, .applicationIdentification,
      .cardCertificate, .cardSignCertificate, .caCertificate, .linkCertificate, .identification,
      .controllerActivityData, .applicationIdentificationV2, .vuConfiguration]),
   (.companyCard,
     [.icc, .ic, .dir, .atrInfo, .extendedLength, .applicationIdentification, .cardCertificate,
      .caCertificate, .identification, .companyActivityData, .applicationIdentification,
      .cardCertificate, .cardSignCertificate, .caCertificate, .linkCertificate, .identification,
      .companyActivityData, .applicationIdentificationV2, .vuConfiguration]),
   (.gnssSimulatedCard,
     [.icc, .cardCertificate, .caCertificate, .linkCertificate, .egf, .vu])]

end Tacho
