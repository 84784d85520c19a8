import Verif.Model.DriverCard
/-!
# Specification: what a driver card file says

A download is a sequence of blocks: one data record, possibly followed by the signature record of the same
file. The card message holds, for every place in it, the newest block that belongs there.
-/

namespace Tacho.Spec

variable [Charmap]

/-- A data record with the signature record that follows it, if one does. -/
structure Block where
  data : RawRec
  sig : Option RawRec

/-- The records of a block, in order. -/
def Block.records (b : Block) : List RawRec := b.data :: b.sig.toList

/-- The first record is data; the second, if there is one, is a signature for the same file. -/
def Block.Good (b : Block) : Prop :=
  b.data.contentType = .data ∧ ∀ s, b.sig = some s → s.contentType = .signature ∧ s.file = b.data.file

/-- Every signature record directly follows a data record of its own file. -/
def Paired (rs : List RawRec) : Prop :=
  ∀ i s, rs[i]? = some s → s.contentType = .signature →
    ∃ j d, i = j + 1 ∧ rs[j]? = some d ∧ d.contentType = .data ∧ d.file = s.file

/-- The newest block with a property. -/
def newest (bs : List Block) (here : Block → Bool) : Option Block := (bs.filter here).getLast?

/-- The block holds this file, of any generation. -/
def file (f : EF) (b : Block) : Bool := b.data.file == f

/-- The block holds this file in this generation. -/
def fileGen (f : EF) (g : Generation) (b : Block) : Bool := b.data.file == f && b.data.generation == g

/-- What a parser reads from the data of a block. -/
def Block.read {α : Type} (p : Bytes → Res α) (b : Block) : Option α :=
  match p b.data.value with
  | .ok x => some x
  | _ => none

/-- The same with the signature of the block. -/
def Block.readSigned {α : Type} (p : Bytes → Res α) (b : Block) : Option (Signed α) :=
  (b.read p).map (⟨·, b.sig.map RawRec.value⟩)

/-- The files of the Gen1 application that have a place in the card message. -/
def gen1Files : List EF :=
  [.applicationIdentification, .identification, .drivingLicenceInfo, .eventsData, .faultsData,
   .driverActivityData, .vehiclesUsed, .places, .currentUsage, .controlActivityData, .specificConditions,
   .cardDownloadDriver, .cardCertificate, .caCertificate]

/-- The files of the Gen2 application that also exist in the Gen1 application. -/
def gen2SharedFiles : List EF :=
  [.applicationIdentification, .identification, .drivingLicenceInfo, .eventsData, .faultsData,
   .driverActivityData, .vehiclesUsed, .places, .currentUsage, .controlActivityData, .specificConditions,
   .cardDownloadDriver, .cardMaCertificate, .cardSignCertificate, .caCertificate, .linkCertificate]

/-- The files that are taken for Gen2 files whatever the generation bit says. -/
def gen2OnlyFiles : List EF := [.vehicleUnitsUsed, .gnssPlaces, .applicationIdentificationV2]

/-- The block belongs to the Gen1 application. -/
def inGen1 (b : Block) : Bool := b.data.generation == .gen1 && gen1Files.contains b.data.file

/-- The block belongs to the Gen2 application. -/
def inGen2 (b : Block) : Bool :=
  b.data.generation == .gen2 && gen2SharedFiles.contains b.data.file || gen2OnlyFiles.contains b.data.file

/-- The Gen1 application described by a sequence of blocks. -/
def gen1Of (bs : List Block) : Tachograph :=
  { applicationIdentification := (newest bs (fileGen .applicationIdentification .gen1)).bind (Block.readSigned unmarshalAppId)
    identification := (newest bs (fileGen .identification .gen1)).bind (Block.readSigned unmarshalIdentification)
    drivingLicenceInfo := (newest bs (fileGen .drivingLicenceInfo .gen1)).bind (Block.readSigned unmarshalDrivingLicenceInfo)
    eventsData := (newest bs (fileGen .eventsData .gen1)).bind (Block.readSigned unmarshalEventsData)
    faultsData := (newest bs (fileGen .faultsData .gen1)).bind (Block.readSigned unmarshalEventsData)
    driverActivityData := (newest bs (fileGen .driverActivityData .gen1)).bind (Block.readSigned unmarshalDriverActivityData)
    vehiclesUsed := (newest bs (fileGen .vehiclesUsed .gen1)).bind (Block.readSigned unmarshalVehiclesUsed)
    places := (newest bs (fileGen .places .gen1)).bind (Block.readSigned unmarshalPlaces)
    currentUsage := (newest bs (fileGen .currentUsage .gen1)).bind (Block.readSigned unmarshalCurrentUsage)
    controlActivityData := (newest bs (fileGen .controlActivityData .gen1)).bind (Block.readSigned unmarshalControlActivity)
    specificConditions := (newest bs (fileGen .specificConditions .gen1)).bind (Block.readSigned unmarshalSpecificConditions)
    cardDownload := (newest bs (fileGen .cardDownloadDriver .gen1)).bind (Block.read unmarshalCardDownload)
    cardCertificate := (newest bs (fileGen .cardCertificate .gen1)).bind (Block.read unmarshalRsa)
    caCertificate := (newest bs (fileGen .caCertificate .gen1)).bind (Block.read unmarshalRsa) }

/-- The Gen2 application described by a sequence of blocks. -/
def gen2Of (bs : List Block) : TachographG2 :=
  { applicationIdentification := (newest bs (fileGen .applicationIdentification .gen2)).bind (Block.readSigned unmarshalAppIdG2)
    identification := (newest bs (fileGen .identification .gen2)).bind (Block.readSigned unmarshalIdentification)
    drivingLicenceInfo := (newest bs (fileGen .drivingLicenceInfo .gen2)).bind (Block.readSigned unmarshalDrivingLicenceInfo)
    eventsData := (newest bs (fileGen .eventsData .gen2)).bind (Block.readSigned unmarshalEventsData)
    faultsData := (newest bs (fileGen .faultsData .gen2)).bind (Block.readSigned unmarshalEventsData)
    driverActivityData := (newest bs (fileGen .driverActivityData .gen2)).bind (Block.readSigned unmarshalDriverActivityData)
    vehiclesUsed := (newest bs (fileGen .vehiclesUsed .gen2)).bind (Block.readSigned unmarshalVehiclesUsedG2)
    places := (newest bs (fileGen .places .gen2)).bind (Block.readSigned unmarshalPlacesG2)
    currentUsage := (newest bs (fileGen .currentUsage .gen2)).bind (Block.readSigned unmarshalCurrentUsage)
    controlActivityData := (newest bs (fileGen .controlActivityData .gen2)).bind (Block.readSigned unmarshalControlActivity)
    specificConditions := (newest bs (fileGen .specificConditions .gen2)).bind (Block.readSigned unmarshalSpecificConditionsG2)
    cardDownload := (newest bs (fileGen .cardDownloadDriver .gen2)).bind (Block.read unmarshalCardDownload)
    vehicleUnitsUsed := (newest bs (file .vehicleUnitsUsed)).bind (Block.readSigned unmarshalVehicleUnitsUsed)
    gnssPlaces := (newest bs (file .gnssPlaces)).bind (Block.readSigned unmarshalGnssPlaces)
    applicationIdentificationV2 := (newest bs (file .applicationIdentificationV2)).bind (Block.readSigned unmarshalAppIdV2)
    cardMaCertificate := (newest bs (fileGen .cardMaCertificate .gen2)).bind (Block.read unmarshalEcc)
    cardSignCertificate := (newest bs (fileGen .cardSignCertificate .gen2)).bind (Block.read unmarshalEcc)
    caCertificate := (newest bs (fileGen .caCertificate .gen2)).bind (Block.read unmarshalEcc)
    linkCertificate := (newest bs (fileGen .linkCertificate .gen2)).bind (Block.read unmarshalEcc) }

/-- The card message described by a sequence of blocks: an application is present if a block belongs to it. -/
def cardOf (bs : List Block) : DriverCard :=
  { icc := (newest bs (file .icc)).bind (Block.read unmarshalIcc)
    ic := (newest bs (file .ic)).bind (Block.read unmarshalIc)
    tachograph := if bs.any inGen1 then some (gen1Of bs) else none
    tachographG2 := if bs.any inGen2 then some (gen2Of bs) else none }

/-- A parser accepts the data of the block. -/
def Block.Reads {α : Type} (p : Bytes → Res α) (b : Block) : Prop := ∃ x, p b.data.value = .ok x

/-- A parser for each generation. -/
def Block.ReadsByGen {α β : Type} (p : Bytes → Res α) (q : Bytes → Res β) (b : Block) : Prop :=
  b.data.generation = .gen1 ∧ b.Reads p ∨ b.data.generation = .gen2 ∧ b.Reads q

/-- The block can be read: the parser of its file accepts the data, the file exists in the generation of
the block, and a file that is never signed has no signature. Other files need not be readable. -/
def Block.Readable (b : Block) : Prop :=
  match b.data.file with
  | .icc => b.sig = none ∧ b.Reads unmarshalIcc
  | .ic => b.sig = none ∧ b.Reads unmarshalIc
  | .applicationIdentification => b.ReadsByGen unmarshalAppId unmarshalAppIdG2
  | .identification => b.ReadsByGen unmarshalIdentification unmarshalIdentification
  | .drivingLicenceInfo => b.ReadsByGen unmarshalDrivingLicenceInfo unmarshalDrivingLicenceInfo
  | .eventsData => b.ReadsByGen unmarshalEventsData unmarshalEventsData
  | .faultsData => b.ReadsByGen unmarshalEventsData unmarshalEventsData
  | .driverActivityData => b.ReadsByGen unmarshalDriverActivityData unmarshalDriverActivityData
  | .vehiclesUsed => b.ReadsByGen unmarshalVehiclesUsed unmarshalVehiclesUsedG2
  | .places => b.ReadsByGen unmarshalPlaces unmarshalPlacesG2
  | .currentUsage => b.ReadsByGen unmarshalCurrentUsage unmarshalCurrentUsage
  | .controlActivityData => b.ReadsByGen unmarshalControlActivity unmarshalControlActivity
  | .specificConditions => b.ReadsByGen unmarshalSpecificConditions unmarshalSpecificConditionsG2
  | .cardDownloadDriver => b.sig = none ∧ b.ReadsByGen unmarshalCardDownload unmarshalCardDownload
  | .vehicleUnitsUsed => b.Reads unmarshalVehicleUnitsUsed
  | .gnssPlaces => b.Reads unmarshalGnssPlaces
  | .applicationIdentificationV2 => b.Reads unmarshalAppIdV2
  | .cardCertificate => b.sig = none ∧ b.data.generation = .gen1 ∧ b.Reads unmarshalRsa
  | .cardMaCertificate => b.sig = none ∧ b.data.generation = .gen2 ∧ b.Reads unmarshalEcc
  | .cardSignCertificate => b.sig = none ∧ b.data.generation = .gen2 ∧ b.Reads unmarshalEcc
  | .caCertificate => b.sig = none ∧ b.ReadsByGen unmarshalRsa unmarshalEcc
  | .linkCertificate => b.sig = none ∧ b.data.generation = .gen2 ∧ b.Reads unmarshalEcc
  | _ => True

end Tacho.Spec
