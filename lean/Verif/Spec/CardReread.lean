import Verif.Spec.CardWriting
import Verif.Spec.WriteFiles
import Verif.Spec.Download
import Verif.Props.ActivityRebuild
/-!
# A driver card message, written and read back

`CardOk` says when the parts of a message fit the format, file by file; `SameCard` says what is kept when the
message is written to a file and the file is read.
-/

namespace Tacho.Spec

/-- Every part that is present fits. -/
def Each {α : Type} (P : α → Prop) (o : Option α) : Prop := ∀ m, o = some m → P m

/-- The same for a signed file. -/
def EachData {α : Type} (P : α → Prop) (o : Option (Signed α)) : Prop := ∀ m, o = some m → P m.data

/-- A file that is never signed: absent stays absent, present stays present with the same contents. -/
def Kept {α : Type} (Same : α → α → Prop) (o o' : Option α) : Prop :=
  match o with
  | none => o' = none
  | some m => ∃ m', o' = some m' ∧ Same m m'

/-- A signed file: the contents are kept, the signature becomes 128 zero bytes. -/
def KeptSigned {α : Type} (Same : α → α → Prop) (o o' : Option (Signed α)) : Prop :=
  match o with
  | none => o' = none
  | some m => ∃ m', o' = some ⟨m', some (List.replicate 128 0)⟩ ∧ Same m.data m'

/-- A first generation certificate to be written: none, one without raw data (it is left out), or 194 bytes. -/
def RsaOk (c : RsaCert) : Prop := c.raw = [] ∨ c.raw.length = 194

/-- A second generation certificate to be written: one without raw data (it is left out), or the bytes of a
certificate, or bytes that were read as one. -/
def EccOk (c : EccCert) : Prop := c.raw = [] ∨ Regulation.EccFile c.raw ∨ ∃ x, unmarshalEcc c.raw = .ok x

/-- A certificate is kept as the bytes it came from: afterwards it is what the parser makes of them, so the
fields filled in by verification are gone. -/
def KeptCertificate {α : Type} (raw : α → Bytes) (parse : Bytes → Res α) (o o' : Option α) : Prop :=
  match o with
  | none => o' = none
  | some c => if raw c = [] then o' = none else ∃ c', o' = some c' ∧ parse (raw c) = .ok c' ∧ raw c' = raw c

/-- EF_Driver_Activity_Data. Either the message carries its buffer and lists the days of it, or it carries only
up to 365 days, the newest last, and points to the place of the newest in the buffer that will be built. -/
def ActivityOk (m : DriverActivityData) : Prop :=
  Fits 16 m.oldest ∧
  ((∃ b, m.rawData = some b ∧ b ≠ [] ∧ b.length ≤ 65526 ∧ Fits 16 m.newest ∧ parseActivityRecords b m.newest = .ok m.records) ∨
   (m.rawData = none ∧ ∃ rs last, m.records = rs ++ [last] ∧ (∀ r ∈ m.records, WritableDay r) ∧ m.records.length ≤ 365 ∧
      m.newest = ((rs.map daySize).sum : Nat) ∧ (m.records.map daySize).sum ≤ 65526))

/-- The same days. -/
def SameActivity (m m' : DriverActivityData) : Prop :=
  m'.oldest = m.oldest ∧ m'.newest = m.newest ∧ (m.rawData ≠ none → m' = m) ∧ (m.rawData = none → List.Forall₂ SameDay m.records m'.records)

/-- EF_Specific_Conditions of the second generation: unchanged since it was read, or without raw data. -/
def ConditionsG2Ok (m : RecordFile SpecificConditionRecord) : Prop :=
  (∃ r, r.length ≤ 65530 ∧ unmarshalSpecificConditionsG2 r = .ok m) ∨
  (m.rawData = none ∧ Fits 16 m.newest ∧ m.records.length ≤ 13105 ∧ ∀ r ∈ m.records, ConditionOk r)

/-- EF_IC. -/
def IcOk (m : Ic) : Prop := m.serialNumber.length = 4 ∧ m.manufacturingReferences.length = 4

/-- EF_Application_Identification. -/
def AppIdOk (m : AppId) : Prop :=
  Named equipmentTypeTable m.typeOfCard ∧ Has VersionOk m.structureVersion ∧ Has CountsOk m.driver

/-- The same EF_Application_Identification. -/
def SameAppId (m m' : AppId) : Prop :=
  m'.typeOfCard = m.typeOfCard ∧ Both SameVersion m.structureVersion m'.structureVersion ∧ m'.driver = m.driver

/-- EF_Application_Identification of the second generation. -/
def AppIdG2Ok (m : AppIdG2) : Prop :=
  Named equipmentTypeTable m.typeOfCard ∧ Has VersionOk m.structureVersion ∧ Has CountsG2Ok m.driver

/-- The same. -/
def SameAppIdG2 (m m' : AppIdG2) : Prop :=
  m'.typeOfCard = m.typeOfCard ∧ Both SameVersion m.structureVersion m'.structureVersion ∧ m'.driver = m.driver

/-- EF_Application_Identification_V2. -/
def AppIdV2Ok (m : AppIdV2) : Prop :=
  Fits 8 m.borderCrossings ∧ Fits 8 m.loadUnload ∧ Fits 8 m.loadTypes ∧ Fits 8 m.vuConfigurationLength

variable [Charmap]

/-- EF_Identification: a card part and a driver card holder. -/
def IdentificationOk (m : Identification) : Prop := Has CardIdentOk m.card ∧ Has HolderOk m.driverHolder

/-- The same EF_Identification. The type is that of the number. -/
def SameIdentification (m m' : Identification) : Prop :=
  (∀ c, m.card = some c → m'.cardType = if c.driver.isSome then CardType.driverCard else .workshopCard) ∧
  Both SameCardIdent m.card m'.card ∧ Both SameHolder m.driverHolder m'.driverHolder

/-- A Gen1 application that can be written. The limits on the numbers of records keep a file below 64 KiB and, for
events, below the 4096 bytes a scanner starts with; the regulation allows far fewer. -/
structure Gen1Ok (t : Tachograph) : Prop where
  applicationIdentification : EachData AppIdOk t.applicationIdentification
  identification : EachData IdentificationOk t.identification
  drivingLicenceInfo : EachData LicenceOk t.drivingLicenceInfo
  eventsData : EachData (fun rs => rs.length ≤ 170 ∧ ∀ r ∈ rs, EventOk r) t.eventsData
  faultsData : EachData (fun rs => rs.length ≤ 170 ∧ ∀ r ∈ rs, EventOk r) t.faultsData
  driverActivityData : EachData ActivityOk t.driverActivityData
  vehiclesUsed : EachData (fun m => Fits 16 m.newest ∧ m.records.length ≤ 2113 ∧
    ∀ r ∈ m.records, RawFits r.rawData 31 ∧ CardVehicleOk r) t.vehiclesUsed
  places : EachData (fun m => Fits 8 m.newest ∧ m.records.length ≤ 6552 ∧ ∀ r ∈ m.records, RawFits r.rawData 10 ∧ PlaceOk r) t.places
  currentUsage : EachData UsageOk t.currentUsage
  controlActivityData : EachData ControlOk t.controlActivityData
  specificConditions : EachData (fun m => m.records.length ≤ 13106 ∧ ∀ r ∈ m.records, ConditionOk r) t.specificConditions
  cardDownload : Each (fun m => TimeOk m.timestamp) t.cardDownload
  cardCertificate : Each RsaOk t.cardCertificate
  caCertificate : Each RsaOk t.caCertificate

/-- What is kept of a Gen1 application: everything but the signatures. -/
structure SameGen1 (t t' : Tachograph) : Prop where
  applicationIdentification : KeptSigned SameAppId t.applicationIdentification t'.applicationIdentification
  identification : KeptSigned SameIdentification t.identification t'.identification
  drivingLicenceInfo : KeptSigned SameLicence t.drivingLicenceInfo t'.drivingLicenceInfo
  eventsData : KeptSigned (List.Forall₂ SameEvent) t.eventsData t'.eventsData
  faultsData : KeptSigned (List.Forall₂ SameEvent) t.faultsData t'.faultsData
  driverActivityData : KeptSigned SameActivity t.driverActivityData t'.driverActivityData
  vehiclesUsed : KeptSigned (fun m m' => m'.newest = m.newest ∧ List.Forall₂ SameCardVehicle m.records m'.records)
    t.vehiclesUsed t'.vehiclesUsed
  places : KeptSigned (fun m m' => m'.newest = m.newest ∧ List.Forall₂ SamePlace m.records m'.records) t.places t'.places
  currentUsage : KeptSigned SameUsage t.currentUsage t'.currentUsage
  controlActivityData : KeptSigned SameControlActivity t.controlActivityData t'.controlActivityData
  specificConditions : KeptSigned (fun m m' => m'.records = m.records) t.specificConditions t'.specificConditions
  cardDownload : Kept (fun m m' => m' = m) t.cardDownload t'.cardDownload
  cardCertificate : KeptCertificate RsaCert.raw unmarshalRsa t.cardCertificate t'.cardCertificate
  caCertificate : KeptCertificate RsaCert.raw unmarshalRsa t.caCertificate t'.caCertificate

/-- A Gen2 application that can be written and read: no certificate for mutual authentication. Eight of its files
are not written, so they may be anything. -/
structure Gen2Ok (t : TachographG2) : Prop where
  applicationIdentification : EachData AppIdG2Ok t.applicationIdentification
  vehiclesUsed : EachData (fun m => Fits 16 m.newest ∧ m.records.length ≤ 1365 ∧
    ∀ r ∈ m.records, RawFits r.base.rawData 48 ∧ CardVehicleOk r.base ∧ VinOk r.vin) t.vehiclesUsed
  places : EachData (fun m => Fits 16 m.newest ∧ m.records.length ≤ 3120 ∧
    ∀ r ∈ m.records, RawFits r.base.rawData 21 ∧ PlaceOk r.base ∧ Has GnssOk r.gnss) t.places
  specificConditions : EachData ConditionsG2Ok t.specificConditions
  vehicleUnitsUsed : EachData (fun m => Fits 16 m.1 ∧ m.2.length ≤ 409 ∧ ∀ r ∈ m.2, UnitOk r) t.vehicleUnitsUsed
  gnssPlaces : EachData (fun m => Fits 16 m.1 ∧ m.2.length ≤ 3640 ∧ ∀ r ∈ m.2, GnssEntryOk r) t.gnssPlaces
  applicationIdentificationV2 : EachData AppIdV2Ok t.applicationIdentificationV2
  cardMaCertificate : Each (fun c => c.raw = []) t.cardMaCertificate
  cardSignCertificate : Each EccOk t.cardSignCertificate
  caCertificate : Each EccOk t.caCertificate
  linkCertificate : Each EccOk t.linkCertificate

/-- What is kept of a Gen2 application: seven files without their signatures and the certificates; the eight other
files are gone. -/
structure SameGen2 (t t' : TachographG2) : Prop where
  applicationIdentification : KeptSigned SameAppIdG2 t.applicationIdentification t'.applicationIdentification
  vehiclesUsed : KeptSigned (fun m m' => m'.newest = m.newest ∧
    List.Forall₂ (fun r r' => SameCardVehicle r.base r'.base ∧ r'.vin = r.vin) m.records m'.records) t.vehiclesUsed t'.vehiclesUsed
  places : KeptSigned (fun m m' => m'.newest = m.newest ∧ List.Forall₂ SamePlaceG2 m.records m'.records) t.places t'.places
  specificConditions : KeptSigned (fun m m' => m'.newest = m.newest ∧ m'.records = m.records) t.specificConditions t'.specificConditions
  vehicleUnitsUsed : KeptSigned (fun m m' => m' = m) t.vehicleUnitsUsed t'.vehicleUnitsUsed
  gnssPlaces : KeptSigned (fun m m' => m' = m) t.gnssPlaces t'.gnssPlaces
  applicationIdentificationV2 : KeptSigned (fun m m' => m' = m) t.applicationIdentificationV2 t'.applicationIdentificationV2
  cardMaCertificate : t'.cardMaCertificate = none
  cardSignCertificate : KeptCertificate EccCert.raw unmarshalEcc t.cardSignCertificate t'.cardSignCertificate
  caCertificate : KeptCertificate EccCert.raw unmarshalEcc t.caCertificate t'.caCertificate
  linkCertificate : KeptCertificate EccCert.raw unmarshalEcc t.linkCertificate t'.linkCertificate
  identification : t'.identification = none
  drivingLicenceInfo : t'.drivingLicenceInfo = none
  eventsData : t'.eventsData = none
  faultsData : t'.faultsData = none
  driverActivityData : t'.driverActivityData = none
  currentUsage : t'.currentUsage = none
  controlActivityData : t'.controlActivityData = none
  cardDownload : t'.cardDownload = none

/-- A driver card message that can be written and read. An absent application counts as an empty one. -/
structure CardOk (c : DriverCard) : Prop where
  icc : Has IccOk c.icc
  ic : Each IcOk c.ic
  gen1 : Gen1Ok (c.tachograph.getD {})
  gen2 : Gen2Ok (c.tachographG2.getD {})

/-- The same card. -/
structure SameCard (c c' : DriverCard) : Prop where
  icc : Both SameIcc c.icc c'.icc
  ic : Kept (fun m m' => m' = m) c.ic c'.ic
  gen1 : SameGen1 (c.tachograph.getD {}) (c'.tachograph.getD {})
  gen2 : SameGen2 (c.tachographG2.getD {}) (c'.tachographG2.getD {})

end Tacho.Spec
