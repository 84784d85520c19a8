import Verif.Spec.WriteRead
import Verif.Model.CardEF
/-!
# Elementary files that can be written, and what reading them back must give

Continues `Verif.Spec.WriteRead` with whole files of the card.
-/

namespace Tacho.Spec

/-- A structure version: two numbers of a tens digit up to fifteen and a decimal digit. -/
def VersionOk (v : CardStructureVersion) : Prop :=
  (∀ r, v.rawData = some r → r.length = 2) ∧ 0 ≤ v.major ∧ v.major < 160 ∧ 0 ≤ v.minor ∧ v.minor < 160

/-- The same version. -/
def SameVersion (v v' : CardStructureVersion) : Prop := v'.major = v.major ∧ v'.minor = v.minor

/-- The sizes in EF_Application_Identification. -/
def CountsOk (d : DriverCounts) : Prop :=
  Fits 8 d.eventsPerType ∧ Fits 8 d.faultsPerType ∧ Fits 16 d.activityLength ∧ Fits 16 d.vehicleRecords ∧ Fits 8 d.placeRecords

/-- The sizes in EF_Application_Identification of the second generation. -/
def CountsG2Ok (d : DriverCountsG2) : Prop :=
  Fits 8 d.eventsPerType ∧ Fits 8 d.faultsPerType ∧ Fits 16 d.activityLength ∧ Fits 16 d.vehicleRecords ∧ Fits 16 d.placeRecords ∧
  Fits 16 d.gnssRecords ∧ Fits 16 d.conditionRecords ∧ Fits 16 d.vehicleUnitRecords

/-- EF_ICC: clock stop mode, serial number, approval number of 8, one byte, country and embedder of 2 characters
and one byte, two bytes. -/
def IccOk (m : Icc) : Prop :=
  Named clockStopModeTable m.clockStop ∧ Has SerialOk m.serialNumber ∧ Has (Ia5Ok 8) m.approvalNumber ∧ Fits 8 m.personaliserId ∧
  Has (fun e => Has (Ia5Ok 2) e.countryCode ∧ Has (Ia5Ok 2) e.moduleEmbedder ∧ Fits 8 e.manufacturerInformation) m.embedder ∧
  m.icIdentifier.length = 2

/-- The same EF_ICC. -/
def SameIcc (m m' : Icc) : Prop :=
  m'.clockStop = m.clockStop ∧ Both SameSerial m.serialNumber m'.serialNumber ∧ Both SameIa5 m.approvalNumber m'.approvalNumber ∧
  m'.personaliserId = m.personaliserId ∧
  Both (fun e e' => Both SameIa5 e.countryCode e'.countryCode ∧ Both SameIa5 e.moduleEmbedder e'.moduleEmbedder ∧
    e'.manufacturerInformation = e.manufacturerInformation) m.embedder m'.embedder ∧
  m'.icIdentifier = m.icIdentifier

/-- The five flags of a control. -/
def SameControl (c c' : ControlType) : Prop :=
  c'.cardDownloading = c.cardDownloading ∧ c'.vuDownloading = c.vuDownloading ∧ c'.printing = c.printing ∧
  c'.display = c.display ∧ c'.calibrationChecking = c.calibrationChecking

/-- Text of at most `w` bytes without padding to remove: what EF_Identification keeps of a card number is its decoded
value only. -/
def NumberOk (w : Nat) (s : Ia5StringValue) : Prop := s.value.length ≤ w ∧ WholeText s.value

/-- A one-character index with a given condition on the character. -/
def IndexOk (P : UInt8 → Prop) (s : Ia5StringValue) : Prop := ∃ b, s.value = [b] ∧ P b

/-- An index of an owner's number: blank, or one character. -/
def IndexText (s : Ia5StringValue) : Prop := s.value = [] ∨ IndexOk (fun b => b < 128 ∧ ¬ Blank b) s

/-- All fields but the raw data are the same, and the mark `valid`, which is not written, is unset. -/
def SamePlace (m m' : PlaceRecord) : Prop := { m' with rawData := m.rawData, valid := m.valid } = m ∧ m'.valid = false

/-- The same for the second generation. -/
def SamePlaceG2 (m m' : PlaceRecordG2) : Prop := SamePlace m.base m'.base ∧ m'.gnss = m.gnss

/-- A record of EF_GNSS_Places: the odometer value is refused above 999 999 km. -/
def GnssEntryOk (r : GnssPlaceEntry) : Prop :=
  TimeOk r.timestamp ∧ Has GnssOk r.place ∧ 0 ≤ r.odometerKm ∧ r.odometerKm ≤ 999999

/-- A record of EF_Vehicle_Units_Used. -/
def UnitOk (r : VehicleUnitRecord) : Prop :=
  TimeOk r.timestamp ∧ Fits 8 r.manufacturerCode ∧ r.deviceId.length = 1 ∧ r.softwareVersion.length = 4

variable [Charmap]

/-- EF_Current_Usage. -/
def UsageOk (m : CurrentUsage) : Prop := TimeOk m.openTime ∧ Has RegOk m.vehicle

/-- The same EF_Current_Usage. -/
def SameUsage (m m' : CurrentUsage) : Prop := m'.openTime = m.openTime ∧ Both SameReg m.vehicle m'.vehicle

/-- EF_Driving_Licence_Info: authority of 35 characters, nation, number of 16 characters. -/
def LicenceOk (m : DrivingLicenceInfo) : Prop :=
  Has (TextOk 35) m.authority ∧ Named nationNumericTable m.nation ∧ Has (Ia5Ok 16) m.number

/-- The same EF_Driving_Licence_Info. -/
def SameLicence (m m' : DrivingLicenceInfo) : Prop :=
  Both SameText m.authority m'.authority ∧ m'.nation = m.nation ∧ Both SameIa5 m.number m'.number

/-- EF_Control_Activity_Data. With a control in it: the control card is held as a "driver" number of 18
characters, which is what the parser makes of any control card. Unused: if its raw data have the size of the file,
they have a zero time. -/
def ControlOk (m : ControlActivity) : Prop :=
  (m.valid = true ∧ (∃ c, m.controlType = some c) ∧ TimeOk m.controlTime ∧ m.controlTime ≠ none ∧
    Has (fun c => Has (fun n => n.cardType = equipmentType_driverCard ∧ Has (fun d => Has (Ia5Ok 18) d.number) n.driver) c.number) m.cardNumber ∧
    Has RegOk m.registration ∧ TimeOk m.periodBegin ∧ TimeOk m.periodEnd) ∨
  (m.valid = false ∧ ((m.rawData.getD []).length = 46 → sl (m.rawData.getD []) 1 5 = [0, 0, 0, 0]))

/-- The same control. An unused file stays unused, with its raw data, or 46 zero bytes if these have another size. -/
def SameControlActivity (m m' : ControlActivity) : Prop :=
  m'.valid = m.valid ∧
  (m.valid = true → Both SameControl m.controlType m'.controlType ∧ m'.controlTime = m.controlTime ∧
    Both (fun c c' => Both (fun n n' => n'.cardType = n.cardType ∧ Both SameDriverId n.driver n'.driver) c.number c'.number)
      m.cardNumber m'.cardNumber ∧
    Both SameReg m.registration m'.registration ∧ m'.periodBegin = m.periodBegin ∧ m'.periodEnd = m.periodEnd) ∧
  (m.valid = false → m' = ⟨false, some (if (m.rawData.getD []).length = 46 then m.rawData.getD [] else List.replicate 46 0),
    none, none, none, none, none, none⟩)

/-- A used event or fault record: a known type and a begin time. An unused one: 24 bytes with a zero begin time. -/
def EventOk (m : EventRecord) : Prop :=
  (m.valid = true ∧ Named eventFaultTypeTable m.type ∧ TimeOk m.beginTime ∧ m.beginTime ≠ none ∧ TimeOk m.endTime ∧
    Has RegOk m.registration) ∨
  (m.valid = false ∧ ∃ r, m.rawData = some r ∧ r.length = 24 ∧ sl r 1 5 = [0, 0, 0, 0])

/-- The same event or fault. -/
def SameEvent (m m' : EventRecord) : Prop :=
  m'.valid = m.valid ∧ (m.valid = false → m'.rawData = m.rawData) ∧
  (m.valid = true → m'.type = m.type ∧ m'.beginTime = m.beginTime ∧ m'.endTime = m.endTime ∧ Both SameReg m.registration m'.registration)

/-- The card part of EF_Identification. The number is a driver's (two digits as indices) or an owner's (of the two
indices at least one is no digit, or it would be read as a driver's). -/
def CardIdentOk (m : CardIdent) : Prop :=
  Named nationNumericTable m.issuingState ∧
  ((Has (fun d => Has (NumberOk 14) d.number ∧ Has (IndexOk Digit) d.replacement ∧ Has (IndexOk Digit) d.renewal) m.driver ∧ m.owner = none) ∨
   (m.driver = none ∧ Has (fun o => Has (NumberOk 13) o.owner ∧ Has IndexText o.consecutive ∧ Has IndexText o.replacement ∧
      Has IndexText o.renewal ∧ ¬ (Has (IndexOk Digit) o.replacement ∧ Has (IndexOk Digit) o.renewal)) m.owner)) ∧
  Has (TextOk 35) m.authority ∧ TimeOk m.issueDate ∧ TimeOk m.validityBegin ∧ TimeOk m.expiryDate
where
  /-- A decimal digit. -/
  Digit (b : UInt8) : Prop := 0x30 ≤ b ∧ b ≤ 0x39

/-- The same text (EF_Identification keeps the text of a number, not its raw bytes). -/
def SameValue (s s' : Ia5StringValue) : Prop := s'.value = s.value

/-- The same card part: which kind of number it is, the number and its indices, authority and dates. -/
def SameCardIdent (m m' : CardIdent) : Prop :=
  m'.issuingState = m.issuingState ∧
  ((Both (fun d d' => Both SameValue d.number d'.number ∧ Both SameValue d.replacement d'.replacement ∧ Both SameValue d.renewal d'.renewal)
      m.driver m'.driver ∧ m'.owner = none) ∨
   (m'.driver = none ∧ Both (fun o o' => Both SameValue o.owner o'.owner ∧ Both SameValue o.consecutive o'.consecutive ∧
      Both SameValue o.replacement o'.replacement ∧ Both SameValue o.renewal o'.renewal) m.owner m'.owner)) ∧
  Both SameText m.authority m'.authority ∧ m'.issueDate = m.issueDate ∧ m'.validityBegin = m.validityBegin ∧ m'.expiryDate = m.expiryDate

/-- The holder: two names of 35 characters, a birth date, a language of two characters. -/
def HolderOk (h : DriverHolder) : Prop :=
  Has (TextOk 35) h.surname ∧ Has (TextOk 35) h.firstNames ∧ Has DateOk h.birthDate ∧ Has (Ia5Ok 2) h.language

/-- The same holder. -/
def SameHolder (h h' : DriverHolder) : Prop :=
  Both SameText h.surname h'.surname ∧ Both SameText h.firstNames h'.firstNames ∧ Both SameDate h.birthDate h'.birthDate ∧
  Both SameIa5 h.language h'.language

end Tacho.Spec
