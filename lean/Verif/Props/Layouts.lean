import Verif.Props.Regulation
import Verif.Props.RecordFiles
/-!
# C54: record fields sit where the regulation puts them

The layouts are those of Spec/Regulation.lean. `L.get "x" d` is the bytes of element `x` of a record `d` laid
out as `L`; `L.size` is the size of such a record.
-/

namespace Tacho
open Spec Spec.Regulation

/-- The element is a single byte, and the byte satisfies `P`. -/
def Spec.Regulation.ByteIs (bs : Bytes) (P : UInt8 → Prop) : Prop := ∃ b, bs = [b] ∧ P b

private theorem sl_td (d : Bytes) (lo hi : Nat) : sl d lo hi = (d.drop lo).take (hi - lo) := by
  unfold sl
  rw [List.drop_take]

private theorem byteIs_of {d : Bytes} {i : Nat} {P : UInt8 → Prop} (h : ByteAt d i P) :
    ByteIs ((d.drop i).take 1) P := by
  obtain ⟨b, hb, hp⟩ := h
  refine ⟨b, ?_, hp⟩
  obtain ⟨hi, rfl⟩ := List.getElem?_eq_some_iff.1 hb
  have := sl_eq_singleton hi
  rw [sl_td] at this
  simpa using this

private theorem byteIs_of' {d : Bytes} {i : Nat} {P : UInt8 → Prop} (h : ∃ b, d[i]? = some b ∧ P b) :
    ByteIs ((d.drop i).take 1) P := byteIs_of h

variable [Charmap]

/-! ## Records -/

/-- C54: CardIccIdentification. -/
theorem icc_regulation (d : Bytes) (m : Icc) (h : unmarshalIcc d = .ok m) :
    let get := cardIccIdentification.get
    cardIccIdentification.size ≤ d.length ∧
    ByteIs (get "clockStop" d) (fun b => (m.clockStop, some b.toNat) ∈ clockStopModeTable) ∧
    (∃ e my, m.serialNumber = some e ∧ e.serialNumber = (beNat ((get "cardExtendedSerialNumber" d).take 4) : Int) ∧
      unmarshalMonthYear (((get "cardExtendedSerialNumber" d).drop 4).take 2) = .ok my ∧ e.monthYear = some my ∧
      ByteIs (((get "cardExtendedSerialNumber" d).drop 6).take 1) (fun b => (e.type, some b.toNat) ∈ equipmentTypeTable) ∧
      ByteIs (((get "cardExtendedSerialNumber" d).drop 7).take 1) (fun b => e.manufacturerCode = b.toNat)) ∧
    (∃ s, unmarshalIa5StringValue (get "cardApprovalNumber" d) = .ok s ∧ m.approvalNumber = some s) ∧
    ByteIs (get "cardPersonaliserID" d) (fun b => m.personaliserId = b.toNat) ∧
    (∃ e c s, m.embedder = some e ∧ e.countryCode = some c ∧ e.moduleEmbedder = some s ∧
      unmarshalIa5StringValue ((get "embedderIcAssemblerId" d).take 2) = .ok c ∧
      unmarshalIa5StringValue (((get "embedderIcAssemblerId" d).drop 2).take 2) = .ok s ∧
      ByteIs (((get "embedderIcAssemblerId" d).drop 4).take 1) (fun b => e.manufacturerInformation = b.toNat)) ∧
    m.icIdentifier = get "icIdentifier" d := by
  obtain ⟨h1, ⟨e, my, h2, h3, h12, h13, h14, h15⟩, h4, h5, ⟨e', c, s, b, h6, h7, h8, h9, h10, h16, h17⟩, h11⟩ := icc_fields d m h
  have hl := ((icc_accepts_iff d).1 ⟨m, h⟩).1
  simp [Layout.get, cardIccIdentification, Layout.size, List.take_take, List.drop_take, -List.drop_one]
  simp only [sl_td] at *
  refine ⟨by omega, byteIs_of' (i := 0) h1, ⟨e, h2, h3, my, h12, h13, byteIs_of' h14, byteIs_of' h15⟩, h4, byteIs_of' h5,
    ⟨e', h6, c, h8, s, h10, h7, h9, byteIs_of' ⟨b, h16, h17⟩⟩, h11⟩

/-- C54: CardChipIdentification. -/
theorem ic_regulation (d : Bytes) (m : Ic) (h : unmarshalIc d = .ok m) :
    cardChipIdentification.size ≤ d.length ∧
    m.serialNumber = cardChipIdentification.get "icSerialNumber" d ∧
    m.manufacturingReferences = cardChipIdentification.get "icManufacturingReferences" d := by
  have hl := (ic_accepts_iff d).1 ⟨m, h⟩
  obtain ⟨h1, h2⟩ := ic_fields d m h
  simp [Layout.get, cardChipIdentification, Layout.size]
  simp only [sl_td] at *
  exact ⟨hl, h1, h2⟩

/-- C54: DriverCardApplicationIdentification, generation 1. -/
theorem appId_regulation (d : Bytes) (m : AppId) (h : unmarshalAppId d = .ok m) :
    let get := applicationIdentificationG1.get
    d.length = applicationIdentificationG1.size ∧
    ByteIs (get "typeOfTachographCardId" d) (fun b => (m.typeOfCard, some b.toNat) ∈ equipmentTypeTable) ∧
    (∃ v, unmarshalCardStructureVersion (get "cardStructureVersion" d) = .ok v ∧ m.structureVersion = some v) ∧
    ∃ c, m.driver = some c ∧ ByteIs (get "noOfEventsPerType" d) (fun b => c.eventsPerType = b.toNat) ∧
      ByteIs (get "noOfFaultsPerType" d) (fun b => c.faultsPerType = b.toNat) ∧
      c.activityLength = beNat (get "activityStructureLength" d) ∧
      c.vehicleRecords = beNat (get "noOfCardVehicleRecords" d) ∧
      ByteIs (get "noOfCardPlaceRecords" d) (fun b => c.placeRecords = b.toNat) := by
  have hl := ((appId_accepts_iff d).1 ⟨m, h⟩).1
  obtain ⟨h1, h2, c, h3, h4, h5, h6, h7, h8⟩ := appId_fields d m h
  simp [Layout.get, applicationIdentificationG1, Layout.size, -List.drop_one]
  simp only [sl_td] at *
  exact ⟨hl, byteIs_of' (i := 0) h1, h2, c, h3, byteIs_of' h4, byteIs_of' h5, h6, h7, byteIs_of' h8⟩

/-- C54: DriverCardApplicationIdentification, generation 2. -/
theorem appIdG2_regulation (d : Bytes) (m : AppIdG2) (h : unmarshalAppIdG2 d = .ok m) :
    let get := applicationIdentificationG2.get
    d.length = applicationIdentificationG2.size ∧
    ByteIs (get "typeOfTachographCardId" d) (fun b => (m.typeOfCard, some b.toNat) ∈ equipmentTypeTable) ∧
    (∃ v, unmarshalCardStructureVersion (get "cardStructureVersion" d) = .ok v ∧ m.structureVersion = some v) ∧
    ∃ c, m.driver = some c ∧ ByteIs (get "noOfEventsPerType" d) (fun b => c.eventsPerType = b.toNat) ∧
      ByteIs (get "noOfFaultsPerType" d) (fun b => c.faultsPerType = b.toNat) ∧
      c.activityLength = beNat (get "activityStructureLength" d) ∧
      c.vehicleRecords = beNat (get "noOfCardVehicleRecords" d) ∧
      c.placeRecords = beNat (get "noOfCardPlaceRecords" d) ∧
      c.gnssRecords = beNat (get "noOfGNSSADRecords" d) ∧
      c.conditionRecords = beNat (get "noOfSpecificConditionRecords" d) ∧
      c.vehicleUnitRecords = beNat (get "noOfCardVehicleUnitRecords" d) := by
  have hl := ((appIdG2_accepts_iff d).1 ⟨m, h⟩).1
  obtain ⟨h1, h2, c, h3, h4, h5, h6, h7, h8, h9, h10, h11⟩ := appIdG2_fields d m h
  simp [Layout.get, applicationIdentificationG2, Layout.size, -List.drop_one]
  simp only [sl_td] at *
  exact ⟨hl, byteIs_of' (i := 0) h1, h2, c, h3, byteIs_of' h4, byteIs_of' h5, h6, h7, h8, h9, h10, h11⟩

/-- C54: CardIdentification and DriverCardHolderIdentification. -/
theorem identification_regulation (d : Bytes) (m : Identification) (h : unmarshalIdentification d = .ok m) :
    let get := identification.get
    identification.size ≤ d.length ∧ ∃ c p, m.card = some c ∧ m.driverHolder = some p ∧
    ByteIs (get "cardIssuingMemberState" d) (fun b => CodedLossy nationNumericTable b c.issuingState) ∧
    (m.cardType = .driverCard → ∃ n r w, c.driver = some ⟨some n, some r, some w⟩ ∧
      unmarshalIa5StringValue ((get "cardNumber" d).take 14) = .ok n ∧
      unmarshalIa5StringValue (((get "cardNumber" d).drop 14).take 1) = .ok r ∧
      unmarshalIa5StringValue (((get "cardNumber" d).drop 15).take 1) = .ok w) ∧
    (∃ s, unmarshalStringValue (get "cardIssuingAuthorityName" d) = .ok s ∧ c.authority = some s) ∧
    c.issueDate = instant (get "cardIssueDate" d) ∧ c.validityBegin = instant (get "cardValidityBegin" d) ∧
    c.expiryDate = instant (get "cardExpiryDate" d) ∧
    (∃ s, unmarshalStringValue (get "holderSurname" d) = .ok s ∧ p.surname = some s) ∧
    (∃ s, unmarshalStringValue (get "holderFirstNames" d) = .ok s ∧ p.firstNames = some s) ∧
    (∃ s, unmarshalDate (get "cardHolderBirthDate" d) = .ok s ∧ p.birthDate = some s) ∧
    (∃ s, unmarshalIa5StringValue (get "cardHolderPreferredLanguage" d) = .ok s ∧ p.language = some s) := by
  have hl := (identification_accepts_iff d).1 ⟨m, h⟩
  obtain ⟨c, p, h1, h2, h3, h4, -, h5, h6, h7, h8, h9, h10, h11, h12⟩ := identification_fields d m h
  simp [Layout.get, identification, Layout.size, List.take_take, List.drop_take, -List.drop_one]
  simp only [sl_td] at *
  refine ⟨hl, c, h1, p, h2, byteIs_of' (i := 0) h3, fun hd => ?_, h5, h6, h7, h8, h9, h10, h11, h12⟩
  obtain ⟨-, n, r, w, e, q1, q2, q3⟩ := h4 hd
  exact ⟨n, r, w, e, q1, q2, q3⟩

/-- C54: LastCardDownload. -/
theorem cardDownload_regulation (d : Bytes) (m : CardDownload) (h : unmarshalCardDownload d = .ok m) :
    cardDownload.size ≤ d.length ∧ m.timestamp = instant (cardDownload.get "LastCardDownload" d) := by
  have hl := (cardDownload_accepts_iff d).1 ⟨m, h⟩
  simp [Layout.get, cardDownload, Layout.size]
  exact ⟨hl, cardDownload_fields d m h⟩

/-- C54: CardDrivingLicenceInformation. -/
theorem drivingLicence_regulation (d : Bytes) (m : DrivingLicenceInfo) (h : unmarshalDrivingLicenceInfo d = .ok m) :
    let get := drivingLicence.get
    drivingLicence.size ≤ d.length ∧
    (∃ s, unmarshalStringValue (get "drivingLicenceIssuingAuthority" d) = .ok s ∧ m.authority = some s) ∧
    ByteIs (get "drivingLicenceIssuingNation" d) (fun b => CodedLossy nationNumericTable b m.nation) ∧
    (∃ s, unmarshalIa5StringValue (get "drivingLicenceNumber" d) = .ok s ∧ m.number = some s) := by
  have hl := (drivingLicence_accepts_iff d).1 ⟨m, h⟩
  obtain ⟨h1, h2, h3⟩ := drivingLicence_fields d m h
  simp [Layout.get, drivingLicence, Layout.size, -List.drop_one]
  simp only [sl_td] at *
  exact ⟨hl, h1, byteIs_of' h2, h3⟩

/-- C54: CardCurrentUse. -/
theorem currentUsage_regulation (d : Bytes) (m : CurrentUsage) (h : unmarshalCurrentUsage d = .ok m) :
    currentUse.size ≤ d.length ∧ m.openTime = instant (currentUse.get "sessionOpenTime" d) ∧
    ∃ r, unmarshalVehicleRegistration (currentUse.get "sessionOpenVehicle" d) = .ok r ∧ m.vehicle = some r := by
  have hl := (currentUsage_accepts_iff d).1 ⟨m, h⟩
  obtain ⟨h1, h2⟩ := currentUsage_fields d m h
  simp [Layout.get, currentUse, Layout.size, -List.drop_one]
  simp only [sl_td] at *
  exact ⟨hl, h1, h2⟩

/-- C54: CardControlActivityDataRecord of a card that was controlled (a control time other than zero). The
flags of the control type are the bits c, v, p, d, e of DD 2.53 from the most significant one down. The
control card number is in its place but is read as a text of 18 characters (finding). -/
theorem controlActivity_regulation (d : Bytes) (m : ControlActivity) (h : unmarshalControlActivity d = .ok m)
    (hz : beNat (controlActivity.get "controlTime" d) ≠ 0) :
    let get := controlActivity.get
    controlActivity.size ≤ d.length ∧
    ByteIs (get "controlType" d) (fun b => ∃ c, m.controlType = some c ∧ c.cardDownloading = b.toNat.testBit 7 ∧
      c.vuDownloading = b.toNat.testBit 6 ∧ c.printing = b.toNat.testBit 5 ∧ c.display = b.toNat.testBit 4 ∧
      c.calibrationChecking = b.toNat.testBit 3) ∧
    m.controlTime = instant (get "controlTime" d) ∧
    (∃ s, unmarshalIa5StringValue (get "controlCardNumber" d) = .ok s ∧
      m.cardNumber = some ⟨some ⟨equipmentType_driverCard, 0, some ⟨some s, none, none⟩, none⟩, 1⟩) ∧
    (∃ r, unmarshalVehicleRegistration (get "controlVehicleRegistration" d) = .ok r ∧ m.registration = some r) ∧
    m.periodBegin = instant (get "controlDownloadPeriodBegin" d) ∧
    m.periodEnd = instant (get "controlDownloadPeriodEnd" d) := by
  have hl := (controlActivity_accepts_iff d).1 ⟨m, h⟩
  simp [Layout.get, controlActivity, -List.drop_one] at hz
  obtain ⟨⟨b, c, h1, h1'⟩, h2, h3, h4, h5, h6⟩ := controlActivity_fields d m h (by rw [sl_td]; exact hz)
  simp [Layout.get, controlActivity, Layout.size, -List.drop_one]
  simp only [sl_td] at *
  exact ⟨hl, byteIs_of' (i := 0) ⟨b, h1, c, h1'⟩, h2, h3, h4, h5, h6⟩

/-- C54: CardEventRecord and CardFaultRecord. -/
theorem eventRecord_regulation (d : Bytes) (m : EventRecord) (h : unmarshalEventRecord d = .ok m) :
    let get := eventRecord.get
    eventRecord.size ≤ d.length ∧
    ByteIs (get "eventType" d) (fun b => enumName eventFaultTypeNames m.type = eventFault.nameOf b ∧ eventFault.nameOf b ≠ none) ∧
    m.beginTime = instant (get "eventBeginTime" d) ∧ m.endTime = instant (get "eventEndTime" d) ∧
    ∃ r, m.registration = some r ∧
      unmarshalVehicleRegistration (get "vehicleRegistrationNation" d ++ get "vehicleRegistrationNumber" d) = .ok r := by
  obtain ⟨hl, b, t, tb, te, reg, hb, ht, h1, h2, h3, rfl⟩ := eventRecord_parse h
  have hs : sl d 9 24 = sl d 9 10 ++ sl d 10 24 := (sl_append (by omega) (by omega)).symm
  rw [hs] at h3
  simp [Layout.get, eventRecord, Layout.size, -List.drop_one]
  refine ⟨hl, ⟨b, by simpa [sl_td] using hb, eventFaultType_regulation b |>.1 t ht⟩, ?_, ?_, ?_⟩
  · simpa [sl_td, -List.drop_one] using timeReal_instant h1
  · simpa [sl_td] using timeReal_instant h2
  · simpa [sl_td] using h3

/-- C54: the elements a place record has in both generations. -/
theorem place_regulation (d : Bytes) (m : PlaceRecord) (h : unmarshalPlaceRecord d = .ok m) :
    let get := placeRecordG1.get
    d.length = placeRecordG1.size ∧ m.entryTime = instant (get "entryTime" d) ∧
    ByteIs (get "entryTypeDailyWorkPeriod" d)
      (fun b => Coded entryTypeDailyWorkPeriodTable b m.entryType m.unrecognizedEntryType) ∧
    ByteIs (get "dailyWorkPeriodCountry" d) (fun b => Coded nationNumericTable b m.country m.unrecognizedCountry) ∧
    m.region = get "dailyWorkPeriodRegion" d ∧ m.odometerKm = beNat (get "vehicleOdometerValue" d) := by
  have hl := (place_accepts_iff d).1 ⟨m, h⟩
  obtain ⟨_, h1, h2, h3, h4, h5⟩ := place_fields d m h
  simp [Layout.get, placeRecordG1, Layout.size, -List.drop_one]
  simp only [sl_td] at *
  refine ⟨hl, h1, byteIs_of h2, byteIs_of h3, ?_, h5⟩
  obtain ⟨b, e, hr⟩ := byteIs_of h4
  rw [e, hr]

/-- C54: PlaceRecord, generation 2. -/
theorem placeG2_regulation (d : Bytes) (m : PlaceRecordG2) (h : unmarshalPlaceRecordG2 d = .ok m) :
    let get := placeRecordG2.get
    d.length = placeRecordG2.size ∧ m.base.entryTime = instant (get "entryTime" d) ∧
    ByteIs (get "entryTypeDailyWorkPeriod" d)
      (fun b => Coded entryTypeDailyWorkPeriodTable b m.base.entryType m.base.unrecognizedEntryType) ∧
    ByteIs (get "dailyWorkPeriodCountry" d)
      (fun b => Coded nationNumericTable b m.base.country m.base.unrecognizedCountry) ∧
    m.base.region = get "dailyWorkPeriodRegion" d ∧ m.base.odometerKm = beNat (get "vehicleOdometerValue" d) ∧
    ∃ g, m.gnss = some g ∧ unmarshalGNSSPlaceRecord (get "entryGNSSPlaceRecord" d) = .ok g := by
  have hl := (placeG2_accepts_iff d).1 ⟨m, h⟩
  obtain ⟨⟨_, h1, h2, h3, h4, h5⟩, h6⟩ := placeG2_fields d m h
  simp [Layout.get, placeRecordG2, placeRecordG1, Layout.size, -List.drop_one]
  simp only [sl_td] at *
  refine ⟨hl, h1, byteIs_of h2, byteIs_of h3, ?_, h5, h6⟩
  obtain ⟨b, e, hr⟩ := byteIs_of h4
  rw [e, hr]

/-- C54: GNSSPlaceRecord. -/
theorem gnss_regulation (d : Bytes) (m : GNSSPlaceRecord) (h : unmarshalGNSSPlaceRecord d = .ok m) :
    let get := gnssPlaceRecord.get
    d.length = gnssPlaceRecord.size ∧ m.timestamp = instant (get "timeStamp" d) ∧
    ByteIs (get "gnssAccuracy" d) (fun b => m.accuracy = b.toNat) ∧
    ∃ g, m.geo = some g ∧ IsInt24 (get "latitude" d) g.latitude ∧ IsInt24 (get "longitude" d) g.longitude := by
  have hl := (gnss_accepts_iff d).1 ⟨m, h⟩
  obtain ⟨h1, h2, h3⟩ := gnss_fields d m h
  simp [Layout.get, gnssPlaceRecord, Layout.size, -List.drop_one]
  simp only [sl_td] at *
  exact ⟨hl, h1, byteIs_of h2, h3⟩

/-- C54: GNSSAccumulatedDrivingRecord. -/
theorem gnssEntry_regulation (d : Bytes) (m : GnssPlaceEntry) (h : unmarshalGnssPlaceEntry d = .ok m) :
    let get := gnssAccumulatedDriving.get
    d.length = gnssAccumulatedDriving.size ∧ m.timestamp = instant (get "timeStamp" d) ∧
    (∃ g, unmarshalGNSSPlaceRecord (get "gnssPlaceRecord" d) = .ok g ∧ m.place = some g) ∧
    m.odometerKm = (beNat (get "vehicleOdometerValue" d) : Int) := by
  have hl := (gnssEntry_accepts_iff d).1 ⟨m, h⟩
  obtain ⟨h1, h2, h3⟩ := gnssEntry_fields d m h
  simp [Layout.get, gnssAccumulatedDriving, Layout.size, -List.drop_one]
  simp only [sl_td] at *
  exact ⟨hl, h1, h2, h3⟩

/-- C54: SpecificConditionRecord; the condition carries the regulation's name, or is kept as "unrecognized". -/
theorem specificCondition_regulation (d : Bytes) (m : SpecificConditionRecord)
    (h : unmarshalSpecificConditionRecord d = .ok m) :
    let get := specificConditionRecord.get
    d.length = specificConditionRecord.size ∧ m.entryTime = instant (get "entryTime" d) ∧
    ByteIs (get "specificConditionType" d) (fun b =>
      (∀ n, specificCondition.nameOf b = some n → enumName specificConditionTypeNames m.type = some n ∧ m.unrecognizedType = none) ∧
      (specificCondition.nameOf b = none → m.type = 1 ∧ m.unrecognizedType = some b.toNat)) := by
  have hl := (specificCondition_accepts_iff d).1 ⟨m, h⟩
  obtain ⟨h1, h2⟩ := specificCondition_fields d m h
  simp [Layout.get, specificConditionRecord, Layout.size, -List.drop_one]
  simp only [sl_td] at *
  refine ⟨hl, h1, ?_⟩
  obtain ⟨b, e, hc⟩ := byteIs_of h2
  exact ⟨b, e, coded_regulation specificConditionType_regulation (by decide) hc⟩

/-- C54: CardVehicleRecord, generation 1. -/
theorem vehicle_regulation (d : Bytes) (m : CardVehicleRecord) (h : unmarshalCardVehicleRecord d = .ok m) :
    let get := vehicleRecordG1.get
    d.length = vehicleRecordG1.size ∧
    m.odometerBegin = beNat (get "vehicleOdometerBegin" d) ∧ m.odometerEnd = beNat (get "vehicleOdometerEnd" d) ∧
    m.firstUse = instant (get "vehicleFirstUse" d) ∧ m.lastUse = instant (get "vehicleLastUse" d) ∧
    (∃ r, m.registration = some r ∧ unmarshalVehicleRegistration (get "vehicleRegistration" d) = .ok r) ∧
    m.counter = some ⟨bcdPair (get "vuDataBlockCounter" d), 2⟩ := by
  have hl : d.length = 31 := by
    unfold unmarshalCardVehicleRecord at h
    by_cases hl : d.length = 31
    · exact hl
    · simp [hl] at h
  obtain ⟨_, h1, h2, h3, h4, h5, h6⟩ := cardVehicle_fields d m h
  simp [Layout.get, vehicleRecordG1, Layout.size, -List.drop_one]
  simp only [sl_td] at *
  exact ⟨hl, h1, h2, h3, h4, h5, h6⟩

/-- C54: CardVehicleRecord, generation 2. -/
theorem vehicleG2_regulation (d : Bytes) (m : CardVehicleRecordG2) (h : unmarshalCardVehicleRecordG2 d = .ok m) :
    let get := vehicleRecordG2.get
    d.length = vehicleRecordG2.size ∧
    m.base.odometerBegin = beNat (get "vehicleOdometerBegin" d) ∧ m.base.odometerEnd = beNat (get "vehicleOdometerEnd" d) ∧
    m.base.firstUse = instant (get "vehicleFirstUse" d) ∧ m.base.lastUse = instant (get "vehicleLastUse" d) ∧
    (∃ r, m.base.registration = some r ∧ unmarshalVehicleRegistration (get "vehicleRegistration" d) = .ok r) ∧
    m.base.counter = some ⟨bcdPair (get "vuDataBlockCounter" d), 2⟩ ∧
    Unfilled (get "vehicleIdentificationNumber" d) m.vin := by
  obtain ⟨hl, b, hb, hm⟩ := cardVehicleG2_parse h
  obtain ⟨_, h1, h2, h3, h4, h5, h6⟩ := cardVehicleG2_fields d m h
  have hv := cardVehicleG2_vin_exact d m h
  simp [Layout.get, vehicleRecordG2, vehicleRecordG1, Layout.size, -List.drop_one]
  simp only [sl_td] at *
  exact ⟨hl, h1, h2, h3, h4, h5, h6, hv⟩

/-! ## Files of records -/

private theorem recordsAre_forall₂ {α : Type} {f : Bytes → Res α} {d : Bytes} {rs : List α} (F : CyclicFile)
    (h : RecordsAre f F.pointer F.record.size d rs) :
    List.Forall₂ (fun x r => f x = .ok r) (F.recordsOf d) rs := by
  obtain ⟨h1, h2⟩ := h
  rw [List.forall₂_iff_get]
  refine ⟨by simp [CyclicFile.recordsOf, h1, recordCount], fun i hi hi' => ?_⟩
  have := h2 i hi'
  simpa [CyclicFile.recordsOf, record, List.drop_drop, Nat.add_comm, sl_td] using this

/-- C54: EF Vehicles_Used, generation 1: pointer, then the records in file order. -/
theorem vehiclesUsed_regulation (d : Bytes) (m : RecordFile CardVehicleRecord) (h : unmarshalVehiclesUsed d = .ok m) :
    m.newest = (vehiclesUsedG1.newest d : Int) ∧
    List.Forall₂ (fun x r => unmarshalCardVehicleRecord x = .ok r) (vehiclesUsedG1.recordsOf d) m.records := by
  obtain ⟨_, _, h1, h2⟩ := (vehiclesUsed_ok_iff d m).1 h
  exact ⟨by rw [h1, CyclicFile.newest, take_eq_sl]; rfl, recordsAre_forall₂ vehiclesUsedG1 h2⟩

/-- C54: EF Vehicles_Used, generation 2. -/
theorem vehiclesUsedG2_regulation (d : Bytes) (m : RecordFile CardVehicleRecordG2) (h : unmarshalVehiclesUsedG2 d = .ok m) :
    m.newest = (vehiclesUsedG2.newest d : Int) ∧
    List.Forall₂ (fun x r => unmarshalCardVehicleRecordG2 x = .ok r) (vehiclesUsedG2.recordsOf d) m.records := by
  obtain ⟨_, _, h1, h2⟩ := (vehiclesUsedG2_ok_iff d m).1 h
  exact ⟨by rw [h1, CyclicFile.newest, take_eq_sl]; rfl, recordsAre_forall₂ vehiclesUsedG2 h2⟩

/-- C54: EF Places, generation 1. -/
theorem places_regulation (d : Bytes) (m : RecordFile PlaceRecord) (h : unmarshalPlaces d = .ok m) :
    m.newest = (placesG1.newest d : Int) ∧
    List.Forall₂ (fun x r => unmarshalPlaceRecord x = .ok r) (placesG1.recordsOf d) m.records := by
  obtain ⟨_, _, h1, h2⟩ := (places_ok_iff d m).1 h
  exact ⟨by rw [h1, CyclicFile.newest, take_eq_sl]; rfl, recordsAre_forall₂ placesG1 h2⟩

/-- C54: EF Places, generation 2. -/
theorem placesG2_regulation (d : Bytes) (m : RecordFile PlaceRecordG2) (h : unmarshalPlacesG2 d = .ok m) :
    m.newest = (placesG2.newest d : Int) ∧
    List.Forall₂ (fun x r => unmarshalPlaceRecordG2 x = .ok r) (placesG2.recordsOf d) m.records := by
  obtain ⟨_, _, h1, h2⟩ := (placesG2_ok_iff d m).1 h
  exact ⟨by rw [h1, CyclicFile.newest, take_eq_sl]; rfl, recordsAre_forall₂ placesG2 h2⟩

/-- C54: EF Specific_Conditions, generation 1. -/
theorem specificConditions_regulation (d : Bytes) (m : RecordFile SpecificConditionRecord)
    (h : unmarshalSpecificConditions d = .ok m) :
    List.Forall₂ (fun x r => unmarshalSpecificConditionRecord x = .ok r) (specificConditionsG1.recordsOf d) m.records :=
  recordsAre_forall₂ specificConditionsG1 ((specificConditions_ok_iff d m).1 h).2.2

/-- C54: EF Specific_Conditions, generation 2. -/
theorem specificConditionsG2_regulation (d : Bytes) (m : RecordFile SpecificConditionRecord)
    (h : unmarshalSpecificConditionsG2 d = .ok m) :
    m.newest = (specificConditionsG2.newest d : Int) ∧
    List.Forall₂ (fun x r => unmarshalSpecificConditionRecord x = .ok r) (specificConditionsG2.recordsOf d) m.records := by
  obtain ⟨_, _, h1, h2⟩ := (specificConditionsG2_ok_iff d m).1 h
  exact ⟨by rw [h1, CyclicFile.newest, take_eq_sl]; rfl, recordsAre_forall₂ specificConditionsG2 h2⟩

/-- C54: EF GNSS_Places. -/
theorem gnssPlaces_regulation (d : Bytes) (newest : Int) (rs : List GnssPlaceEntry) (h : unmarshalGnssPlaces d = .ok (newest, rs)) :
    newest = (gnssPlaces.newest d : Int) ∧
    List.Forall₂ (fun x r => unmarshalGnssPlaceEntry x = .ok r) (gnssPlaces.recordsOf d) rs := by
  obtain ⟨_, _, h1, h2⟩ := (gnssPlaces_ok_iff d newest rs).1 h
  exact ⟨by rw [h1, CyclicFile.newest, take_eq_sl]; rfl, recordsAre_forall₂ gnssPlaces h2⟩

/-- C54: EF VehicleUnits_Used, up to the 200 records a card can have (and up to 409). -/
theorem vehicleUnits_regulation (d : Bytes) (hd : d.length ≤ 4098) (newest : Int) (rs : List VehicleUnitRecord)
    (h : unmarshalVehicleUnitsUsed d = .ok (newest, rs)) :
    let get := vehicleUnitRecord.get
    newest = (vehicleUnitsUsed.newest d : Int) ∧
    List.Forall₂ (fun x (r : VehicleUnitRecord) => r.timestamp = instant (get "timeStamp" x) ∧
      ByteIs (get "manufacturerCode" x) (fun b => r.manufacturerCode = (b.toNat : Int)) ∧
      r.deviceId = get "deviceID" x ∧ r.softwareVersion = get "vuSoftwareVersion" x) (vehicleUnitsUsed.recordsOf d) rs := by
  obtain ⟨_, _, h1, h2⟩ := (vehicleUnits_ok_iff d hd newest rs).1 h
  refine ⟨by rw [h1, CyclicFile.newest, take_eq_sl]; rfl, ?_⟩
  have h3 := recordsAre_forall₂ vehicleUnitsUsed h2
  have hlen : ∀ x ∈ vehicleUnitsUsed.recordsOf d, x.length = 10 := by
    intro x hx
    obtain ⟨i, hi, rfl⟩ := List.mem_map.1 hx
    simp only [vehicleUnitsUsed, vehicleUnitRecord, Layout.size, List.mem_range, List.map_cons, List.map_nil,
      List.sum_cons, List.sum_nil] at hi ⊢
    simp only [List.length_take, List.length_drop]
    omega
  have e1 : ∀ x : Bytes, vehicleUnitRecord.get "timeStamp" x = sl x 0 4 := fun x => by simp [Layout.get, vehicleUnitRecord, sl_td]
  have e2 : ∀ x : Bytes, vehicleUnitRecord.get "manufacturerCode" x = (x.drop 4).take 1 := fun x => by simp [Layout.get, vehicleUnitRecord]
  have e3 : ∀ x : Bytes, vehicleUnitRecord.get "deviceID" x = sl x 5 6 := fun x => by simp [Layout.get, vehicleUnitRecord, sl_td]
  have e4 : ∀ x : Bytes, vehicleUnitRecord.get "vuSoftwareVersion" x = sl x 6 10 := fun x => by simp [Layout.get, vehicleUnitRecord, sl_td]
  rw [List.forall₂_iff_get] at h3 ⊢
  refine ⟨h3.1, fun i hi hi' => ?_⟩
  have hx := h3.2 i hi hi'
  rw [Res.ok.injEq] at hx
  rw [← hx]
  have hl := hlen _ (List.get_mem _ ⟨i, hi⟩)
  generalize (vehicleUnitsUsed.recordsOf d).get ⟨i, hi⟩ = x at hl
  refine ⟨by rw [e1]; rfl, ?_, by rw [e3]; rfl, by rw [e4]; rfl⟩
  rw [e2]
  refine byteIs_of ⟨x[4], by simp, ?_⟩
  show ((x.getD 4 0).toNat : Int) = _
  simp [List.getElem?_eq_getElem (show 4 < x.length by omega)]

/-- C54: every record of EF Events_Data or EF Faults_Data is read from its own bytes; a record with begin time
zero counts as unused. -/
theorem events_regulation (d : Bytes) (rs : List EventRecord) (h : unmarshalEventsData d = .ok rs) :
    List.Forall₂ (fun x r => (r.valid = false ↔ beNat (eventRecord.get "eventBeginTime" x) = 0) ∧
      (r.valid = true → ∃ m, unmarshalEventRecord x = .ok m ∧ m.type = r.type ∧ m.beginTime = r.beginTime ∧
        m.endTime = r.endTime ∧ m.registration.map (·.nation) = r.registration.map (·.nation))) (eventsData.recordsOf d) rs := by
  have h1 := recordsAre_forall₂ eventsData (events_fields d rs h)
  rw [List.forall₂_map_right_iff] at h1
  refine h1.imp fun x r hx => ?_
  rw [show eventRecord.get "eventBeginTime" x = sl x 1 5 by simp [Layout.get, eventRecord, sl_td, -List.drop_one]]
  simp only [bind_eq_ok, Res.ok.injEq] at hx
  obtain ⟨y, hy, e⟩ := hx
  have ev : y.valid = r.valid := by have := congrArg EventRecord.valid e; exact this
  have et : y.type = r.type := by have := congrArg EventRecord.type e; exact this
  have eb : y.beginTime = r.beginTime := by have := congrArg EventRecord.beginTime e; exact this
  have ee : y.endTime = r.endTime := by have := congrArg EventRecord.endTime e; exact this
  have er : y.registration.map (·.nation) = r.registration.map (·.nation) := by
    have := congrArg (fun r => r.registration.map (·.nation)) e
    simpa [decodedFields, EventRecord.withNumberRaw, Function.comp_def] using this
  unfold eventOf at hy
  split at hy
  · rename_i hz
    rw [Res.ok.injEq] at hy
    subst hy
    rw [← ev]
    simp [hz]
  · rename_i hz
    obtain ⟨_, _, _, _, _, _, _, _, _, _, _, rfl⟩ := eventRecord_parse hy
    rw [← ev]
    refine ⟨by simp [hz], fun _ => ⟨_, hy, et, eb, ee, er⟩⟩

omit [Charmap] in
/-- C54 (finding): EF Application_Identification_V2 is a two byte length followed by four two byte counts, but is
read as four single bytes. For every file the regulation allows (10 bytes, whose length field says that 8
follow) the number of border crossing records is reported as 0, that of load/unload records as 8, and the
other two numbers are the two halves of the number of border crossing records. -/
theorem applicationIdentificationV2_misread (d : Bytes) (hd : d.length = applicationIdentificationV2.size)
    (hlen : beNat (applicationIdentificationV2.get "lengthOfFollowingData" d) = 8) :
    ∃ m, unmarshalAppIdV2 d = .ok m ∧ m.borderCrossings = 0 ∧ m.loadUnload = 8 ∧
      m.loadTypes * 256 + m.vuConfigurationLength = beNat (applicationIdentificationV2.get "noOfBorderCrossingRecords" d) := by
  match d, hd with
  | [a, b, c, e, f, g, h, i, j, k], _ =>
    simp [applicationIdentificationV2, Layout.get, beNat] at hlen
    have ha := a.toNat_lt
    have hb := b.toNat_lt
    refine ⟨_, rfl, ?_, ?_, ?_⟩
    · show (a.toNat : Int) = 0
      omega
    · show (b.toNat : Int) = 8
      omega
    · show (c.toNat : Int) * 256 + e.toNat = _
      simp [applicationIdentificationV2, Layout.get, beNat]

/-- A file with capacities 1120 border crossings, 1624 load/unload operations, 336 load types, 3072 bytes. -/
example : let d : Bytes := [0, 8, 4, 0x60, 6, 0x58, 1, 0x50, 0x0C, 0]
    d.length = applicationIdentificationV2.size ∧
    beNat (applicationIdentificationV2.get "lengthOfFollowingData" d) = 8 ∧
    beNat (applicationIdentificationV2.get "noOfBorderCrossingRecords" d) = 1120 ∧
    unmarshalAppIdV2 d = .ok ⟨0, 8, 4, 96⟩ := by decide +kernel

/-- A control at 1 700 000 000 with a card download, so that `controlActivity_regulation` applies to a file that
parses. -/
example : let d : Bytes := 0x80 :: [0x65, 0x53, 0xF1, 0x00] ++ List.replicate 18 0x20 ++ (0x12 :: 1 :: List.replicate 13 0x41)
      ++ [0x65, 0, 0, 0, 0x65, 0x53, 0, 0]
    (∃ m, unmarshalControlActivity d = .ok m) ∧ beNat (controlActivity.get "controlTime" d) ≠ 0 := by
  constructor
  · rw [controlActivity_accepts_iff]; decide
  · simp [Layout.get, controlActivity, beNat]

/-- A used event record. -/
example : ∃ m, unmarshalEventRecord (3 :: [0x65, 0x53, 0xF1, 0x00, 0x65, 0x53, 0xF2, 0x00] ++ (0x12 :: 1 :: List.replicate 13 0x41)) = .ok m := by
  rw [eventRecord_accepts_iff]
  exact ⟨by decide, 3, rfl, 5, by decide +kernel⟩

end Tacho
