import Verif.Model.NullEntries
/-!
# What nil entries of lists stand for
-/

namespace Tacho.Spec

/-! The empty messages: no field is set, so numbers are zero, enumerations unspecified, texts empty and messages absent. -/

/-- An empty place. -/
def zeroPlace : PlaceRecord := ⟨none, none, 0, none, 0, none, [], 0, false⟩

/-- An empty place of the second generation. -/
def zeroPlaceG2 : PlaceRecordG2 := ⟨zeroPlace, none⟩

/-- An empty vehicle. -/
def zeroVehicle : CardVehicleRecord := ⟨none, 0, 0, none, none, none, none⟩

/-- An empty vehicle of the second generation. -/
def zeroVehicleG2 : CardVehicleRecordG2 := ⟨zeroVehicle, []⟩

/-- An empty event or fault. -/
def zeroEvent : EventRecord := ⟨false, none, 0, none, none, none⟩

/-- An empty activity change. -/
def zeroChange : ActivityChangeInfo := ⟨none, 0, false, false, 0, 0⟩

/-- An empty day. -/
def zeroDay : DailyRecord := ⟨false, none, 0, 0, none, none, 0, []⟩

/-- An empty raw record (its content type, which nothing written depends on, is unspecified; the model has no value for that). -/
def zeroRawRec : RawRec := ⟨0, .unspecified, .unspecified, .data, 0, []⟩

/-- The list with an empty message in place of each nil entry. -/
def filled {α : Type} (empty : α) (rs : List (Option α)) : List α := rs.map fun r => r.getD empty

/-- The list without its nil entries. -/
def present {α : Type} (rs : List (Option α)) : List α := rs.filterMap id

/-- A file of records with its list of records changed. -/
def withRecords {α β : Type} (f : List α → List β) (v : RecordFile α) : RecordFile β :=
  { rawData := v.rawData, newest := v.newest, records := f v.records }

/-- A signed file with its content changed. -/
def changed {α β : Type} (f : α → β) (s : Signed α) : Signed β := { data := f s.data, signature := s.signature }

/-- A day of which the nil changes are empty ones. -/
def filledDay (r : DailyRecordN) : DailyRecord := {
  valid := r.valid, rawData := r.rawData, prevLength := r.prevLength, recordLength := r.recordLength, date := r.date
  presenceCounter := r.presenceCounter, dayDistance := r.dayDistance, changes := filled zeroChange r.changes }

/-- Activity data of which the nil days and changes are empty ones. -/
def filledActivity (a : DriverActivityDataN) : DriverActivityData := {
  oldest := a.oldest, newest := a.newest, rawData := a.rawData
  records := a.records.map fun r => (r.map filledDay).getD zeroDay }

/-- A first-generation application: an empty message for each nil event, fault, day, activity change, vehicle
and place; specific conditions without the nil ones. -/
def filledTachograph (t : TachographN) : Tachograph := {
  applicationIdentification := t.applicationIdentification
  identification := t.identification
  drivingLicenceInfo := t.drivingLicenceInfo
  eventsData := t.eventsData.map (changed (filled zeroEvent))
  faultsData := t.faultsData.map (changed (filled zeroEvent))
  driverActivityData := t.driverActivityData.map (changed filledActivity)
  vehiclesUsed := t.vehiclesUsed.map (changed (withRecords (filled zeroVehicle)))
  places := t.places.map (changed (withRecords (filled zeroPlace)))
  currentUsage := t.currentUsage
  controlActivityData := t.controlActivityData
  specificConditions := t.specificConditions.map (changed (withRecords present))
  cardDownload := t.cardDownload
  cardCertificate := t.cardCertificate
  caCertificate := t.caCertificate }

/-- A second-generation application, likewise; vehicle units and GNSS places without the nil ones. -/
def filledTachographG2 (t : TachographG2N) : TachographG2 := {
  applicationIdentification := t.applicationIdentification
  identification := t.identification
  drivingLicenceInfo := t.drivingLicenceInfo
  eventsData := t.eventsData.map (changed (filled zeroEvent))
  faultsData := t.faultsData.map (changed (filled zeroEvent))
  driverActivityData := t.driverActivityData.map (changed filledActivity)
  vehiclesUsed := t.vehiclesUsed.map (changed (withRecords (filled zeroVehicleG2)))
  places := t.places.map (changed (withRecords (filled zeroPlaceG2)))
  currentUsage := t.currentUsage
  controlActivityData := t.controlActivityData
  specificConditions := t.specificConditions.map (changed (withRecords present))
  cardDownload := t.cardDownload
  vehicleUnitsUsed := t.vehicleUnitsUsed.map (changed fun v => (v.1, present v.2))
  gnssPlaces := t.gnssPlaces.map (changed fun v => (v.1, present v.2))
  applicationIdentificationV2 := t.applicationIdentificationV2
  cardMaCertificate := t.cardMaCertificate
  cardSignCertificate := t.cardSignCertificate
  caCertificate := t.caCertificate
  linkCertificate := t.linkCertificate }

/-- The card without nil entries that stands for one with them. -/
def filledCard (c : DriverCardN) : DriverCard := {
  icc := c.icc, ic := c.ic, tachograph := c.tachograph.map filledTachograph, tachographG2 := c.tachographG2.map filledTachographG2 }

/-- The file without nil entries that stands for one with them. -/
def filledFile (f : FileN) : File := {
  type := f.type, vehicleUnit := f.vehicleUnit, driverCard := f.driverCard.map filledCard
  rawCard := f.rawCard.map (filled zeroRawRec) }

/-- One of the specific conditions of either generation is nil. -/
def NilCondition (c : DriverCardN) : Prop :=
  (∃ s, (c.tachograph.getD {}).specificConditions = some s ∧ none ∈ s.data.records) ∨
    ∃ s, (c.tachographG2.getD {}).specificConditions = some s ∧ none ∈ s.data.records

/-- One of the vehicles of either generation is nil. -/
def NilVehicle (c : DriverCardN) : Prop :=
  (∃ s, (c.tachograph.getD {}).vehiclesUsed = some s ∧ none ∈ s.data.records) ∨
    ∃ s, (c.tachographG2.getD {}).vehiclesUsed = some s ∧ none ∈ s.data.records

/-- The daily records of the first generation are to be written one by one (the message does not hold the bytes
they were read from) and one of them, or a change of a valid one, is nil. -/
def NilActivity (c : DriverCardN) : Prop :=
  ∃ s, (c.tachograph.getD {}).driverActivityData = some s ∧ (s.data.rawData.getD []).length = 0 ∧
    (none ∈ s.data.records ∨ ∃ r, some r ∈ s.data.records ∧ r.valid = true ∧ none ∈ r.changes)

end Tacho.Spec
