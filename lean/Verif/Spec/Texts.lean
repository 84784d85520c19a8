import Verif.Model.File
import Verif.Spec.Text
/-!
# The text of a parsed file

Every field of type `string` in the messages that parsing fills (proto: `StringValue.value`,
`Ia5StringValue.value`, `CardVehicleRecordG2.vehicle_identification_number`, the certificate references and
the curve identifier). Messages without such a field (times, counters, places, conditions, activities)
have no instance and are left out. `EventRecord` stands for both events and faults.
-/

namespace Tacho.Spec

/-- Messages that contain text. -/
class HasText (α : Type) where
  /-- All strings in the message, in field order. -/
  texts : α → List Bytes

export HasText (texts)

instance {α : Type} [HasText α] : HasText (Option α) := ⟨fun o => o.toList.flatMap texts⟩
instance {α : Type} [HasText α] : HasText (List α) := ⟨fun l => l.flatMap texts⟩
instance {α : Type} [HasText α] : HasText (Signed α) := ⟨fun s => texts s.data⟩
instance {α : Type} [HasText α] : HasText (RecordFile α) := ⟨fun f => texts f.records⟩

instance : HasText StringValue := ⟨fun s => [s.value]⟩
instance : HasText Ia5StringValue := ⟨fun s => [s.value]⟩
instance : HasText VehicleRegistration := ⟨fun r => texts r.number⟩
instance : HasText HolderName := ⟨fun h => texts h.surname ++ texts h.firstNames⟩
instance : HasText DriverIdentification := ⟨fun d => texts d.number ++ texts d.replacement ++ texts d.renewal⟩
instance : HasText OwnerIdentification :=
  ⟨fun o => texts o.owner ++ texts o.consecutive ++ texts o.replacement ++ texts o.renewal⟩
instance : HasText FullCardNumber := ⟨fun n => texts n.driver ++ texts n.owner⟩
instance : HasText FullCardNumberAndGeneration := ⟨fun n => texts n.number⟩
instance : HasText CardVehicleRecord := ⟨fun r => texts r.registration⟩
instance : HasText CardVehicleRecordG2 := ⟨fun r => texts r.base ++ [r.vin]⟩
instance : HasText PreviousVehicleInfo := ⟨fun p => texts p.registration⟩
instance : HasText VuCardIWRecord :=
  ⟨fun r => texts r.holderName ++ texts r.fullCardNumber ++ texts r.previousVehicle⟩

instance : HasText EmbedderId := ⟨fun e => texts e.countryCode ++ texts e.moduleEmbedder⟩
instance : HasText Icc := ⟨fun i => texts i.approvalNumber ++ texts i.embedder⟩
instance : HasText CurrentUsage := ⟨fun c => texts c.vehicle⟩
instance : HasText DrivingLicenceInfo := ⟨fun d => texts d.authority ++ texts d.number⟩
instance : HasText ControlActivity := ⟨fun c => texts c.cardNumber ++ texts c.registration⟩
instance : HasText CardIdent := ⟨fun c => texts c.driver ++ texts c.owner ++ texts c.authority⟩
instance : HasText DriverHolder := ⟨fun h => texts h.surname ++ texts h.firstNames ++ texts h.language⟩
instance : HasText Identification := ⟨fun i => texts i.card ++ texts i.driverHolder⟩
instance : HasText EventRecord := ⟨fun r => texts r.registration⟩
instance : HasText RsaCert := ⟨fun c => [c.chr, c.car]⟩
instance : HasText EccCert := ⟨fun c => [c.car] ++ (c.publicKey.toList.map EccKey.oid) ++ [c.chr]⟩

instance : HasText Tachograph :=
  ⟨fun t => texts t.identification ++ texts t.drivingLicenceInfo ++ texts t.eventsData ++ texts t.faultsData
    ++ texts t.vehiclesUsed ++ texts t.currentUsage ++ texts t.controlActivityData ++ texts t.cardCertificate
    ++ texts t.caCertificate⟩

instance : HasText TachographG2 :=
  ⟨fun t => texts t.identification ++ texts t.drivingLicenceInfo ++ texts t.eventsData ++ texts t.faultsData
    ++ texts t.vehiclesUsed ++ texts t.currentUsage ++ texts t.controlActivityData ++ texts t.cardMaCertificate
    ++ texts t.cardSignCertificate ++ texts t.caCertificate ++ texts t.linkCertificate⟩

instance : HasText DriverCard := ⟨fun c => texts c.icc ++ texts c.tachograph ++ texts c.tachographG2⟩

instance : HasText DownloadActivity := ⟨fun a => texts a.fullCardNumber ++ texts a.companyOrWorkshopName⟩
instance : HasText CompanyLock := ⟨fun l => texts l.companyName ++ texts l.companyAddress ++ texts l.companyCardNumber⟩
instance : HasText VuControlActivity := ⟨fun a => texts a.controlCardNumber⟩
instance : HasText OverviewGen1 :=
  ⟨fun o => texts o.vin ++ texts o.registration ++ texts o.downloadActivities ++ texts o.companyLocks
    ++ texts o.controlActivities⟩
instance : HasText ActivitiesGen1 := ⟨fun a => texts a.cardIWData⟩
instance : HasText VuGen1 := ⟨fun v => texts v.overview ++ texts v.activities⟩
instance : HasText VehicleUnitFile := ⟨fun v => texts v.gen1⟩

instance : HasText File := ⟨fun f => texts f.vehicleUnit ++ texts f.driverCard⟩

/-- The Gen2 vehicle records of a card. -/
def gen2Vehicles (c : DriverCard) : List CardVehicleRecordG2 :=
  c.tachographG2.toList.flatMap fun t => t.vehiclesUsed.toList.flatMap fun s => s.data.records

/-- The Gen2 vehicle records of a file. -/
def fileGen2Vehicles (f : File) : List CardVehicleRecordG2 := f.driverCard.toList.flatMap gen2Vehicles

end Tacho.Spec
