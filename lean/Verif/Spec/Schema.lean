import Verif.Model.File
import Verif.Model.Anonymize
/-!
# The validation rules of the schema

The messages carry validation annotations (`buf.validate`), which the project checks on every parsed file in
its golden tests (unmarshal_test.go:45-52, internal/card/rawcardfile_test.go:160-167). Only two messages of
the tachograph schema are annotated: `StringValue` (dd/v1/string_value.proto:19-55) and `Ia5StringValue`
(dd/v1/ia5_string_value.proto:17-54). `required` on `value` is not stated below: the model has no string
message without a value, and both parsers set it (internal/dd/string_value.go:46, ia5_string_value.go:49).
-/

namespace Tacho.Spec

/-- A string message of either kind. -/
inductive Text where
  | paged (s : StringValue)
  | ia5 (s : Ia5StringValue)

/-- The rules of `StringValue`: an encoding of the enumeration (encoding.proto, 0 to 14) other than
`ENCODING_UNSPECIFIED`; a positive length; raw data, if present, of at least two bytes, which is one more
than the length. -/
def PagedRules (s : StringValue) : Prop :=
  1 ≤ s.encoding ∧ s.encoding ≤ 14 ∧
  ∃ n, s.length = some n ∧ 0 < n ∧ ∀ raw, s.rawData = some raw → 2 ≤ raw.length ∧ n = raw.length - 1

/-- The rules of `Ia5StringValue`: a positive length; raw data, if present, is not empty, as long as the
length says, and no shorter than the number of characters of the value. -/
def Ia5Rules (s : Ia5StringValue) : Prop :=
  ∃ n, s.length = some n ∧ 0 < n ∧ ∀ raw, s.rawData = some raw → 1 ≤ raw.length ∧ n = raw.length ∧
    ∃ cs : List Char, s.value = cs.flatMap String.utf8EncodeChar ∧ cs.length ≤ raw.length

/-- The rules of the message. -/
def Text.Rules : Text → Prop
  | .paged s => PagedRules s
  | .ia5 s => Ia5Rules s

/-- Messages that contain string messages. -/
class HasStrings (α : Type) where
  /-- All string messages in the message, in field order. -/
  strings : α → List Text

export HasStrings (strings)

instance {α : Type} [HasStrings α] : HasStrings (Option α) := ⟨fun o => o.toList.flatMap strings⟩
instance {α : Type} [HasStrings α] : HasStrings (List α) := ⟨fun l => l.flatMap strings⟩
instance {α : Type} [HasStrings α] : HasStrings (Signed α) := ⟨fun s => strings s.data⟩
instance {α : Type} [HasStrings α] : HasStrings (RecordFile α) := ⟨fun f => strings f.records⟩

instance : HasStrings StringValue := ⟨fun s => [.paged s]⟩
instance : HasStrings Ia5StringValue := ⟨fun s => [.ia5 s]⟩
instance : HasStrings VehicleRegistration := ⟨fun r => strings r.number⟩
instance : HasStrings HolderName := ⟨fun h => strings h.surname ++ strings h.firstNames⟩
instance : HasStrings DriverIdentification := ⟨fun d => strings d.number ++ strings d.replacement ++ strings d.renewal⟩
instance : HasStrings OwnerIdentification :=
  ⟨fun o => strings o.owner ++ strings o.consecutive ++ strings o.replacement ++ strings o.renewal⟩
instance : HasStrings FullCardNumber := ⟨fun n => strings n.driver ++ strings n.owner⟩
instance : HasStrings FullCardNumberAndGeneration := ⟨fun n => strings n.number⟩
instance : HasStrings CardVehicleRecord := ⟨fun r => strings r.registration⟩
instance : HasStrings CardVehicleRecordG2 := ⟨fun r => strings r.base⟩
instance : HasStrings PreviousVehicleInfo := ⟨fun p => strings p.registration⟩
instance : HasStrings VuCardIWRecord :=
  ⟨fun r => strings r.holderName ++ strings r.fullCardNumber ++ strings r.previousVehicle⟩

instance : HasStrings EmbedderId := ⟨fun e => strings e.countryCode ++ strings e.moduleEmbedder⟩
instance : HasStrings Icc := ⟨fun i => strings i.approvalNumber ++ strings i.embedder⟩
instance : HasStrings CurrentUsage := ⟨fun c => strings c.vehicle⟩
instance : HasStrings DrivingLicenceInfo := ⟨fun d => strings d.authority ++ strings d.number⟩
instance : HasStrings ControlActivity := ⟨fun c => strings c.cardNumber ++ strings c.registration⟩
instance : HasStrings CardIdent := ⟨fun c => strings c.driver ++ strings c.owner ++ strings c.authority⟩
instance : HasStrings DriverHolder := ⟨fun h => strings h.surname ++ strings h.firstNames ++ strings h.language⟩
instance : HasStrings Identification := ⟨fun i => strings i.card ++ strings i.driverHolder⟩
instance : HasStrings EventRecord := ⟨fun r => strings r.registration⟩

instance : HasStrings Tachograph :=
  ⟨fun t => strings t.identification ++ strings t.drivingLicenceInfo ++ strings t.eventsData ++ strings t.faultsData
    ++ strings t.vehiclesUsed ++ strings t.currentUsage ++ strings t.controlActivityData⟩

instance : HasStrings TachographG2 :=
  ⟨fun t => strings t.identification ++ strings t.drivingLicenceInfo ++ strings t.eventsData ++ strings t.faultsData
    ++ strings t.vehiclesUsed ++ strings t.currentUsage ++ strings t.controlActivityData⟩

instance : HasStrings DriverCard := ⟨fun c => strings c.icc ++ strings c.tachograph ++ strings c.tachographG2⟩

instance : HasStrings DownloadActivity := ⟨fun a => strings a.fullCardNumber ++ strings a.companyOrWorkshopName⟩
instance : HasStrings CompanyLock := ⟨fun l => strings l.companyName ++ strings l.companyAddress ++ strings l.companyCardNumber⟩
instance : HasStrings VuControlActivity := ⟨fun a => strings a.controlCardNumber⟩
instance : HasStrings OverviewGen1 :=
  ⟨fun o => strings o.vin ++ strings o.registration ++ strings o.downloadActivities ++ strings o.companyLocks
    ++ strings o.controlActivities⟩
instance : HasStrings ActivitiesGen1 := ⟨fun a => strings a.cardIWData⟩
instance : HasStrings VuGen1 := ⟨fun v => strings v.overview ++ strings v.activities⟩
instance : HasStrings VehicleUnitFile := ⟨fun v => strings v.gen1⟩

instance : HasStrings File := ⟨fun f => strings f.vehicleUnit ++ strings f.driverCard⟩

instance : HasStrings WorkshopHolder :=
  ⟨fun h => strings h.workshopName ++ strings h.workshopAddress ++ strings h.surname ++ strings h.firstNames ++ strings h.language⟩
instance : HasStrings ControlHolder :=
  ⟨fun h => strings h.bodyName ++ strings h.bodyAddress ++ strings h.surname ++ strings h.firstNames ++ strings h.language⟩
instance : HasStrings CompanyHolder :=
  ⟨fun h => strings h.companyName ++ strings h.companyAddress ++ strings h.language⟩
instance : HasStrings AnyIdentification :=
  ⟨fun i => strings i.card ++ strings i.driverHolder ++ strings i.workshopHolder ++ strings i.controlHolder
    ++ strings i.companyHolder⟩

/-- Validation accepts the message. -/
def Validates {α : Type} [HasStrings α] (x : α) : Prop := ∀ t ∈ strings x, t.Rules

end Tacho.Spec
