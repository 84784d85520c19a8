import Verif.Spec.VuFile
/-!
# Vehicle unit messages that agree up to one transfer
-/

namespace Tacho.Spec

/-- The content of the transfer can be decoded. Only overviews and activities of the first generation are decoded
when a download is read; the other transfers are kept as they are. -/
def Readable [Charmap] (t : Transfer) : Prop :=
  (t.type = .overviewGen1 → ∃ o, unmarshalOverviewGen1 t.value = .ok o) ∧
  (t.type = .activitiesGen1 → ∃ a, unmarshalActivitiesGen1 t.value = .ok a)

/-- Two lists of the same length with the same elements, except that, if `p` holds, those at position `i` may differ. -/
def SameWhere {α : Type} (p : Prop) (i : Nat) (l l' : List α) : Prop :=
  l'.length = l.length ∧ ∀ j, (p → j ≠ i) → l'[j]? = l[j]?

/-- Two messages of the first generation that differ at most in the `i`-th transfer of a type. -/
structure SameVu1But (type : TransferType) (i : Nat) (a b : VuGen1) : Prop where
  overview : type ≠ .overviewGen1 → b.overview = a.overview
  activities : SameWhere (type = .activitiesGen1) i a.activities b.activities
  eventsAndFaults : SameWhere (type = .eventsGen1) i a.eventsAndFaults b.eventsAndFaults
  detailedSpeed : SameWhere (type = .speedGen1) i a.detailedSpeed b.detailedSpeed
  technicalData : SameWhere (type = .technicalGen1) i a.technicalData b.technicalData

/-- Two messages of the second generation that differ at most in the `i`-th transfer of a type. -/
structure SameVu2But (ov type : TransferType) (i : Nat) (a b : VuGen2) : Prop where
  overview : type ≠ ov → b.overview = a.overview
  activities : b.activities = a.activities
  eventsAndFaults : b.eventsAndFaults = a.eventsAndFaults
  detailedSpeed : SameWhere (type = .speedGen2) i a.detailedSpeed b.detailedSpeed
  technicalData : b.technicalData = a.technicalData

/-- Two vehicle unit messages that differ at most in the `i`-th transfer of a type. -/
structure SameVuBut (type : TransferType) (i : Nat) (a b : VehicleUnitFile) : Prop where
  generation : b.generation = a.generation
  version : b.version = a.version
  gen1 : Option.Rel (SameVu1But type i) a.gen1 b.gen1
  gen2V1 : Option.Rel (SameVu2But .overviewG2V1 type i) a.gen2V1 b.gen2V1
  gen2V2 : Option.Rel (SameVu2But .overviewG2V2 type i) a.gen2V2 b.gen2V2

/-- The message of the first generation without the `i`-th transfer of a type. The overview of the result is not said
for a lost overview: the message has room for one, and another one may take its place. -/
structure Gen1Without (type : TransferType) (i : Nat) (a b : VuGen1) : Prop where
  overview : type ≠ .overviewGen1 → b.overview = a.overview
  activities : b.activities = if type = .activitiesGen1 then a.activities.eraseIdx i else a.activities
  eventsAndFaults : b.eventsAndFaults = if type = .eventsGen1 then a.eventsAndFaults.eraseIdx i else a.eventsAndFaults
  detailedSpeed : b.detailedSpeed = if type = .speedGen1 then a.detailedSpeed.eraseIdx i else a.detailedSpeed
  technicalData : b.technicalData = if type = .technicalGen1 then a.technicalData.eraseIdx i else a.technicalData

/-- A signed block without its signature, its last 128 bytes. -/
def unsignedBlock (x : SignedGen1) : SignedGen1 := ⟨x.rawData.take (x.rawData.length - 128), []⟩

/-- A message of the first generation without the signatures, and without the raw bytes that contain them. -/
def unsignedGen1 (g : VuGen1) : VuGen1 :=
  { overview := g.overview.map (fun o => { o with rawData := [], signature := [] })
    activities := g.activities.map (fun a => { a with rawData := [], signature := [] })
    eventsAndFaults := g.eventsAndFaults.map unsignedBlock
    detailedSpeed := g.detailedSpeed.map unsignedBlock
    technicalData := g.technicalData.map unsignedBlock }

end Tacho.Spec
